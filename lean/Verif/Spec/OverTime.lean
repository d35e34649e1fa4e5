import Verif.Model.OverTime
import Verif.Spec.Trimmed
import Verif.Spec.TTest

/-!
Specification for the plot of a metric over time (property C99).
-/

namespace Feedx

/-- The values of the metric on the rows of a date with the given assignment. -/
noncomputable def Spec.groupValues (f : Frame ℝ) (value : Row ℝ → ℝ) (dateCol treatmentCol : String) (date : Cell ℝ) (arm : ℝ) : List ℝ :=
  open Classical in
  (f.rows.filter (fun r => decide (r dateCol = date ∧ (r treatmentCol).toFl = .fin arm))).map value

/-- The variance of the average of a sample, with the divisor `n` in the variance of the sample. -/
noncomputable def Spec.varOfMean (l : List ℝ) : ℝ := Spec.sumSqDev l / l.length / l.length

/-- The point of a date shows a sample of treated and one of untreated values: a missing average for an empty sample, otherwise the averages, and
around their difference a band of `z` standard errors. -/
def Spec.Shows (p : TimePoint) (z : ℝ) (treated control : List ℝ) : Prop :=
  (p.treatment = if treated = [] then .nan else .fin (Spec.mean treated)) ∧
  (p.control = if control = [] then .nan else .fin (Spec.mean control)) ∧
  if treated = [] ∨ control = [] then p.difference = .nan ∧ p.lower = .nan ∧ p.upper = .nan
  else p.difference = .fin (Spec.mean treated - Spec.mean control) ∧
    p.lower = .fin (Spec.mean treated - Spec.mean control - z * Real.sqrt (Spec.varOfMean treated + Spec.varOfMean control)) ∧
    p.upper = .fin (Spec.mean treated - Spec.mean control + z * Real.sqrt (Spec.varOfMean treated + Spec.varOfMean control))

/-- Exchanges the assignments 0 and 1 and keeps missing ones. -/
def Spec.SwapsArms (σ : Cell ℝ → Cell ℝ) : Prop :=
  ∀ c, ((σ c).toFl = .fin 1 ↔ c.toFl = .fin 0) ∧ ((σ c).toFl = .fin 0 ↔ c.toFl = .fin 1) ∧ (c = .null → σ c = .null)

/-- The point with the groups exchanged: the difference changes its sign and the band is reflected at 0. -/
noncomputable def Spec.mirrored (p : TimePoint) : TimePoint := ⟨p.date, p.control, p.treatment, -p.difference, -p.upper, -p.lower⟩

end Feedx
