import Verif.Spec.Estimate
import Verif.Model.DesignStudy

/-!
Specification for the workflow of the experiment designer (C116, C117).
-/

namespace Feedx.Spec

/-- The weeks of the data run from `first` to `last`. -/
def WeeksOf (data : Frame ℝ) (first last : ℤ) : Prop :=
  IsLeast {w : ℤ | .int w ∈ data.col "week_id"} first ∧ IsGreatest {w : ℤ | .int w ∈ data.col "week_id"} last

/-- In data with the weeks `first` to `last`, the experiment may start at the week `start`: it ends in time, and the longest pretest fits before. -/
def MayStart (pretests : List ℤ) (first last : ℤ) (d : Design ℝ) (start : ℤ) : Prop :=
  (∀ p ∈ pretests, first + p ≤ start) ∧ start + d.runtime ≤ last + 1

/-- Average, standard deviation and minimum detectable effect (at the level 5% and with power 80%) of a design for data with one row per item and
week. -/
def EstimateOf (D : TDist) (rnd : ℝ → ℝ) (d : Design ℝ) (rows : List (Row ℝ)) (starts : List ℤ) (average sd mde : ℝ) : Prop :=
  ∃ l : List (ℝ × ℝ), l ≠ [] ∧ List.Forall₂ (fun start q => WeekEstimate rnd d rows "item_id" "week_id" start q.1 q.2) starts l ∧
    average = mean (l.map Prod.fst) ∧ sd = Real.sqrt (mean (l.map Prod.snd)) ∧
    ∀ n : ℝ, n = d.nAfterPost →
      (d.isCrossover = false → mde = 2 * sd / Real.sqrt n * (D.ppf (n - 2) (39 / 40) + D.ppf (n - 2) (4 / 5))) ∧
      (d.isCrossover = true → mde = sd / Real.sqrt n * (D.ppf (n - 1) (39 / 40) + D.ppf (n - 1) (4 / 5)))

/-- An analysis reports the estimates of its design, or nan for all of them if the adjustment with pretest values is not defined for some start week. -/
def ReportsEstimate (D : TDist) (rnd : ℝ → ℝ) (d : Design ℝ) (rows : List (Row ℝ)) (starts : List ℤ) (s : SimState) : Prop :=
  (∃ average sd mde, EstimateOf D rnd d rows starts average sd mde ∧
    s.average = some (.fin average) ∧ s.sd = some (.fin sd) ∧ s.mde = some (.fin mde) ∧ s.relativeMde = some (.fin mde / .fin average)) ∨
  ((∃ start ∈ starts, WeekConstant rnd d rows "item_id" "week_id" start) ∧
    s.average = some .nan ∧ s.sd = some .nan ∧ s.mde = some .nan ∧ s.relativeMde = some .nan)

/-- An analysis and the same one later on: the id, the design except the salt, and the estimates are the same; a validated analysis is still validated;
a salt is still the same one. -/
structure Later (old new : List Char × (SimConfig × SimState)) : Prop where
  id : new.1 = old.1
  design : new.2.1 = { old.2.1 with design := { old.2.1.design with salt := new.2.1.design.salt } }
  mde : new.2.2.mde = old.2.2.mde
  relativeMde : new.2.2.relativeMde = old.2.2.relativeMde
  average : new.2.2.average = old.2.2.average
  sd : new.2.2.sd = old.2.2.sd
  validated : old.2.2.aa ≠ none → new.2.2.aa ≠ none
  salt : ∀ salt, salt ≠ "" → old.2.1.design.salt = some salt → new.2.1.design.salt = some salt

end Feedx.Spec
