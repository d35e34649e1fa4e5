import Verif.Model.Design

/-!
The experiment calendar, written from the documentation of `add_time_period_column` and
`pivot_time_assignment` (feedx/experiment_analysis.py:139-155 and 380-400): every period is a
half-open range of weeks `[first, end)`.
-/

namespace Feedx.Spec

/-- Regular experiment: `(label, first week, week after the last)`. -/
def regularTimeline (start pretest runtime : ℤ) : List (String × ℤ × ℤ) :=
  [("pretest", start - pretest, start), ("test", start, start + runtime)]

/-- Crossover experiment: each half of the runtime begins with the washout weeks. -/
def crossoverTimeline (start pretest runtime washout : ℤ) : List (String × ℤ × ℤ) :=
  [("pretest", start - pretest, start),
   ("washout_1", start, start + washout),
   ("test_1", start + washout, start + runtime / 2),
   ("washout_2", start + runtime / 2, start + runtime / 2 + washout),
   ("test_2", start + runtime / 2 + washout, start + runtime)]

/-- The timeline of a design. -/
def timeline {K : Type} (d : DesignParams K) (start : ℤ) : List (String × ℤ × ℤ) :=
  if d.isCrossover then crossoverTimeline start d.pretest d.runtime (d.washout.getD 0)
  else regularTimeline start d.pretest d.runtime

/-- Week `w` belongs to the period called `label`. -/
def InPeriod {K : Type} (d : DesignParams K) (start : ℤ) (label : String) (w : ℤ) : Prop :=
  ∃ lo hi, (label, lo, hi) ∈ timeline d start ∧ lo ≤ w ∧ w < hi

/-- The periods of a timeline follow each other without gap or overlap from `first` to `last`. -/
def Contiguous : ℤ → List (String × ℤ × ℤ) → ℤ → Prop
  | first, [], last => first = last
  | first, (_, lo, hi) :: rest, last => lo = first ∧ lo ≤ hi ∧ Contiguous hi rest last

end Feedx.Spec
