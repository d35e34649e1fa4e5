import Verif.Spec.Prepare
import Verif.Model.Coinflip

/-!
What the validation checks stand for, in terms of the data.
-/

set_option linter.unusedSectionVars false

namespace Feedx.Spec

variable {K : Type} [Field K] [LinearOrder K]

/-- The names of the checks, which may be listed to be skipped. -/
def registeredChecks : List String :=
  ["no_nulls", "no_duplicate_items_per_date", "dates_are_daily_or_weekly", "week_ids_are_consecutive_integers",
   "all_metrics_are_finite", "all_metrics_are_non_negative", "number_of_items_matches_design", "experiment_dates_match_design",
   "treatment_assignment_is_unique", "coinflip_salt_validation", "no_sample_ratio_mismatch", "primary_metric_in_metrics"]

/-- No cell is missing. -/
def NoNulls (f : Frame K) : Prop := ∀ r ∈ f.rows, ∀ c ∈ f.cols, r c ≠ .null

/-- The items with a row on date `d`, with repetitions; rows without an item are not counted. -/
def itemsAt (f : Frame K) (itemCol dateCol : String) (d : Cell K) : List (Cell K) :=
  ((f.rows.filter (fun r => decide (r dateCol = d))).map (fun r => r itemCol)).filter (fun c => decide (c ≠ .null))

/-- No item has two rows on a date, and all dates have the same number of items. -/
def SameItemCounts (f : Frame K) (itemCol dateCol : String) : Prop :=
  (∀ t, HasDate f dateCol t → (itemsAt f itemCol dateCol (.time t)).Nodup) ∧
  ∀ s t, HasDate f dateCol s → HasDate f dateCol t →
    (itemsAt f itemCol dateCol (.time s)).length = (itemsAt f itemCol dateCol (.time t)).length

/-- Every item of the data has exactly one row on every date of the data. -/
def OneRowEach (f : Frame K) (itemCol dateCol : String) : Prop :=
  ∀ i ∈ f.col itemCol, ∀ d ∈ f.col dateCol, rowsAt f itemCol dateCol i d = 1

/-- The dates are all one day or all seven days apart. -/
def DailyOrWeekly (f : Frame K) (dateCol : String) : Prop := SpacedBy 7 f dateCol ∨ SpacedBy 1 f dateCol

/-- From each date to the next the week id stays or grows by one. -/
def WeekSteps (f : Frame K) (weekCol dateCol : String) : Prop :=
  ∀ r ∈ f.rows, ∀ r' ∈ f.rows, ∀ v w s t : ℤ, r weekCol = .int v → r dateCol = .time s → r' weekCol = .int w → r' dateCol = .time t →
    s < t → (∀ u, HasDate f dateCol u → ¬ (s < u ∧ u < t)) → w = v ∨ w = v + 1

/-- The cell is a finite number. -/
def IsFinite (c : Cell K) : Prop := (∃ i, c = .int i) ∨ ∃ x, c = .num x

/-- The cell is a number below zero. -/
def IsNegative (c : Cell K) : Prop := (∃ i : ℤ, c = .int i ∧ i < 0) ∨ (∃ x : K, c = .num x ∧ x < 0) ∨ c = .inf true

/-- All values of the metrics are finite. -/
def AllFinite (f : Frame K) (metrics : List String) : Prop := ∀ m ∈ metrics, ∀ r ∈ f.rows, IsFinite (r m)

/-- No value of the metrics is negative. -/
def NoneNegative (f : Frame K) (metrics : List String) : Prop := ∀ m ∈ metrics, ∀ r ∈ f.rows, ¬ IsNegative (r m)

/-- The distinct items. -/
def itemSet (f : Frame K) (itemCol : String) : Finset (Cell K) := (f.col itemCol).toFinset.erase .null

/-- The first date is `pretest` weeks before the start or earlier and, if the experiment has concluded, the last date is in the last
runtime week or later. -/
def CoversDates (f : Frame K) (dateCol : String) (start pretest runtime : ℤ) (concluded : Bool) : Prop :=
  (∃ t, HasDate f dateCol t ∧ t ≤ start - pretest * (7 * 86400000000000)) ∧
  (concluded = true → ∃ t, HasDate f dateCol t ∧ start + (runtime - 1) * (7 * 86400000000000) ≤ t)

/-- Every item has exactly one assignment. -/
def AssignedOnce (f : Frame K) (itemCol treatCol : String) : Prop :=
  ∀ i ∈ f.col itemCol, i ≠ .null → ∃ a, a ≠ .null ∧ (∃ r ∈ f.rows, r itemCol = i ∧ r treatCol = a) ∧
    ∀ r ∈ f.rows, r itemCol = i → r treatCol = a ∨ r treatCol = .null

/-- The cell is the number `n`. -/
def IsNat (c : Cell K) (n : ℕ) : Prop := c = .int n ∨ c = .num (n : K)

/-- The distinct items assigned to an arm. -/
noncomputable def arm (f : Frame K) (itemCol treatCol : String) (a : ℕ) : Finset (Cell K) :=
  open Classical in ((f.rows.filter (fun r => decide (IsNat (r treatCol) a))).map (fun r => r itemCol)).toFinset.erase .null

/-- The call returns exactly under the condition, and otherwise raises `ValueError`. -/
def Verdict (a : Py Unit) (P : Prop) : Prop := (a = .ok () ↔ P) ∧ (¬ P → a = .error .valueError)

end Feedx.Spec
