import Verif.Model.Prepare
import Mathlib.Algebra.Order.Field.Basic

/-!
Raw historical data as a user supplies it.
-/

set_option linter.unusedSectionVars false

namespace Feedx

variable {K : Type}

/-- How the primary metric is read: `astype(float)` for another metric, `pd.to_numeric` for a standard one. -/
def Spec.reading (E : Ext K) (primary : String) : Cell K → Py (Fl K) := if primary = "other" then E.toFloat else E.toNumeric

/-- The column of the prepared data that holds the primary metric. -/
def Spec.metricName (primary primaryCol : String) : String := if primary = "other" then primaryCol else primary

/-- The metrics known by name, and "other". -/
def Spec.metricChoices : List String := ["clicks", "impressions", "conversions", "total_conversion_value", "total_cost", "other"]

/-- Raw data of `n` consecutive days (at least a week) or of `n` consecutive weeks (at least two, each item at most once a week), starting at
`first`: the three columns exist, every date is readable and every value is a finite number. -/
structure Spec.UsableRaw (E : Ext K) (raw : Frame K) (itemCol dateCol primary primaryCol : String) (first step n : ℤ) (time : Row K → ℤ)
    (value : Row K → K) : Prop where
  metric : primary ∈ Spec.metricChoices
  other : primary = "other" → primaryCol ∉ ["item_id", "date", "clicks", "impressions", "total_cost", "conversions", "total_conversion_value",
    "week_id", "week_start", "days_in_week"]
  columns : itemCol ∈ raw.cols ∧ dateCol ∈ raw.cols ∧ primaryCol ∈ raw.cols
  distinct : itemCol ≠ dateCol ∧ itemCol ≠ primaryCol ∧ dateCol ≠ primaryCol
  dates : ∀ r ∈ raw.rows, E.toDate (r dateCol) = .ok (some (time r))
  values : ∀ r ∈ raw.rows, Spec.reading E primary (r primaryCol) = .ok (.fin (value r))
  grid : ∀ t, (∃ r ∈ raw.rows, time r = t) ↔ ∃ k : ℤ, 0 ≤ k ∧ k < n ∧ t = first + k * (step * 86400000000000)
  spacing : (step = 1 ∧ 7 ≤ n) ∨
    (step = 7 ∧ 2 ≤ n ∧ raw.rows.Pairwise (fun a b => ¬ (E.toStr (a itemCol) = E.toStr (b itemCol) ∧ time a = time b)))

/-- Number of complete weeks. -/
def Spec.completeWeeks (step n : ℤ) : ℤ := step * n / 7

/-- The total of the values of an item in the week that starts at `s`. -/
def Spec.weekTotal [AddMonoid K] (E : Ext K) (raw : Frame K) (itemCol : String) (time : Row K → ℤ) (value : Row K → K) (item : String) (s : ℤ) : K :=
  ((raw.rows.filter (fun q => decide (E.toStr (q itemCol) = item ∧ s ≤ time q ∧ time q < s + 7 * 86400000000000))).map value).sum

end Feedx
