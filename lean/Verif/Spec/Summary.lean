import Verif.Model.Summary
import Verif.Spec.Format

/-!
What the summaries of analyses have to contain.
-/

namespace Feedx.Spec

variable {K : Type} [Field K] [LinearOrder K]

/-- The names in the summary of an analysis. -/
def designNames : List String :=
  ["n_items_before_trimming", "runtime_weeks", "primary_metric", "pretest_weeks", "is_crossover", "pre_trim_top_percentile",
   "pre_trim_bottom_percentile", "post_trim_percentile", "crossover_washout_weeks", "alpha", "power", "n_items_after_pre_trim",
   "n_items_after_post_trim"]

/-- The names of the results of the estimation. -/
def effectNames : List String := ["minimum_detectable_effect", "relative_minimum_detectable_effect"]

/-- The names of the results of the validation. -/
def validationNames : List String :=
  ["simulated_false_positive_rate", "simulated_power_at_minimum_detectable_effect", "null_p_value_robustness_check_pass",
   "power_robustness_check_pass", "false_positive_rate_robustness_check_pass", "aa_point_estimate_robustness_check_pass",
   "ab_point_estimate_robustness_check_pass", "all_robustness_checks_pass"]

/-- The value as a number, if it is one. -/
def number : SVal K → Option (Fl K)
  | .num x => some (.fin x.val)
  | .flt x => some x
  | _ => none

/-- Missing: `None` or nan. -/
def Missing (v : SVal K) : Prop := v = .null ∨ v = .flt .nan

/-- Two values are equal for a reader of the table: both missing, the same text, the same truth value, or the same number. -/
def SameValue (v w : SVal K) : Prop :=
  (Missing v ∧ Missing w) ∨ (∃ s, v = .str s ∧ w = .str s) ∨ (∃ b, v = .bool b ∧ w = .bool b) ∨
    ∃ x, x ≠ .nan ∧ number v = some x ∧ number w = some x

/-- All rows of the table have the same value in the column. -/
def ConstantColumn (t : SummaryTable K) (c : String) : Prop :=
  t.rows ≠ [] ∧ ∀ r ∈ t.rows, ∀ r' ∈ t.rows, SameValue (r.2 c) (r'.2 c)

end Feedx.Spec

namespace Feedx.Spec

/-- The order of a sorted column: missing values last, numbers by size, texts alphabetically, `False` before `True`. -/
def NotAfter (v w : SVal ℝ) : Prop :=
  Missing w ∨ (¬ Missing v ∧ (∀ x y, number v = some x → number w = some y → Fl.le x y = true) ∧
    (∀ a b, v = .str a → w = .str b → a ≤ b) ∧ ∀ a b, v = .bool a → w = .bool b → a = true → b = true)

end Feedx.Spec

namespace Feedx.Spec

variable {K : Type} [Field K] [LinearOrder K]

/-- The columns shown as percentages. -/
def percentNames : List String :=
  ["relative_minimum_detectable_effect", "pre_trim_top_percentile", "pre_trim_bottom_percentile", "post_trim_percentile",
   "simulated_false_positive_rate", "simulated_power_at_minimum_detectable_effect"]

/-- The columns of checks. -/
def checkNames : List String :=
  ["null_p_value_robustness_check_pass", "power_robustness_check_pass", "false_positive_rate_robustness_check_pass",
   "aa_point_estimate_robustness_check_pass", "ab_point_estimate_robustness_check_pass", "all_robustness_checks_pass"]

/-- The text of a percentage with two decimal places: a finite number `x` as its rounded product with 100, within half a unit of the last place. -/
def PercentText (R : Rounding K) (v : SVal K) (text : String) : Prop :=
  (∀ x, number v = some (.fin x) → ∃ digits w, Reads digits 2 w ∧ |w - (|R.rnd (100 * x)|)| ≤ 1 / 200 ∧
    text.toList = (if R.rnd (100 * x) < 0 then ['-'] else []) ++ digits ++ ['%']) ∧
  (Missing v → text = "nan%")

/-- What a cell of column `n` with value `v` has to show. -/
structure CellShown (R : Rounding K) (n : String) (v : SVal K) (cell : ShownCell K) : Prop where
  value : cell.value = v
  hidden : cell.hidden = true ↔ Missing v
  green : cell.style = "background-color:lightgreen" ↔ n ∈ checkNames ∧ v = .bool true
  red : cell.style = "background-color:darkred;color:white" ↔ n ∈ checkNames ∧ v = .bool false
  percent : n ∈ percentNames → ∃ s, cell.text = some s ∧ PercentText R v s
  other : n ∉ percentNames → cell.text = none

end Feedx.Spec
