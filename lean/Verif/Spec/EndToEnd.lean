import Verif.Model.Analysis
import Verif.Model.Design
import Verif.Spec.Pivot

/-!
Specification for C103: data of an experiment that can be analysed.
-/

namespace Feedx.Spec

open Classical in
/-- The distinct items of the rows for which `p` holds. -/
noncomputable def itemsOf (f : Frame ℝ) (itemCol : String) (p : Row ℝ → Prop) : Finset (Cell ℝ) :=
  ((f.rows.filter (fun r => decide (p r))).map (fun r => r itemCol)).toFinset

/-- The distinct items of group 1 or of group 0. -/
noncomputable def groupItems (f : Frame ℝ) (itemCol treatCol : String) (b : Bool) : Finset (Cell ℝ) :=
  itemsOf f itemCol (fun r => r treatCol = .int (if b then 1 else 0))

/-- The data of an experiment run according to the design `d`, in a table with one row per item and date. -/
structure ExperimentData (d : Design ℝ) (itemCol weekCol treatCol : String) (columns : List String) (f : Frame ℝ) : Prop where
  /-- the columns are there, and there is no column "time_period" yet -/
  present : ∀ c ∈ itemCol :: weekCol :: treatCol :: columns, c ∈ f.cols
  free : "time_period" ∉ f.cols
  /-- the item and the treatment column are not called like a period -/
  names : itemCol ≠ treatCol ∧ itemCol ∉ ["pretest", "test", "washout_1", "test_1", "washout_2", "test_2"] ∧
    treatCol ∉ ["pretest", "test", "washout_1", "test_1", "washout_2", "test_2"]
  /-- the weeks are the weeks of the design, from the start of the pretest to the end of the runtime -/
  weeks : ∀ r ∈ f.rows, ∃ w : ℤ, r weekCol = .int w ∧ -d.pretest ≤ w ∧ w < d.runtime
  everyWeek : ∀ w : ℤ, -d.pretest ≤ w → w < d.runtime → ∃ r ∈ f.rows, r weekCol = .int w
  /-- every row belongs to an item, and every item to one of the two groups -/
  items : ∀ r ∈ f.rows, r itemCol ≠ .null
  groups : ∃ treated : Cell ℝ → Bool, ∀ r ∈ f.rows, r treatCol = .int (if treated (r itemCol) then 1 else 0)
  /-- there are as many items as the design says -/
  count : ((itemsOf f itemCol (fun _ => True)).card : ℤ) = d.nAfterPre
  /-- the metrics are finite numbers -/
  finite : ∀ c ∈ columns, ∀ r ∈ f.rows, ∃ y, (r c).toFl = .fin y

/-- The pretest values of a metric differ between two items. -/
def PretestDiffers (d : Design ℝ) (itemCol weekCol treatCol : String) (f : Frame ℝ) (c : String) : Prop :=
  ∃ r ∈ f.rows, ∃ r' ∈ f.rows, total f.rows [itemCol, treatCol] weekCol [r itemCol, r treatCol] (-d.pretest) 0 c ≠
    total f.rows [itemCol, treatCol] weekCol [r' itemCol, r' treatCol] (-d.pretest) 0 c

/-- Every item of group 0 has a positive total of the metric in the experiment. -/
def ControlPositive (d : Design ℝ) (itemCol weekCol treatCol : String) (f : Frame ℝ) (c : String) : Prop :=
  ∀ r ∈ f.rows, r treatCol = .int 0 → ∃ v, 0 < v ∧ total f.rows [itemCol, treatCol] weekCol [r itemCol, r treatCol] 0 d.runtime c = .fin v

/-- At least two of `n` values are left when the fraction `q` is trimmed from both ends. -/
def EnoughLeft (R : Rounding ℝ) (q : ℝ) (n : ℕ) : Prop := 2 * ⌊R.rnd (q * (n : ℝ))⌋ + 1 < n

/-- The columns of the metrics are among `columns`, and their own trimming fractions are in `[0, 1/2)`. -/
def MetricsFrom (columns : List String) (metrics : List Metric) : Prop :=
  metrics ≠ [] ∧ ∀ m ∈ metrics, m.column ∈ columns ∧ (∀ c, m.denominator = some c → c ∈ columns) ∧
    ∀ q, m.override = some q → 0 ≤ q ∧ q < 1 / 2

end Feedx.Spec
