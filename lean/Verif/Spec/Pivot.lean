import Verif.Base.Frame

/-!
Specification of the pivoted averages.
-/

set_option linter.unusedSectionVars false

namespace Feedx.Spec

variable {K : Type} [Field K] [LinearOrder K]

/-- The row belongs to item (tuple) `k` and to a week in `[lo, hi)`. -/
def inWeeks (indexCols : List String) (weekCol : String) (k : List (Cell K)) (lo hi : ℤ)
    (r : Row K) : Bool :=
  decide (indexCols.map r = k) &&
    match r weekCol with
    | .int w => decide (lo ≤ w ∧ w < hi)
    | _ => false

/-- Total of metric `m` over the rows of item `k` in weeks `[lo, hi)` (missing values count as
nothing). -/
def total (rows : List (Row K)) (indexCols : List String) (weekCol : String) (k : List (Cell K))
    (lo hi : ℤ) (m : String) : Fl K :=
  Fl.sumSkip ((rows.filter (inWeeks indexCols weekCol k lo hi)).map (fun r => (r m).toFl))

end Feedx.Spec
