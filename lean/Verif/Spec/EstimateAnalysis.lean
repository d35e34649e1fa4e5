import Verif.Spec.Estimate
import Verif.Spec.Analysis

/-!
An analysis of the historical data the minimum detectable effect is estimated from.
-/

namespace Feedx.Spec

/-- The table to be analysed has one row for each item; `arms` says for each item whether it is in group 1. -/
def ItemsWithArms (items : List (Cell ℝ)) (arms : List Bool) (piv : Pivoted ℝ) : Prop :=
  arms.length = items.length ∧ piv.index = List.zipWith (fun item b => [item, .int (if b then 1 else 0)]) items arms

/-- The values of the table in a period are the items' weekly averages over the weeks `[lo, hi)` of the historical rows. -/
def HoldsAverages (piv : Pivoted ℝ) (items : List (Cell ℝ)) (metric label : String) (rows : List (Row ℝ)) (itemCol weekCol : String) (lo hi : ℤ) : Prop :=
  ∀ item ∈ items, ∀ t, piv.value [item, t] metric label = weeklyAverage rows itemCol weekCol metric lo hi item

end Feedx.Spec
