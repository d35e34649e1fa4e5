import Verif.Model.Format
import Verif.Model.Plotting

/-!
Model of `plot_effects` (feedx/plotting.py:585-737) on the results of an analysis, where a metric may have no relative effect.
-/

set_option linter.unusedSectionVars false

namespace Feedx

variable {K : Type} [Field K] [LinearOrder K]

/-- The columns that are drawn (plotting.py:635-661), with `None` as nan as in any column with other numbers. -/
def EffectRow.ofResult (r : ResultRow K) : EffectRow K :=
  ⟨r.metric, orNan r.relativeDifference, orNan r.relativeLower, orNan r.relativeUpper, r.isSignificant⟩

/-- `plot_effects` (plotting.py:585-737) on a table of results.  A column of `None` alone is no numeric column, and `np.isfinite` refuses it
(`TypeError`, plotting.py:539-543, reached with the primary metric at 670-690). -/
def plotResults (lower : String → String) (primary : String) (rows : List (ResultRow K)) : Py (Bars K × Bars K × Bars K) := do
  raiseIf .valueError (rows.countP (fun r => decide (lower r.metric = lower primary)) ≠ 1)
  raiseIf .typeError (rows.all (fun r => r.relativeDifference.isNone) = true ∨ rows.all (fun r => r.relativeLower.isNone) = true ∨
    rows.all (fun r => r.relativeUpper.isNone) = true)
  plotEffects lower primary (rows.map EffectRow.ofResult)

end Feedx
