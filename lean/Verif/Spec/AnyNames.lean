import Verif.Spec.ItemNames
import Verif.Model.Analysis

/-!
Specification for C138: the same data with any other names of the items.
-/

namespace Feedx.Spec

/-- Both calls return, with results related by `P`, or both raise an error. -/
def BothReturn {α β : Type} (P : α → β → Prop) : Py α → Py β → Prop
  | .ok a, .ok b => P a b
  | .error _, .error _ => True
  | _, _ => False

/-- The second table has the columns of the first one and, in some order, the same rows with the new names of the items. -/
def TableRenamed {K : Type} (ρ : String → String) (f f' : Frame K) : Prop :=
  f'.cols = f.cols ∧ ∃ rows : List (Row K), rows.Perm f'.rows ∧
    List.Forall₂ (fun r r' => ∀ x ∈ f.cols, r' x = if x = "item_id" then named ρ (r x) else r x) f.rows rows

/-- No step of the analysis of a metric depends on the order of the items: nothing is trimmed of it, or it is a metric without a denominator in a regular experiment
without pretest weeks. -/
def OrderFreeMetric (d : DesignParams ℝ) (m : Metric) : Prop :=
  m.override.getD d.postTrim.val = 0 ∨ (m.denominator = none ∧ d.isCrossover = false ∧ d.pretest = 0)

end Feedx.Spec
