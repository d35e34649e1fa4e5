import Verif.Spec.Validate

/-!
Specification of a split of items into two groups (C105).
-/

namespace Feedx.Spec

variable {K : Type}

open Classical in
/-- One row per item; the items in `T` are treated. -/
noncomputable def splitTable (itemCol treatCol : String) (items : List (Cell K)) (T : Finset (Cell K)) : Frame K :=
  ⟨[itemCol, treatCol], items.map (fun i c => if c = treatCol then .int (if i ∈ T then 1 else 0) else i)⟩

end Feedx.Spec
