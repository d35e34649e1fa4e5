import Verif.Model.Pipeline

/-!
Specification for C136: the same data with other names of the items.
-/

namespace Feedx.Spec

/-- The cell with the item's new name. -/
def named {K : Type} (ρ : String → String) : Cell K → Cell K
  | .str s => .str (ρ s)
  | c => c

/-- The tables have the same columns and the same number of rows, and the same cells in the same order, except that the items have their new names. -/
def TableNamed {K : Type} (ρ : String → String) (f f' : Frame K) : Prop :=
  f'.cols = f.cols ∧ List.Forall₂ (fun r r' => ∀ x ∈ f.cols, r' x = if x = "item_id" then named ρ (r x) else r x) f.rows f'.rows

/-- The raw tables are the same except in the column `itemCol`: the name of the item read from the second table is the new name of that of the first one. -/
def RawNamed {K : Type} (E : Ext K) (itemCol : String) (ρ : String → String) (raw raw' : Frame K) : Prop :=
  raw'.cols = raw.cols ∧
    List.Forall₂ (fun r r' => (∀ x, x ≠ itemCol → r' x = r x) ∧ E.toStr (r' itemCol) = ρ (E.toStr (r itemCol))) raw.rows raw'.rows

end Feedx.Spec
