import Verif.Model.Pipeline

/-!
Specification for C134: an assignment table with further columns.
-/

namespace Feedx.Spec

/-- A column of the assignment table that is neither the item nor the assignment. -/
def Further {K : Type} (assign : Frame K) (itemCol treatCol c : String) : Prop := c ∈ assign.cols ∧ c ≠ itemCol ∧ c ≠ treatCol

/-- The first table has the items and their assignments, and nothing else; the second one has the same rows with any further columns, at any place. -/
structure FurtherColumns {K : Type} (itemCol treatCol : String) (assign assign' : Frame K) : Prop where
  narrow : assign.cols = [itemCol, treatCol]
  different : itemCol ≠ treatCol
  nodup : assign'.cols.Nodup
  item : itemCol ∈ assign'.cols
  treat : treatCol ∈ assign'.cols
  rows : List.Forall₂ (fun r r' => r' itemCol = r itemCol ∧ r' treatCol = r treatCol) assign.rows assign'.rows

/-- The names of the columns of the prepared data (C120). -/
def preparedNames (a : ExperimentArgs) : List String :=
  ["item_id", "date", "week_id", "week_start", "time_period", "treatment_assignment"] ++ preparedMetrics a ++ a.atLeastOne.map Prod.snd

end Feedx.Spec
