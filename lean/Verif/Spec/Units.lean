import Verif.Spec.RawEstimate

/-!
Specification for C127: the same raw data in other units.
-/

namespace Feedx.Spec

/-- The rows of the two tables have the same items and dates, and the values of the second table are those of the first one times `c`. -/
def InOtherUnits (E : Ext ℝ) (itemCol : String) (c : ℝ) (raw raw' : Frame ℝ) (time time' : Row ℝ → ℤ) (value value' : Row ℝ → ℝ) : Prop :=
  List.Forall₂ (fun q q' => E.toStr (q' itemCol) = E.toStr (q itemCol) ∧ time' q' = time q ∧ value' q' = c * value q) raw.rows raw'.rows

/-- The second reported number is the first one times `c`, or both are nan. -/
def TimesOrNan (c : ℝ) (a b : Option (Fl ℝ)) : Prop := (∃ x, a = some (.fin x) ∧ b = some (.fin (c * x))) ∨ (a = some .nan ∧ b = some .nan)

end Feedx.Spec
