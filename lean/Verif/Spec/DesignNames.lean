import Verif.Spec.ItemNames
import Verif.Model.DesignStudy

/-!
Specification for C139: a session of the designer with other names of the items.
-/

namespace Feedx.Spec

/-- The generator picks positions: which entries of a list it draws depends on the length of the list only. -/
def PicksPositions {α : Type} (rng : Sampler α) : Prop := ∀ (g : α → α) (l : List α) (n : ℕ), rng.draw (l.map g) n = (rng.draw l n).map g

/-- The same designs, in the same order and with the same settings, estimates and simulation results; only the items in the historical data that the analyses hold
have their new names. -/
def SessionNamed (ρ : String → String) (s s' : Study) : Prop :=
  List.Forall₂ (fun e e' => e'.1 = e.1 ∧ e'.2.1 = e.2.1 ∧ TableNamed ρ e.2.2.data e'.2.2.data ∧ e'.2.2.mde = e.2.2.mde ∧
    e'.2.2.relativeMde = e.2.2.relativeMde ∧ e'.2.2.average = e.2.2.average ∧ e'.2.2.sd = e.2.2.sd ∧ e'.2.2.aa = e.2.2.aa ∧ e'.2.2.ab = e.2.2.ab) s s'

/-- Both calls return, with results related by `P`, or both raise the same error, or one of them returns and the other raises a `ValueError`. -/
def SameButRatio {α β : Type} (P : α → β → Prop) : Py α → Py β → Prop
  | .ok a, .ok b => P a b
  | .error e, .error e' => e = e'
  | .ok _, .error e => e = .valueError
  | .error e, .ok _ => e = .valueError

end Feedx.Spec
