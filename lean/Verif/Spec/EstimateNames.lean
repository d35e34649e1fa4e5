import Verif.Spec.AnyNames
import Verif.Model.DesignStudy

/-!
Specification for C140: the designer with any other names of the items.
-/

namespace Feedx.Spec

/-- No step depends on the order of the items: the whole history is used; the designs that the form asks for trim nothing before the experiment; and they trim nothing
after it either, or they are all traditional designs without pretest. -/
structure OrderFreeForm (form : StudyForm) : Prop where
  whole : form.fraction = 1
  top : ∀ q ∈ form.preTops, q = 0
  bottom : ∀ q ∈ form.preBottoms, q = 0
  post : (∀ q ∈ form.postTrims, q = 0) ∨ (form.crossoverAllowed = false ∧ ∀ p ∈ form.pretests, p = 0)

/-- The same designs, in the same order and with the same settings and estimates; the historical data that the analyses hold has the new names of the items, and its
rows may be in another order. -/
def SessionRenamed (ρ : String → String) (s s' : Study) : Prop :=
  List.Forall₂ (fun e e' => e'.1 = e.1 ∧ e'.2.1 = e.2.1 ∧ TableRenamed ρ e.2.2.data e'.2.2.data ∧ e'.2.2.mde = e.2.2.mde ∧
    e'.2.2.relativeMde = e.2.2.relativeMde ∧ e'.2.2.average = e.2.2.average ∧ e'.2.2.sd = e.2.2.sd) s s'

end Feedx.Spec
