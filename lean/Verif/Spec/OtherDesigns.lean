import Verif.Model.DesignStudy

/-!
Specification for C141: the same history with other candidates for the designs.
-/

namespace Feedx.Spec

/-- The two forms prepare the history in the same way. -/
structure SamePreparation (form form' : StudyForm) : Prop where
  item : form'.itemCol = form.itemCol
  date : form'.dateCol = form.dateCol
  primary : form'.primary = form.primary
  column : form'.primaryCol = form.primaryCol
  fraction : form'.fraction = form.fraction
  skip : form'.skip = form.skip

/-- The longest pretest among the candidates is the same: neither list has one that is longer than all of the other list. -/
def SameLongestPretest (form form' : StudyForm) : Prop :=
  (∀ p ∈ form.pretests, ∃ p' ∈ form'.pretests, p ≤ p') ∧ (∀ p' ∈ form'.pretests, ∃ p ∈ form.pretests, p' ≤ p)

/-- The first form asks for some of the designs that the second one asks for. -/
structure AsksForLess (form form' : StudyForm) : Prop where
  runtimes : form.runtimes ⊆ form'.runtimes
  pretests : form.pretests ⊆ form'.pretests
  tops : form.preTops ⊆ form'.preTops
  bottoms : form.preBottoms ⊆ form'.preBottoms
  posts : form.postTrims ⊆ form'.postTrims
  crossover : form.crossoverAllowed = true → form'.crossoverAllowed = true
  traditional : form.traditionalAllowed = true → form'.traditionalAllowed = true
  washout : form.crossoverAllowed = true → form'.washout = form.washout
  some : form.runtimes ≠ []

end Feedx.Spec
