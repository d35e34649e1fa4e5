import Verif.Model.Wide

/-!
Words used to state the properties of the building blocks of the simulations.
-/

namespace Feedx.Spec

/-- The text contains two underscores in a row. -/
def HasDoubleScore (s : List Char) : Prop := ∃ a b, s = a ++ ['_', '_'] ++ b

/-- The text neither starts nor ends with an underscore. -/
def NoOuterScore (s : List Char) : Prop := s.head? ≠ some '_' ∧ s.getLast? ≠ some '_'

/-- An ordinary column name: not empty, no double underscore, no underscore at either end. -/
def PlainName (s : String) : Prop := s.toList ≠ [] ∧ ¬ HasDoubleScore s.toList ∧ NoOuterScore s.toList

/-- The index level called `name` of a row with index `key` is `c`. -/
def LevelIs {K : Type} (names : List String) (name : String) (key : List (Cell K)) (c : Cell K) : Prop :=
  ∃ j : ℕ, names[j]? = some name ∧ key[j]? = some c

/-- The index level called `name` holds the number 1. -/
def Treated {K : Type} [Field K] (names : List String) (name : String) (key : List (Cell K)) : Prop :=
  LevelIs names name key (.int 1) ∨ LevelIs names name key (.num 1)

end Feedx.Spec
