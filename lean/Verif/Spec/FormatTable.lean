import Verif.Spec.Format
import Verif.Base.Fl

/-!
What a cell with a signed number has to show.
-/

namespace Feedx.Spec

variable {K : Type} [Field K] [LinearOrder K]

/-- The text shows the number `x` with `k` decimal places: a finite number as the decimal number `shown x`, which is within half a unit of the last
place and has the sign of `x`; other numbers by name. -/
def SignedText (shown : K → K) (k : ℕ) (x : Fl K) (s : List Char) : Prop :=
  match x with
  | .fin x => ReadsSigned s k (shown x) ∧ |shown x - x| ≤ 1 / 2 / 10 ^ k ∧ (s.head? = some '-' ↔ x < 0)
  | .nan => s = "+nan".toList
  | .pinf => s = "+inf".toList
  | .ninf => s = "-inf".toList

/-- Digits in groups of three, counted from the end: the first group has one to three, the others exactly three. -/
def Grouped (s : List Char) : Prop :=
  ∃ first : List Char, ∃ others : List (List Char), s = first ++ (others.map (',' :: ·)).flatten ∧ 1 ≤ first.length ∧ first.length ≤ 3 ∧
    (∀ g ∈ others, g.length = 3) ∧ ∀ c ∈ first ++ others.flatten, c ∈ "0123456789".toList

end Feedx.Spec
