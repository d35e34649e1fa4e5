import Verif.Spec.Trimmed

/-!
When trimming by a key leaves no choice between different elements.
-/

namespace Feedx.Spec

variable {K : Type} [LinearOrder K]

/-- Nothing is cut, or different elements with the same key are all well inside (more than `g` elements have smaller and more than `g` have
larger keys), all cut at the bottom or all cut at the top. -/
def CleanCut {α : Type} (key : α → K) (g : ℕ) (all : List α) : Prop :=
  g = 0 ∨ ∀ a ∈ all, ∀ b ∈ all, key a = key b → a = b ∨
    (g < all.countP (fun x => key x < key a) ∧ g < all.countP (fun x => key a < key x)) ∨
    all.length ≤ g + all.countP (fun x => key a < key x) ∨ all.length ≤ g + all.countP (fun x => key x < key a)

end Feedx.Spec
