import Mathlib.Data.Nat.Digits.Defs
import Mathlib.Algebra.Order.Field.Basic

/-!
Reading a printed number.
-/

namespace Feedx.Spec

variable {K : Type} [Field K]

/-- The text is an unsigned decimal number with `k` decimal places and value `v`; commas are skipped. -/
def Reads (s : List Char) (k : ℕ) (v : K) : Prop :=
  ∃ whole decimals : List ℕ, (∀ d ∈ whole ++ decimals, d < 10) ∧ whole ≠ [] ∧ decimals.length = k ∧
    s.filter (· ≠ ',') = whole.map Nat.digitChar ++ (if k = 0 then [] else '.' :: decimals.map Nat.digitChar) ∧
    v = ((Nat.ofDigits 10 (whole ++ decimals).reverse : ℕ) : K) / 10 ^ k

/-- The same with a sign. -/
def ReadsSigned (s : List Char) (k : ℕ) (v : K) : Prop :=
  ∃ t w, Reads t k w ∧ (s = '+' :: t ∧ v = w ∨ s = '-' :: t ∧ v = -w)

end Feedx.Spec
