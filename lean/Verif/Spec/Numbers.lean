import Mathlib.Algebra.Ring.Int.Defs

/-!
Specification for C95: the number that a text stands for in the decimal system.
-/

namespace Feedx.Spec

/-- The number that a sequence of decimal digits stands for. -/
def decimal (l : List Char) : ℕ := l.foldl (fun a c => 10 * a + (c.toNat - '0'.toNat)) 0

/-- The whole number that a text stands for: digits, after a minus sign if the number is negative. -/
def wholeNumber : List Char → ℤ
  | '-' :: l => -(decimal l : ℤ)
  | l => (decimal l : ℤ)

example : wholeNumber "-120".toList = -120 ∧ wholeNumber "37".toList = 37 := by decide

end Feedx.Spec
