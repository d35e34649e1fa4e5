import Mathlib.Algebra.Order.Floor.Ring
import Mathlib.Data.Rat.Floor

/-!
Floating point rounding contract used for `floor(fraction * count)`.
-/

namespace Feedx

/-- An arbitrary rounding of exact results to floats.  IEEE-754 round-to-nearest on doubles is
monotone and keeps every integer up to `2^53` in size and every multiple of `1/2` up to `2^52`; nothing
else about it is used. -/
structure Rounding (K : Type) [Field K] [LinearOrder K] where
  /-- the rounded value of an exact result -/
  rnd : K → K
  mono : Monotone rnd
  intFix : ∀ n : ℤ, |n| ≤ 2 ^ 53 → rnd n = n
  halfFix : ∀ n : ℤ, |n| ≤ 2 ^ 53 → rnd (n / 2) = n / 2

namespace Rounding

variable {K : Type} [Field K] [LinearOrder K]

/-- Exact arithmetic as a rounding. -/
def exact (K : Type) [Field K] [LinearOrder K] : Rounding K := 
  ⟨id, fun _ _ h => h, fun _ _ => rfl, fun _ _ => rfl⟩

variable [FloorRing K]

/-- `int(np.floor(p * n))` (used at experiment_design.py:128-140, statistics.py:102,
data_preparation.py:1672-1673): floor of the rounded product of a fraction and a count. -/
def floorMul (R : Rounding K) (p : K) (n : ℤ) : ℤ := ⌊R.rnd (p * n)⌋

end Rounding
end Feedx
