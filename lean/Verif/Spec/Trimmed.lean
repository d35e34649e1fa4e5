import Mathlib.Algebra.Order.Field.Basic
import Mathlib.Algebra.BigOperators.Group.List.Basic

/-!
Textbook definitions of sample statistics, trimming and winsorizing.
-/

namespace Feedx.Spec

variable {K : Type} [Field K] [LinearOrder K]

/-- Arithmetic mean of a (non-empty) sample. -/
def mean (l : List K) : K := l.sum / (l.length : K)

/-- Sum of the products of the deviations from the means of two equally long samples. -/
def crossDev (x y : List K) : K :=
  (List.zipWith (fun a b => (a - mean x) * (b - mean y)) x y).sum

/-- Sum of squared deviations from the mean. -/
def sumSqDev (l : List K) : K := (l.map (fun x => (x - mean l) ^ 2)).sum

/-- `kept` is `all` after cutting `g` elements with the smallest and `g` with the largest keys: the kept
elements are in the original order, `g` elements are cut at each side, and no element cut at the
bottom (top) has a key larger (smaller) than any other element's that was not cut at that side. -/
def Trimmed {α : Type} (key : α → K) (g : ℕ) (all kept : List α) : Prop :=
  kept.Sublist all ∧ ∃ low high : List α,
    (low ++ kept ++ high).Perm all ∧ low.length = g ∧ high.length = g ∧
    (∀ x ∈ low, ∀ y ∈ kept ++ high, key x ≤ key y) ∧
    (∀ z ∈ high, ∀ y ∈ low ++ kept, key y ≤ key z)

/-- Clipping to the range `[lo, hi]`. -/
def clip (lo hi x : K) : K := max lo (min x hi)

/-- `lo` and `hi` are the most extreme values of `l`. -/
def Extremes (l : List K) (lo hi : K) : Prop := lo ∈ l ∧ hi ∈ l ∧ ∀ x ∈ l, lo ≤ x ∧ x ≤ hi

end Feedx.Spec
