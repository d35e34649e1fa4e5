import Mathlib.Data.Real.Basic
import Mathlib.Data.Finset.Powerset
import Mathlib.Data.Fintype.BigOperators

/-!
Averages over all ways to treat a given number of items, for C113 and C114.
-/

namespace Feedx.Spec

/-- All ways to treat exactly `k` of `n` items: the sets of treated items. -/
def assignments (n k : ℕ) : Finset (Finset (Fin n)) := Finset.powersetCard k Finset.univ

/-- The average of `f` over the elements of `A`. -/
noncomputable def averageOver {β : Type} (A : Finset β) (f : β → ℝ) : ℝ := (∑ a ∈ A, f a) / (A.card : ℝ)

/-- The average of `f` over the `n` items. -/
noncomputable def itemMean {n : ℕ} (f : Fin n → ℝ) : ℝ := (∑ i, f i) / (n : ℝ)

/-- The sum of the squared deviations of the `n` items from their average. -/
noncomputable def itemSumSq {n : ℕ} (f : Fin n → ℝ) : ℝ := ∑ i, (f i - itemMean f) ^ 2

end Feedx.Spec
