import Verif.Spec.Trimmed

/-!
The adjustment of a metric with pretest values, for pairs (metric, pretest value).
-/

namespace Feedx.Spec

variable {K : Type} [Field K] [LinearOrder K]

/-- Least squares slope of the first on the second coordinates. -/
def slope (l : List (K × K)) : K := crossDev (l.map Prod.fst) (l.map Prod.snd) / sumSqDev (l.map Prod.snd)

/-- `wins` is `all` after winsorizing by a key: `g` elements are cut at each end and replaced by copies of an extreme element that is left. -/
def Winsorized {α : Type} (key : α → K) (g : ℕ) (all wins : List α) : Prop :=
  ∃ (kept : List α) (low high : α), Trimmed key g all kept ∧ low ∈ kept ∧ high ∈ kept ∧ (∀ x ∈ kept, key low ≤ key x ∧ key x ≤ key high) ∧
    wins = kept ++ List.replicate g low ++ List.replicate g high

end Feedx.Spec
