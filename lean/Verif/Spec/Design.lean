import Verif.Model.Design

/-!
What a legal design is, written from the documentation
(feedx/experiment_design.py:28-51 and the error messages), not from the control flow.
-/

namespace Feedx.Spec

variable {K : Type} [Field K] [LinearOrder K] [FloorRing K]

/-- The rules on the parameters themselves; `topPlusBottom` is the (float) value of the sum of the
two pre-trim fractions. -/
structure LegalParams (p : DesignParams K) (topPlusBottom : K) : Prop where
  runtime_pos : 0 < p.runtime
  pretest_nonneg : 0 ≤ p.pretest
  top_nonneg : 0 ≤ p.preTop.val
  bottom_nonneg : 0 ≤ p.preBottom.val
  post_nonneg : 0 ≤ p.postTrim.val
  pre_lt_one : topPlusBottom < 1
  post_lt_half : p.postTrim.val < 1 / 2
  no_pretrim_without_pretest : p.pretest = 0 → p.preTop.val = 0 ∧ p.preBottom.val = 0
  crossover : p.isCrossover = true →
    ∃ w, p.washout = some w ∧ 0 ≤ w ∧ 2 * w < p.runtime ∧ Even p.runtime

/-- Items left after the pre-trimming, for a float rounding `rnd` of products. -/
def itemsAfterPre (rnd : K → K) (p : DesignParams K) : ℤ :=
  p.nBefore - ⌊rnd (p.preTop.val * p.nBefore)⌋ - ⌊rnd (p.preBottom.val * p.nBefore)⌋

/-- Items left after pre- and post-trimming: the post-trimming removes
`⌊fraction * items⌋` items at each end. -/
def itemsAfterPost (rnd : K → K) (p : DesignParams K) : ℤ :=
  itemsAfterPre rnd p - 2 * ⌊rnd (p.postTrim.val * itemsAfterPre rnd p)⌋

/-- The YAML value `v` is a number equal to the integer `n`: that integer, the float of this value, or the truth value standing for 0 or 1. -/
inductive StoresInt {K : Type} [IntCast K] (n : ℤ) : YVal K → Prop
  | int : StoresInt n (.int n)
  | float : StoresInt n (.float (n : K))
  | no : n = 0 → StoresInt n (.bool false)
  | yes : n = 1 → StoresInt n (.bool true)

end Feedx.Spec
