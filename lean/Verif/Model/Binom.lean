import Verif.Model.Validate
import Mathlib.Data.Nat.Choose.Basic
import Mathlib.Algebra.BigOperators.Group.Finset.Basic
import Mathlib.Order.Interval.Finset.Nat

/-!
Model of `scipy.stats.binomtest(k, n, p=0.5, alternative="two-sided").pvalue`, the test that `validate_no_sample_ratio_mismatch`
(feedx/data_preparation.py:1019-1064) calls.  Probabilities are exact numbers instead of floats.
-/

namespace Feedx

variable {K : Type} [Field K] [LinearOrder K]

/-- `binom.pmf(i, n, 0.5)`, used by the call at data_preparation.py:1050-1055. -/
def binomPmf (n i : ℕ) : K := (n.choose i : K) / 2 ^ n

/-- The two-sided p-value of the call at data_preparation.py:1050-1055, as SciPy computes it: the outcomes on the side of `k` from `k`
outwards, and on the other side the outcomes that are at most `1 + 1e-7` times as likely as `k`.  No items (`n = 0`) or `k > n`:
`ValueError`. -/
def binomTest (k n : ℕ) : Py K :=
  if n = 0 ∨ n < k then .error .valueError
  else if 2 * k = n then .ok 1
  else if 2 * k < n then
    .ok (min 1 (∑ i ∈ Finset.range (k + 1), binomPmf n i +
      ∑ i ∈ (Finset.Icc ((n + 1) / 2) n).filter (fun i => (binomPmf n i : K) ≤ binomPmf n k * (1 + 1 / 10 ^ 7)), binomPmf n i))
  else
    .ok (min 1 (∑ i ∈ (Finset.range (n / 2 + 1)).filter (fun i => (binomPmf n i : K) ≤ binomPmf n k * (1 + 1 / 10 ^ 7)), binomPmf n i +
      ∑ i ∈ Finset.Icc k n, binomPmf n i))

end Feedx
