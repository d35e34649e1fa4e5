import Verif.Model.Simulate
import Mathlib.Data.Nat.Choose.Basic
import Mathlib.Algebra.BigOperators.Group.Finset.Basic
import Mathlib.Order.Interval.Finset.Nat

/-!
Model of the one-sided `scipy.stats.binomtest(k, n, p, alternative).pvalue`, which the robustness checks of the simulated experiments call
(feedx/experiment_simulations.py:968-973, 1015-1020).  Probabilities are exact numbers instead of floats.
-/

namespace Feedx

/-- `binom.pmf(i, n, p)`, used by the calls at experiment_simulations.py:968-973, 1015-1020. -/
noncomputable def pmfAt (n : ℕ) (p : ℝ) (i : ℕ) : ℝ := n.choose i * p ^ i * (1 - p) ^ (n - i)

/-- The p-value of `binomtest(k, n, p, alternative)` (experiment_simulations.py:968-973, 1015-1020): the probability of `k` or more
successes for `"greater"`, of `k` or fewer for `"less"`.  The two-sided test, which these calls do not use, is left out (not a number). -/
noncomputable def binomTail (k n : ℕ) (p : ℝ) (alternative : String) : Fl ℝ :=
  if alternative = "greater" then .fin (∑ i ∈ Finset.Icc k n, pmfAt n p i)
  else if alternative = "less" then .fin (∑ i ∈ Finset.range (k + 1), pmfAt n p i)
  else .nan

/-- `false_positive_rate_robustness_check_pass` (experiment_simulations.py:1095-1099). -/
noncomputable def falsePositiveCheck (X : RobustnessTests) (c : SimConfig) (s : SimState) : Py (Option Bool) :=
  aboveThreshold c (falsePositivePValue X c.design s)

/-- `power_robustness_check_pass` (experiment_simulations.py:1076-1078). -/
noncomputable def powerCheck (X : RobustnessTests) (c : SimConfig) (s : SimState) : Py (Option Bool) :=
  aboveThreshold c (powerPValue X c.design s)

end Feedx
