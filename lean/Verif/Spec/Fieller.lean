import Mathlib.Analysis.Real.Sqrt

/-!
Specification vocabulary for relative differences.
-/

namespace Feedx.Spec

/-- Variance of `mean1 - ratio * mean2` for means with standard errors `s1` and `s2` and correlation `rho`. -/
def combinedVar (s1 s2 rho ratio : ℝ) : ℝ := s1 ^ 2 - 2 * ratio * (s1 * s2 * rho) + ratio ^ 2 * s2 ^ 2

/-- The hypothesis `mean1 = ratio * mean2` is not rejected in favour of the alternative, when `t` is the critical value. -/
noncomputable def NotRejected (alternative : String) (t m1 m2 s1 s2 rho ratio : ℝ) : Prop :=
  let estimate := m1 - ratio * m2
  let margin := t * Real.sqrt (combinedVar s1 s2 rho ratio)
  if alternative = "two-sided" then |estimate| ≤ margin
  else if alternative = "greater" then estimate ≤ margin
  else -margin ≤ estimate

/-- The critical value: the quantile of the t distribution with `quantile q` its `q`-quantile. -/
noncomputable def critical (quantile : ℝ → ℝ) (alternative : String) (alpha : ℝ) : ℝ :=
  if alternative = "two-sided" then quantile (1 - alpha / 2) else quantile (1 - alpha)

end Feedx.Spec
