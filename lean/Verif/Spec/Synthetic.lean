import Verif.Base.Frame
import Mathlib.Probability.Distributions.Beta
import Mathlib.Probability.Distributions.Gaussian.Real
import Mathlib.Probability.Moments.Variance

/-!
Words used to state the properties of the synthetic data.
-/

open MeasureTheory ProbabilityTheory

namespace Feedx.Spec

/-- The lognormal distribution: `exp` of a normal variable with mean `mu` and standard deviation `sigma`. -/
noncomputable def lognormal (mu sigma : ℝ) : Measure ℝ := (gaussianReal mu (sigma ^ 2).toNNReal).map Real.exp

/-- The distribution has this mean and this standard deviation. -/
def HasMoments (P : Measure ℝ) (mean sd : ℝ) : Prop := ∫ x, x ∂P = mean ∧ Var[fun x => x; P] = sd ^ 2

/-- A row of the funnel: whole numbers conversions <= clicks <= impressions, and costs and values that are positive exactly with clicks and
conversions. -/
def FunnelRow (r : Row ℝ) : Prop :=
  ∃ (impressions clicks conversions : ℕ) (cost value : ℝ),
    r "impressions" = .int impressions ∧ r "clicks" = .int clicks ∧ r "conversions" = .int conversions ∧
    r "total_cost" = .num cost ∧ r "total_conversion_value" = .num value ∧
    conversions ≤ clicks ∧ clicks ≤ impressions ∧
    (clicks = 0 → cost = 0) ∧ (0 < clicks → 0 < cost) ∧ (conversions = 0 → value = 0) ∧ (0 < conversions → 0 < value)

/-- The item of the row is treated in the period of the row.  A crossover swaps the groups for the second half; in each half the washout
counts as well. -/
def TreatedRow (crossover : Prop) (periodCol treatCol : String) (r : Row ℝ) : Prop :=
  ((r treatCol).toFl = .fin 1 ∧ (¬ crossover ∧ r periodCol = .str "test" ∨
    crossover ∧ (r periodCol = .str "test_1" ∨ r periodCol = .str "washout_1"))) ∨
  ((r treatCol).toFl = .fin 0 ∧ crossover ∧ (r periodCol = .str "test_2" ∨ r periodCol = .str "washout_2"))

end Feedx.Spec
