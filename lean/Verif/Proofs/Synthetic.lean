import Verif.Model.Synthetic
import Verif.Spec.Synthetic

/-!
Moments of the lognormal and the beta distribution.
-/

set_option linter.unusedSectionVars false

open MeasureTheory ProbabilityTheory

namespace Feedx

theorem beta_ratio {a b : ℝ} (ha : 0 < a) (hb : 0 < b) : beta (a + 1) b = beta a b * (a / (a + b)) := by
  unfold beta
  have h : a + 1 + b = (a + b) + 1 := by ring
  rw [h, Real.Gamma_add_one ha.ne', Real.Gamma_add_one (by linarith : a + b ≠ 0)]
  have := (Real.Gamma_pos_of_pos (by linarith : 0 < a + b)).ne'
  have : a + b ≠ 0 := by linarith
  field_simp

theorem betaPDF_mul_self {a b : ℝ} (ha : 0 < a) (hb : 0 < b) (x : ℝ) :
    betaPDFReal a b x * x = a / (a + b) * betaPDFReal (a + 1) b x := by
  unfold betaPDFReal
  split
  · rename_i h
    rw [beta_ratio ha hb]
    have h1 := (beta_pos ha hb).ne'
    have : a + b ≠ 0 := by linarith
    have e : x ^ (a + 1 - 1) = x ^ (a - 1) * x := by
      rw [← Real.rpow_add_one h.1.ne']; congr 1; ring
    rw [e]
    field_simp
  · simp

theorem betaPDFReal_nonneg {a b : ℝ} (ha : 0 < a) (hb : 0 < b) (x : ℝ) : 0 ≤ betaPDFReal a b x := by
  by_cases h : 0 < x ∧ x < 1
  · exact (betaPDFReal_pos h.1 h.2 ha hb).le
  · unfold betaPDFReal; rw [if_neg h]

theorem integral_betaPDFReal {a b : ℝ} (ha : 0 < a) (hb : 0 < b) : ∫ x, betaPDFReal a b x = 1 := by
  rw [integral_eq_lintegral_of_nonneg_ae (Filter.Eventually.of_forall (betaPDFReal_nonneg ha hb)) (by fun_prop)]
  have := lintegral_betaPDF_eq_one ha hb
  unfold betaPDF at this
  rw [this]; rfl

theorem integral_beta {a b : ℝ} (ha : 0 < a) (hb : 0 < b) (g : ℝ → ℝ) : ∫ x, g x ∂(betaMeasure a b) = ∫ x, betaPDFReal a b x * g x := by
  unfold betaMeasure
  rw [integral_withDensity_eq_integral_toReal_smul (by unfold betaPDF; fun_prop) (by simp [betaPDF])]
  congr 1
  funext x
  rw [betaPDF, ENNReal.toReal_ofReal (betaPDFReal_nonneg ha hb x), smul_eq_mul]

/-- Mean and variance of the beta distribution. -/
theorem beta_moments {a b : ℝ} (ha : 0 < a) (hb : 0 < b) :
    ∫ x, x ∂(betaMeasure a b) = a / (a + b) ∧ Var[fun x => x; betaMeasure a b] = a * b / ((a + b) ^ 2 * (a + b + 1)) := by
  have h1 : ∫ x, x ∂(betaMeasure a b) = a / (a + b) := by
    rw [integral_beta ha hb]
    simp only [betaPDF_mul_self ha hb]
    rw [integral_const_mul, integral_betaPDFReal (by linarith) hb, mul_one]
  have h2 : ∫ x, x ^ 2 ∂(betaMeasure a b) = a / (a + b) * ((a + 1) / (a + 1 + b)) := by
    rw [integral_beta ha hb]
    have : ∀ x, betaPDFReal a b x * x ^ 2 = a / (a + b) * ((a + 1) / (a + 1 + b) * betaPDFReal (a + 1 + 1) b x) := by
      intro x
      rw [← betaPDF_mul_self (by linarith) hb, ← mul_assoc, ← betaPDF_mul_self ha hb]; ring
    simp only [this]
    rw [integral_const_mul, integral_const_mul, integral_betaPDFReal (by linarith) hb, mul_one]
  refine ⟨h1, ?_⟩
  haveI := isProbabilityMeasureBeta ha hb
  have hmem : MemLp (fun x : ℝ => x) 2 (betaMeasure a b) := by
    rw [memLp_two_iff_integrable_sq (by fun_prop)]
    by_contra hc
    rw [integral_undef hc] at h2
    have : 0 < a / (a + b) * ((a + 1) / (a + 1 + b)) := by positivity
    linarith
  rw [variance_eq_sub hmem]
  simp only [Pi.pow_apply]
  rw [h1, h2]
  have : a + b ≠ 0 := by linarith
  have : a + b + 1 ≠ 0 := by linarith
  have : a + 1 + b ≠ 0 := by linarith
  field_simp
  ring

/-- Mean and variance of the lognormal distribution. -/
theorem lognormal_moments (mu sigma : ℝ) :
    ∫ x, x ∂(Spec.lognormal mu sigma) = Real.exp (mu + sigma ^ 2 / 2) ∧
      Var[fun x => x; Spec.lognormal mu sigma] = Real.exp (2 * mu + 2 * sigma ^ 2) - Real.exp (mu + sigma ^ 2 / 2) ^ 2 := by
  have hv : (((sigma ^ 2).toNNReal : NNReal) : ℝ) = sigma ^ 2 := Real.coe_toNNReal _ (sq_nonneg _)
  have hm : ∀ t : ℝ, ∫ x, Real.exp (t * x) ∂(gaussianReal mu (sigma ^ 2).toNNReal) = Real.exp (mu * t + sigma ^ 2 * t ^ 2 / 2) := by
    intro t
    have := congrFun (mgf_id_gaussianReal (μ := mu) (v := (sigma ^ 2).toNNReal)) t
    rw [hv] at this
    exact this
  have h1 : ∫ x, x ∂(Spec.lognormal mu sigma) = Real.exp (mu + sigma ^ 2 / 2) := by
    unfold Spec.lognormal
    rw [integral_map (by fun_prop) (by fun_prop)]
    have := hm 1
    simpa using this
  have h2 : ∫ x, x ^ 2 ∂(Spec.lognormal mu sigma) = Real.exp (2 * mu + 2 * sigma ^ 2) := by
    unfold Spec.lognormal
    rw [integral_map (by fun_prop) (by fun_prop)]
    have := hm 2
    rw [show 2 * mu + 2 * sigma ^ 2 = mu * 2 + sigma ^ 2 * 2 ^ 2 / 2 by ring, ← this]
    congr 1
    funext x
    rw [← Real.exp_nat_mul]; norm_num
  haveI : IsProbabilityMeasure (Spec.lognormal mu sigma) := by
    unfold Spec.lognormal
    exact Measure.isProbabilityMeasure_map (by fun_prop)
  refine ⟨h1, ?_⟩
  have hmem : MemLp (fun x : ℝ => x) 2 (Spec.lognormal mu sigma) := by
    rw [memLp_two_iff_integrable_sq (by fun_prop)]
    by_contra hc
    rw [integral_undef hc] at h2
    have := Real.exp_pos (2 * mu + 2 * sigma ^ 2)
    linarith
  rw [variance_eq_sub hmem]
  simp only [Pi.pow_apply]
  rw [h1, h2]

end Feedx
