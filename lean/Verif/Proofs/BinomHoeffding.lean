import Verif.Proofs.KsDetect
import Verif.Proofs.BinomTail
import Verif.Proofs.Ratio

/-!
Hoeffding's bound for the binomial tests.
-/

namespace Feedx

open MeasureTheory ProbabilityTheory

/-- Hoeffding's lemma for one coin. -/
theorem coin_mgf {p : ℝ} (h0 : 0 ≤ p) (h1 : p ≤ 1) (t : ℝ) : p * Real.exp t + (1 - p) ≤ Real.exp (p * t + t ^ 2 / 8) := by
  have hsub := hasSubgaussianMGF_of_mem_Icc_of_integral_eq_zero (μ := (volume : Measure unitInterval)) (a := -p) (b := 1 - p)
    (stepAt_measurable p).aemeasurable (Filter.Eventually.of_forall fun u => stepAt_range u) (stepAt_integral h0 h1)
  have hle := hsub.mgf_le t
  have e : mgf (stepAt p) volume t = Real.exp (-(p * t)) * (p * Real.exp t + (1 - p)) := by
    unfold mgf
    have hf : (fun x : unitInterval => Real.exp (t * stepAt p x)) =
        fun x => (Set.Iic (⟨p, h0, h1⟩ : unitInterval)).indicator (fun _ => Real.exp (t * (1 - p)) - Real.exp (-(p * t))) x + Real.exp (-(p * t)) := by
      ext x
      unfold stepAt
      by_cases h : (x : ℝ) ≤ p
      · rw [if_pos h, Set.indicator_of_mem (show x ∈ Set.Iic (⟨p, h0, h1⟩ : unitInterval) from h)]
        ring
      · rw [if_neg h, Set.indicator_of_notMem (show x ∉ Set.Iic (⟨p, h0, h1⟩ : unitInterval) from h), zero_add]
        congr 1
        ring
    rw [hf, integral_add ((integrable_const _).indicator measurableSet_Iic) (integrable_const _), integral_indicator measurableSet_Iic,
      setIntegral_const, measureReal_def, unitInterval.volume_Iic, ENNReal.toReal_ofReal h0, integral_const, probReal_univ, one_smul, smul_eq_mul]
    have e1 : Real.exp (t * (1 - p)) = Real.exp (-(p * t)) * Real.exp t := by
      rw [← Real.exp_add]
      congr 1
      ring
    rw [e1]
    ring
  rw [e] at hle
  have hc : ((((‖(1 - p - -p : ℝ)‖₊ / 2) ^ 2 : NNReal)) : ℝ) = 1 / 4 := by
    have : (1 - p - -p) = 1 := by ring
    rw [this, nnnorm_one]
    norm_num
  rw [hc] at hle
  have e2 : Real.exp (p * t + t ^ 2 / 8) = Real.exp (p * t) * Real.exp (1 / 4 * t ^ 2 / 2) := by
    rw [← Real.exp_add]
    congr 1
    ring
  rw [e2]
  have e3 : p * Real.exp t + (1 - p) = Real.exp (p * t) * (Real.exp (-(p * t)) * (p * Real.exp t + (1 - p))) := by
    rw [← mul_assoc, ← Real.exp_add, add_neg_cancel, Real.exp_zero, one_mul]
  rw [e3]
  exact mul_le_mul_of_nonneg_left hle (Real.exp_pos _).le

/-- The chance of `k` or more successes is small if `k` is more than expected. -/
theorem upper_hoeffding {n k : ℕ} (hn : 0 < n) {p : ℝ} (h0 : 0 ≤ p) (h1 : p ≤ 1) (hk : p ≤ (k : ℝ) / n) :
    upperP n p k ≤ Real.exp (-2 * n * ((k : ℝ) / n - p) ^ 2) := by
  have hn' : (0 : ℝ) < n := by exact_mod_cast hn
  obtain ⟨t, ht⟩ : ∃ t, t = 4 * ((k : ℝ) / n - p) := ⟨_, rfl⟩
  have ht0 : 0 ≤ t := by
    rw [ht]
    linarith
  have hstep : upperP n p k ≤ Real.exp (-(t * k)) * (p * Real.exp t + (1 - p)) ^ n := by
    rw [add_pow, Finset.mul_sum]
    unfold upperP
    have hsub : Finset.Icc k n ⊆ Finset.range (n + 1) := by
      intro i hi
      rw [Finset.mem_Icc] at hi
      rw [Finset.mem_range]
      omega
    refine le_trans (Finset.sum_le_sum fun i hi => ?_) (Finset.sum_le_sum_of_subset_of_nonneg hsub fun i _ _ => ?_)
    · rw [Finset.mem_Icc] at hi
      have hge : 1 ≤ Real.exp (-(t * k)) * Real.exp t ^ i := by
        rw [← Real.exp_nat_mul, ← Real.exp_add]
        refine Real.one_le_exp ?_
        have : (k : ℝ) ≤ i := by exact_mod_cast hi.1
        nlinarith
      have hp := pmfAt_nonneg h0 h1 n i
      have e : Real.exp (-(t * k)) * ((p * Real.exp t) ^ i * (1 - p) ^ (n - i) * (n.choose i : ℝ)) =
          (Real.exp (-(t * k)) * Real.exp t ^ i) * pmfAt n p i := by
        unfold pmfAt
        rw [mul_pow]
        ring
      rw [e]
      nlinarith
    · have : 0 ≤ 1 - p := by linarith
      positivity
  refine hstep.trans ?_
  have h2 : (p * Real.exp t + (1 - p)) ^ n ≤ Real.exp (p * t + t ^ 2 / 8) ^ n := by
    refine pow_le_pow_left₀ ?_ (coin_mgf h0 h1 t) n
    have : 0 ≤ 1 - p := by linarith
    positivity
  refine (mul_le_mul_of_nonneg_left h2 (Real.exp_pos _).le).trans (le_of_eq ?_)
  rw [← Real.exp_nat_mul, ← Real.exp_add]
  congr 1
  rw [ht]
  field_simp
  ring

/-- The chance of `k` or fewer successes is small if `k` is less than expected. -/
theorem lower_hoeffding {n k : ℕ} (hn : 0 < n) (hkn : k ≤ n) {p : ℝ} (h0 : 0 ≤ p) (h1 : p ≤ 1) (hk : (k : ℝ) / n ≤ p) :
    lowerP n p k ≤ Real.exp (-2 * n * (p - (k : ℝ) / n) ^ 2) := by
  have hn' : (0 : ℝ) < n := by exact_mod_cast hn
  have hc : (((n - k : ℕ) : ℝ)) / n = 1 - k / n := by
    rw [Nat.cast_sub hkn, sub_div, div_self hn'.ne']
  rw [lower_reflect hkn]
  refine (upper_hoeffding hn (by linarith) (by linarith) (by rw [hc]; linarith)).trans (le_of_eq ?_)
  rw [hc]
  congr 2
  ring

end Feedx
