import Verif.Model.BinomTail
import Mathlib.Data.Nat.Choose.Sum
import Mathlib.Algebra.BigOperators.Field
import Mathlib.Algebra.Order.BigOperators.Group.Finset
import Mathlib.Tactic.Linarith
import Mathlib.Tactic.Ring
import Mathlib.Tactic.NormNum
import Mathlib.Tactic.Positivity

/-!
The one-sided binomial tests (C106).
-/

namespace Feedx

theorem pmfAt_nonneg {p : ℝ} (h0 : 0 ≤ p) (h1 : p ≤ 1) (n i : ℕ) : 0 ≤ pmfAt n p i := by
  unfold pmfAt
  have : 0 ≤ 1 - p := by linarith
  positivity

theorem pmfAt_sum (n : ℕ) (p : ℝ) : ∑ i ∈ Finset.range (n + 1), pmfAt n p i = 1 := by
  have h := add_pow p (1 - p) n
  rw [add_sub_cancel, one_pow] at h
  rw [h]
  refine Finset.sum_congr rfl fun i _ => ?_
  unfold pmfAt
  ring

theorem pmfAt_reflect {n i : ℕ} (hi : i ≤ n) (p : ℝ) : pmfAt n p i = pmfAt n (1 - p) (n - i) := by
  unfold pmfAt
  rw [Nat.choose_symm hi, sub_sub_cancel, Nat.sub_sub_self hi]
  ring

/-- The probability of `k` or more successes. -/
noncomputable def upperP (n : ℕ) (p : ℝ) (k : ℕ) : ℝ := ∑ i ∈ Finset.Icc k n, pmfAt n p i

/-- The probability of `k` or fewer successes. -/
noncomputable def lowerP (n : ℕ) (p : ℝ) (k : ℕ) : ℝ := ∑ i ∈ Finset.range (k + 1), pmfAt n p i

theorem lower_reflect {n k : ℕ} (hk : k ≤ n) (p : ℝ) : lowerP n p k = upperP n (1 - p) (n - k) := by
  unfold lowerP upperP
  refine Finset.sum_bij' (fun i _ => n - i) (fun j _ => n - j) ?_ ?_ ?_ ?_ ?_
  · intro i hi
    rw [Finset.mem_range] at hi
    rw [Finset.mem_Icc]
    omega
  · intro j hj
    rw [Finset.mem_Icc] at hj
    rw [Finset.mem_range]
    omega
  · intro i hi
    rw [Finset.mem_range] at hi
    omega
  · intro j hj
    rw [Finset.mem_Icc] at hj
    omega
  · intro i hi
    rw [Finset.mem_range] at hi
    exact pmfAt_reflect (by omega) p

theorem upper_zero (n : ℕ) (p : ℝ) : upperP n p 0 = 1 := by
  unfold upperP
  rw [← pmfAt_sum n p]
  refine Finset.sum_congr ?_ fun _ _ => rfl
  ext i
  simp

theorem upper_top (n : ℕ) (p : ℝ) : upperP n p n = p ^ n := by
  unfold upperP pmfAt
  simp

theorem upper_anti {p : ℝ} (h0 : 0 ≤ p) (h1 : p ≤ 1) (n : ℕ) {k k' : ℕ} (h : k ≤ k') : upperP n p k' ≤ upperP n p k := by
  unfold upperP
  refine Finset.sum_le_sum_of_subset_of_nonneg (Finset.Icc_subset_Icc_left h) fun i _ _ => pmfAt_nonneg h0 h1 n i

/-- The factor between consecutive mirrored outcomes. -/
theorem mirror_step {κ μ J b p : ℝ} (hb : 0 ≤ b) (hJ0 : 0 ≤ J) (hJk : J + 1 ≤ κ) (hκμ : κ ≤ μ) (hkb : κ * b ≤ μ * p) :
    (κ - 1 - J) * (κ + J + 1) * b ^ 2 ≤ (μ - J) * (μ + 2 + J) * p ^ 2 := by
  have hκ0 : 0 < κ := by linarith
  have hμ0 : 0 < μ := by linarith
  have hsq : (κ * b) ^ 2 ≤ (μ * p) ^ 2 := pow_le_pow_left₀ (by positivity) hkb 2
  have hd : 0 ≤ κ ^ 2 - (J + 1) ^ 2 := sub_nonneg.mpr (pow_le_pow_left₀ (by linarith) hJk 2)
  have hd2 : 0 ≤ μ ^ 2 - κ ^ 2 := sub_nonneg.mpr (pow_le_pow_left₀ hκ0.le hκμ 2)
  have s1 : κ ^ 2 * ((κ ^ 2 - (J + 1) ^ 2) * b ^ 2) ≤ (κ ^ 2 - (J + 1) ^ 2) * (μ * p) ^ 2 := by
    calc κ ^ 2 * ((κ ^ 2 - (J + 1) ^ 2) * b ^ 2) = (κ ^ 2 - (J + 1) ^ 2) * (κ * b) ^ 2 := by ring
      _ ≤ _ := mul_le_mul_of_nonneg_left hsq hd
  have s2 : (κ ^ 2 - (J + 1) ^ 2) * (μ * p) ^ 2 ≤ κ ^ 2 * ((μ ^ 2 - (J + 1) ^ 2) * p ^ 2) := by
    have e : 0 ≤ (J + 1) ^ 2 * p ^ 2 * (μ ^ 2 - κ ^ 2) := mul_nonneg (by positivity) hd2
    have e' : κ ^ 2 * ((μ ^ 2 - (J + 1) ^ 2) * p ^ 2) - (κ ^ 2 - (J + 1) ^ 2) * (μ * p) ^ 2 = (J + 1) ^ 2 * p ^ 2 * (μ ^ 2 - κ ^ 2) := by ring
    linarith
  have s3 : (κ ^ 2 - (J + 1) ^ 2) * b ^ 2 ≤ (μ ^ 2 - (J + 1) ^ 2) * p ^ 2 := le_of_mul_le_mul_left (s1.trans s2) (by positivity)
  have s4 : 0 ≤ (2 * μ + 1) * p ^ 2 := by positivity
  calc (κ - 1 - J) * (κ + J + 1) * b ^ 2 = (κ ^ 2 - (J + 1) ^ 2) * b ^ 2 := by ring
    _ ≤ (μ ^ 2 - (J + 1) ^ 2) * p ^ 2 + (2 * μ + 1) * p ^ 2 := by linarith
    _ = _ := by ring

/-- Outcomes mirrored at `k`, when `k` is at most the expected number and at most one half of all. -/
theorem mirror_le {n k : ℕ} {p : ℝ} (h0 : 0 ≤ p) (h1 : p ≤ 1) (hk : 2 * k ≤ n) (hp : (k : ℝ) ≤ n * p) (j : ℕ) (hj : j < k) :
    (n.choose (k - 1 - j) : ℝ) * (1 - p) ^ (2 * j + 1) ≤ n.choose (k + j) * p ^ (2 * j + 1) := by
  obtain ⟨m, hm⟩ : ∃ m, n = k + m := ⟨n - k, by omega⟩
  subst hm
  have hkm : k ≤ m := by omega
  have hb : 0 ≤ 1 - p := by linarith
  obtain ⟨b, hbe⟩ : ∃ b, b = 1 - p := ⟨_, rfl⟩
  rw [← hbe] at hb ⊢
  have hkb : (k : ℝ) * b ≤ m * p := by
    rw [hbe]
    push_cast at hp
    linarith
  induction j with
  | zero =>
    obtain ⟨q, hq⟩ : ∃ q, k = q + 1 := ⟨k - 1, by omega⟩
    have h := Nat.choose_succ_right_eq (k + m) q
    rw [← hq, show k + m - q = m + 1 by omega] at h
    have h' : ((k + m).choose k : ℝ) * k = (k + m).choose q * (m + 1) := by exact_mod_cast h
    have hk0 : (0 : ℝ) < k := by
      have : 0 < k := by omega
      exact_mod_cast this
    rw [show k - 1 - 0 = q by omega, show k + 0 = k by omega]
    simp only [mul_zero, zero_add, pow_one]
    have hc : (0 : ℝ) ≤ (k + m).choose q := by positivity
    have e1 := mul_le_mul_of_nonneg_left hkb hc
    have e2 : (0 : ℝ) ≤ (k + m).choose q * p := by positivity
    nlinarith
  | succ j ih =>
    have ih := ih (by omega)
    have hl := Nat.choose_succ_right_eq (k + m) (k - 1 - (j + 1))
    rw [show k - 1 - (j + 1) + 1 = k - 1 - j by omega, show k + m - (k - 1 - (j + 1)) = m + 2 + j by omega] at hl
    have hr := Nat.choose_succ_right_eq (k + m) (k + j)
    rw [show k + m - (k + j) = m - j by omega] at hr
    obtain ⟨A, hA⟩ : ∃ A, A = ((k + m).choose (k - 1 - j) : ℝ) := ⟨_, rfl⟩
    obtain ⟨A', hA'⟩ : ∃ A', A' = ((k + m).choose (k - 1 - (j + 1)) : ℝ) := ⟨_, rfl⟩
    obtain ⟨B, hB⟩ : ∃ B, B = ((k + m).choose (k + j) : ℝ) := ⟨_, rfl⟩
    obtain ⟨B', hB'⟩ : ∃ B', B' = ((k + m).choose (k + j + 1) : ℝ) := ⟨_, rfl⟩
    have hl' : A * ((k : ℝ) - 1 - j) = A' * (m + 2 + j) := by
      rw [hA, hA']
      have e : ((k - 1 - j : ℕ) : ℝ) = (k : ℝ) - 1 - j := by
        rw [Nat.cast_sub (by omega), Nat.cast_sub (by omega)]
        push_cast
        ring
      rw [← e]
      exact_mod_cast hl
    have hr' : B' * ((k : ℝ) + j + 1) = B * (m - j) := by
      rw [hB, hB']
      have e : ((m - j : ℕ) : ℝ) = (m : ℝ) - j := by
        rw [Nat.cast_sub (by omega)]
      rw [← e]
      exact_mod_cast hr
    rw [← hA, ← hB] at ih
    rw [show k + (j + 1) = k + j + 1 by omega, ← hA', ← hB']
    have hA0 : 0 ≤ A := by rw [hA]; positivity
    have hB0 : 0 ≤ B := by rw [hB]; positivity
    obtain ⟨κ, hκ⟩ : ∃ κ, κ = (k : ℝ) := ⟨_, rfl⟩
    obtain ⟨μ, hμ⟩ : ∃ μ, μ = (m : ℝ) := ⟨_, rfl⟩
    obtain ⟨J, hJ⟩ : ∃ J, J = (j : ℝ) := ⟨_, rfl⟩
    rw [← hκ, ← hμ, ← hJ] at hl'
    rw [← hκ, ← hμ, ← hJ] at hr'
    rw [← hκ, ← hμ] at hkb
    have hJ0 : 0 ≤ J := by rw [hJ]; positivity
    have hJk : J + 1 ≤ κ - 1 + 0 ∨ J + 1 ≤ κ := by
      right
      rw [hJ, hκ]
      exact_mod_cast hj.le
    have hJk : J + 1 ≤ κ := by rcases hJk with h | h <;> linarith
    have hκμ : κ ≤ μ := by rw [hκ, hμ]; exact_mod_cast hkm
    -- the step factor
    have hstep := mirror_step hb hJ0 hJk hκμ hkb
    -- multiply everything out
    have hP : 0 < (μ + 2 + J) * (κ + J + 1) := by
      have : 0 ≤ μ := by linarith
      have : 0 ≤ κ := by linarith
      positivity
    have hμJ : 0 ≤ μ - J := by linarith
    refine le_of_mul_le_mul_left ?_ hP
    calc (μ + 2 + J) * (κ + J + 1) * (A' * b ^ (2 * (j + 1) + 1))
        = (A' * (μ + 2 + J)) * (κ + J + 1) * b ^ 2 * b ^ (2 * j + 1) := by ring
      _ = (κ - 1 - J) * (κ + J + 1) * b ^ 2 * (A * b ^ (2 * j + 1)) := by rw [← hl']; ring
      _ ≤ (μ - J) * (μ + 2 + J) * p ^ 2 * (A * b ^ (2 * j + 1)) := mul_le_mul_of_nonneg_right hstep (by positivity)
      _ ≤ (μ - J) * (μ + 2 + J) * p ^ 2 * (B * p ^ (2 * j + 1)) := by
          refine mul_le_mul_of_nonneg_left ih ?_
          have : 0 ≤ μ := by linarith
          positivity
      _ = (B * (μ - J)) * (μ + 2 + J) * p ^ 2 * p ^ (2 * j + 1) := by ring
      _ = (μ + 2 + J) * (κ + J + 1) * (B' * p ^ (2 * (j + 1) + 1)) := by rw [← hr']; ring

theorem mirror_pmf {n k : ℕ} {p : ℝ} (h0 : 0 ≤ p) (h1 : p ≤ 1) (hk : 2 * k ≤ n) (hp : (k : ℝ) ≤ n * p) (j : ℕ) (hj : j < k) :
    pmfAt n p (k - 1 - j) ≤ pmfAt n p (k + j) := by
  unfold pmfAt
  have h := mirror_le h0 h1 hk hp j hj
  have hb : 0 ≤ 1 - p := by linarith
  have hc : 0 ≤ p ^ (k - 1 - j) * (1 - p) ^ (n - (k + j)) := by positivity
  have h' := mul_le_mul_of_nonneg_right h hc
  have e1 : (1 - p) ^ (n - (k - 1 - j)) = (1 - p) ^ (2 * j + 1) * (1 - p) ^ (n - (k + j)) := by
    rw [← pow_add]
    congr 1
    omega
  have e2 : p ^ (k + j) = p ^ (2 * j + 1) * p ^ (k - 1 - j) := by
    rw [← pow_add]
    congr 1
    omega
  rw [e1, e2]
  calc _ = (n.choose (k - 1 - j) : ℝ) * (1 - p) ^ (2 * j + 1) * (p ^ (k - 1 - j) * (1 - p) ^ (n - (k + j))) := by ring
    _ ≤ _ := h'
    _ = _ := by ring

/-- If no more successes than expected were seen, and at most one half, then as many or more have probability at least one half. -/
theorem upper_half {n k : ℕ} {p : ℝ} (h0 : 0 ≤ p) (h1 : p ≤ 1) (hk : 2 * k ≤ n) (hp : (k : ℝ) ≤ n * p) : 1 / 2 ≤ upperP n p k := by
  have hsplit : ∑ i ∈ Finset.range k, pmfAt n p i + upperP n p k = 1 := by
    rw [← pmfAt_sum n p, ← Finset.sum_range_add_sum_Ico _ (show k ≤ n + 1 by omega)]
    unfold upperP
    congr 1
  have hle : ∑ i ∈ Finset.range k, pmfAt n p i ≤ upperP n p k := by
    rw [← Finset.sum_range_reflect]
    refine (Finset.sum_le_sum fun j hj => mirror_pmf h0 h1 hk hp j (Finset.mem_range.mp hj)).trans ?_
    have e : ∑ j ∈ Finset.range k, pmfAt n p (k + j) = ∑ i ∈ Finset.Ico k (k + k), pmfAt n p i := by
      rw [Finset.sum_Ico_eq_sum_range]
      simp
    rw [e]
    unfold upperP
    refine Finset.sum_le_sum_of_subset_of_nonneg ?_ fun i _ _ => pmfAt_nonneg h0 h1 n i
    intro i hi
    rw [Finset.mem_Ico] at hi
    rw [Finset.mem_Icc]
    omega
  linarith

/-- The probability of the outcomes whose own tail probability is below a threshold. -/
theorem upper_alarms {n : ℕ} {p θ : ℝ} (h0 : 0 ≤ p) (h1 : p ≤ 1) (hθ : 0 ≤ θ) :
    ∑ k ∈ (Finset.range (n + 1)).filter (fun k => upperP n p k < θ), pmfAt n p k ≤ θ := by
  by_cases hne : ((Finset.range (n + 1)).filter (fun k => upperP n p k < θ)).Nonempty
  · obtain ⟨m, hm⟩ : ∃ m, m = ((Finset.range (n + 1)).filter (fun k => upperP n p k < θ)).min' hne := ⟨_, rfl⟩
    have hmem := Finset.min'_mem _ hne
    rw [← hm, Finset.mem_filter] at hmem
    refine le_trans ?_ hmem.2.le
    unfold upperP
    refine Finset.sum_le_sum_of_subset_of_nonneg ?_ fun i _ _ => pmfAt_nonneg h0 h1 n i
    intro k hk
    have hmk : m ≤ k := by
      rw [hm]
      exact Finset.min'_le _ _ hk
    rw [Finset.mem_filter, Finset.mem_range] at hk
    rw [Finset.mem_Icc]
    omega
  · rw [Finset.not_nonempty_iff_eq_empty.mp hne, Finset.sum_empty]
    exact hθ

theorem lower_alarms {n : ℕ} {p θ : ℝ} (h0 : 0 ≤ p) (h1 : p ≤ 1) (hθ : 0 ≤ θ) :
    ∑ k ∈ (Finset.range (n + 1)).filter (fun k => lowerP n p k < θ), pmfAt n p k ≤ θ := by
  refine le_trans (le_of_eq ?_) (upper_alarms (n := n) (p := 1 - p) (θ := θ) (by linarith) (by linarith) hθ)
  refine Finset.sum_bij' (fun i _ => n - i) (fun j _ => n - j) ?_ ?_ ?_ ?_ ?_
  · intro i hi
    rw [Finset.mem_filter, Finset.mem_range] at hi
    rw [Finset.mem_filter, Finset.mem_range, ← lower_reflect (by omega)]
    exact ⟨by omega, hi.2⟩
  · intro j hj
    rw [Finset.mem_filter, Finset.mem_range] at hj
    rw [Finset.mem_filter, Finset.mem_range, lower_reflect (by omega), Nat.sub_sub_self (by omega)]
    exact ⟨by omega, hj.2⟩
  · intro i hi
    rw [Finset.mem_filter, Finset.mem_range] at hi
    omega
  · intro j hj
    rw [Finset.mem_filter, Finset.mem_range] at hj
    omega
  · intro i hi
    rw [Finset.mem_filter, Finset.mem_range] at hi
    exact pmfAt_reflect (by omega) p

end Feedx
