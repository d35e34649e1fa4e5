import Verif.Model.Binom
import Verif.Spec.Ratio
import Verif.Proofs.Validate
import Mathlib.Data.Nat.Choose.Sum
import Mathlib.Algebra.BigOperators.Field
import Mathlib.Tactic.Linarith
import Mathlib.Tactic.Ring
import Mathlib.Tactic.NormNum
import Mathlib.Tactic.FieldSimp
import Mathlib.Tactic.Positivity

/-!
The two-sided binomial test (C105).
-/

set_option linter.unusedSectionVars false

namespace Feedx

variable {K : Type} [Field K] [LinearOrder K] [IsStrictOrderedRing K]

/-- The number of outcomes with at most `m` heads. -/
def tailCount (n m : ℕ) : ℕ := ∑ i ∈ Finset.range (m + 1), n.choose i

/-- The number of outcomes in the lower half that are hardly more likely than `m`. -/
def farCount (K : Type) [Field K] [LinearOrder K] (n m : ℕ) : ℕ :=
  ∑ i ∈ (Finset.range (n / 2 + 1)).filter (fun i => (n.choose i : K) ≤ n.choose m * (1 + 1 / 10 ^ 7)), n.choose i

theorem pmf_le_iff (n i k : ℕ) : ((binomPmf n i : K) ≤ binomPmf n k * (1 + 1 / 10 ^ 7)) ↔
    (n.choose i : K) ≤ n.choose k * (1 + 1 / 10 ^ 7) := by
  unfold binomPmf
  rw [div_mul_eq_mul_div, div_le_div_iff_of_pos_right (by positivity)]

theorem sum_pmf (n : ℕ) (s : Finset ℕ) : ∑ i ∈ s, (binomPmf n i : K) = ((∑ i ∈ s, n.choose i : ℕ) : K) / 2 ^ n := by
  unfold binomPmf
  rw [Nat.cast_sum, Finset.sum_div]

theorem sum_reflect_upper (n k : ℕ) (hk : k ≤ n) : ∑ i ∈ Finset.Icc k n, n.choose i = tailCount n (n - k) := by
  unfold tailCount
  refine Finset.sum_bij' (fun i _ => n - i) (fun j _ => n - j) ?_ ?_ ?_ ?_ ?_
  · intro i hi
    rw [Finset.mem_Icc] at hi
    rw [Finset.mem_range]
    omega
  · intro j hj
    rw [Finset.mem_range] at hj
    rw [Finset.mem_Icc]
    omega
  · intro i hi
    rw [Finset.mem_Icc] at hi
    omega
  · intro j hj
    rw [Finset.mem_range] at hj
    omega
  · intro i hi
    rw [Finset.mem_Icc] at hi
    exact (Nat.choose_symm hi.2).symm

theorem sum_reflect_far (n k : ℕ) :
    ∑ i ∈ (Finset.Icc ((n + 1) / 2) n).filter (fun i => (n.choose i : K) ≤ n.choose k * (1 + 1 / 10 ^ 7)), n.choose i = farCount K n k := by
  unfold farCount
  refine Finset.sum_bij' (fun i _ => n - i) (fun j _ => n - j) ?_ ?_ ?_ ?_ ?_
  · intro i hi
    rw [Finset.mem_filter, Finset.mem_Icc] at hi
    rw [Finset.mem_filter, Finset.mem_range, Nat.choose_symm hi.1.2]
    exact ⟨by omega, hi.2⟩
  · intro j hj
    rw [Finset.mem_filter, Finset.mem_range] at hj
    rw [Finset.mem_filter, Finset.mem_Icc, Nat.choose_symm (by omega)]
    exact ⟨by omega, hj.2⟩
  · intro i hi
    rw [Finset.mem_filter, Finset.mem_Icc] at hi
    omega
  · intro j hj
    rw [Finset.mem_filter, Finset.mem_range] at hj
    omega
  · intro i hi
    rw [Finset.mem_filter, Finset.mem_Icc] at hi
    exact (Nat.choose_symm hi.1.2).symm

/-- The p-value in terms of the smaller group. -/
def splitP (K : Type) [Field K] [LinearOrder K] (n m : ℕ) : K :=
  if 2 * m = n then 1 else min 1 (((tailCount n m + farCount K n m : ℕ) : K) / 2 ^ n)

theorem binomTest_eq {k n : ℕ} (hn : 0 < n) (hk : k ≤ n) : binomTest k n = .ok (splitP K n (min k (n - k))) := by
  unfold binomTest splitP
  rw [if_neg (by omega)]
  by_cases h1 : 2 * k = n
  · rw [if_pos h1, if_pos (by omega)]
  · rw [if_neg h1]
    by_cases h2 : 2 * k < n
    · rw [if_pos h2, if_neg (by omega), show min k (n - k) = k by omega]
      simp only [pmf_le_iff]
      rw [sum_pmf, sum_pmf, sum_reflect_far, ← add_div, ← Nat.cast_add]
      rfl
    · rw [if_neg h2, if_neg (by omega), show min k (n - k) = n - k by omega]
      simp only [pmf_le_iff]
      rw [sum_pmf, sum_pmf, sum_reflect_upper n k hk, ← add_div, ← Nat.cast_add, add_comm]
      unfold farCount
      rw [Nat.choose_symm hk]

theorem choose_mono_half {n i m : ℕ} (him : i ≤ m) (hm : 2 * m ≤ n) : n.choose i ≤ n.choose m := by
  induction m, him using Nat.le_induction with
  | base => exact le_refl _
  | succ m _ ih => exact (ih (by omega)).trans (Nat.choose_le_succ_of_lt_half_left (by omega))

theorem far_mono {n m m' : ℕ} (h : m ≤ m') (hm : 2 * m' ≤ n) : farCount K n m ≤ farCount K n m' := by
  unfold farCount
  refine Finset.sum_le_sum_of_subset ?_
  intro i hi
  rw [Finset.mem_filter] at hi ⊢
  refine ⟨hi.1, hi.2.trans ?_⟩
  have : (n.choose m : K) ≤ n.choose m' := by exact_mod_cast choose_mono_half h hm
  exact mul_le_mul_of_nonneg_right this (by positivity)

theorem tail_mono {n m m' : ℕ} (h : m ≤ m') : tailCount n m ≤ tailCount n m' :=
  Finset.sum_le_sum_of_subset (Finset.range_mono (by omega))

theorem tail_le_far {n m : ℕ} (hm : 2 * m ≤ n) : tailCount n m ≤ farCount K n m := by
  unfold tailCount farCount
  refine Finset.sum_le_sum_of_subset ?_
  intro i hi
  rw [Finset.mem_range] at hi
  rw [Finset.mem_filter, Finset.mem_range]
  refine ⟨by omega, ?_⟩
  have h1 : (n.choose i : K) ≤ n.choose m := by exact_mod_cast choose_mono_half (by omega : i ≤ m) hm
  have h2 : (0 : K) ≤ n.choose m := by positivity
  have h3 : (0 : K) ≤ n.choose m * (1 / 10 ^ 7) := by positivity
  linarith

/-- The p-value decreases with the imbalance. -/
theorem splitP_mono {n m m' : ℕ} (h : m ≤ m') (hm : 2 * m' ≤ n) : splitP K n m ≤ splitP K n m' := by
  unfold splitP
  by_cases h1 : 2 * m' = n
  · rw [if_pos h1]
    split_ifs
    · exact le_refl _
    · exact min_le_left _ _
  · rw [if_neg h1, if_neg (by omega)]
    refine min_le_min (le_refl _) ?_
    rw [div_le_div_iff_of_pos_right (by positivity)]
    exact_mod_cast Nat.add_le_add (tail_mono h) (far_mono h hm)

theorem splitP_even {n m : ℕ} (h1 : 2 * m ≤ n) (h2 : n ≤ 2 * m + 1) : splitP K n m = 1 := by
  unfold splitP
  split_ifs with h
  · rfl
  · obtain rfl : n = 2 * m + 1 := by omega
    refine min_eq_left ?_
    have e : tailCount (2 * m + 1) m = 4 ^ m := Nat.sum_range_choose_halfway m
    have f := tail_le_far (K := K) (n := 2 * m + 1) (m := m) (by omega)
    rw [one_le_div (by positivity)]
    have e2 : 2 ^ (2 * m + 1) = 2 * 4 ^ m := by
      rw [pow_succ, pow_mul]
      ring
    have : 2 ^ (2 * m + 1) ≤ tailCount (2 * m + 1) m + farCount K (2 * m + 1) m := by omega
    exact_mod_cast this

/-- Twice the tail is a lower bound of a p-value below one. -/
theorem splitP_tail {n m : ℕ} (hm : 2 * m ≤ n) {α : K} (hα : α ≤ 1) (h : splitP K n m < α) : 2 * m < n ∧ 2 * (tailCount n m : K) < α * 2 ^ n := by
  unfold splitP at h
  split_ifs at h with h1
  · exact absurd (h.trans_le hα) (lt_irrefl _)
  · refine ⟨by omega, ?_⟩
    rcases min_lt_iff.mp h with h | h
    · exact absurd (h.trans_le hα) (lt_irrefl _)
    · rw [div_lt_iff₀ (by positivity)] at h
      refine lt_of_le_of_lt ?_ h
      have := tail_le_far (K := K) hm
      have h3 : (tailCount n m : K) ≤ farCount K n m := by exact_mod_cast this
      push_cast
      linarith

theorem far_small {n m : ℕ} (hn : 50 < n) (hm : 5 * m ≤ n) : farCount K n m = tailCount n m := by
  unfold farCount tailCount
  congr 1
  ext j
  rw [Finset.mem_filter, Finset.mem_range, Finset.mem_range]
  constructor
  · rintro ⟨h1, h2⟩
    by_contra hj
    have hmono : n.choose (m + 1) ≤ n.choose j := choose_mono_half (by omega) (by omega)
    have hs : n.choose (m + 1) * (m + 1) = n.choose m * (n - m) := Nat.choose_succ_right_eq n m
    have hpos : 0 < n.choose m := Nat.choose_pos (by omega)
    have h3 : (n.choose (m + 1) : K) ≤ n.choose m * (1 + 1 / 10 ^ 7) := le_trans (by exact_mod_cast hmono) h2
    have h4 : (n.choose m : K) * ((n - m : ℕ) : K) ≤ n.choose m * (1 + 1 / 10 ^ 7) * ((m : K) + 1) := by
      have : (n.choose m : K) * ((n - m : ℕ) : K) = n.choose (m + 1) * ((m : K) + 1) := by exact_mod_cast hs.symm
      rw [this]
      exact mul_le_mul_of_nonneg_right h3 (by positivity)
    have hp' : (0 : K) < n.choose m := by exact_mod_cast hpos
    rw [mul_assoc] at h4
    have h5 := le_of_mul_le_mul_left h4 hp'
    have h6 : 2 * (m + 1) ≤ n - m := by omega
    have h7 : (2 : K) * ((m : K) + 1) ≤ ((n - m : ℕ) : K) := by exact_mod_cast h6
    have h8 : (0 : K) < (m : K) + 1 := by positivity
    have h9 : (1 + 1 / 10 ^ 7 : K) * ((m : K) + 1) < 2 * ((m : K) + 1) := by
      refine mul_lt_mul_of_pos_right ?_ h8
      norm_num
    linarith
  · intro hj
    refine ⟨by omega, ?_⟩
    have h1 : (n.choose j : K) ≤ n.choose m := by exact_mod_cast choose_mono_half (by omega : j ≤ m) (by omega)
    have h3 : (0 : K) ≤ n.choose m * (1 / 10 ^ 7) := by positivity
    linarith

theorem tail_small {n m : ℕ} (hm : 5 * m ≤ n) : (tailCount n m : K) ≤ (5 / 6) ^ n * 2 ^ n := by
  have h1 : (tailCount n m : K) ≤ 4 ^ m * (5 / 4) ^ n := by
    have hb : (5 / 4 : K) ^ n = ∑ i ∈ Finset.range (n + 1), (1 / 4 : K) ^ i * (n.choose i : K) := by
      have := add_pow (1 / 4 : K) 1 n
      rw [show (1 / 4 : K) + 1 = 5 / 4 by norm_num] at this
      rw [this]
      refine Finset.sum_congr rfl fun i _ => ?_
      rw [one_pow, mul_one]
    rw [hb, Finset.mul_sum]
    unfold tailCount
    rw [Nat.cast_sum]
    refine (Finset.sum_le_sum ?_).trans (Finset.sum_le_sum_of_subset_of_nonneg (Finset.range_mono (by omega : m + 1 ≤ n + 1)) ?_)
    · intro i hi
      rw [Finset.mem_range] at hi
      have h4 : (1 : K) ≤ 4 ^ m * (1 / 4) ^ i := by
        rw [one_div, inv_pow, ← div_eq_mul_inv, one_le_div (by positivity)]
        exact pow_le_pow_right₀ (by norm_num) (by omega)
      have h5 : (0 : K) ≤ n.choose i := by positivity
      calc (n.choose i : K) = 1 * n.choose i := (one_mul _).symm
        _ ≤ (4 ^ m * (1 / 4) ^ i) * n.choose i := mul_le_mul_of_nonneg_right h4 h5
        _ = _ := by ring
    · intro i _ _
      positivity
  refine h1.trans ?_
  obtain ⟨s, rfl⟩ : ∃ s, n = 5 * m + s := ⟨n - 5 * m, by omega⟩
  rw [pow_add, pow_add, pow_add, pow_mul, pow_mul, pow_mul]
  have e1 : ((4 : K) * (5 / 4) ^ 5) ^ m ≤ ((5 / 6) ^ 5 * 2 ^ 5) ^ m :=
    pow_le_pow_left₀ (by positivity) (by norm_num) m
  have e2 : (5 / 4 : K) ^ s ≤ (5 / 6 * 2) ^ s := pow_le_pow_left₀ (by norm_num) (by norm_num) s
  calc (4 : K) ^ m * (((5 / 4) ^ 5) ^ m * (5 / 4) ^ s) = ((4 : K) * (5 / 4) ^ 5) ^ m * (5 / 4) ^ s := by rw [mul_pow]; ring
    _ ≤ ((5 / 6) ^ 5 * 2 ^ 5) ^ m * (5 / 6 * 2) ^ s := mul_le_mul e1 e2 (by positivity) (by positivity)
    _ = _ := by rw [mul_pow, mul_pow]; ring

/-- Among more than fifty items a group of at most a fifth has a tiny p-value. -/
theorem splitP_small {n m : ℕ} (hn : 50 < n) (hm : 5 * m ≤ n) : splitP K n m < 1 / 1000 := by
  unfold splitP
  rw [if_neg (by omega)]
  refine lt_of_le_of_lt (min_le_right _ _) ?_
  rw [far_small hn hm, div_lt_iff₀ (by positivity)]
  have h1 := tail_small (K := K) hm
  have h2 : (5 / 6 : K) ^ n ≤ (5 / 6) ^ 51 := pow_le_pow_of_le_one (by norm_num) (by norm_num) (by omega)
  have h3 : (5 / 6 : K) ^ 51 < 1 / 2000 := by norm_num
  have h4 : (0 : K) < 2 ^ n := by positivity
  push_cast
  have h5 : (5 / 6 : K) ^ n * 2 ^ n < 1 / 2000 * 2 ^ n := mul_lt_mul_of_pos_right (lt_of_le_of_lt h2 h3) h4
  linarith

/-- At most a fraction `α` of all subsets has a p-value below `α`. -/
theorem false_alarm_count {n : ℕ} {α : K} (h0 : 0 ≤ α) (hα : α ≤ 1) :
    ((∑ k ∈ (Finset.range (n + 1)).filter (fun k => splitP K n (min k (n - k)) < α), n.choose k : ℕ) : K) ≤ α * 2 ^ n := by
  obtain ⟨S, hS⟩ : ∃ S, S = (Finset.range (n + 1)).filter (fun k => splitP K n (min k (n - k)) < α) := ⟨_, rfl⟩
  rw [← hS]
  rcases S.eq_empty_or_nonempty with he | hne
  · rw [he]
    simp only [Finset.sum_empty, Nat.cast_zero]
    positivity
  · obtain ⟨k0, hk0, hmax⟩ := Finset.exists_max_image S (fun k => min k (n - k)) hne
    obtain ⟨m, hm⟩ : ∃ m, m = min k0 (n - k0) := ⟨_, rfl⟩
    rw [hS, Finset.mem_filter, Finset.mem_range] at hk0
    rw [← hm] at hk0
    obtain ⟨hlt, htail⟩ := splitP_tail (by omega) hα hk0.2
    refine le_trans ?_ htail.le
    have hsub : S ⊆ Finset.range (m + 1) ∪ Finset.Icc (n - m) n := by
      intro k hk
      have h1 := hmax k hk
      rw [← hm] at h1
      rw [hS, Finset.mem_filter, Finset.mem_range] at hk
      rw [Finset.mem_union, Finset.mem_range, Finset.mem_Icc]
      omega
    have h2 : ∑ k ∈ S, n.choose k ≤ tailCount n m + tailCount n m := by
      refine (Finset.sum_le_sum_of_subset hsub).trans ?_
      refine (Finset.sum_union_inter (s₁ := Finset.range (m + 1)) (s₂ := Finset.Icc (n - m) n) (f := fun k => n.choose k)).le.trans' ?_ |>.trans ?_
      · exact Nat.le_add_right _ _
      · have := sum_reflect_upper n (n - m) (by omega)
        rw [show n - (n - m) = m by omega] at this
        rw [this]
        exact le_refl _
    have h3 : ((∑ k ∈ S, n.choose k : ℕ) : K) ≤ ((tailCount n m + tailCount n m : ℕ) : K) := by exact_mod_cast h2
    push_cast at h3 ⊢
    linarith

end Feedx
