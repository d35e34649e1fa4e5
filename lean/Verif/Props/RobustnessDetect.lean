import Mathlib.Analysis.Complex.ExponentialBounds
import Verif.Proofs.BinomHoeffding
import Verif.Props.Robustness
import Verif.Props.Ratio

/-!
C105 and C106, continued: wrong rates and unbalanced groups are detected.
-/

namespace Feedx

variable {X : RobustnessTests} {c : SimConfig} {s : SimState}

/-- **C106.**  A simulated false positive rate above alpha fails the check if `n` simulations are enough: if `exp(-2 n (rate - alpha)²)` is
below the threshold. -/
theorem C106_excess_fails (hX : Spec.ExactBinomial X) (aa : List TestResult) (r : ℝ) (haa : s.aa = some aa)
    (hr : falsePositiveRate c.design s = .ok (some r)) (h0 : 0 ≤ c.design.alpha.val) (h1 : c.design.alpha.val ≤ r)
    (hn : Real.exp (-2 * aa.length * (r - c.design.alpha.val) ^ 2) < c.threshold) : falsePositiveCheck X c s = .ok (some false) := by
  obtain ⟨l, hl, hne, rfl⟩ := rate_cases hr
  obtain rfl := Option.some.inj (haa.symm.trans hl)
  have hpos := List.length_pos_iff.mpr hne
  have hn' : (0 : ℝ) < aa.length := by exact_mod_cast hpos
  have hle : (sigCount c aa : ℝ) / aa.length ≤ 1 := by
    rw [div_le_one hn']
    exact_mod_cast sigCount_le c aa
  have h2 := upper_hoeffding hpos h0 (h1.trans hle) h1
  rw [falsePositive_eval hX haa hne, decide_eq_false (not_le.mpr (lt_of_le_of_lt h2 hn))]

/-- **C106.**  A simulated power below the target fails the check if `exp(-2 n (target - power)²)` is below the threshold. -/
theorem C106_missing_power_fails (hX : Spec.ExactBinomial X) (ab : List TestResult) (r : ℝ) (hab : s.ab = some ab)
    (hr : simulatedPower c.design s = .ok (some r)) (h0 : c.design.power.val ≤ 1) (h1 : r ≤ c.design.power.val)
    (hn : Real.exp (-2 * ab.length * (c.design.power.val - r) ^ 2) < c.threshold) : powerCheck X c s = .ok (some false) := by
  obtain ⟨aa, l, haa, hl, hne, rfl⟩ := power_cases hr
  obtain rfl := Option.some.inj (hab.symm.trans hl)
  have hpos := List.length_pos_iff.mpr hne
  have h2 := lower_hoeffding hpos (sigCount_le c ab) (le_trans (by positivity) h1) h0 h1
  rw [power_eval hX haa hab hne, decide_eq_false (not_le.mpr (lt_of_le_of_lt h2 hn))]

/-- **C106.**  For every gap and every threshold there is a number of simulations from which on a false positive rate that far above alpha,
and a power that far below the target, fail. -/
theorem C106_detected_eventually (hX : Spec.ExactBinomial X) (d : ℝ) (hd : 0 < d) (ht : 0 < c.threshold) (h0 : 0 ≤ c.design.alpha.val)
    (h1 : c.design.power.val ≤ 1) :
    ∃ N : ℕ, ∀ (s : SimState) (aa ab : List TestResult), s.aa = some aa → s.ab = some ab → N ≤ aa.length → N ≤ ab.length →
      (∀ r, falsePositiveRate c.design s = .ok (some r) → c.design.alpha.val + d ≤ r → falsePositiveCheck X c s = .ok (some false)) ∧
      (∀ r, simulatedPower c.design s = .ok (some r) → r ≤ c.design.power.val - d → powerCheck X c s = .ok (some false)) := by
  obtain ⟨N, hN⟩ := exists_nat_gt (1 / c.threshold / (2 * d ^ 2))
  have hbound : ∀ (n : ℕ) (g : ℝ), N ≤ n → d ≤ g → Real.exp (-2 * n * g ^ 2) < c.threshold := by
    intro n g hn hg
    have hn' : (N : ℝ) ≤ n := by exact_mod_cast hn
    have hsq : d ^ 2 ≤ g ^ 2 := pow_le_pow_left₀ hd.le hg 2
    rw [div_lt_iff₀ (by positivity)] at hN
    have h2 : 1 / c.threshold < 2 * n * g ^ 2 := by
      have : (0 : ℝ) ≤ n := by positivity
      nlinarith [sq_nonneg d, mul_le_mul hn' hsq (by positivity) this]
    have h3 : 2 * n * g ^ 2 < Real.exp (2 * n * g ^ 2) := lt_of_lt_of_le (by linarith) (Real.add_one_le_exp _)
    have e : (-2 * (n : ℝ) * g ^ 2) = -(2 * n * g ^ 2) := by ring
    rw [e, Real.exp_neg]
    rw [inv_lt_comm₀ (Real.exp_pos _) ht, ← one_div]
    linarith
  refine ⟨N, fun s aa ab haa hab hn1 hn2 => ⟨fun r hr hle => ?_, fun r hr hle => ?_⟩⟩
  · exact C106_excess_fails hX aa r haa hr h0 (by linarith) (hbound _ _ hn1 (by linarith))
  · exact C106_missing_power_fails hX ab r hab hr h1 (by linarith) (hbound _ _ hn2 (by linarith))

theorem far_exact {n m : ℕ} (hm : (10 ^ 7 + 1) * (m + 1) < 10 ^ 7 * (n - m)) : farCount ℝ n m = tailCount n m := by
  unfold farCount tailCount
  congr 1
  ext j
  rw [Finset.mem_filter, Finset.mem_range, Finset.mem_range]
  constructor
  · rintro ⟨h1, h2⟩
    by_contra hj
    have hmono : n.choose (m + 1) ≤ n.choose j := choose_mono_half (by omega) (by omega)
    have hs : n.choose (m + 1) * (m + 1) = n.choose m * (n - m) := Nat.choose_succ_right_eq n m
    have hpos : 0 < n.choose m := Nat.choose_pos (by omega)
    have h3 : (n.choose (m + 1) : ℝ) ≤ n.choose m * (1 + 1 / 10 ^ 7) := le_trans (by exact_mod_cast hmono) h2
    have h4 : (n.choose m : ℝ) * ((n - m : ℕ) : ℝ) ≤ n.choose m * (1 + 1 / 10 ^ 7) * ((m : ℝ) + 1) := by
      have : (n.choose m : ℝ) * ((n - m : ℕ) : ℝ) = n.choose (m + 1) * ((m : ℝ) + 1) := by exact_mod_cast hs.symm
      rw [this]
      exact mul_le_mul_of_nonneg_right h3 (by positivity)
    have hp' : (0 : ℝ) < n.choose m := by exact_mod_cast hpos
    rw [mul_assoc] at h4
    have h5 := le_of_mul_le_mul_left h4 hp'
    have h6 : ((10 : ℝ) ^ 7 + 1) * ((m : ℝ) + 1) < 10 ^ 7 * ((n - m : ℕ) : ℝ) := by exact_mod_cast hm
    have h7 : (1 + 1 / 10 ^ 7 : ℝ) * ((m : ℝ) + 1) * 10 ^ 7 = (10 ^ 7 + 1) * ((m : ℝ) + 1) := by ring
    linarith
  · intro hj
    refine ⟨by omega, ?_⟩
    have h1 : (n.choose j : ℝ) ≤ n.choose m := by exact_mod_cast choose_mono_half (by omega : j ≤ m) (by omega)
    have h3 : (0 : ℝ) ≤ n.choose m * (1 / 10 ^ 7) := by positivity
    linarith

theorem tail_lower {n m : ℕ} (hm : m ≤ n) : (tailCount n m : ℝ) / 2 ^ n = lowerP n (1 / 2) m := by
  unfold tailCount lowerP pmfAt
  rw [Nat.cast_sum, Finset.sum_div]
  refine Finset.sum_congr rfl fun i hi => ?_
  rw [Finset.mem_range] at hi
  have e : (1 - 1 / 2 : ℝ) = 1 / 2 := by norm_num
  rw [e, mul_assoc, ← pow_add, show i + (n - i) = n by omega, one_div, inv_pow, div_eq_mul_inv]

theorem exp_neg_eight : Real.exp (-8) < 1 / 2000 := by
  rw [Real.exp_neg, inv_lt_comm₀ (Real.exp_pos _) (by norm_num)]
  have h1 : (2.7 : ℝ) < Real.exp 1 := lt_trans (by norm_num) Real.exp_one_gt_d9
  have h2 : Real.exp 8 = Real.exp 1 ^ 8 := by
    rw [← Real.exp_nat_mul]
    norm_num
  rw [h2]
  exact lt_of_lt_of_le (b := (2.7 : ℝ) ^ 8) (by norm_num) (pow_le_pow_left₀ (by norm_num) h1.le 8)

/-- The gap of groups whose sizes differ by at least four times the root of the number of items is beyond SciPy's tolerance. -/
theorem gap_large {a b : ℕ} (hab : a ≤ b) (hn : a + b ≤ 10 ^ 15) (hgap : 16 * (a + b) ≤ (b - a) ^ 2) (h0 : 0 < a + b) :
    (10 ^ 7 + 1) * (a + 1) < 10 ^ 7 * b := by
  obtain ⟨g, rfl⟩ : ∃ g, b = a + g := ⟨b - a, by omega⟩
  rw [Nat.add_sub_cancel_left] at hgap
  by_contra hc
  have h1 : 10 ^ 7 * g ≤ 10 ^ 7 + 1 + a := by omega
  have h2 : a ≤ g ^ 2 := by nlinarith
  have hg4 : 4 ≤ g := by
    by_contra h
    have : g ≤ 3 := by omega
    have : g ^ 2 ≤ 9 := by nlinarith
    omega
  have h3 : 9 * 10 ^ 6 * g ≤ 10 ^ 7 * g - (10 ^ 7 + 1) + 10 ^ 7 := by omega
  have h4 : 7 * 10 ^ 6 * g ≤ a := by omega
  have h5 : 16 * (7 * 10 ^ 6 * g) ≤ g ^ 2 := by nlinarith
  have h6 : 112 * 10 ^ 6 ≤ g := by nlinarith
  nlinarith

/-- **C105, imbalance.**  Among up to 10¹⁵ items, groups whose sizes differ by at least four times the square root of the number of items are
refused. -/
theorem C105_imbalance_refused {f : Frame ℝ} {itemCol treatCol : String} (hi : itemCol ∈ f.cols) (ht : treatCol ∈ f.cols)
    (h0 : 0 < (Spec.arm f itemCol treatCol 1).card + (Spec.arm f itemCol treatCol 0).card)
    (hn : (Spec.arm f itemCol treatCol 1).card + (Spec.arm f itemCol treatCol 0).card ≤ 10 ^ 15)
    (hgap : 16 * (((Spec.arm f itemCol treatCol 1).card : ℤ) + (Spec.arm f itemCol treatCol 0).card) ≤
      (((Spec.arm f itemCol treatCol 1).card : ℤ) - (Spec.arm f itemCol treatCol 0).card) ^ 2) :
    checkRatio binomTest f itemCol treatCol = .ok true := by
  rw [ratio_eval hi ht rfl rfl h0]
  obtain ⟨a, ha⟩ : ∃ a, a = (Spec.arm f itemCol treatCol 1).card := ⟨_, rfl⟩
  obtain ⟨b, hb⟩ : ∃ b, b = (Spec.arm f itemCol treatCol 0).card := ⟨_, rfl⟩
  rw [← ha, ← hb] at h0 hn hgap ⊢
  congr 1
  rw [decide_eq_true_eq]
  have main : ∀ a b : ℕ, a ≤ b → 0 < a + b → a + b ≤ 10 ^ 15 → 16 * (a + b) ≤ (b - a) ^ 2 → splitP ℝ (a + b) a < 1 / 1000 := by
    intro a b hab h0 hn hgap
    have hlarge := gap_large hab hn hgap h0
    have hsub : a + b - a = b := by omega
    unfold splitP
    rw [if_neg (by omega)]
    refine lt_of_le_of_lt (min_le_right _ _) ?_
    rw [far_exact (by rw [hsub]; exact hlarge), ← two_mul, Nat.cast_mul, mul_div_assoc, tail_lower (by omega)]
    have hn' : (0 : ℝ) < ((a + b : ℕ) : ℝ) := by exact_mod_cast h0
    have hab' : (a : ℝ) ≤ b := by exact_mod_cast hab
    have hl := lower_hoeffding (n := a + b) (k := a) h0 (by omega) (p := 1 / 2) (by norm_num) (by norm_num) (by
      rw [div_le_iff₀ hn']
      push_cast
      linarith)
    have hexp : (-2 * ((a + b : ℕ) : ℝ) * (1 / 2 - (a : ℝ) / ((a + b : ℕ) : ℝ)) ^ 2) ≤ -8 := by
      have e : (-2 * ((a + b : ℕ) : ℝ) * (1 / 2 - (a : ℝ) / ((a + b : ℕ) : ℝ)) ^ 2) = -((b - a : ℝ) ^ 2 / (2 * ((a + b : ℕ) : ℝ))) := by
        have hcast : ((a + b : ℕ) : ℝ) = a + b := by push_cast; rfl
        rw [hcast] at hn' ⊢
        field_simp
        ring
      rw [e, neg_le_neg_iff, le_div_iff₀ (by positivity)]
      have hg : (16 * (a + b : ℕ) : ℝ) ≤ ((b - a : ℕ) : ℝ) ^ 2 := by exact_mod_cast hgap
      rw [Nat.cast_sub hab] at hg
      push_cast at hg ⊢
      linarith
    have h8 := exp_neg_eight
    have := hl.trans (Real.exp_le_exp.mpr hexp)
    push_cast
    linarith
  rcases le_total a b with hab | hab
  · rw [min_eq_left hab]
    refine main a b hab h0 hn ?_
    have : (16 * ((a : ℤ) + b)) ≤ ((b - a : ℕ) : ℤ) ^ 2 := by
      rw [Nat.cast_sub hab]
      nlinarith
    exact_mod_cast this
  · rw [min_eq_right hab, add_comm]
    refine main b a hab (by omega) (by omega) ?_
    have : (16 * ((b : ℤ) + a)) ≤ ((a - b : ℕ) : ℤ) ^ 2 := by
      rw [Nat.cast_sub hab]
      nlinarith
    exact_mod_cast this

/-! ### Examples -/

theorem rep_ne {n m : ℕ} {x y : ℝ} (h : n ≠ 0) : List.replicate n x ++ List.replicate m y ≠ [] := by
  simp [h]

/-- 60 of 400 A/A simulations significant at alpha = 0.05: refused. -/
example : falsePositiveCheck exactTests (configOf (1 / 20) (4 / 5) (1 / 20))
    (stateOf (List.replicate 60 (1 / 100) ++ List.replicate 340 (1 / 2)) []) = .ok (some false) := by
  refine C106_excess_fails exactTests_ok _ (3 / 20) rfl ?_ ?_ ?_ ?_
  · rw [rate_eval _ _ _ _ _ (rep_ne (by norm_num)), List.countP_append, List.countP_replicate, List.countP_replicate]
    norm_num
  · show (0 : ℝ) ≤ 1 / 20
    norm_num
  · show (1 / 20 : ℝ) ≤ 3 / 20
    norm_num
  · show Real.exp (-2 * ((List.map resultOf _).length : ℝ) * (3 / 20 - 1 / 20) ^ 2) < 1 / 20
    rw [List.length_map, List.length_append, List.length_replicate, List.length_replicate]
    have : (-2 * ((60 + 340 : ℕ) : ℝ) * (3 / 20 - 1 / 20) ^ 2) = -8 := by norm_num
    rw [this]
    exact exp_neg_eight.trans (by norm_num)

/-- 280 of 400 A/B simulations significant with a target power of 0.8: refused. -/
example : powerCheck exactTests (configOf (1 / 20) (4 / 5) (1 / 20))
    (stateOf [] (List.replicate 280 (1 / 100) ++ List.replicate 120 (1 / 2))) = .ok (some false) := by
  refine C106_missing_power_fails exactTests_ok _ (7 / 10) rfl ?_ ?_ ?_ ?_
  · rw [powerRate_eval _ _ _ _ _ (rep_ne (by norm_num)), List.countP_append, List.countP_replicate, List.countP_replicate]
    norm_num
  · show (4 / 5 : ℝ) ≤ 1
    norm_num
  · show (7 / 10 : ℝ) ≤ 4 / 5
    norm_num
  · show Real.exp (-2 * ((List.map resultOf _).length : ℝ) * (4 / 5 - 7 / 10) ^ 2) < 1 / 20
    rw [List.length_map, List.length_append, List.length_replicate, List.length_replicate]
    have : (-2 * ((280 + 120 : ℕ) : ℝ) * (4 / 5 - 7 / 10) ^ 2) = -8 := by norm_num
    rw [this]
    exact exp_neg_eight.trans (by norm_num)

open Classical in
/-- 430 of 1000 items treated: refused. -/
example : checkRatio binomTest (Spec.splitTable "id" "t" (numbered ℝ 1000) (numbered ℝ 430).toFinset) "id" "t" = .ok true := by
  obtain ⟨h1, h0⟩ := numbered_arms (K := ℝ) (k := 430) (n := 1000) (by norm_num)
  refine C105_imbalance_refused (by simp [Spec.splitTable]) (by simp [Spec.splitTable]) (by omega) (by omega) ?_
  rw [h1, h0]
  norm_num

end Feedx
