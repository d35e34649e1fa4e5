import Verif.Proofs.BinomTail
import Verif.Props.Simulate

/-!
C106: what the false positive check and the power check of the simulated experiments say.
-/

namespace Feedx

open Classical

/-- The binomial tests of the robustness checks are SciPy's one-sided tests. -/
def Spec.ExactBinomial (X : RobustnessTests) : Prop := ∀ k n p alternative, X.binom k n p alternative = binomTail k n p alternative

/-- How many results are significant. -/
noncomputable def sigCount (c : SimConfig) (l : List TestResult) : ℕ := l.countP (fun r => Fl.lt r.pValue (.fin c.design.alpha.val))

theorem sigCount_le (c : SimConfig) (l : List TestResult) : sigCount c l ≤ l.length := List.countP_le_length

variable {X : RobustnessTests} {c : SimConfig} {s : SimState}

theorem significant_eq {l : List TestResult} (hl : l ≠ []) : significant l c.design.alpha.val = .ok (sigCount c l, l.length) := by
  unfold significant resultColumn sigCount
  simp [raiseIf, hl, bind, Except.bind, pure, Except.pure, List.countP_map, Function.comp_def]

theorem rate_cases {r : ℝ} (h : falsePositiveRate c.design s = .ok (some r)) :
    ∃ aa, s.aa = some aa ∧ aa ≠ [] ∧ r = (sigCount c aa : ℝ) / aa.length := by
  unfold falsePositiveRate at h
  split at h
  · cases h
  · rename_i aa haa
    refine ⟨aa, haa, ?_⟩
    by_cases hl : aa = []
    · exfalso
      subst hl
      simp [significant, resultColumn, raiseIf, bind, Except.bind] at h
    · rw [significant_eq hl] at h
      simp only [bind, Except.bind, pure, Except.pure, Except.ok.injEq, Option.some.injEq] at h
      exact ⟨hl, h.symm⟩

theorem power_cases {r : ℝ} (h : simulatedPower c.design s = .ok (some r)) :
    ∃ aa ab, s.aa = some aa ∧ s.ab = some ab ∧ ab ≠ [] ∧ r = (sigCount c ab : ℝ) / ab.length := by
  unfold simulatedPower at h
  split at h
  · cases h
  · rename_i aa haa
    unfold abResults at h
    split at h
    · simp [bind, Except.bind] at h
    · rename_i ab hab
      refine ⟨aa, ab, haa, hab, ?_⟩
      by_cases hl : ab = []
      · exfalso
        subst hl
        simp [significant, resultColumn, raiseIf, bind, Except.bind] at h
      · simp only [bind, Except.bind] at h
        rw [significant_eq hl] at h
        simp only [pure, Except.pure, Except.ok.injEq, Option.some.injEq] at h
        exact ⟨hl, h.symm⟩

theorem falsePositive_eval (hX : Spec.ExactBinomial X) {aa : List TestResult} (h : s.aa = some aa) (hl : aa ≠ []) :
    falsePositiveCheck X c s = .ok (some (decide (c.threshold ≤ upperP aa.length c.design.alpha.val (sigCount c aa)))) := by
  unfold falsePositiveCheck aboveThreshold falsePositivePValue
  simp only [h, significant_eq hl, bind, Except.bind, pure, Except.pure, Option.map_some]
  rw [hX]
  simp only [binomTail, if_true]
  rfl

theorem power_eval (hX : Spec.ExactBinomial X) {aa ab : List TestResult} (h : s.aa = some aa) (h' : s.ab = some ab) (hl : ab ≠ []) :
    powerCheck X c s = .ok (some (decide (c.threshold ≤ lowerP ab.length c.design.power.val (sigCount c ab)))) := by
  unfold powerCheck aboveThreshold powerPValue abResults
  simp only [h, h', significant_eq hl, bind, Except.bind, pure, Except.pure, Option.map_some]
  rw [hX]
  simp only [binomTail, show ("less" = "greater") = False from by decide, if_false, if_true]
  rfl

/-- **C106.**  A design whose simulated false positive rate is at most its alpha (at most one half) passes the false positive check. -/
theorem C106_rate_within_alpha_passes (hX : Spec.ExactBinomial X) (r : ℝ) (hr : falsePositiveRate c.design s = .ok (some r))
    (h1 : c.design.alpha.val ≤ 1 / 2) (hle : r ≤ c.design.alpha.val) (ht : c.threshold ≤ 1 / 2) :
    falsePositiveCheck X c s = .ok (some true) := by
  obtain ⟨aa, haa, hl, rfl⟩ := rate_cases hr
  have hn : (0 : ℝ) < aa.length := by exact_mod_cast List.length_pos_iff.mpr hl
  have h0 : 0 ≤ c.design.alpha.val := le_trans (by positivity) hle
  rw [div_le_iff₀ hn, mul_comm] at hle
  have h2 : 2 * sigCount c aa ≤ aa.length := by
    have : (2 : ℝ) * sigCount c aa ≤ aa.length := by nlinarith
    exact_mod_cast this
  rw [falsePositive_eval hX haa hl, decide_eq_true (ht.trans (upper_half h0 (by linarith) h2 hle))]

/-- **C106.**  A design whose simulated power is at least its target (at least one half) passes the power check. -/
theorem C106_enough_power_passes (hX : Spec.ExactBinomial X) (r : ℝ) (hr : simulatedPower c.design s = .ok (some r))
    (h1 : 1 / 2 ≤ c.design.power.val) (hle : c.design.power.val ≤ r) (ht : c.threshold ≤ 1 / 2) :
    powerCheck X c s = .ok (some true) := by
  obtain ⟨aa, ab, haa, hab, hl, rfl⟩ := power_cases hr
  have hn : (0 : ℝ) < ab.length := by exact_mod_cast List.length_pos_iff.mpr hl
  have hc : (sigCount c ab : ℝ) ≤ ab.length := by exact_mod_cast sigCount_le c ab
  have hp1 : c.design.power.val ≤ 1 := hle.trans ((div_le_one hn).mpr hc)
  rw [le_div_iff₀ hn] at hle
  have hsub : ((ab.length - sigCount c ab : ℕ) : ℝ) = ab.length - sigCount c ab := Nat.cast_sub (sigCount_le c ab)
  have h2 : 2 * (ab.length - sigCount c ab) ≤ ab.length := by
    have : (2 : ℝ) * (ab.length - sigCount c ab : ℕ) ≤ ab.length := by
      rw [hsub]
      nlinarith
    exact_mod_cast this
  have h3 : ((ab.length - sigCount c ab : ℕ) : ℝ) ≤ ab.length * (1 - c.design.power.val) := by
    rw [hsub]
    nlinarith
  rw [power_eval hX haa hab hl, lower_reflect (sigCount_le c ab),
    decide_eq_true (ht.trans (upper_half (by linarith) (by linarith) h2 h3))]

/-- **C106.**  Fewer false positives among as many simulations: a design that passed the false positive check still passes. -/
theorem C106_fewer_false_positives (hX : Spec.ExactBinomial X) (s' : SimState) (aa aa' : List TestResult) (r r' : ℝ) (h : s.aa = some aa)
    (h' : s'.aa = some aa') (hlen : aa'.length = aa.length) (hr : falsePositiveRate c.design s = .ok (some r))
    (hr' : falsePositiveRate c.design s' = .ok (some r')) (h0 : 0 ≤ c.design.alpha.val) (h1 : c.design.alpha.val ≤ 1) (hle : r' ≤ r)
    (hpass : falsePositiveCheck X c s = .ok (some true)) : falsePositiveCheck X c s' = .ok (some true) := by
  obtain ⟨l, hl, hne, rfl⟩ := rate_cases hr
  obtain ⟨l', hl', hne', rfl⟩ := rate_cases hr'
  obtain rfl := Option.some.inj (h.symm.trans hl)
  obtain rfl := Option.some.inj (h'.symm.trans hl')
  have hn : (0 : ℝ) < aa.length := by exact_mod_cast List.length_pos_iff.mpr hne
  rw [hlen, div_le_div_iff_of_pos_right hn] at hle
  rw [falsePositive_eval hX h hne] at hpass
  rw [falsePositive_eval hX h' hne', hlen]
  simp only [Except.ok.injEq, Option.some.injEq, decide_eq_true_eq] at hpass ⊢
  exact hpass.trans (upper_anti h0 h1 _ (by exact_mod_cast hle))

/-- **C106.**  More power among as many simulations: a design that passed the power check still passes. -/
theorem C106_more_power (hX : Spec.ExactBinomial X) (s' : SimState) (ab ab' : List TestResult) (r r' : ℝ) (h : s.ab = some ab)
    (h' : s'.ab = some ab') (hlen : ab'.length = ab.length) (hr : simulatedPower c.design s = .ok (some r))
    (hr' : simulatedPower c.design s' = .ok (some r')) (h0 : 0 ≤ c.design.power.val) (h1 : c.design.power.val ≤ 1) (hle : r ≤ r')
    (hpass : powerCheck X c s = .ok (some true)) : powerCheck X c s' = .ok (some true) := by
  obtain ⟨aa, l, haa, hl, hne, rfl⟩ := power_cases hr
  obtain ⟨aa', l', haa', hl', hne', rfl⟩ := power_cases hr'
  obtain rfl := Option.some.inj (h.symm.trans hl)
  obtain rfl := Option.some.inj (h'.symm.trans hl')
  have hn : (0 : ℝ) < ab.length := by exact_mod_cast List.length_pos_iff.mpr hne
  rw [hlen, div_le_div_iff_of_pos_right hn] at hle
  have hle : sigCount c ab ≤ sigCount c ab' := by exact_mod_cast hle
  rw [power_eval hX haa h hne, lower_reflect (sigCount_le c ab)] at hpass
  rw [power_eval hX haa' h' hne', lower_reflect (sigCount_le c ab'), hlen]
  simp only [Except.ok.injEq, Option.some.injEq, decide_eq_true_eq] at hpass ⊢
  exact hpass.trans (upper_anti (by linarith) (by linarith) _ (by omega))

/-- **C106.**  If all `n` A/A simulations come out significant, the false positive check passes only if `alpha ^ n` reaches the threshold. -/
theorem C106_all_false_positives (hX : Spec.ExactBinomial X) (aa : List TestResult) (h : s.aa = some aa)
    (hr : falsePositiveRate c.design s = .ok (some 1)) :
    falsePositiveCheck X c s = .ok (some (decide (c.threshold ≤ c.design.alpha.val ^ aa.length))) := by
  obtain ⟨l, hl, hne, e⟩ := rate_cases hr
  obtain rfl := Option.some.inj (h.symm.trans hl)
  have hn : (0 : ℝ) < aa.length := by exact_mod_cast List.length_pos_iff.mpr hne
  rw [eq_div_iff hn.ne', one_mul] at e
  have e : aa.length = sigCount c aa := by exact_mod_cast e
  rw [falsePositive_eval hX h hne, ← e, upper_top]

/-- **C106.**  If none of `n` A/B simulations comes out significant, the power check passes only if `(1 - power) ^ n` reaches the threshold. -/
theorem C106_no_power (hX : Spec.ExactBinomial X) (ab : List TestResult) (h : s.ab = some ab)
    (hr : simulatedPower c.design s = .ok (some 0)) :
    powerCheck X c s = .ok (some (decide (c.threshold ≤ (1 - c.design.power.val) ^ ab.length))) := by
  obtain ⟨aa, l, haa, hl, hne, e⟩ := power_cases hr
  obtain rfl := Option.some.inj (h.symm.trans hl)
  have hn : (0 : ℝ) < ab.length := by exact_mod_cast List.length_pos_iff.mpr hne
  have e : sigCount c ab = 0 := by
    rcases div_eq_zero_iff.mp e.symm with h | h
    · exact_mod_cast h
    · exact absurd h hn.ne'
  rw [power_eval hX haa h hne, e, lower_reflect (by omega), Nat.sub_zero, upper_top]

/-- The results `l S` of `n` simulations, one for each set `S` of simulations that come out significant. -/
def Spec.Outcomes (alpha : ℝ) (n : ℕ) (l : Finset (Fin n) → List TestResult) : Prop :=
  ∀ S, ∃ res : Fin n → TestResult, l S = List.ofFn res ∧ ∀ i, Fl.lt (res i).pValue (.fin alpha) = true ↔ i ∈ S

theorem outcomes_count {n : ℕ} {l : Finset (Fin n) → List TestResult} (h : Spec.Outcomes c.design.alpha.val n l) (S : Finset (Fin n)) :
    (l S).length = n ∧ sigCount c (l S) = S.card := by
  obtain ⟨res, hres, hS⟩ := h S
  rw [hres]
  refine ⟨List.length_ofFn, ?_⟩
  unfold sigCount
  rw [List.ofFn_eq_map, List.countP_map, List.countP_eq_length_filter]
  have hnd : ((List.finRange n).filter ((fun r => Fl.lt r.pValue (.fin c.design.alpha.val)) ∘ res)).Nodup := (List.nodup_finRange n).filter _
  rw [← List.toFinset_card_of_nodup hnd]
  congr 1
  ext i
  simp [hS]

/-- **C106, false alarms.**  Let every A/A simulation be significant with probability alpha, independently.  The probability that the false
positive check fails is at most the threshold. -/
theorem C106_false_positive_alarms (hX : Spec.ExactBinomial X) (n : ℕ) (hn : 0 < n) (h0 : 0 ≤ c.design.alpha.val) (h1 : c.design.alpha.val ≤ 1)
    (ht : 0 ≤ c.threshold) (st : Finset (Fin n) → SimState) (l : Finset (Fin n) → List TestResult)
    (hl : Spec.Outcomes c.design.alpha.val n l) (hst : ∀ S, (st S).aa = some (l S)) :
    ∑ S ∈ Finset.univ.filter (fun S => falsePositiveCheck X c (st S) ≠ .ok (some true)),
      c.design.alpha.val ^ S.card * (1 - c.design.alpha.val) ^ (n - S.card) ≤ c.threshold := by
  have hv : ∀ S ∈ (Finset.univ : Finset (Finset (Fin n))), falsePositiveCheck X c (st S) ≠ .ok (some true) ↔
      upperP n c.design.alpha.val S.card < c.threshold := by
    intro S _
    obtain ⟨e1, e2⟩ := outcomes_count hl S
    have hne : l S ≠ [] := by
      intro e
      rw [e] at e1
      simp at e1
      omega
    rw [falsePositive_eval hX (hst S) hne, e1, e2]
    simp
  rw [Finset.filter_congr hv]
  refine le_trans (le_of_eq ?_) (upper_alarms (n := n) h0 h1 ht)
  rw [Finset.sum_filter, ← Finset.powerset_univ, Finset.sum_powerset_apply_card (fun k => if upperP n c.design.alpha.val k < c.threshold then
    c.design.alpha.val ^ k * (1 - c.design.alpha.val) ^ (n - k) else 0), Finset.sum_filter, Finset.card_univ, Fintype.card_fin]
  refine Finset.sum_congr rfl fun k _ => ?_
  unfold pmfAt
  split_ifs
  · rw [nsmul_eq_mul]
    ring
  · simp

/-- **C106, false alarms.**  Let every A/B simulation be significant with probability power, independently.  The probability that the power
check fails is at most the threshold. -/
theorem C106_power_alarms (hX : Spec.ExactBinomial X) (n : ℕ) (hn : 0 < n) (h0 : 0 ≤ c.design.power.val) (h1 : c.design.power.val ≤ 1)
    (ht : 0 ≤ c.threshold) (st : Finset (Fin n) → SimState) (l : Finset (Fin n) → List TestResult)
    (hl : Spec.Outcomes c.design.alpha.val n l) (hst : ∀ S, (st S).aa.isSome ∧ (st S).ab = some (l S)) :
    ∑ S ∈ Finset.univ.filter (fun S => powerCheck X c (st S) ≠ .ok (some true)),
      c.design.power.val ^ S.card * (1 - c.design.power.val) ^ (n - S.card) ≤ c.threshold := by
  have hv : ∀ S ∈ (Finset.univ : Finset (Finset (Fin n))), powerCheck X c (st S) ≠ .ok (some true) ↔
      lowerP n c.design.power.val S.card < c.threshold := by
    intro S _
    obtain ⟨e1, e2⟩ := outcomes_count hl S
    have hne : l S ≠ [] := by
      intro e
      rw [e] at e1
      simp at e1
      omega
    obtain ⟨aa, haa⟩ := Option.isSome_iff_exists.mp (hst S).1
    rw [power_eval hX haa (hst S).2 hne, e1, e2]
    simp
  rw [Finset.filter_congr hv]
  refine le_trans (le_of_eq ?_) (lower_alarms (n := n) h0 h1 ht)
  rw [Finset.sum_filter, ← Finset.powerset_univ, Finset.sum_powerset_apply_card (fun k => if lowerP n c.design.power.val k < c.threshold then
    c.design.power.val ^ k * (1 - c.design.power.val) ^ (n - k) else 0), Finset.sum_filter, Finset.card_univ, Fintype.card_fin]
  refine Finset.sum_congr rfl fun k _ => ?_
  unfold pmfAt
  split_ifs
  · rw [nsmul_eq_mul]
    ring
  · simp

/-! ### Examples -/

/-- A result with a given p-value. -/
noncomputable def resultOf (p : ℝ) : TestResult :=
  ⟨false, 1 / 20, .fin p, .nan, .nan, .nan, .nan, none, none, none, .nan, 0, .nan, .nan⟩

/-- A state with given p-values of the A/A and A/B simulations. -/
noncomputable def stateOf (aa ab : List ℝ) : SimState :=
  ⟨⟨[], []⟩, none, none, none, none, some (aa.map resultOf), some (ab.map resultOf)⟩

/-- A configuration with given alpha, power and threshold. -/
noncomputable def configOf (alpha power threshold : ℝ) : SimConfig :=
  ⟨⟨⟨100, 8, "clicks", 0, false, .int 0, .int 0, .int 0, none, .float alpha, .float power, none⟩, 100, 100⟩, "item_id", "week_id", "time_period", "treatment",
    0, 8, threshold⟩

theorem sigCount_map (a b θ : ℝ) (l : List ℝ) : sigCount (configOf a b θ) (l.map resultOf) = l.countP (fun p => decide (p < a)) := by
  unfold sigCount
  rw [List.countP_map]
  rfl

theorem rate_eval (a b θ : ℝ) (aa ab : List ℝ) (h : aa ≠ []) :
    falsePositiveRate (configOf a b θ).design (stateOf aa ab) = .ok (some ((aa.countP (fun p => decide (p < a)) : ℝ) / aa.length)) := by
  unfold falsePositiveRate stateOf
  simp only
  rw [significant_eq (c := configOf a b θ) (by simpa using h), sigCount_map, List.length_map]
  rfl

theorem powerRate_eval (a b θ : ℝ) (aa ab : List ℝ) (h : ab ≠ []) :
    simulatedPower (configOf a b θ).design (stateOf aa ab) = .ok (some ((ab.countP (fun p => decide (p < a)) : ℝ) / ab.length)) := by
  unfold simulatedPower stateOf abResults
  simp only [bind, Except.bind]
  rw [significant_eq (c := configOf a b θ) (by simpa using h), sigCount_map, List.length_map]
  rfl

/-- The exact binomial tests. -/
noncomputable def exactTests : RobustnessTests := ⟨fun _ => .nan, binomTail, fun _ _ => .nan⟩

theorem exactTests_ok : Spec.ExactBinomial exactTests := fun _ _ _ _ => rfl

/-- One significant A/A simulation in twenty is within alpha = 0.05. -/
example : falsePositiveCheck exactTests (configOf (1 / 20) (4 / 5) (1 / 20)) (stateOf (1 / 100 :: List.replicate 19 (1 / 2)) []) = .ok (some true) := by
  refine C106_rate_within_alpha_passes exactTests_ok (1 / 20) ?_ ?_ ?_ ?_
  · rw [rate_eval _ _ _ _ _ (by simp)]
    have : (1 / 100 :: List.replicate 19 (1 / 2) : List ℝ).countP (fun p => decide (p < 1 / 20)) = 1 := by
      rw [List.countP_cons, List.countP_replicate]
      norm_num
    rw [this]
    norm_num
  · show (1 / 20 : ℝ) ≤ 1 / 2
    norm_num
  · exact le_refl _
  · show (1 / 20 : ℝ) ≤ 1 / 2
    norm_num

/-- Four significant A/B simulations of five reach the power 0.8. -/
example : powerCheck exactTests (configOf (1 / 20) (4 / 5) (1 / 20)) (stateOf [] (1 / 2 :: List.replicate 4 (1 / 100))) = .ok (some true) := by
  refine C106_enough_power_passes exactTests_ok (4 / 5) ?_ ?_ ?_ ?_
  · rw [powerRate_eval _ _ _ _ _ (by simp)]
    have : (1 / 2 :: List.replicate 4 (1 / 100) : List ℝ).countP (fun p => decide (p < 1 / 20)) = 4 := by
      rw [List.countP_cons, List.countP_replicate]
      norm_num
    rw [this]
    norm_num
  · show (1 / 2 : ℝ) ≤ 4 / 5
    norm_num
  · exact le_refl _
  · show (1 / 20 : ℝ) ≤ 1 / 2
    norm_num

/-- All of three A/A simulations significant: refused. -/
example : falsePositiveCheck exactTests (configOf (1 / 20) (4 / 5) (1 / 1000)) (stateOf (List.replicate 3 (1 / 100)) []) = .ok (some false) := by
  rw [C106_all_false_positives exactTests_ok _ rfl]
  · have : ¬ ((1 : ℝ) / 1000 ≤ (1 / 20) ^ (List.map resultOf (List.replicate 3 (1 / 100))).length) := by
      rw [List.length_map, List.length_replicate]
      norm_num
    exact congrArg (fun b => Except.ok (some b)) (decide_eq_false this)
  · rw [rate_eval _ _ _ _ _ (by simp), List.countP_replicate]
    norm_num

/-- None of five A/B simulations significant: refused. -/
example : powerCheck exactTests (configOf (1 / 20) (4 / 5) (1 / 1000)) (stateOf [] (List.replicate 5 (1 / 2))) = .ok (some false) := by
  rw [C106_no_power exactTests_ok _ rfl]
  · have : ¬ ((1 : ℝ) / 1000 ≤ (1 - 4 / 5) ^ (List.map resultOf (List.replicate 5 (1 / 2))).length) := by
      rw [List.length_map, List.length_replicate]
      norm_num
    exact congrArg (fun b => Except.ok (some b)) (decide_eq_false this)
  · rw [powerRate_eval _ _ _ _ _ (by simp), List.countP_replicate]
    norm_num

/-- The outcomes of `n` simulations exist. -/
theorem outcomes_exist (n : ℕ) : Spec.Outcomes (1 / 20) n (fun S => List.ofFn (fun i => resultOf (if i ∈ S then 1 / 100 else 1 / 2))) := by
  intro S
  refine ⟨_, rfl, ?_⟩
  intro i
  by_cases h : i ∈ S
  · simp only [h, if_true, iff_true, resultOf, Fl.lt, decide_eq_true_eq]
    norm_num
  · simp only [h, if_false, iff_false, resultOf, Fl.lt, decide_eq_true_eq]
    norm_num

end Feedx
