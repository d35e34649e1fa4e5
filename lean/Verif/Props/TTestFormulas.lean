import Verif.Props.TTestSymmetry
import Verif.Spec.Yuen

/-!
Property C83: what the two t-tests report, in terms of textbook sample summaries.
-/

set_option linter.unusedSectionVars false
set_option linter.unusedSimpArgs false

namespace Feedx

open Fl

theorem Spec.Trimmed.map {α β : Type} {key : β → ℝ} {g : ℕ} {all kept : List α} (f : α → β)
    (h : Spec.Trimmed (fun a => key (f a)) g all kept) : Spec.Trimmed key g (all.map f) (kept.map f) := by
  obtain ⟨hs, low, high, hp, h1, h2, h3, h4⟩ := h
  refine ⟨hs.map f, low.map f, high.map f, ?_, by simpa, by simpa, ?_, ?_⟩
  · have := hp.map f
    simpa using this
  · intro x hx y hy
    rw [← List.map_append] at hy
    obtain ⟨x', hx', rfl⟩ := List.mem_map.mp hx
    obtain ⟨y', hy', rfl⟩ := List.mem_map.mp hy
    exact h3 x' hx' y' hy'
  · intro x hx y hy
    rw [← List.map_append] at hy
    obtain ⟨x', hx', rfl⟩ := List.mem_map.mp hx
    obtain ⟨y', hy', rfl⟩ := List.mem_map.mp hy
    exact h4 x' hx' y' hy'

theorem exists_extremes {l : List ℝ} (h : l ≠ []) : ∃ lo hi, Spec.Extremes l lo hi := by
  induction l with
  | nil => exact absurd rfl h
  | cons a l ih =>
    by_cases hl : l = []
    · subst hl; exact ⟨a, a, by simp [Spec.Extremes]⟩
    · obtain ⟨lo, hi, h1, h2, h3⟩ := ih hl
      refine ⟨min a lo, max a hi, ?_, ?_, ?_⟩
      · rcases min_choice a lo with e | e <;> rw [e] <;> simp [h1]
      · rcases max_choice a hi with e | e <;> rw [e] <;> simp [h2]
      · intro x hx
        rcases List.mem_cons.mp hx with rfl | hx
        · exact ⟨min_le_left _ _, le_max_left _ _⟩
        · exact ⟨(min_le_right _ _).trans (h3 x hx).1, (h3 x hx).2.trans (le_max_right _ _)⟩

/-- Row 0 of a trimmed stack has the textbook summary. -/
theorem summary_of {R : Rounding ℝ} {argsort : List ℝ → List ℕ} (ha : ArgsortOk argsort) {m : ℕ}
    {cols : List (Fin (m + 1) → ℝ)} {q : ℝ} {T : TrimmedArray ℝ m} (h : mkTrimmed R argsort cols q = .ok T)
    (hl : 1 < T.len) :
    ∃ g : ℕ, ∃ ss : ℝ, (g : ℤ) = ⌊R.rnd (q * (cols.length : ℝ))⌋ ∧
      Spec.YuenSummary g (rowOf cols 0) T.len (T.mean 0) ss ∧ T.var 1 0 = ss / ((T.len : ℝ) - 1) ∧ 0 ≤ ss := by
  obtain ⟨e0, e1, e2, e3⟩ := C16_trims_exactly_the_extremes R argsort ha m cols q T h
  have hne : rowOf T.trimmed 0 ≠ [] := by
    intro hc
    have : (rowOf T.trimmed 0).length = 0 := by rw [hc]; rfl
    rw [length_rowOf] at this
    unfold TrimmedArray.len at hl; omega
  obtain ⟨lo, hi, hext⟩ := exists_extremes hne
  obtain ⟨-, hv⟩ := C18_winsorized_statistics R argsort ha m cols q T h lo hi hext 1
  refine ⟨T.nTrim, Spec.sumSqDev ((rowOf cols 0).map (Spec.clip lo hi)), e1,
    ⟨rowOf T.trimmed 0, lo, hi, Spec.Trimmed.map (key := id) (fun c : Fin (m + 1) → ℝ => c 0) e2, hext, length_rowOf _ _, ?_, rfl⟩, ?_, ?_⟩
  · unfold TrimmedArray.mean Spec.mean TrimmedArray.len
    rw [length_rowOf]
  · rw [hv]; simp [TrimmedArray.len]
  · unfold Spec.sumSqDev
    exact List.sum_nonneg (by
      intro x hx
      obtain ⟨y, -, rfl⟩ := List.mem_map.mp hx
      positivity)

/-- The relative results. -/
theorem resultsFrom_relative {D : TDist} {e : Estimates} {pf : Bool} {alt : String} {α : ℝ} {r : TestResult}
    {m1 m2 : ℝ} (h1 : e.mean1 = fin m1) (h2 : e.mean2 = fin m2) (h : resultsFrom D e pf alt α = .ok r) :
    (0 ≤ m1 ∧ 0 ≤ m2 → r.relativeDifference = some (fin m1 / fin m2 - fin 1) ∧
      ∃ l u, r.relativeLower = some l ∧ r.relativeUpper = some u ∧
        relativeCI D (fin m1) (fin m2) e.se1 e.se2 e.corr e.df alt α = .ok (l, u)) ∧
    (¬ (0 ≤ m1 ∧ 0 ≤ m2) → r.relativeDifference = none ∧ r.relativeLower = none ∧ r.relativeUpper = none) := by
  unfold resultsFrom at h
  obtain ⟨sp, -, h⟩ := Py.bind_eq_ok.mp h
  obtain ⟨ci, -, h⟩ := Py.bind_eq_ok.mp h
  dsimp only at h
  simp only [h1, h2, le_fin, Bool.and_eq_true, decide_eq_true_eq] at h
  split_ifs at h with hc
  · obtain ⟨-, h⟩ := raiseIf_bind_ok.mp h
    obtain ⟨rel, hrel, h⟩ := Py.bind_eq_ok.mp h
    cases h
    exact ⟨fun _ => ⟨rfl, rel.1, rel.2, rfl, rfl, hrel⟩, fun hn => absurd hc hn⟩
  · cases h
    exact ⟨fun hp => absurd hp hc, fun _ => ⟨rfl, rfl, rfl⟩⟩

/-- **C83, independent test of a plain metric.** After cutting `floor(q * n)` values at each end of each sample, the reported difference is the
difference of the trimmed means, the control average is the trimmed mean of the second sample, the sample size counts the kept values, the
standard error and degrees of freedom are those of Yuen's test (pooled, or by Welch and Satterthwaite), the statistic is difference over
standard error, and the relative difference is `mean1 / mean2 - 1`, present exactly when no mean is negative. -/
theorem C83_independent_test_reports (R : Rounding ℝ) (argsort : List ℝ → List ℕ) (ha : ArgsortOk argsort) (D : TDist)
    (values1 values2 : List ℝ) (q : ℝ) (equalVar : Bool) (alternative : String) (alpha : ℝ) (r : TestResult)
    (h : indTest R argsort D values1 values2 q none none equalVar alternative alpha = .ok r) :
    ∃ g1 g2 h1 h2 : ℕ, ∃ mu1 mu2 ss1 ss2 : ℝ,
      (g1 : ℤ) = ⌊R.rnd (q * (values1.length : ℝ))⌋ ∧ (g2 : ℤ) = ⌊R.rnd (q * (values2.length : ℝ))⌋ ∧
      Spec.YuenSummary g1 values1 h1 mu1 ss1 ∧ Spec.YuenSummary g2 values2 h2 mu2 ss2 ∧
      r.absoluteDifference = fin (mu1 - mu2) ∧ r.controlAverage = fin mu2 ∧ r.sampleSize = h1 + h2 ∧
      r.statistic = r.absoluteDifference / r.standardError ∧ r.alpha = alpha ∧
      (equalVar = true → r.standardError = fin (Real.sqrt (Spec.pooledVar h1 ss1 h2 ss2)) ∧
        r.degreesOfFreedom = fin ((h1 : ℝ) + h2 - 2)) ∧
      (equalVar = false →
        r.standardError = fin (Real.sqrt (Spec.yuenVar h1 ss1 + Spec.yuenVar h2 ss2)) ∧
        (r.standardError ≠ fin 0 →
          r.degreesOfFreedom = fin (Spec.welchDf h1 (Spec.yuenVar h1 ss1) h2 (Spec.yuenVar h2 ss2)))) ∧
      (0 ≤ mu1 ∧ 0 ≤ mu2 → r.relativeDifference = some (fin mu1 / fin mu2 - fin 1)) ∧
      (¬ (0 ≤ mu1 ∧ 0 ≤ mu2) → r.relativeDifference = none) := by
  rcases indTest_ok h with ⟨x1, x2, e1, -⟩ | ⟨-, -, T1, T2, t1, t2, hl1, hl2, hr⟩
  · cases e1
  obtain ⟨g1, ss1, k1, s1, v1, p1⟩ := summary_of ha t1 hl1
  obtain ⟨g2, ss2, k2, s2, v2, p2⟩ := summary_of ha t2 hl2
  rw [length_asStack] at k1 k2
  rw [row0_asStack] at s1 s2
  obtain ⟨hk, a1, a2, a3, a4, a5, a6, a7, a8, a9, a10⟩ := resultsFrom_ok hr
  obtain ⟨b1, b2⟩ := resultsFrom_relative (m1 := T1.mean 0) (m2 := T2.mean 0) rfl rfl hr
  have r1 : (1 : ℝ) < T1.len := by exact_mod_cast hl1
  have r2 : (1 : ℝ) < T2.len := by exact_mod_cast hl2
  have n1 : (0 : ℝ) < T1.len := by linarith
  have n2 : (0 : ℝ) < T2.len := by linarith
  have m1 : (0 : ℝ) < (T1.len : ℝ) - 1 := by linarith
  have m2 : (0 : ℝ) < (T2.len : ℝ) - 1 := by linarith
  have m3 : (0 : ℝ) < (T1.len : ℝ) + T2.len - 2 := by linarith
  have w1 : 0 ≤ ss1 / ((T1.len : ℝ) - 1) := by positivity
  have w2 : 0 ≤ ss2 / ((T2.len : ℝ) - 1) := by positivity
  have hsq : ∀ w : ℝ, 0 ≤ w → (fin w).sqrt.sq = fin w := by
    intro w hw; rw [sqrt_fin hw, sq_fin, Real.mul_self_sqrt hw]
  refine ⟨g1, g2, T1.len, T2.len, T1.mean 0, T2.mean 0, ss1, ss2, k1, k2, s1, s2, ?_, a10, a8, ?_, a4, ?_, ?_, ?_, ?_⟩
  · rw [a5]; simp [indEstimates]
  · rw [a1, a5, a7]
  · intro hev
    rw [a7, a9, v1, v2, hev]
    simp only [indEstimates, twoSampleSE, twoSampleDf, if_true, hsq _ w1, hsq _ w2, fin_sub, fin_mul, fin_add]
    rw [mul_div_cancel₀ _ m1.ne', mul_div_cancel₀ _ m2.ne', fin_div_ne m3.ne', fin_div_ne n1.ne', fin_div_ne n2.ne',
      fin_add, sqrt_fin (by positivity)]
    refine ⟨?_, trivial⟩
    congr 2
    unfold Spec.pooledVar
    ring
  · intro hev
    have hse : r.standardError = fin (Real.sqrt (Spec.yuenVar T1.len ss1 + Spec.yuenVar T2.len ss2)) := by
      rw [a7, v1, v2, hev]
      simp only [indEstimates, twoSampleSE, Bool.false_eq_true, if_false, hsq _ w1, hsq _ w2]
      rw [fin_div_ne n1.ne', fin_div_ne n2.ne', fin_add, sqrt_fin (by positivity)]
      congr 2
      unfold Spec.yuenVar
      rw [div_div, div_div, mul_comm (T1.len : ℝ), mul_comm (T2.len : ℝ)]
    refine ⟨hse, ?_⟩
    intro hne
    rw [hse] at hne
    have y1 : 0 ≤ Spec.yuenVar T1.len ss1 := by unfold Spec.yuenVar; positivity
    have y2 : 0 ≤ Spec.yuenVar T2.len ss2 := by unfold Spec.yuenVar; positivity
    have hpos : 0 < Spec.yuenVar T1.len ss1 + Spec.yuenVar T2.len ss2 := by
      rcases (add_nonneg y1 y2).eq_or_lt with h0 | h0
      · rw [← h0, Real.sqrt_zero] at hne; exact absurd rfl hne
      · exact h0
    have hden : Spec.yuenVar T1.len ss1 ^ 2 / ((T1.len : ℝ) - 1) + Spec.yuenVar T2.len ss2 ^ 2 / ((T2.len : ℝ) - 1) ≠ 0 := by
      intro h0
      have q1 : 0 ≤ Spec.yuenVar T1.len ss1 ^ 2 / ((T1.len : ℝ) - 1) := by positivity
      have q2 : 0 ≤ Spec.yuenVar T2.len ss2 ^ 2 / ((T2.len : ℝ) - 1) := by positivity
      have z1 : Spec.yuenVar T1.len ss1 ^ 2 / ((T1.len : ℝ) - 1) = 0 := by linarith
      have z2 : Spec.yuenVar T2.len ss2 ^ 2 / ((T2.len : ℝ) - 1) = 0 := by linarith
      rw [div_eq_zero_iff] at z1 z2
      have z1' := pow_eq_zero_iff (two_ne_zero) |>.mp (z1.resolve_right m1.ne')
      have z2' := pow_eq_zero_iff (two_ne_zero) |>.mp (z2.resolve_right m2.ne')
      rw [z1', z2', add_zero] at hpos
      exact lt_irrefl _ hpos
    rw [a9, v1, v2, hev]
    simp only [indEstimates, twoSampleDf, Bool.false_eq_true, if_false, hsq _ w1, hsq _ w2]
    have d1 : ss1 / ((T1.len : ℝ) - 1) / T1.len = Spec.yuenVar T1.len ss1 := by
      unfold Spec.yuenVar; rw [div_div, mul_comm (T1.len : ℝ)]
    have d2 : ss2 / ((T2.len : ℝ) - 1) / T2.len = Spec.yuenVar T2.len ss2 := by
      unfold Spec.yuenVar; rw [div_div, mul_comm (T2.len : ℝ)]
    rw [fin_div_ne n1.ne', fin_div_ne n2.ne', d1, d2]
    simp only [fin_add, fin_sub, sq_fin]
    rw [fin_div_ne m1.ne', fin_div_ne m2.ne', fin_add, ← _root_.sq, ← _root_.sq, ← _root_.sq, fin_div_ne hden]
    rfl
  · exact fun hp => (b1 hp).1
  · exact fun hp => (b2 hp).1

theorem map_pairs_stack3 (a b : List ℝ) : (stack3 a b).map (fun c => (c 1, c 2)) = a.zip b := by
  induction a generalizing b with
  | nil => rfl
  | cons x a ih =>
    cases b with
    | nil => rfl
    | cons y b =>
      have := ih b
      unfold stack3 at this ⊢
      simp only [List.zipWith_cons_cons, List.map_cons, List.zip_cons_cons, this]
      rfl

theorem row0_stack3 (a b : List ℝ) : rowOf (stack3 a b) 0 = List.zipWith (· - ·) a b := by
  induction a generalizing b with
  | nil => rfl
  | cons x a ih =>
    cases b with
    | nil => rfl
    | cons y b =>
      have := ih b
      unfold stack3 rowOf at this ⊢
      simp only [List.zipWith_cons_cons, List.map_cons, this]
      rfl

/-- **C83, paired test of a plain metric.** The pairs with the `floor(q * n)` smallest and largest differences are cut; the reported difference is the
mean of the remaining differences, the control average the mean of the remaining control values, the relative difference the ratio of the
remaining means minus one, the standard error that of the trimmed mean of the differences, with one degree of freedom less than
remaining pairs. -/
theorem C83_paired_test_reports (R : Rounding ℝ) (argsort : List ℝ → List ℕ) (ha : ArgsortOk argsort) (D : TDist)
    (values1 values2 : List ℝ) (q : ℝ) (alternative : String) (alpha : ℝ) (r : TestResult)
    (h : pairedTest R argsort D values1 values2 q none none alternative alpha = .ok r) :
    ∃ g : ℕ, ∃ kept : List (ℝ × ℝ), ∃ ss : ℝ,
      (g : ℤ) = ⌊R.rnd (q * (values1.length : ℝ))⌋ ∧
      Spec.Trimmed (fun p => p.1 - p.2) g (values1.zip values2) kept ∧
      Spec.YuenSummary g (List.zipWith (· - ·) values1 values2) kept.length
        (Spec.mean (kept.map Prod.fst) - Spec.mean (kept.map Prod.snd)) ss ∧
      r.absoluteDifference = fin (Spec.mean (kept.map Prod.fst) - Spec.mean (kept.map Prod.snd)) ∧
      r.controlAverage = fin (Spec.mean (kept.map Prod.snd)) ∧ r.sampleSize = kept.length ∧
      r.standardError = fin (Real.sqrt (Spec.yuenVar kept.length ss)) ∧
      r.degreesOfFreedom = fin ((kept.length : ℝ) - 1) ∧
      r.statistic = r.absoluteDifference / r.standardError ∧ r.alpha = alpha ∧
      (0 ≤ Spec.mean (kept.map Prod.fst) ∧ 0 ≤ Spec.mean (kept.map Prod.snd) →
        r.relativeDifference = some (fin (Spec.mean (kept.map Prod.fst)) / fin (Spec.mean (kept.map Prod.snd)) - fin 1)) ∧
      (¬ (0 ≤ Spec.mean (kept.map Prod.fst) ∧ 0 ≤ Spec.mean (kept.map Prod.snd)) → r.relativeDifference = none) := by
  have hlen : values1.length = values2.length := by
    unfold pairedTest at h
    obtain ⟨h0, -⟩ := raiseIf_bind_ok.mp h
    exact not_not.mp h0
  rcases pairedTest_ok h with ⟨x1, x2, e1, -⟩ | ⟨-, -, T, hT, hl, hr⟩
  · cases e1
  have hcl : (stack3 values1 values2).length = values1.length := by simp [stack3, hlen]
  obtain ⟨-, e1, e2, -⟩ := C16_trims_exactly_the_extremes R argsort ha 2 _ q T hT
  obtain ⟨g, ss, k1, s1, v1, p1⟩ := summary_of ha hT hl
  have hg : g = T.nTrim := by
    have : (g : ℤ) = T.nTrim := by rw [k1, e1]
    exact_mod_cast this
  subst hg
  rw [hcl] at k1
  rw [row0_stack3] at s1
  obtain ⟨c1, c2, c3, -⟩ := pairedPlain_se ha hT hl
  have hm1 : T.mean 1 = Spec.mean ((T.trimmed.map (fun c => (c 1, c 2))).map Prod.fst) := by
    rw [List.map_map]; unfold TrimmedArray.mean Spec.mean TrimmedArray.len rowOf
    simp [Function.comp_def]
  have hm2 : T.mean 2 = Spec.mean ((T.trimmed.map (fun c => (c 1, c 2))).map Prod.snd) := by
    rw [List.map_map]; unfold TrimmedArray.mean Spec.mean TrimmedArray.len rowOf
    simp [Function.comp_def]
  have hkl : (T.trimmed.map (fun c => (c 1, c 2))).length = T.len := by simp [TrimmedArray.len]
  obtain ⟨hk, a1, a2, a3, a4, a5, a6, a7, a8, a9, a10⟩ := resultsFrom_ok hr
  obtain ⟨b1, b2⟩ := resultsFrom_relative (m1 := T.mean 1) (m2 := T.mean 2) rfl rfl hr
  refine ⟨T.nTrim, T.trimmed.map (fun c => (c 1, c 2)), ss, k1, ?_, ?_, ?_, ?_, ?_, ?_, ?_, ?_, a4, ?_, ?_⟩
  · rw [← map_pairs_stack3]
    refine Spec.Trimmed.map (fun c : Fin 3 → ℝ => (c 1, c 2)) ?_
    obtain ⟨hs, low, high, hp, l1, l2, l3, l4⟩ := e2
    have hall : ∀ c ∈ low ++ T.trimmed ++ high, c 0 = c 1 - c 2 := fun c hc => stack3_row c (hp.subset hc)
    refine ⟨hs, low, high, hp, l1, l2, ?_, ?_⟩
    · intro x hx y hy
      have := l3 x hx y hy
      dsimp only at this ⊢
      rw [hall x (by simp [hx]), hall y (by
        rcases List.mem_append.mp hy with hy | hy <;> simp [hy])] at this
      exact this
    · intro x hx y hy
      have := l4 x hx y hy
      dsimp only at this ⊢
      rw [hall x (by simp [hx]), hall y (by
        rcases List.mem_append.mp hy with hy | hy <;> simp [hy])] at this
      exact this
  · rw [hkl, ← hm1, ← hm2, ← c3]; exact s1
  · rw [a5, ← hm1, ← hm2, ← c3]; rfl
  · rw [a10, ← hm2]; rfl
  · rw [a8, hkl]; rfl
  · rw [a7, c1, hkl]
    have r1 : (1 : ℝ) < T.len := by exact_mod_cast hl
    have w1 : 0 ≤ ss / ((T.len : ℝ) - 1) := div_nonneg p1 (by linarith)
    have hcov : T.cov 1 0 0 = ss / ((T.len : ℝ) - 1) := v1
    rw [hcov, ← Real.sqrt_div w1]
    congr 2
    unfold Spec.yuenVar
    rw [div_div, mul_comm (T.len : ℝ)]
  · rw [a9, c2, hkl]
  · rw [a1, a5, a7]
  · rw [← hm1, ← hm2]; exact fun hp => (b1 hp).1
  · rw [← hm1, ← hm2]; exact fun hp => (b2 hp).1

/-- The hypotheses of C83 hold for concrete samples, trimmed (`q = 1/5` of five values cuts one at each end) or not. -/
example (argsort : List ℝ → List ℕ) (ha : ArgsortOk argsort) (D : TDist) (ev : Bool) :
    (pairedTest (Rounding.exact ℝ) argsort D [4, 1, 7, 2, 9] [3, 1, 2, 8, 5] (1 / 5) none none "two-sided" (1 / 20)).Returns ∧
    (indTest (Rounding.exact ℝ) argsort D [4, 1, 7, 2] [3, 1, 2] 0 none none ev "two-sided" (1 / 20)).Returns := by
  constructor
  · have hf : ⌊(Rounding.exact ℝ).rnd (1 / 5 * ((5 : ℕ) : ℝ))⌋ = 1 := by
      simp [Rounding.exact]
    refine (C34_tests_return_partial (Rounding.exact ℝ) argsort ha D [4, 1, 7, 2, 9] [3, 1, 2, 8, 5] (1 / 5) (by norm_num)
      (by norm_num) true "two-sided" (by simp) (1 / 20) (by simp) (by simp) ?_ ?_).1 rfl
    · simp only [List.length_cons, List.length_nil, Nat.reduceAdd, hf]; norm_num
    · simp only [List.length_cons, List.length_nil, Nat.reduceAdd, hf]; norm_num
  · obtain ⟨⟨r, s, h, -⟩, -⟩ := example_results (Rounding.exact ℝ) argsort D ev "two-sided" (by simp [KnownAlt]) (1 / 20)
    exact ⟨r, h⟩

end Feedx
