import Verif.Proofs.TTestResults

/-!
Properties C26, C28-C30 and C34 of the two t-tests.
-/

set_option linter.unusedSectionVars false
set_option linter.unusedSimpArgs false

namespace Feedx

open Fl

/-! ### C26, C30 -/

/-- **C26, independent test.** For plain and ratio metrics, equal or unequal variances, every alternative and level:
whenever the standard error is a positive number, the result is significant exactly when zero lies strictly outside
the reported interval. -/
theorem C26_independent_test (R : Rounding ℝ) (argsort : List ℝ → List ℕ) (D : TDist)
    (values1 values2 : List ℝ) (q : ℝ) (denom1 denom2 : Option (List ℝ)) (equalVar : Bool)
    (alternative : String) (alpha : ℝ) (h0 : 0 < alpha) (h1 : alpha < 1) (r : TestResult)
    (h : indTest R argsort D values1 values2 q denom1 denom2 equalVar alternative alpha = .ok r)
    (s : ℝ) (hs : 0 < s) (hse : r.standardError = fin s) :
    r.isSignificant = true ↔ Spec.ExcludesZero r.absoluteLower r.absoluteUpper := by
  obtain ⟨hk, d, df, hdf, a1, a2, a3, a4, a5⟩ := indTest_finite h hs hse
  rw [a4, a3, sig_iff_excludes D hs hdf h0 h1 hk, ← a5]

/-- **C26, paired test (part).** The same for the paired test, provided the reported bounds are not nan.  Missing: samples for
which the bounds are nan, see `C26_paired_test_false`. -/
theorem C26_paired_test_partial (R : Rounding ℝ) (argsort : List ℝ → List ℕ) (ha : ArgsortOk argsort)
    (D : TDist) (values1 values2 : List ℝ) (q : ℝ) (denom1 denom2 : Option (List ℝ)) (alternative : String)
    (alpha : ℝ) (h0 : 0 < alpha) (h1 : alpha < 1) (r : TestResult)
    (h : pairedTest R argsort D values1 values2 q denom1 denom2 alternative alpha = .ok r)
    (s : ℝ) (hs : 0 < s) (hse : r.standardError = fin s)
    (hl : r.absoluteLower ≠ nan) (hu : r.absoluteUpper ≠ nan) :
    r.isSignificant = true ↔ Spec.ExcludesZero r.absoluteLower r.absoluteUpper := by
  obtain ⟨hk, d, hn, a1, a2, a3, a4, a5⟩ := pairedTest_finite ha h hse hl hu
  have hdf : (0 : ℝ) < (r.sampleSize : ℝ) - 1 := by
    have : (1 : ℝ) < r.sampleSize := by exact_mod_cast hn
    linarith
  rw [a4, a3, sig_iff_excludes D hs hdf h0 h1 hk, ← a5]

/-- Trimmed array of the samples `[1, 3]` and `[0, 0]`. -/
noncomputable def constantControl : TrimmedArray ℝ 2 :=
  ⟨stack3 [1, 3] [0, 0], 0, stack3 [1, 3] [0, 0]⟩

theorem constantControl_stats : constantControl.mean 0 = 2 ∧ constantControl.mean 1 = 2 ∧
    constantControl.mean 2 = 0 ∧ constantControl.cov 1 0 0 = 2 ∧ constantControl.cov 1 1 1 = 2 ∧
    constantControl.cov 1 2 2 = 0 ∧ constantControl.cov 1 1 2 = 0 ∧ constantControl.len = 2 := by
  simp only [constantControl, stack3, TrimmedArray.mean, TrimmedArray.cov, TrimmedArray.winsorizedMean,
    TrimmedArray.len, TrimmedArray.size, TrimmedArray.minValues, TrimmedArray.maxValues, rowOf]
  have e1 : (![1, 1, 0] : Fin 3 → ℝ) 2 = 0 := rfl
  have e2 : (![3, 3, 0] : Fin 3 → ℝ) 2 = 0 := rfl
  norm_num [e1, e2]

/-- **C26, C30, paired test: the code violates it.** With the constant control `[0, 0]` and the treatment values `[1, 3]`
the correlation is 0/0, so the interval is `[nan, nan]` for every level, while p-value and standard error are
ordinary numbers, and the result is significant for every level above the p-value. -/
theorem C26_paired_test_false (R : Rounding ℝ) (argsort : List ℝ → List ℕ) (D : TDist) :
    ∃ p : ℝ, 0 < p ∧ p < 1 ∧ ∀ alpha, p < alpha → alpha < 1 →
      ∃ r, pairedTest R argsort D [1, 3] [0, 0] 0 none none "two-sided" alpha = .ok r ∧
        r.standardError = fin 1 ∧ r.pValue = fin p ∧ r.isSignificant = true ∧
        r.absoluteLower = nan ∧ r.absoluteUpper = nan ∧
        ¬ Spec.ExcludesZero r.absoluteLower r.absoluteUpper := by
  obtain ⟨s0, s1, s2, c0, c1, c2, c3, hl⟩ := constantControl_stats
  have hk : KnownAlt "two-sided" := Or.inl rfl
  have hsq : Real.sqrt 2 ≠ 0 := by positivity
  have hse : (pairedPlain constantControl).differenceSE = fin 1 := by
    simp only [pairedPlain, oneSampleSE, TrimmedArray.var, c0, hl]
    rw [sqrt_fin (by norm_num), sqrt_fin (by norm_num)]
    rw [fin_div_ne (by push_cast; exact hsq)]
    push_cast
    rw [div_self hsq]
  have hcorr : (pairedPlain constantControl).corr = nan := by
    simp only [pairedPlain, c1, c2, c3, fin_mul, mul_zero]
    rw [sqrt_fin le_rfl, Real.sqrt_zero, fin_div, if_pos rfl]
    simp [infSign]
  have hdiff : (pairedPlain constantControl).difference = fin 2 := by simp [pairedPlain, s0]
  have hdf : (pairedPlain constantControl).df = fin 1 := by
    simp [pairedPlain, oneSampleDf, hl]; norm_num
  have hp : pOf D (fin 1) (fin 2 / fin 1) "two-sided" = fin (2 * D.cdf 1 (-2)) := by
    rw [fin_div_ne one_ne_zero]
    simp only [pOf, if_true, abs_fin, fin_neg, D.cdfFl_fin one_pos, fin_mul]
    norm_num
  have hlt : D.cdf 1 (-2) < 1 / 2 := by
    rw [← D.cdf_zero one_pos]; exact D.strictMono 1 one_pos (by norm_num)
  have hpos := D.pos 1 one_pos (-2)
  refine ⟨2 * D.cdf 1 (-2), by linarith, by linarith, ?_⟩
  intro alpha ha1 ha2
  obtain ⟨r, hr⟩ := resultsFrom_returns (D := D) (e := pairedPlain constantControl) (pf := false) (α := alpha) hk
    (by simp)
  obtain ⟨-, a1, a2, a3, a4, a5, a6, a7, a8, a9, a10⟩ := resultsFrom_ok hr
  have hb : (r.absoluteLower, r.absoluteUpper) = (nan, nan) := by
    rw [a6, hcorr, ciSE_nan_corr]
    simp [boundsOf, mul_nan, sub_nan, add_nan]
  have hp' : r.pValue = fin (2 * D.cdf 1 (-2)) := by rw [a2, hdf, hdiff, hse, hp]
  have e1 : r.absoluteLower = nan := congrArg Prod.fst hb
  have e2 : r.absoluteUpper = nan := congrArg Prod.snd hb
  refine ⟨r, ?_, by rw [a7, hse], hp', ?_, e1, e2, ?_⟩
  · unfold pairedTest
    rw [raiseIf_bind_ok]
    refine ⟨by simp, ?_⟩
    simp only [mkTrimmed_zero]
    show (raiseIf .outOfModel (constantControl.len ≤ 1) >>= fun _ =>
      resultsFrom D (pairedPlain constantControl) false "two-sided" alpha) = _
    rw [raiseIf_bind_ok]
    exact ⟨by rw [hl]; norm_num, hr⟩
  · rw [a3, hp']; simp only [lt_fin, decide_eq_true_eq]; exact ha1
  · rw [e1, e2]; simp [Spec.ExcludesZero, Fl.lt]

/-- **C30 (part).** Whenever the paired test reports a finite standard error `s` and bounds that are not nan, the
interval is the one built from the reported difference and that same `s` with `n - 1` degrees of freedom.  Missing: the cases
where the bounds are nan (see `C26_paired_test_false`). -/
theorem C30_interval_uses_reported_standard_error_partial (R : Rounding ℝ) (argsort : List ℝ → List ℕ)
    (ha : ArgsortOk argsort) (D : TDist) (values1 values2 : List ℝ) (q : ℝ)
    (denom1 denom2 : Option (List ℝ)) (alternative : String)
    (alpha : ℝ) (h0 : 0 < alpha) (h1 : alpha < 1) (r : TestResult)
    (h : pairedTest R argsort D values1 values2 q denom1 denom2 alternative alpha = .ok r)
    (s : ℝ) (hse : r.standardError = fin s)
    (hl : r.absoluteLower ≠ nan) (hu : r.absoluteUpper ≠ nan) :
    ∃ d : ℝ, r.absoluteDifference = fin d ∧ r.degreesOfFreedom = fin ((r.sampleSize : ℝ) - 1) ∧
      (alternative = "two-sided" →
        r.absoluteLower = fin (d - D.ppf ((r.sampleSize : ℝ) - 1) (1 - alpha / 2) * s) ∧
        r.absoluteUpper = fin (d + D.ppf ((r.sampleSize : ℝ) - 1) (1 - alpha / 2) * s)) ∧
      (alternative = "greater" →
        r.absoluteLower = fin (d - D.ppf ((r.sampleSize : ℝ) - 1) (1 - alpha) * s) ∧ r.absoluteUpper = pinf) ∧
      (alternative = "less" →
        r.absoluteLower = ninf ∧ r.absoluteUpper = fin (d + D.ppf ((r.sampleSize : ℝ) - 1) (1 - alpha) * s)) := by
  obtain ⟨hk, d, hn, a1, a2, a3, a4, a5⟩ := pairedTest_finite ha h hse hl hu
  have hdf : (0 : ℝ) < (r.sampleSize : ℝ) - 1 := by
    have : (1 : ℝ) < r.sampleSize := by exact_mod_cast hn
    linarith
  have c2 := D.ppfFl_fin hdf (q := 1 - alpha / 2) (by linarith) (by linarith)
  have c1 := D.ppfFl_fin hdf (q := 1 - alpha) (by linarith) (by linarith)
  refine ⟨d, a1, a2, ?_, ?_, ?_⟩
  all_goals
    intro halt
    unfold boundsOf at a5
    simp only [halt, if_true, String.reduceEq, if_false, c1, c2, fin_mul, fin_add, fin_sub] at a5
    exact ⟨congrArg Prod.fst a5, congrArg Prod.snd a5⟩

/-- Rows of the plain paired stack. -/
theorem stack3_rows {v1 v2 : List ℝ} (h : v1.length = v2.length) :
    rowOf (stack3 v1 v2) 1 = v1 ∧ rowOf (stack3 v1 v2) 2 = v2 ∧
      rowOf (stack3 v1 v2) 0 = List.zipWith (· - ·) v1 v2 := by
  induction v1 generalizing v2 with
  | nil => cases v2 with
    | nil => simp [stack3, rowOf]
    | cons b v2 => simp at h
  | cons a v1 ih => cases v2 with
    | nil => simp at h
    | cons b v2 =>
      obtain ⟨i1, i2, i3⟩ := ih (v2 := v2) (by simpa using h)
      simp only [stack3, rowOf] at i1 i2 i3 ⊢
      simp [i1, i2, i3]

/-- **C30, C26.** For two samples of the same size, neither of them constant, and no trimming, the plain paired test returns
for every alternative; the difference is the difference of the means, the standard error is the sample standard deviation
of the differences over `sqrt n`, and no bound is nan. -/
theorem C30_nonconstant_samples (R : Rounding ℝ) (argsort : List ℝ → List ℕ) (ha : ArgsortOk argsort)
    (D : TDist) (values1 values2 : List ℝ) (hlen : values1.length = values2.length)
    (hv1 : Spec.sumSqDev values1 ≠ 0) (hv2 : Spec.sumSqDev values2 ≠ 0) (alternative : String)
    (hk : alternative = "two-sided" ∨ alternative = "greater" ∨ alternative = "less")
    (alpha : ℝ) (h0 : 0 < alpha) (h1 : alpha < 1) :
    ∃ r, pairedTest R argsort D values1 values2 0 none none alternative alpha = .ok r ∧
      r.absoluteDifference = fin (Spec.mean values1 - Spec.mean values2) ∧
      r.controlAverage = fin (Spec.mean values2) ∧
      r.standardError = fin (Real.sqrt (Spec.sumSqDev (List.zipWith (· - ·) values1 values2) /
        ((values1.length : ℝ) - 1)) / Real.sqrt values1.length) ∧
      r.sampleSize = values1.length ∧ r.absoluteLower ≠ nan ∧ r.absoluteUpper ≠ nan := by
  have hn2 : 1 < values1.length := by
    rcases values1 with _ | ⟨a, _ | ⟨b, l⟩⟩
    · simp [Spec.sumSqDev] at hv1
    · simp [Spec.sumSqDev, Spec.mean] at hv1
    · simp
  have hT := mkTrimmed_zero R argsort (stack3 values1 values2)
  set T : TrimmedArray ℝ 2 := ⟨stack3 values1 values2, 0, stack3 values1 values2⟩ with hTdef
  have hTl : T.len = values1.length := by simp [hTdef, TrimmedArray.len, stack3, hlen]
  have hl1 : 1 < T.len := by rw [hTl]; exact hn2
  have hgz : ⌊R.rnd ((0 : ℝ) * ((stack3 values1 values2).length : ℝ))⌋ = 0 := by
    have := R.intFix 0 (by norm_num)
    rw [zero_mul, show (0 : ℝ) = ((0 : ℤ) : ℝ) by simp, this]; simp
  have hst := fun i => C19_no_trimming_ordinary_statistics R argsort 2 (stack3 values1 values2) 0 T hT hgz i i 1
  obtain ⟨r1, r2, r3⟩ := stack3_rows hlen
  have hcl : ((stack3 values1 values2).length : ℝ) = values1.length := by simp [stack3, hlen]
  have hpos : (0 : ℝ) < (values1.length : ℝ) - 1 := by
    have : (1 : ℝ) < values1.length := by exact_mod_cast hn2
    linarith
  have hc1 : T.cov 1 1 1 = Spec.sumSqDev values1 / ((values1.length : ℝ) - 1) := by
    have := (hst 1).2.2.2.2; rw [r1, hcl] at this; simpa [TrimmedArray.var] using this
  have hc2 : T.cov 1 2 2 = Spec.sumSqDev values2 / ((values1.length : ℝ) - 1) := by
    have := (hst 2).2.2.2.2; rw [r2, hcl] at this; simpa [TrimmedArray.var] using this
  have hc0 : T.cov 1 0 0 = Spec.sumSqDev (List.zipWith (· - ·) values1 values2) / ((values1.length : ℝ) - 1) := by
    have := (hst 0).2.2.2.2; rw [r3, hcl] at this; simpa [TrimmedArray.var] using this
  have hm1 : T.mean 1 = Spec.mean values1 := by rw [(hst 1).2.1, r1]
  have hm2 : T.mean 2 = Spec.mean values2 := by rw [(hst 2).2.1, r2]
  have hne : T.cov 1 1 1 * T.cov 1 2 2 ≠ 0 := by
    rw [hc1, hc2]
    exact mul_ne_zero (div_ne_zero hv1 hpos.ne') (div_ne_zero hv2 hpos.ne')
  obtain ⟨b0, b1, b2, -, b4⟩ := pairedPlain_se ha hT hl1
  obtain ⟨r, hr⟩ := resultsFrom_returns (D := D) (e := pairedPlain T) (pf := false) (α := alpha) hk (by simp)
  obtain ⟨-, a1, a2, a3, a4, a5, a6, a7, a8, a9, a10⟩ := resultsFrom_ok hr
  have hdf : (0 : ℝ) < (T.len : ℝ) - 1 := by rw [hTl]; exact hpos
  refine ⟨r, ?_, ?_, ?_, ?_, ?_, ?_⟩
  · unfold pairedTest
    rw [raiseIf_bind_ok]
    refine ⟨not_not.mpr hlen, ?_⟩
    rw [hT]
    show (raiseIf .outOfModel (T.len ≤ 1) >>= fun _ => _) = _
    rw [raiseIf_bind_ok]
    exact ⟨not_le.mpr hl1, hr⟩
  · rw [a5, ← hm1, ← hm2, ← b2]; rfl
  · rw [a10, ← hm2]; rfl
  · rw [a7, b0, hc0, hTl]
  · rw [a8]; exact hTl
  · have hd : (pairedPlain T).mean1 - (pairedPlain T).mean2 = fin (T.mean 1 - T.mean 2) := fin_sub _ _
    rw [b4 hne, b0, b1, hd] at a6
    have c2 := D.ppfFl_fin hdf (q := 1 - alpha / 2) (by linarith) (by linarith)
    have c1 := D.ppfFl_fin hdf (q := 1 - alpha) (by linarith) (by linarith)
    unfold boundsOf at a6
    rcases hk with hk | hk | hk
    all_goals
      simp only [hk, if_true, String.reduceEq, if_false, c1, c2, fin_mul, fin_add, fin_sub] at a6
      have u1 : r.absoluteLower = _ := congrArg Prod.fst a6
      have u2 : r.absoluteUpper = _ := congrArg Prod.snd a6
      rw [u1, u2]
      exact ⟨by simp, by simp⟩

example : Spec.sumSqDev ([1, 2, 6] : List ℝ) ≠ 0 ∧ Spec.sumSqDev ([0, 2, 1] : List ℝ) ≠ 0 := by
  constructor <;> (simp only [Spec.sumSqDev, Spec.mean, List.map, List.sum_cons, List.sum_nil, List.length]; norm_num)

end Feedx
