import Verif.Proofs.TTestResults

/-!
Properties C28, C29 and C34 of the two t-tests: exchanging samples, reordering, shifting and rescaling them, and
a control mean of zero.
-/

set_option linter.unusedSectionVars false
set_option linter.unusedSimpArgs false

namespace Feedx

open Fl

/-- The independent plain test in terms of the estimates. -/
theorem indTest_plain_returns {R : Rounding ℝ} {argsort : List ℝ → List ℕ} {D : TDist} {v1 v2 : List ℝ}
    {q : ℝ} {ev : Bool} {alt : String} {α : ℝ} {T1 T2 : TrimmedArray ℝ 0}
    (t1 : mkTrimmed R argsort (asStack v1) q = .ok T1) (t2 : mkTrimmed R argsort (asStack v2) q = .ok T2)
    (hl1 : 1 < T1.len) (hl2 : 1 < T2.len) :
    indTest R argsort D v1 v2 q none none ev alt α =
      resultsFrom D (indEstimates (fin (T1.mean 0)) (fin (T2.mean 0)) (fin (T1.var 1 0)) (fin (T2.var 1 0))
        T1.len T2.len ev) true alt α := by
  unfold indTest
  simp only [t1, t2, bind, Except.bind]
  have : ¬ (T1.len ≤ 1 ∨ T2.len ≤ 1) := by omega
  simp only [raiseIf, if_neg this]

/-- Hypotheses of C26, C28 and C29 on a concrete case: the independent test of `[4, 1, 7, 2]` against `[3, 1, 2]` returns
a result with a positive standard error, as does the exchanged, the reordered and the rescaled test. -/
theorem example_results (R : Rounding ℝ) (argsort : List ℝ → List ℕ) (D : TDist) (ev : Bool) (alt : String)
    (hk : KnownAlt alt) (α : ℝ) :
    (∃ r s, indTest R argsort D [4, 1, 7, 2] [3, 1, 2] 0 none none ev alt α = .ok r ∧ r.standardError = fin s ∧
      0 < s) ∧
    (∃ r, indTest R argsort D [3, 1, 2] [4, 1, 7, 2] 0 none none ev alt α = .ok r) ∧
    (∃ r, indTest R argsort D [8 + 1, 2 + 1, 14 + 1, 4 + 1] [6 + 1, 2 + 1, 4 + 1] 0 none none ev alt α = .ok r) := by
  have key : ∀ v1 v2 : List ℝ, 1 < v1.length → 1 < v2.length → v2.sum ≠ 0 →
      ∃ r, indTest R argsort D v1 v2 0 none none ev alt α = .ok r := by
    intro v1 v2 h1 h2 h3
    rw [indTest_plain_returns (mkTrimmed_zero _ _ _) (mkTrimmed_zero _ _ _)
      (by simpa [TrimmedArray.len, length_asStack] using h1) (by simpa [TrimmedArray.len, length_asStack] using h2)]
    refine resultsFrom_returns hk ?_
    rintro ⟨-, h, -⟩
    have : (⟨asStack v2, 0, asStack v2⟩ : TrimmedArray ℝ 0).mean 0 = 0 := by injection h
    unfold TrimmedArray.mean at this
    rw [row0_asStack, div_eq_zero_iff] at this
    rcases this with h | h
    · exact h3 h
    · simp [TrimmedArray.len, length_asStack] at h
      rw [h] at h2; simp at h2
  refine ⟨?_, key _ _ (by simp) (by simp) (by norm_num), key _ _ (by simp) (by simp) (by norm_num)⟩
  obtain ⟨r, hr⟩ := key [4, 1, 7, 2] [3, 1, 2] (by simp) (by simp) (by norm_num)
  rw [indTest_plain_returns (mkTrimmed_zero _ _ _) (mkTrimmed_zero _ _ _)
      (by simp [TrimmedArray.len, length_asStack]) (by simp [TrimmedArray.len, length_asStack])] at hr ⊢
  obtain ⟨-, -, -, -, -, -, -, a7, -⟩ := resultsFrom_ok hr
  have w1 : (⟨asStack [4, 1, 7, 2], 0, asStack [4, 1, 7, 2]⟩ : TrimmedArray ℝ 0).var 1 0 = 7 := by
    simp only [asStack, TrimmedArray.mean, TrimmedArray.cov, TrimmedArray.var, TrimmedArray.winsorizedMean,
      TrimmedArray.len, TrimmedArray.size, TrimmedArray.minValues, TrimmedArray.maxValues, rowOf]
    norm_num
  have w2 : (⟨asStack [3, 1, 2], 0, asStack [3, 1, 2]⟩ : TrimmedArray ℝ 0).var 1 0 = 1 := by
    simp only [asStack, TrimmedArray.mean, TrimmedArray.cov, TrimmedArray.var, TrimmedArray.winsorizedMean,
      TrimmedArray.len, TrimmedArray.size, TrimmedArray.minValues, TrimmedArray.maxValues, rowOf]
    norm_num
  have l1 : (⟨asStack [4, 1, 7, 2], 0, asStack [4, 1, 7, 2]⟩ : TrimmedArray ℝ 0).len = 4 := by
    simp [TrimmedArray.len, length_asStack]
  have l2 : (⟨asStack [3, 1, 2], 0, asStack [3, 1, 2]⟩ : TrimmedArray ℝ 0).len = 3 := by
    simp [TrimmedArray.len, length_asStack]
  rw [w1, w2, l1, l2] at a7
  have q1 : Real.sqrt 7 * Real.sqrt 7 = 7 := Real.mul_self_sqrt (by norm_num)
  cases ev with
  | true =>
    refine ⟨r, Real.sqrt ((3 * 7 + 2 * 1) / 5 / 4 + (3 * 7 + 2 * 1) / 5 / 3), hr, ?_, by positivity⟩
    rw [a7]
    simp only [indEstimates, twoSampleSE, if_true, Nat.cast_ofNat,
      sqrt_fin (show (0 : ℝ) ≤ 7 by norm_num), sqrt_fin (show (0 : ℝ) ≤ 1 by norm_num), sq_fin, fin_mul, fin_add,
      fin_sub, q1, Real.sqrt_one]
    norm_num
    rw [fin_div_ne (by norm_num), fin_div_ne (by norm_num), fin_div_ne (by norm_num), fin_add,
      sqrt_fin (by norm_num)]
    norm_num
  | false =>
    refine ⟨r, Real.sqrt (7 / 4 + 1 / 3), hr, ?_, by positivity⟩
    rw [a7]
    simp only [indEstimates, twoSampleSE, Bool.false_eq_true, if_false, Nat.cast_ofNat,
      sqrt_fin (show (0 : ℝ) ≤ 7 by norm_num), sqrt_fin (show (0 : ℝ) ≤ 1 by norm_num), sq_fin, fin_mul, fin_add,
      fin_sub, q1, Real.sqrt_one]
    norm_num
    rw [fin_div_ne (by norm_num), fin_div_ne (by norm_num), fin_add, sqrt_fin (by norm_num)]
    norm_num

/-! ### C28 -/

theorem ciSE_comm (a b c : Fl ℝ) : ciSE a b c = ciSE b a c := by
  unfold ciSE; rw [Fl.add_comm', mul_comm' a b]

theorem indEstimates_swap (m1 m2 w1 w2 : Fl ℝ) (n1 n2 : ℕ) (ev : Bool) :
    let e := indEstimates m1 m2 w1 w2 n1 n2 ev
    let e' := indEstimates m2 m1 w2 w1 n2 n1 ev
    e'.difference = -e.difference ∧ e'.differenceSE = e.differenceSE ∧ e'.se1 = e.se2 ∧ e'.se2 = e.se1 ∧
      e'.corr = e.corr ∧ e'.df = e.df ∧ e'.sampleSize = e.sampleSize := by
  refine ⟨?_, ?_, ?_, ?_, rfl, ?_, Nat.add_comm _ _⟩
  · exact (neg_sub' m1 m2).symm
  · cases ev
    · simp only [indEstimates, twoSampleSE, Bool.false_eq_true, if_false]
      rw [Fl.add_comm']
    · simp only [indEstimates, twoSampleSE, if_true]
      rw [Fl.add_comm' ((fin (n2 : ℝ) - fin 1) * _), Fl.add_comm' (fin (n2 : ℝ)) (fin (n1 : ℝ)), Fl.add_comm']
  · cases ev
    · simp only [indEstimates, twoSampleSE, Bool.false_eq_true, if_false]
    · simp only [indEstimates, twoSampleSE, if_true]
      rw [Fl.add_comm' ((fin (n2 : ℝ) - fin 1) * _), Fl.add_comm' (fin (n2 : ℝ)) (fin (n1 : ℝ))]
  · cases ev
    · simp only [indEstimates, twoSampleSE, Bool.false_eq_true, if_false]
    · simp only [indEstimates, twoSampleSE, if_true]
      rw [Fl.add_comm' ((fin (n2 : ℝ) - fin 1) * _), Fl.add_comm' (fin (n2 : ℝ)) (fin (n1 : ℝ))]
  · cases ev
    · simp only [indEstimates, twoSampleDf, Bool.false_eq_true, if_false]
      rw [Fl.add_comm' (w2.sqrt.sq / fin (n2 : ℝ)), Fl.add_comm' ((w2.sqrt.sq / fin (n2 : ℝ)).sq / _)]
    · simp only [indEstimates, twoSampleDf, if_true]
      rw [Fl.add_comm' (fin (n2 : ℝ)) (fin (n1 : ℝ))]

theorem results_swap {D : TDist} {m1 m2 w1 w2 : Fl ℝ} {n1 n2 : ℕ} {ev pf : Bool} {alt : String} {α : ℝ}
    {r r' : TestResult} (h : resultsFrom D (indEstimates m1 m2 w1 w2 n1 n2 ev) pf alt α = .ok r)
    (h' : resultsFrom D (indEstimates m2 m1 w2 w1 n2 n1 ev) pf (Spec.mirror alt) α = .ok r') :
    r'.statistic = -r.statistic ∧ r'.absoluteDifference = -r.absoluteDifference ∧
      r'.absoluteLower = -r.absoluteUpper ∧ r'.absoluteUpper = -r.absoluteLower ∧
      r'.pValue = r.pValue ∧ r'.isSignificant = r.isSignificant ∧ r'.standardError = r.standardError ∧
      r'.degreesOfFreedom = r.degreesOfFreedom ∧ r'.sampleSize = r.sampleSize := by
  obtain ⟨hk, a1, a2, a3, a4, a5, a6, a7, a8, a9, a10⟩ := resultsFrom_ok h
  obtain ⟨hk', b1, b2, b3, b4, b5, b6, b7, b8, b9, b10⟩ := resultsFrom_ok h'
  obtain ⟨c1, c2, c3, c4, c5, c6, c7⟩ := indEstimates_swap m1 m2 w1 w2 n1 n2 ev
  have hst : r'.statistic = -r.statistic := by rw [a1, b1, c1, c2, neg_div']
  have hp : r'.pValue = r.pValue := by
    rw [a2, b2, c1, c2, c6, neg_div']
    rcases hk with hk | hk | hk
    · simp [pOf, hk, Spec.mirror, abs_neg']
    · simp [pOf, hk, Spec.mirror]
    · simp [pOf, hk, Spec.mirror, neg_neg']
  have hb : r'.absoluteLower = -r.absoluteUpper ∧ r'.absoluteUpper = -r.absoluteLower := by
    have d1 : r'.absoluteLower = _ := congrArg Prod.fst b6
    have d2 : r'.absoluteUpper = _ := congrArg Prod.snd b6
    have d3 : r.absoluteLower = _ := congrArg Prod.fst a6
    have d4 : r.absoluteUpper = _ := congrArg Prod.snd a6
    rw [d1, d2, d3, d4, c3, c4, c5, c6, ciSE_comm]
    rw [show (indEstimates m2 m1 w2 w1 n2 n1 ev).mean1 - (indEstimates m2 m1 w2 w1 n2 n1 ev).mean2 =
      -((indEstimates m1 m2 w1 w2 n1 n2 ev).mean1 - (indEstimates m1 m2 w1 w2 n1 n2 ev).mean2) from c1]
    generalize ((indEstimates m1 m2 w1 w2 n1 n2 ev).mean1 - (indEstimates m1 m2 w1 w2 n1 n2 ev).mean2) = dd
    rcases hk with hk | hk | hk
    · simp [boundsOf, hk, Spec.mirror, Fl.sub_eq, neg_add', neg_neg']
    · simp [boundsOf, hk, Spec.mirror, Fl.sub_eq, neg_add', neg_neg']
      rfl
    · simp [boundsOf, hk, Spec.mirror, Fl.sub_eq, neg_add', neg_neg']
      rfl
  refine ⟨hst, by rw [a5, b5, c1], hb.1, hb.2, hp, by rw [a3, b3, hp], by rw [a7, b7, c2], by rw [a9, b9, c6],
    by rw [a8, b8, c7]⟩

/-- **C28.** Exchanging the two samples (and their denominators, for ratio metrics) negates statistic, difference
and interval and keeps standard error, degrees of freedom and sample size; the two-sided p-value is kept, the p-value for
`greater` becomes the one for `less` and vice versa. -/
theorem C28_swapping_samples_mirrors_result (R : Rounding ℝ) (argsort : List ℝ → List ℕ) (D : TDist)
    (values1 values2 : List ℝ) (q : ℝ) (denom1 denom2 : Option (List ℝ)) (equalVar : Bool)
    (alternative : String) (alpha : ℝ) (r r' : TestResult)
    (h : indTest R argsort D values1 values2 q denom1 denom2 equalVar alternative alpha = .ok r)
    (h' : indTest R argsort D values2 values1 q denom2 denom1 equalVar (Spec.mirror alternative) alpha = .ok r') :
    r'.statistic = -r.statistic ∧ r'.absoluteDifference = -r.absoluteDifference ∧
      r'.absoluteLower = -r.absoluteUpper ∧ r'.absoluteUpper = -r.absoluteLower ∧
      r'.pValue = r.pValue ∧ r'.isSignificant = r.isSignificant ∧ r'.standardError = r.standardError ∧
      r'.degreesOfFreedom = r.degreesOfFreedom ∧ r'.sampleSize = r.sampleSize := by
  rcases indTest_ok h with ⟨x1, x2, e1, e2, T1, T2, t1, t2, hl1, hl2, hr⟩ | ⟨e1, e2, T1, T2, t1, t2, hl1, hl2, hr⟩ <;>
  rcases indTest_ok h' with ⟨x1', x2', e1', e2', T1', T2', t1', t2', hl1', hl2', hr'⟩ |
    ⟨e1', e2', T1', T2', t1', t2', hl1', hl2', hr'⟩
  · rw [e1] at e2'; rw [e2] at e1'
    cases e1'; cases e2'
    rw [t2] at t1'; rw [t1] at t2'
    cases t1'; cases t2'
    exact results_swap hr hr'
  · rw [e1] at e2'; cases e2'
  · rw [e1] at e2'; cases e2'
  · rw [t2] at t1'; rw [t1] at t2'
    cases t1'; cases t2'
    exact results_swap hr hr'

/-! ### C29 -/

/-- **C29, order.** Reordering each of the two samples does not change the result in any way (plain metrics). -/
theorem C29_sample_order_irrelevant (R : Rounding ℝ) (argsort argsort' : List ℝ → List ℕ)
    (ha : ArgsortOk argsort) (ha' : ArgsortOk argsort') (D : TDist)
    (values1 values2 values1' values2' : List ℝ) (hp1 : values1.Perm values1') (hp2 : values2.Perm values2')
    (q : ℝ) (equalVar : Bool) (alternative : String) (alpha : ℝ) (r : TestResult)
    (h : indTest R argsort D values1 values2 q none none equalVar alternative alpha = .ok r) :
    indTest R argsort' D values1' values2' q none none equalVar alternative alpha = .ok r := by
  rcases indTest_ok h with ⟨x1, x2, e1, -⟩ | ⟨-, -, T1, T2, t1, t2, hl1, hl2, hr⟩
  · cases e1
  obtain ⟨T1', t1', l1⟩ := mkTrimmed_transfer (m' := 0) (cols' := asStack values1') ha' t1
    (by rw [length_asStack, length_asStack]; exact hp1.length_eq)
  obtain ⟨T2', t2', l2⟩ := mkTrimmed_transfer (m' := 0) (cols' := asStack values2') ha' t2
    (by rw [length_asStack, length_asStack]; exact hp2.length_eq)
  have ne : ∀ {T : TrimmedArray ℝ 0}, 1 < T.len → T.trimmed ≠ [] := by
    intro T hl h0; rw [TrimmedArray.len, h0] at hl; simp at hl
  obtain ⟨m1, -, w1⟩ := C17_statistics_ignore_order_and_ties R argsort argsort' ha ha' 0 0 _ _
    (by rw [row0_asStack, row0_asStack]; exact hp1) q T1 T1' t1 t1' (ne hl1) 1
  obtain ⟨m2, -, w2⟩ := C17_statistics_ignore_order_and_ties R argsort argsort' ha ha' 0 0 _ _
    (by rw [row0_asStack, row0_asStack]; exact hp2) q T2 T2' t2 t2' (ne hl2) 1
  unfold indTest
  simp only [t1', t2', bind, Except.bind]
  rw [m1, m2, w1, w2, ← l1, ← l2] at hr
  have : ¬ (T1'.len ≤ 1 ∨ T2'.len ≤ 1) := by rw [l1, l2]; omega
  simp only [raiseIf, if_neg this]
  exact hr

theorem fin_div_scale {c x y : ℝ} (hc : 0 < c) : (fin (c * x) / fin (c * y) : Fl ℝ) = fin x / fin y := by
  rw [fin_div, fin_div]
  by_cases hy : y = 0
  · simp only [hy, mul_zero, if_true]
    unfold infSign
    simp [hc, hc.not_gt, mul_pos_iff_of_pos_left, mul_neg_iff]
  · rw [if_neg (mul_ne_zero hc.ne' hy), if_neg hy, mul_div_mul_left _ _ hc.ne']

theorem scale_infSign {c : ℝ} (hc : 0 < c) (x : ℝ) : fin c * infSign x = infSign x := by
  unfold infSign
  split_ifs
  · show infSign c = _; simp [infSign, hc]
  · show infSign (-c) = _; simp [infSign, hc, hc.le.not_gt]
  · rfl

/-- Multiplication by a positive number distributes over sums. -/
theorem scale_add {c : ℝ} (hc : 0 < c) (a b : Fl ℝ) : fin c * (a + b) = fin c * a + fin c * b := by
  have hp : (fin c * pinf : Fl ℝ) = pinf := by show infSign c = _; simp [infSign, hc]
  have hn : (fin c * ninf : Fl ℝ) = ninf := by show infSign (-c) = _; simp [infSign, hc, hc.le.not_gt]
  have hz : (fin c * nan : Fl ℝ) = nan := rfl
  cases a <;> cases b <;> simp only [hp, hn, hz, fin_mul, fin_add, mul_add] <;> first | rfl | assumption

theorem scale_neg (c : ℝ) (a : Fl ℝ) : fin c * -a = -(fin c * a) := by
  cases a
  · rfl
  · show infSign c = -infSign (-c); rw [infSign_neg, neg_neg']
  · show infSign (-c) = -infSign c; rw [infSign_neg]
  · show fin _ = fin _; rw [mul_neg]

theorem scale_mul {c : ℝ} (hc : 0 < c) (t : Fl ℝ) (y : ℝ) : fin c * (t * fin y) = t * fin (c * y) := by
  cases t
  · rfl
  · show fin c * infSign (-y) = infSign (-(c * y))
    rw [scale_infSign hc]
    unfold infSign; simp [hc, mul_pos_iff_of_pos_left, mul_neg_iff, hc.le.not_gt]
  · show fin c * infSign y = infSign (c * y)
    rw [scale_infSign hc]
    unfold infSign; simp [hc, mul_pos_iff_of_pos_left, mul_neg_iff, hc.le.not_gt]
  · show fin _ = fin _; congr 1; ring

/-- Standard errors and degrees of freedom for scaled finite variances. -/
theorem indEstimates_scale {m1 m2 m1' m2' w1 w2 s : ℝ} (hs : 0 < s) (h1 : 0 ≤ w1) (h2 : 0 ≤ w2) {n1 n2 : ℕ}
    (hn1 : 1 < n1) (hn2 : 1 < n2) {ev : Bool} (hm : m1' - m2' = s * (m1 - m2)) :
    let e := indEstimates (fin m1) (fin m2) (fin w1) (fin w2) n1 n2 ev
    let e' := indEstimates (fin m1') (fin m2') (fin (s ^ 2 * w1)) (fin (s ^ 2 * w2)) n1 n2 ev
    e.difference = fin (m1 - m2) ∧ e'.difference = fin (s * (m1 - m2)) ∧
    (∃ x, 0 ≤ x ∧ e.differenceSE = fin x ∧ e'.differenceSE = fin (s * x) ∧
      ciSE e.se1 e.se2 e.corr = fin x ∧ ciSE e'.se1 e'.se2 e'.corr = fin (s * x)) ∧ e'.df = e.df := by
  have r1 : (1 : ℝ) < n1 := by exact_mod_cast hn1
  have r2 : (1 : ℝ) < n2 := by exact_mod_cast hn2
  have p1 : (0 : ℝ) < n1 := by linarith
  have p2 : (0 : ℝ) < n2 := by linarith
  have q1 : (0 : ℝ) < n1 - 1 := by linarith
  have q2 : (0 : ℝ) < n2 - 1 := by linarith
  have q3 : (0 : ℝ) < (n1 : ℝ) + n2 - 2 := by linarith
  have hss : 0 ≤ s ^ 2 := sq_nonneg s
  have ci : ∀ a b : ℝ, 0 ≤ a → 0 ≤ b →
      ciSE (fin (Real.sqrt a)) (fin (Real.sqrt b)) (fin 0) = fin (Real.sqrt (a + b)) := by
    intro a b ha hb
    unfold ciSE
    simp only [sq_fin, fin_mul, fin_add, fin_sub]
    rw [Real.mul_self_sqrt ha, Real.mul_self_sqrt hb, mul_zero, mul_zero, sub_zero, sqrt_fin (by linarith)]
  have sc : ∀ x : ℝ, 0 ≤ x → Real.sqrt (s ^ 2 * x) = s * Real.sqrt x := by
    intro x _; rw [Real.sqrt_mul hss, Real.sqrt_sq hs.le]
  have hsq : ∀ w : ℝ, 0 ≤ w → (fin w).sqrt.sq = fin w := by
    intro w hw; rw [sqrt_fin hw, sq_fin, Real.mul_self_sqrt hw]
  have w1' : 0 ≤ s ^ 2 * w1 := mul_nonneg hss h1
  have w2' : 0 ≤ s ^ 2 * w2 := mul_nonneg hss h2
  cases ev with
  | true =>
    set P := (((n1 : ℝ) - 1) * w1 + ((n2 : ℝ) - 1) * w2) / ((n1 : ℝ) + n2 - 2) with hP
    have hP0 : 0 ≤ P := by positivity
    have hP' : (((n1 : ℝ) - 1) * (s ^ 2 * w1) + ((n2 : ℝ) - 1) * (s ^ 2 * w2)) / ((n1 : ℝ) + n2 - 2) = s ^ 2 * P := by
      rw [hP]; field_simp
    have d1 : 0 ≤ P / n1 := by positivity
    have d2 : 0 ≤ P / n2 := by positivity
    have e1 : s ^ 2 * P / n1 = s ^ 2 * (P / n1) := by ring
    have e2 : s ^ 2 * P / n2 = s ^ 2 * (P / n2) := by ring
    simp only [indEstimates, twoSampleSE, twoSampleDf, if_true, hsq _ h1, hsq _ h2, hsq _ w1', hsq _ w2',
      fin_mul, fin_add, fin_sub, fin_div_ne q3.ne', fin_div_ne p1.ne', fin_div_ne p2.ne', ← hP, hP', e1, e2,
      ← mul_add]
    rw [sqrt_fin d1, sqrt_fin d2, sqrt_fin (add_nonneg d1 d2), sqrt_fin (by positivity), sqrt_fin (by positivity),
      sqrt_fin (by positivity), ci _ _ d1 d2, ci _ _ (by positivity) (by positivity), ← mul_add, sc _ (by positivity)]
    exact ⟨trivial, by rw [hm], ⟨_, Real.sqrt_nonneg _, rfl, rfl, rfl, rfl⟩, trivial⟩
  | false =>
    have d1 : 0 ≤ w1 / n1 := by positivity
    have d2 : 0 ≤ w2 / n2 := by positivity
    have e1 : s ^ 2 * w1 / n1 = s ^ 2 * (w1 / n1) := by ring
    have e2 : s ^ 2 * w2 / n2 = s ^ 2 * (w2 / n2) := by ring
    simp only [indEstimates, twoSampleSE, twoSampleDf, Bool.false_eq_true, if_false, hsq _ h1, hsq _ h2, hsq _ w1',
      hsq _ w2', fin_mul, fin_add, fin_sub, fin_div_ne p1.ne', fin_div_ne p2.ne', e1, e2, ← mul_add, sq_fin,
      fin_div_ne q1.ne', fin_div_ne q2.ne']
    rw [sqrt_fin d1, sqrt_fin d2, sqrt_fin (add_nonneg d1 d2), sqrt_fin (by positivity), sqrt_fin (by positivity),
      sqrt_fin (by positivity), ci _ _ d1 d2, ci _ _ (by positivity) (by positivity), ← mul_add, sc _ (by positivity)]
    refine ⟨trivial, by rw [hm], ⟨_, Real.sqrt_nonneg _, rfl, rfl, rfl, rfl⟩, ?_⟩
    have f1 : s ^ 2 * (w1 / n1 + w2 / n2) * (s ^ 2 * (w1 / n1 + w2 / n2)) =
        s ^ 4 * ((w1 / n1 + w2 / n2) * (w1 / n1 + w2 / n2)) := by ring
    have f2 : s ^ 2 * (w1 / n1) * (s ^ 2 * (w1 / n1)) / ((n1 : ℝ) - 1) +
        s ^ 2 * (w2 / n2) * (s ^ 2 * (w2 / n2)) / ((n2 : ℝ) - 1) =
        s ^ 4 * (w1 / n1 * (w1 / n1) / ((n1 : ℝ) - 1) + w2 / n2 * (w2 / n2) / ((n2 : ℝ) - 1)) := by ring
    rw [f1, f2, fin_div_scale (by positivity)]

/-- **C29, units and common shifts.** Multiplying all values of both samples by the same positive number and adding
the same constant keeps the statistic, the p-value, the significance, the degrees of freedom and the sample size, and
multiplies difference, interval and standard error by that number (plain metrics). -/
theorem C29_shift_and_scale (R : Rounding ℝ) (argsort : List ℝ → List ℕ)
    (ha : ArgsortOk argsort) (D : TDist) (values1 values2 : List ℝ) (s c : ℝ) (hs : 0 < s)
    (q : ℝ) (equalVar : Bool) (alternative : String) (alpha : ℝ) (r r' : TestResult)
    (h : indTest R argsort D values1 values2 q none none equalVar alternative alpha = .ok r)
    (h' : indTest R argsort D (values1.map (fun x => s * x + c)) (values2.map (fun x => s * x + c)) q none none
      equalVar alternative alpha = .ok r') :
    r'.statistic = r.statistic ∧ r'.pValue = r.pValue ∧ r'.isSignificant = r.isSignificant ∧
      r'.degreesOfFreedom = r.degreesOfFreedom ∧ r'.sampleSize = r.sampleSize ∧
      r'.absoluteDifference = fin s * r.absoluteDifference ∧ r'.standardError = fin s * r.standardError ∧
      r'.absoluteLower = fin s * r.absoluteLower ∧ r'.absoluteUpper = fin s * r.absoluteUpper := by
  rcases indTest_ok h with ⟨x1, x2, e1, -⟩ | ⟨-, -, T1, T2, t1, t2, hl1, hl2, hr⟩
  · cases e1
  rcases indTest_ok h' with ⟨x1, x2, e1, -⟩ | ⟨-, -, T1', T2', t1', t2', hl1', hl2', hr'⟩
  · cases e1
  have ne : ∀ {T : TrimmedArray ℝ 0}, 1 < T.len → T.trimmed ≠ [] := by
    intro T hl h0; rw [TrimmedArray.len, h0] at hl; simp at hl
  obtain ⟨m1, -, w1⟩ := C20_shift_and_scale R argsort argsort ha ha 0 0 _ _ s c
    (by rw [row0_asStack, row0_asStack]) q T1 T1' t1 t1' (ne hl1) 1
  obtain ⟨m2, -, w2⟩ := C20_shift_and_scale R argsort argsort ha ha 0 0 _ _ s c
    (by rw [row0_asStack, row0_asStack]) q T2 T2' t2 t2' (ne hl2) 1
  have l1 : T1'.len = T1.len := by
    obtain ⟨T, hT, hl⟩ := mkTrimmed_transfer (m' := 0)
      (cols' := asStack (values1.map (fun x => s * x + c))) ha t1 (by simp [length_asStack])
    rw [t1'] at hT; cases hT; exact hl
  have l2 : T2'.len = T2.len := by
    obtain ⟨T, hT, hl⟩ := mkTrimmed_transfer (m' := 0)
      (cols' := asStack (values2.map (fun x => s * x + c))) ha t2 (by simp [length_asStack])
    rw [t2'] at hT; cases hT; exact hl
  rw [m1, m2, w1, w2, l1, l2] at hr'
  obtain ⟨k1, k2, ⟨x, hx, k3, k4, k5, k6⟩, k7⟩ := indEstimates_scale (m1 := T1.mean 0) (m2 := T2.mean 0)
    (m1' := s * T1.mean 0 + c) (m2' := s * T2.mean 0 + c) (w1 := T1.var 1 0) (w2 := T2.var 1 0) hs
    (var_nonneg T1 hl1 0) (var_nonneg T2 hl2 0) hl1 hl2 (ev := equalVar) (by ring)
  obtain ⟨hk, a1, a2, a3, a4, a5, a6, a7, a8, a9, a10⟩ := resultsFrom_ok hr
  obtain ⟨hk', b1, b2, b3, b4, b5, b6, b7, b8, b9, b10⟩ := resultsFrom_ok hr'
  have hp : r'.pValue = r.pValue := by
    rw [a2, b2, k7, k1, k2, k3, k4, fin_div_scale hs]
  have d1 : r'.absoluteLower = _ := congrArg Prod.fst b6
  have d2 : r'.absoluteUpper = _ := congrArg Prod.snd b6
  have d3 : r.absoluteLower = _ := congrArg Prod.fst a6
  have d4 : r.absoluteUpper = _ := congrArg Prod.snd a6
  have md : (indEstimates (fin (T1.mean 0)) (fin (T2.mean 0)) (fin (T1.var 1 0)) (fin (T2.var 1 0)) T1.len T2.len
      equalVar).mean1 - (indEstimates (fin (T1.mean 0)) (fin (T2.mean 0)) (fin (T1.var 1 0)) (fin (T2.var 1 0))
      T1.len T2.len equalVar).mean2 = fin (T1.mean 0 - T2.mean 0) := k1
  have md' : (indEstimates (fin (s * T1.mean 0 + c)) (fin (s * T2.mean 0 + c)) (fin (s ^ 2 * T1.var 1 0))
      (fin (s ^ 2 * T2.var 1 0)) T1.len T2.len equalVar).mean1 -
      (indEstimates (fin (s * T1.mean 0 + c)) (fin (s * T2.mean 0 + c)) (fin (s ^ 2 * T1.var 1 0))
      (fin (s ^ 2 * T2.var 1 0)) T1.len T2.len equalVar).mean2 = fin (s * (T1.mean 0 - T2.mean 0)) := k2
  have hpi : (fin s * pinf : Fl ℝ) = pinf := by show infSign s = _; simp [infSign, hs]
  have hni : (fin s * ninf : Fl ℝ) = ninf := by show infSign (-s) = _; simp [infSign, hs, hs.le.not_gt]
  refine ⟨by rw [a1, b1, k1, k2, k3, k4, fin_div_scale hs], hp, by rw [a3, b3, hp], by rw [a9, b9, k7],
    by rw [a8, b8]; rfl, by rw [a5, b5, k1, k2, fin_mul], by rw [a7, b7, k3, k4, fin_mul], ?_, ?_⟩
  · rw [d1, d3, md, md', k5, k6, k7]
    unfold boundsOf
    split_ifs
    · simp only [Fl.sub_eq]; rw [scale_add hs, scale_neg, scale_mul hs, fin_mul]
    · simp only [Fl.sub_eq]; rw [scale_add hs, scale_neg, scale_mul hs, fin_mul]
    · exact hni.symm
  · rw [d2, d4, md, md', k5, k6, k7]
    unfold boundsOf
    split_ifs
    · simp only []; rw [scale_add hs, scale_mul hs, fin_mul]
    · exact hpi.symm
    · simp only []; rw [scale_add hs, scale_mul hs, fin_mul]

/-! ### C34 -/

/-- **C34: the code violates it.** The independent test of a plain metric raises `ZeroDivisionError` for the treatment
values `[1, 3]` and the control values `[0, 0]`, for every alternative and level. -/
theorem C34_independent_test_false (R : Rounding ℝ) (argsort : List ℝ → List ℕ) (D : TDist) (equalVar : Bool)
    (alternative : String) (hk : alternative = "two-sided" ∨ alternative = "greater" ∨ alternative = "less")
    (alpha : ℝ) :
    indTest R argsort D [1, 3] [0, 0] 0 none none equalVar alternative alpha = .error .zeroDivision := by
  rw [indTest_plain_returns (mkTrimmed_zero _ _ _) (mkTrimmed_zero _ _ _) (by simp [TrimmedArray.len, asStack])
    (by simp [TrimmedArray.len, asStack])]
  unfold resultsFrom
  rw [ttestFromStats_known hk, absoluteCI_known hk]
  simp only [bind, Except.bind]
  have hm1 : (⟨asStack [1, 3], 0, asStack [1, 3]⟩ : TrimmedArray ℝ 0).mean 0 = 2 := by
    simp [TrimmedArray.mean, asStack, rowOf, TrimmedArray.len]; norm_num
  have hm2 : (⟨asStack [0, 0], 0, asStack [0, 0]⟩ : TrimmedArray ℝ 0).mean 0 = 0 := by
    simp [TrimmedArray.mean, asStack, rowOf, TrimmedArray.len]
  simp only [indEstimates, hm1, hm2]
  simp [raiseIf]

/-- **C34 (part).** The paired test returns a result for every pair of equally long samples with at least two values left after
trimming, whatever the means are; so does the independent test of a plain metric unless the trimmed control mean is zero
and the trimmed treatment mean is not negative.  Missing: that case, in which it raises `ZeroDivisionError`. -/
theorem C34_tests_return_partial (R : Rounding ℝ) (argsort : List ℝ → List ℕ) (ha : ArgsortOk argsort) (D : TDist)
    (values1 values2 : List ℝ) (q : ℝ) (hq0 : 0 ≤ q) (hq1 : q < 1 / 2) (equalVar : Bool) (alternative : String)
    (hk : alternative = "two-sided" ∨ alternative = "greater" ∨ alternative = "less") (alpha : ℝ)
    (hn1 : values1.length ≤ 2 ^ 53) (hn2 : values2.length ≤ 2 ^ 53)
    (hr1 : 2 * ⌊R.rnd (q * (values1.length : ℝ))⌋ + 1 < values1.length)
    (hr2 : 2 * ⌊R.rnd (q * (values2.length : ℝ))⌋ + 1 < values2.length) :
    (values1.length = values2.length →
      (pairedTest R argsort D values1 values2 q none none alternative alpha).Returns) ∧
    ∃ T1 T2 : TrimmedArray ℝ 0, mkTrimmed R argsort (asStack values1) q = .ok T1 ∧
      mkTrimmed R argsort (asStack values2) q = .ok T2 ∧
      ((indTest R argsort D values1 values2 q none none equalVar alternative alpha).Returns ↔
        ¬ (T2.mean 0 = 0 ∧ 0 ≤ T1.mean 0)) ∧
      (T2.mean 0 = 0 ∧ 0 ≤ T1.mean 0 →
        indTest R argsort D values1 values2 q none none equalVar alternative alpha = .error .zeroDivision) := by
  have mk : ∀ {m : ℕ} (cols : List (Fin (m + 1) → ℝ)), cols.length ≤ 2 ^ 53 →
      2 * ⌊R.rnd (q * (cols.length : ℝ))⌋ + 1 < cols.length →
      ∃ T : TrimmedArray ℝ m, mkTrimmed R argsort cols q = .ok T ∧ 1 < T.len := by
    intro m cols hc hc2
    obtain ⟨T, hT⟩ := (C16_accepts_iff R argsort ha m cols hc q).1.mpr ⟨hq0, hq1⟩
    refine ⟨T, hT, ?_⟩
    obtain ⟨-, e1, -, e2⟩ := C16_trims_exactly_the_extremes R argsort ha m cols q T hT
    unfold TrimmedArray.len
    have : (T.trimmed.length : ℤ) + 2 * (T.nTrim : ℤ) = cols.length := by exact_mod_cast e2
    rw [e1] at this
    have : (1 : ℤ) < T.trimmed.length := by linarith
    exact_mod_cast this
  constructor
  · intro hlen
    have hc : (stack3 values1 values2).length = values1.length := by simp [stack3, hlen]
    obtain ⟨T, hT, hl⟩ := mk (stack3 values1 values2) (by rw [hc]; exact hn1) (by rw [hc]; exact hr1)
    obtain ⟨r, hr⟩ := resultsFrom_returns (D := D) (e := pairedPlain T) (pf := false) (α := alpha) hk (by simp)
    refine ⟨r, ?_⟩
    unfold pairedTest
    rw [raiseIf_bind_ok]
    refine ⟨not_not.mpr hlen, ?_⟩
    rw [hT]
    show (raiseIf .outOfModel (T.len ≤ 1) >>= fun _ => _) = _
    rw [raiseIf_bind_ok]
    exact ⟨not_le.mpr hl, hr⟩
  · obtain ⟨T1, t1, hl1⟩ := mk (asStack values1) (by rw [length_asStack]; exact hn1)
      (by rw [length_asStack]; exact hr1)
    obtain ⟨T2, t2, hl2⟩ := mk (asStack values2) (by rw [length_asStack]; exact hn2)
      (by rw [length_asStack]; exact hr2)
    have herr : T2.mean 0 = 0 ∧ 0 ≤ T1.mean 0 →
        indTest R argsort D values1 values2 q none none equalVar alternative alpha = .error .zeroDivision := by
      rintro ⟨h2, h1⟩
      rw [indTest_plain_returns t1 t2 hl1 hl2]
      unfold resultsFrom
      rw [ttestFromStats_known hk, absoluteCI_known hk]
      simp only [bind, Except.bind, indEstimates, h2]
      simp [raiseIf, h1]
    refine ⟨T1, T2, t1, t2, ⟨?_, ?_⟩, herr⟩
    · rintro ⟨r, hr⟩ hc
      rw [herr hc] at hr; cases hr
    · intro hc
      rw [indTest_plain_returns t1 t2 hl1 hl2]
      obtain ⟨r, hr⟩ := resultsFrom_returns (D := D) (e := indEstimates (fin (T1.mean 0)) (fin (T2.mean 0))
        (fin (T1.var 1 0)) (fin (T2.var 1 0)) T1.len T2.len equalVar) (pf := true) (α := alpha) hk
        (by
          rintro ⟨-, h2, h1⟩
          apply hc
          simp only [indEstimates, le_fin, decide_eq_true_eq] at h1 h2
          cases h2' : T2.mean 0 with
          | _ => 
            refine ⟨?_, h1⟩
            have : (fin (T2.mean 0) : Fl ℝ) = fin 0 := h2
            rw [h2'] at this
            injection this)
      exact ⟨r, hr⟩

/-- **C34, ratio metrics.** Both tests return a result for every ratio metric with at least two values left after trimming, whatever
the means of numerators and denominators are (the ratios are then infinite or nan, nothing is raised). -/
theorem C34_ratio_tests_return (R : Rounding ℝ) (argsort : List ℝ → List ℕ) (ha : ArgsortOk argsort) (D : TDist)
    (values1 values2 denom1 denom2 : List ℝ) (q : ℝ) (hq0 : 0 ≤ q) (hq1 : q < 1 / 2) (equalVar : Bool)
    (alternative : String)
    (hk : alternative = "two-sided" ∨ alternative = "greater" ∨ alternative = "less") (alpha : ℝ)
    (hd1 : values1.length = denom1.length) (hd2 : values2.length = denom2.length)
    (hn1 : values1.length ≤ 2 ^ 53) (hn2 : values2.length ≤ 2 ^ 53)
    (hr1 : 2 * ⌊R.rnd (q * (values1.length : ℝ))⌋ + 1 < values1.length)
    (hr2 : 2 * ⌊R.rnd (q * (values2.length : ℝ))⌋ + 1 < values2.length) :
    (values1.length = values2.length →
      (pairedTest R argsort D values1 values2 q (some denom1) (some denom2) alternative alpha).Returns) ∧
    (indTest R argsort D values1 values2 q (some denom1) (some denom2) equalVar alternative alpha).Returns := by
  have mk : ∀ {m : ℕ} (cols : List (Fin (m + 1) → ℝ)), cols.length ≤ 2 ^ 53 →
      2 * ⌊R.rnd (q * (cols.length : ℝ))⌋ + 1 < cols.length →
      ∃ T : TrimmedArray ℝ m, mkTrimmed R argsort cols q = .ok T ∧ 1 < T.len := by
    intro m cols hc hc2
    obtain ⟨T, hT⟩ := (C16_accepts_iff R argsort ha m cols hc q).1.mpr ⟨hq0, hq1⟩
    refine ⟨T, hT, ?_⟩
    obtain ⟨-, e1, -, e2⟩ := C16_trims_exactly_the_extremes R argsort ha m cols q T hT
    unfold TrimmedArray.len
    have : (T.trimmed.length : ℤ) + 2 * (T.nTrim : ℤ) = cols.length := by exact_mod_cast e2
    rw [e1] at this
    have : (1 : ℤ) < T.trimmed.length := by linarith
    exact_mod_cast this
  constructor
  · intro hlen
    have hc : (stack5 values1 denom1 values2 denom2).length = values1.length := by
      simp [stack5, ← hlen, ← hd1, ← hd2]
    obtain ⟨T, hT, hl⟩ := mk (stack5 values1 denom1 values2 denom2) (by rw [hc]; exact hn1) (by rw [hc]; exact hr1)
    obtain ⟨r, hr⟩ := resultsFrom_returns (D := D) (e := pairedRatio T) (pf := false) (α := alpha) hk (by simp)
    refine ⟨r, ?_⟩
    unfold pairedTest
    rw [raiseIf_bind_ok]
    refine ⟨not_not.mpr hlen, ?_⟩
    simp only []
    rw [raiseIf_bind_ok]
    refine ⟨by omega, ?_⟩
    rw [hT]
    show (raiseIf .outOfModel (T.len ≤ 1) >>= fun _ => _) = _
    rw [raiseIf_bind_ok]
    exact ⟨not_le.mpr hl, hr⟩
  · have hc1 : (stack2 values1 denom1).length = values1.length := by simp [stack2, ← hd1]
    have hc2 : (stack2 values2 denom2).length = values2.length := by simp [stack2, ← hd2]
    obtain ⟨T1, t1, hl1⟩ := mk (stack2 values1 denom1) (by rw [hc1]; exact hn1) (by rw [hc1]; exact hr1)
    obtain ⟨T2, t2, hl2⟩ := mk (stack2 values2 denom2) (by rw [hc2]; exact hn2) (by rw [hc2]; exact hr2)
    obtain ⟨r, hr⟩ := resultsFrom_returns (D := D) (e := indEstimates (ratioOf T1).1 (ratioOf T2).1 (ratioOf T1).2
      (ratioOf T2).2 T1.len T2.len equalVar) (pf := false) (α := alpha) hk (by simp)
    refine ⟨r, ?_⟩
    unfold indTest
    simp only []
    rw [raiseIf_bind_ok]
    refine ⟨by omega, ?_⟩
    rw [t1, t2]
    show (raiseIf .outOfModel (T1.len ≤ 1 ∨ T2.len ≤ 1) >>= fun _ => _) = _
    rw [raiseIf_bind_ok]
    exact ⟨by omega, hr⟩

/-- Hypotheses of C34 on a concrete case: three values and no trimming. -/
example (R : Rounding ℝ) : 2 * ⌊R.rnd (0 * (([1, 3, 0] : List ℝ).length : ℝ))⌋ + 1 < ([1, 3, 0] : List ℝ).length := by
  have := R.intFix 0 (by norm_num)
  rw [zero_mul]
  simp only [Int.cast_zero] at this
  rw [this]; simp

end Feedx
