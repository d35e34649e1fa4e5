import Verif.Proofs.Cuped

/-!
Properties C22-C24: the CUPED adjustment.
-/

set_option linter.unusedSectionVars false
set_option linter.unusedSimpArgs false

namespace Feedx

variable {K : Type} [Field K] [LinearOrder K] [IsStrictOrderedRing K] [FloorRing K]

/-- Result of the adjustment when nothing is trimmed and the covariate varies. -/
theorem cuped_untrimmed {R : Rounding K} {argsort : List K → List ℕ} {z : List (K × K)} {q : K}
    {out : List (Fl K)} (h : cuped R argsort (z.map Prod.fst) (z.map Prod.snd) q = .ok out)
    (hg : nTrimOf R q z.length = 0) (hv : Spec.sumSqDev (z.map Prod.snd) ≠ 0) :
    1 < z.length ∧ out = (z.map (fun p => p.1 - Spec.crossDev (z.map Prod.fst) (z.map Prod.snd) /
      Spec.sumSqDev (z.map Prod.snd) * (p.2 - Spec.mean (z.map Prod.snd)))).map .fin := by
  unfold cuped at h
  simp only [raiseIf_bind_ok, List.length_map] at h
  obtain ⟨-, h1, h2, h⟩ := h
  push Not at h1
  have hn : ((z.length : K) - 1) ≠ 0 := by
    have : (1 : K) < (z.length : K) := by exact_mod_cast h1
    exact (sub_pos.mpr this).ne'
  rw [if_neg] at h
  · rw [zipWith_pairs, cuped_stack, Py.bind_eq_ok] at h
    obtain ⟨T, hT, h⟩ := h
    have hT0 := (mkTrimmed_ok hT).2.2.1
    rw [List.length_map] at hT0
    rw [if_pos (by rw [hT0, hg])] at h
    cases h
    refine ⟨h1, ?_⟩
    congr 1
    apply List.map_congr_left
    intro p _
    rw [sampleCov_eq, sampleCov_eq, crossDev_self, meanOf_eq]
    simp only [List.length_map]
    congr 2
    field_simp
  · rw [sampleCov_eq, crossDev_self]
    simp only [List.length_map]
    exact div_ne_zero hv hn

/-- **C22.**  With no sample trimmed and a covariate that is not constant, the adjusted metric has the mean
of the metric, is uncorrelated with the covariate, and its sum of squared deviations is
`S(metric) - C(metric, covariate)^2 / S(covariate) = S(metric) * (1 - corr^2)`; no other linear
adjustment with the covariate gives a smaller one. -/
theorem C22_cuped_without_trimming (R : Rounding K) (argsort : List K → List ℕ) (metric covariate : List K)
    (q : K) (out : List (Fl K)) (h : cuped R argsort metric covariate q = .ok out)
    (hg : ⌊R.rnd (q * (metric.length : K))⌋ = 0) (hv : Spec.sumSqDev covariate ≠ 0) :
    ∃ v : List K, out = v.map .fin ∧ v.length = metric.length ∧
      Spec.mean v = Spec.mean metric ∧ Spec.crossDev v covariate = 0 ∧
      Spec.sumSqDev v = Spec.sumSqDev metric - Spec.crossDev metric covariate ^ 2 / Spec.sumSqDev covariate ∧
      Spec.sumSqDev v ≤ Spec.sumSqDev metric ∧
      ∀ θ c : K, Spec.sumSqDev v ≤
        Spec.sumSqDev (List.zipWith (fun x y => x - θ * y + c) metric covariate) := by
  have hlen : metric.length = covariate.length := by
    unfold cuped at h
    simp only [raiseIf_bind_ok] at h
    simpa using h.1
  obtain ⟨z, rfl, rfl⟩ := exists_pairs hlen
  have hg' : nTrimOf R q z.length = 0 := by
    unfold nTrimOf Rounding.floorMul
    simp only [List.length_map] at hg
    simp only [Int.cast_natCast, hg, Int.toNat_zero]
  obtain ⟨h1, rfl⟩ := cuped_untrimmed h hg' hv
  have hne : z ≠ [] := by rintro rfl; simp at h1
  set Sxy := Spec.crossDev (z.map Prod.fst) (z.map Prod.snd) with hSxy
  set Syy := Spec.sumSqDev (z.map Prod.snd) with hSyy
  have hpos : 0 < Syy := lt_of_le_of_ne (sumSqDev_nonneg _) (Ne.symm hv)
  have hform : (z.map (fun p => p.1 - Sxy / Syy * (p.2 - Spec.mean (z.map Prod.snd)))) =
      z.map (fun p => 1 * p.1 + (-(Sxy / Syy)) * p.2 + Sxy / Syy * Spec.mean (z.map Prod.snd)) := by
    apply List.map_congr_left; intro p _; ring
  rw [hform]
  have hS : ∀ t c : K, Spec.sumSqDev (z.map (fun p : K × K => 1 * p.1 + t * p.2 + c)) =
      Spec.sumSqDev (z.map Prod.fst) + 2 * t * Sxy + t ^ 2 * Syy := by
    intro t c
    rw [sumSqDev_comb hne (fun p : K × K => p.1) (fun p : K × K => p.2) 1 t c]
    ring
  have hv1 : Spec.sumSqDev (z.map (fun p : K × K => 1 * p.1 + (-(Sxy / Syy)) * p.2 +
      Sxy / Syy * Spec.mean (z.map Prod.snd))) = Spec.sumSqDev (z.map Prod.fst) - Sxy ^ 2 / Syy := by
    rw [hS]; field_simp; ring
  refine ⟨_, rfl, by simp, ?_, ?_, hv1, ?_, ?_⟩
  · rw [mean_comb hne (fun p : K × K => p.1) (fun p : K × K => p.2)]
    ring
  · rw [crossDev_comb hne (fun p : K × K => p.1) (fun p : K × K => p.2)]
    have : Spec.crossDev (z.map (fun p : K × K => p.2)) (z.map Prod.snd) = Syy := crossDev_self _
    rw [this]
    have e : Spec.crossDev (z.map (fun p : K × K => p.1)) (z.map Prod.snd) = Sxy := rfl
    rw [e]
    field_simp
    ring
  · rw [hv1]
    have : 0 ≤ Sxy ^ 2 / Syy := by positivity
    linarith
  · intro θ c
    rw [hv1, zipWith_pairs]
    have e : z.map (fun p => p.1 - θ * p.2 + c) = z.map (fun p => 1 * p.1 + (-θ) * p.2 + c) := by
      apply List.map_congr_left; intro p _; ring
    rw [e, hS]
    have key : 0 ≤ Syy * (θ - Sxy / Syy) ^ 2 := by positivity
    have : Syy * (θ - Sxy / Syy) ^ 2 = θ ^ 2 * Syy - 2 * θ * Sxy + Sxy ^ 2 / Syy := by
      field_simp
      ring
    nlinarith

/-- The adjustment returns for all legal inputs (at least two samples, some left after trimming). -/
theorem C22_cuped_returns (R : Rounding K) (argsort : List K → List ℕ) (ha : ArgsortOk argsort)
    (metric covariate : List K) (hlen : metric.length = covariate.length) (h2 : 2 ≤ metric.length)
    (hn : metric.length ≤ 2 ^ 53) (q : K) (h0 : 0 ≤ q) (h1 : q < 1 / 2)
    (hleft : 2 * ⌊R.rnd (q * (metric.length : K))⌋ < metric.length) :
    (cuped R argsort metric covariate q).Returns := by
  have hg0 : 2 * nTrimOf R q metric.length ≤ metric.length := nTrimOf_le hn h0 h1
  have hg : 2 * nTrimOf R q metric.length < metric.length := by
    unfold nTrimOf Rounding.floorMul
    simp only [Int.cast_natCast]
    omega
  obtain ⟨z, rfl, rfl⟩ := exists_pairs hlen
  simp only [List.length_map] at *
  have hbase : (cuped R argsort (z.map Prod.fst) (z.map Prod.snd) q) =
      (cuped R argsort (z.map Prod.fst) (z.map Prod.snd) q) := rfl
  conv_rhs at hbase => unfold cuped
  simp only [List.length_map] at hbase
  rw [hbase]
  unfold Py.Returns
  simp only [raiseIf_bind_ok, List.length_map]
  by_cases hz : sampleCov (z.map Prod.snd) (z.map Prod.snd) = 0
  · simp only [if_pos hz]
    by_cases hg1 : nTrimOf R q z.length = 0
    · simp only [if_pos hg1]
      exact ⟨_, by simp, by omega, by push Not; exact ⟨h0, h1⟩, rfl⟩
    · simp only [if_neg hg1, raiseIf_bind_ok]
      exact ⟨_, by simp, by omega, by push Not; exact ⟨h0, h1⟩, by omega, rfl⟩
  · simp only [if_neg hz]
    rw [zipWith_pairs, cuped_stack]
    rw [mkTrimmed_eq ha _ h0 h1 (by simpa using hg0)]
    have htr := trimmedIndex_trims ha (z.map (fun p => ![p.1 - sampleCov (z.map Prod.fst) (z.map Prod.snd) /
        sampleCov (z.map Prod.snd) (z.map Prod.snd) * (p.2 - meanOf (z.map Prod.snd)), p.1, p.2]))
        (nTrimOf R q z.length) (by simpa using hg0)
    rw [mkTrimmed_eq ha (asStack (z.map Prod.fst)) h0 h1 (by simpa [asStack] using hg0)]
    have hr : ∀ l : List K, l.length = z.length → ∃ T, mkTrimmed R argsort (asStack l) q = .ok T := by
      intro l hl
      exact ⟨_, mkTrimmed_eq ha (asStack l) h0 h1 (by simpa [asStack, hl] using hg0)⟩
    simp only [bind, Except.bind, pure, Except.pure]
    by_cases hg1 : nTrimOf R q z.length = 0
    · simp only [List.length_map, if_pos hg1]
      exact ⟨_, by simp, by omega, by push Not; exact ⟨h0, h1⟩, rfl⟩
    · simp only [List.length_map, if_neg hg1]
      have hne : ¬ ((trimmedIndex argsort (rowOf (z.map (fun p => ![p.1 - sampleCov (z.map Prod.fst)
          (z.map Prod.snd) / sampleCov (z.map Prod.snd) (z.map Prod.snd) *
          (p.2 - meanOf (z.map Prod.snd)), p.1, p.2])) 0) (nTrimOf R q z.length)).map
          (fun i => (z.map (fun p => ![p.1 - sampleCov (z.map Prod.fst)
          (z.map Prod.snd) / sampleCov (z.map Prod.snd) (z.map Prod.snd) *
          (p.2 - meanOf (z.map Prod.snd)), p.1, p.2])).getD i 0) = []) := by
        intro hc
        obtain ⟨-, low, high, hp, hl, hh, -⟩ := htr
        have := hp.length_eq
        rw [hc] at this
        simp only [List.length_append, List.length_map, List.length_nil] at this
        omega
      simp only [raiseIf, hne, if_false]
      split_ifs with hc
      · exact ⟨_, by simp, by omega, by push Not; exact ⟨h0, h1⟩, rfl⟩
      · rw [zipWith_pairs]
        obtain ⟨T, hT⟩ := hr (z.map (fun p => p.1 - _ * p.2)) (by simp)
        rw [hT]
        simp only
        split_ifs
        all_goals exact ⟨_, by simp, by omega, by push Not; exact ⟨h0, h1⟩, rfl⟩

/-- The variance with another ddof. -/
theorem var_ddof {m : ℕ} (T : TrimmedArray K m) (i : Fin (m + 1)) (ddof : ℕ) (h : 0 < T.len) :
    T.var ddof i = T.var 0 i * ((T.len : K) / ((T.len : K) - (ddof : K))) := by
  unfold TrimmedArray.var
  rw [T.cov_eq, T.cov_eq]
  have : (T.len : K) ≠ 0 := by rw [Nat.cast_ne_zero]; omega
  simp only [Nat.cast_zero, sub_zero]
  field_simp

theorem rowOf_asStack (l : List K) : rowOf (asStack l) 0 = l := by
  unfold rowOf asStack
  rw [List.map_map]
  exact List.map_id l

/-- **C23.**  When samples are trimmed and the adjustment returns, its output is finite, has the same
trimmed mean as the metric, and its winsorized variance is not larger than the metric's (for every
ddof that leaves a positive divisor and whatever the sort does with ties). -/
theorem C23_cuped_with_trimming (R : Rounding K) (argsort argsort' argsort'' : List K → List ℕ)
    (ha : ArgsortOk argsort) (ha' : ArgsortOk argsort') (ha'' : ArgsortOk argsort'')
    (metric covariate : List K) (q : K) (out : List (Fl K))
    (h : cuped R argsort metric covariate q = .ok out)
    (hg : ⌊R.rnd (q * (metric.length : K))⌋ ≠ 0) :
    ∃ v : List K, out = v.map .fin ∧ v.length = metric.length ∧
      ∀ (T T' : TrimmedArray K 0), mkTrimmed R argsort' (asStack metric) q = .ok T →
        mkTrimmed R argsort'' (asStack v) q = .ok T' →
        T'.mean 0 = T.mean 0 ∧ ∀ ddof, ddof < T.len → T'.var ddof 0 ≤ T.var ddof 0 := by
  have hself : ∀ (T T' : TrimmedArray K 0), mkTrimmed R argsort' (asStack metric) q = .ok T →
        mkTrimmed R argsort'' (asStack metric) q = .ok T' → T.trimmed ≠ [] →
        T'.mean 0 = T.mean 0 ∧ ∀ ddof, ddof < T.len → T'.var ddof 0 ≤ T.var ddof 0 := by
    intro T T' hT hT' hne
    have := C17_statistics_ignore_order_and_ties R argsort' argsort'' ha' ha'' 0 0 _ _
      (List.Perm.refl _) q T T' hT hT' hne
    exact ⟨(this 0).1.symm, fun ddof _ => (this ddof).2.2.symm.le⟩
  have hne_of : ∀ (g : ℕ) (T : TrimmedArray K 0) (l : List K) (as : List K → List ℕ), l.length = metric.length →
      2 * nTrimOf R q metric.length < metric.length → mkTrimmed R as (asStack l) q = .ok T →
      T.trimmed ≠ [] := by
    intro _ T l as hl hlt hT hc
    obtain ⟨-, -, h2, h3, -⟩ := mkTrimmed_ok hT
    have hl' : (asStack l).length = metric.length := by simp [asStack, hl]
    rw [hc, h2, hl'] at h3
    simp at h3
    omega
  unfold cuped at h
  simp only [raiseIf_bind_ok] at h
  obtain ⟨hlen, h1, h2, h⟩ := h
  have hlen : metric.length = covariate.length := by simpa using hlen
  push Not at h1 h2
  have hg' : nTrimOf R q metric.length ≠ 0 := by
    unfold nTrimOf Rounding.floorMul
    simp only [Int.cast_natCast]
    have : 0 ≤ ⌊R.rnd (q * (metric.length : K))⌋ := by
      rw [Int.floor_nonneg]
      have := R.mono (by have := h2.1; positivity : (0 : K) ≤ q * ((metric.length : K)))
      have h3 := R.intFix 0 (by norm_num)
      simp only [Int.cast_zero] at h3
      rwa [h3] at this
    omega
  split_ifs at h with hc
  · simp only [raiseIf_bind_ok] at h
    obtain ⟨hlt, h⟩ := h
    cases h
    refine ⟨metric, rfl, rfl, fun T T' hT hT' => hself T T' hT hT' ?_⟩
    exact hne_of 0 T metric _ rfl (by omega) hT
  · rw [Py.bind_eq_ok] at h
    obtain ⟨T3, hT3, h⟩ := h
    have hst : (List.zipWith (fun a (bc : K × K) => (![a, bc.1, bc.2] : Fin 3 → K)) (List.zipWith
      (fun a b => a - sampleCov metric covariate / sampleCov covariate covariate *
        (b - meanOf covariate)) metric covariate) (metric.zip covariate)).length = metric.length := by
      simp [hlen]
    obtain ⟨-, -, h3, h4, -⟩ := mkTrimmed_ok hT3
    rw [hst] at h3 h4
    rw [if_neg (by rw [h3]; exact hg')] at h
    simp only [raiseIf_bind_ok] at h
    obtain ⟨hne3, h⟩ := h
    have hlt : 2 * nTrimOf R q metric.length < metric.length := by
      have := List.length_pos_iff.mpr hne3
      rw [h3] at h4
      omega
    split_ifs at h with hc2
    · cases h
      refine ⟨metric, rfl, rfl, fun T T' hT hT' => hself T T' hT hT' ?_⟩
      exact hne_of 0 T metric _ rfl hlt hT
    · simp only [Py.bind_eq_ok] at h
      obtain ⟨tm, htm, tc, htc, h⟩ := h
      set noOff := List.zipWith (fun a b => a - T3.cov 0 1 2 / T3.cov 0 2 2 * b) metric covariate with hno
      have hnolen : noOff.length = metric.length := by simp [hno, hlen]
      split_ifs at h with hlt2
      · cases h
        refine ⟨noOff.map (fun x => x + tm.mean 0 - tc.mean 0), by rw [List.map_map]; rfl,
          by simp [hnolen], ?_⟩
        intro T T' hT hT'
        have hTne := hne_of 0 T metric _ rfl hlt hT
        have htcne := hne_of 0 tc noOff _ hnolen hlt htc
        have htmne := hne_of 0 tm metric _ rfl hlt htm
        have e1 := C17_statistics_ignore_order_and_ties R argsort' argsort ha' ha 0 0 _ _
          (List.Perm.refl _) q T tm hT htm hTne
        have e2 := C20_shift_and_scale R argsort argsort'' ha ha'' 0 0 (asStack noOff) _ 1
          (tm.mean 0 - tc.mean 0) (by
            rw [rowOf_asStack, rowOf_asStack]
            apply List.map_congr_left
            intro x _; ring) q tc T' htc hT' htcne
        refine ⟨?_, ?_⟩
        · rw [(e2 0).1, (e1 0).1]; ring
        · intro ddof hd
          have hl1 : T.len = tm.len := by
            obtain ⟨-, -, a1, a2, -⟩ := mkTrimmed_ok hT
            obtain ⟨-, -, b1, b2, -⟩ := mkTrimmed_ok htm
            unfold TrimmedArray.len; omega
          have hl2 : tc.len = tm.len := by
            obtain ⟨-, -, a1, a2, -⟩ := mkTrimmed_ok htc
            obtain ⟨-, -, b1, b2, -⟩ := mkTrimmed_ok htm
            have c1 : (asStack noOff).length = metric.length := by simp [asStack, hnolen]
            have c2 : (asStack metric).length = metric.length := by simp [asStack]
            rw [c1] at a1 a2
            rw [c2] at b1 b2
            unfold TrimmedArray.len; omega
          rw [(e2 ddof).2.2, (e1 ddof).2.2, one_pow, one_mul]
          have hpos : 0 < tm.len := List.length_pos_iff.mpr htmne
          rw [var_ddof tc 0 ddof (by omega), var_ddof tm 0 ddof hpos, hl2]
          apply mul_le_mul_of_nonneg_right hlt2.le
          apply div_nonneg (by positivity)
          rw [sub_nonneg]
          have : ddof ≤ tm.len := by omega
          exact_mod_cast this
      · cases h
        refine ⟨metric, rfl, rfl, fun T T' hT hT' => hself T T' hT hT' ?_⟩
        exact hne_of 0 T metric _ rfl hlt hT

/-! ### C24 -/

/-- Transformation of the covariate row of the stack. -/
def affCol (a b : K) (c : Fin 3 → K) : Fin 3 → K := ![c 0, c 1, a * c 2 + b]

theorem argminCol_aff (a b : K) {l : List (Fin 3 → K)} (h : l ≠ []) :
    argminCol (l.map (affCol a b)) = affCol a b (argminCol l) := by
  cases l with
  | nil => exact absurd rfl h
  | cons c l =>
    simp only [argminCol, List.map_cons]
    clear h
    induction l generalizing c with
    | nil => rfl
    | cons d l ih =>
      simp only [List.map_cons, List.foldl_cons]
      have e : (if affCol a b d 0 < affCol a b c 0 then affCol a b d else affCol a b c) =
          affCol a b (if d 0 < c 0 then d else c) := by
        have h0 : ∀ x : Fin 3 → K, affCol a b x 0 = x 0 := fun x => rfl
        rw [h0, h0]; split_ifs <;> rfl
      rw [e]
      exact ih _

theorem argmaxCol_aff (a b : K) {l : List (Fin 3 → K)} (h : l ≠ []) :
    argmaxCol (l.map (affCol a b)) = affCol a b (argmaxCol l) := by
  cases l with
  | nil => exact absurd rfl h
  | cons c l =>
    simp only [argmaxCol, List.map_cons]
    clear h
    induction l generalizing c with
    | nil => rfl
    | cons d l ih =>
      simp only [List.map_cons, List.foldl_cons]
      have e : (if affCol a b c 0 < affCol a b d 0 then affCol a b d else affCol a b c) =
          affCol a b (if c 0 < d 0 then d else c) := by
        have h0 : ∀ x : Fin 3 → K, affCol a b x 0 = x 0 := fun x => rfl
        rw [h0, h0]; split_ifs <;> rfl
      rw [e]
      exact ih _

/-- Trimmed stacks whose covariate rows differ by an affine map. -/
theorem cov_aff {a b : K} {T T' : TrimmedArray K 2} (hg : T'.nTrim = T.nTrim)
    (hu : T'.untrimmed.length = T.untrimmed.length)
    (hlen : T.trimmed.length + 2 * T.nTrim = T.untrimmed.length)
    (ht : T'.trimmed = T.trimmed.map (affCol a b)) (hne : T.trimmed ≠ []) :
    T'.cov 0 1 2 = a * T.cov 0 1 2 ∧ T'.cov 0 2 2 = a ^ 2 * T.cov 0 2 2 := by
  have hw : T'.wins = T.wins.map (affCol a b) := by
    unfold TrimmedArray.wins TrimmedArray.minValues TrimmedArray.maxValues
    rw [ht, hg, argminCol_aff a b hne, argmaxCol_aff a b hne, List.map_append, List.map_append,
      List.map_replicate, List.map_replicate]
  have hl : T'.len = T.len := by unfold TrimmedArray.len; rw [ht, List.length_map]
  have hs : T'.size = T.size := hu
  have hsz : (T.size : K) ≠ 0 := by
    have := List.length_pos_iff.mpr hne
    rw [Nat.cast_ne_zero]; unfold TrimmedArray.size; omega
  have hm1 : T'.winsorizedMean 1 = T.winsorizedMean 1 := by
    rw [T'.winsorizedMean_eq, T.winsorizedMean_eq, hw, hs, rowOf, rowOf, List.map_map]; rfl
  have hm2 : T'.winsorizedMean 2 = a * T.winsorizedMean 2 + b := by
    rw [T'.winsorizedMean_eq, T.winsorizedMean_eq, hw, hs, rowOf, rowOf, List.map_map]
    have : (T.wins.map ((fun c : Fin 3 → K => c 2) ∘ affCol a b)).sum =
        a * (T.wins.map (fun c : Fin 3 → K => c 2)).sum + (T.wins.length : K) * b := by
      have := sum_map_affine (T.wins.map (fun c : Fin 3 → K => c 2)) a b
      rw [List.map_map, List.length_map] at this
      exact this
    rw [this, T.length_wins hlen]
    field_simp
  constructor
  · rw [T'.cov_eq, T.cov_eq, hw, hl, List.map_map, hm1, hm2, ← mul_div_assoc, ← List.sum_map_mul_left]
    congr 2
    apply List.map_congr_left
    intro c _
    simp only [Function.comp_apply, affCol, Matrix.cons_val]
    ring
  · rw [T'.cov_eq, T.cov_eq, hw, hl, List.map_map, hm2, ← mul_div_assoc, ← List.sum_map_mul_left]
    congr 2
    apply List.map_congr_left
    intro c _
    simp only [Function.comp_apply, affCol, Matrix.cons_val]
    ring

/-- **C24.**  Replacing the covariate by `a * covariate + b` (`a ≠ 0`) does not change the outcome of the
adjustment, with or without trimming. -/
theorem C24_covariate_units_irrelevant (R : Rounding K) (argsort : List K → List ℕ)
    (ha : ArgsortOk argsort) (metric covariate : List K) (q a b : K) (ha0 : a ≠ 0) :
    cuped R argsort metric (covariate.map (fun y => a * y + b)) q =
      cuped R argsort metric covariate q := by
  by_cases hlen : metric.length = covariate.length
  swap
  · unfold cuped
    have h1 : metric.length ≠ (covariate.map (fun y => a * y + b)).length := by simpa using hlen
    simp only [raiseIf, if_pos hlen, if_pos h1]
    rfl
  obtain ⟨z, rfl, rfl⟩ := exists_pairs hlen
  by_cases hz1 : z.length ≤ 1
  · unfold cuped
    simp only [List.length_map, raiseIf, ne_eq, not_true_eq_false, if_false, if_pos hz1]
    rfl
  have hz : z ≠ [] := by rintro rfl; simp at hz1
  have hn : ((z.length : K) - 1) ≠ 0 := by
    have : (1 : K) < (z.length : K) := by exact_mod_cast not_le.mp hz1
    exact (sub_pos.mpr this).ne'
  have hmean : meanOf ((z.map Prod.snd).map (fun y => a * y + b)) = a * meanOf (z.map Prod.snd) + b :=
    mean_affine (by simpa using hz) a b
  have hcov1 : sampleCov (z.map Prod.fst) ((z.map Prod.snd).map (fun y => a * y + b)) =
      a * sampleCov (z.map Prod.fst) (z.map Prod.snd) := by
    rw [sampleCov_eq, sampleCov_eq, List.map_map]
    have := crossDev_comb hz (fun p : K × K => p.2) (fun p : K × K => p.2) (fun p : K × K => p.1) a 0 b
    have e : (fun p : K × K => a * p.2 + 0 * p.2 + b) = (fun y => a * y + b) ∘ Prod.snd := by
      funext p; simp
    rw [e, crossDev_comm, crossDev_comm z (fun p : K × K => p.2) (fun p : K × K => p.1)] at this
    simp only [zero_mul, add_zero] at this
    have e2 : Spec.crossDev (z.map Prod.fst) (z.map ((fun y => a * y + b) ∘ Prod.snd)) =
      a * Spec.crossDev (z.map Prod.fst) (z.map Prod.snd) := this
    rw [e2, mul_div_assoc]
  have hcov2 : sampleCov ((z.map Prod.snd).map (fun y => a * y + b)) ((z.map Prod.snd).map (fun y => a * y + b)) =
      a ^ 2 * sampleCov (z.map Prod.snd) (z.map Prod.snd) := by
    rw [sampleCov_eq, sampleCov_eq, crossDev_self, crossDev_self, sumSqDev_affine (by simpa using hz),
      mul_div_assoc, List.length_map]
  have ha2 : a ^ 2 ≠ 0 := pow_ne_zero 2 ha0
  unfold cuped
  rw [hcov1, hcov2, hmean]
  simp only [List.length_map, mul_eq_zero, ha2, false_or]
  congr 1; funext _; congr 1; funext _; congr 1; funext _
  by_cases hc : sampleCov (z.map Prod.snd) (z.map Prod.snd) = 0
  · simp only [if_pos hc]
  simp only [if_neg hc]
  set θ := sampleCov (z.map Prod.fst) (z.map Prod.snd) / sampleCov (z.map Prod.snd) (z.map Prod.snd) with hθ
  have hθ' : a * sampleCov (z.map Prod.fst) (z.map Prod.snd) /
      (a ^ 2 * sampleCov (z.map Prod.snd) (z.map Prod.snd)) = θ / a := by
    rw [hθ]; field_simp
  rw [hθ']
  have hadj : List.zipWith (fun x y => x - θ / a * (y - (a * meanOf (z.map Prod.snd) + b))) (z.map Prod.fst)
      ((z.map Prod.snd).map (fun y => a * y + b)) =
      z.map (fun p => p.1 - θ * (p.2 - meanOf (z.map Prod.snd))) := by
    rw [List.zipWith_map_right, zipWith_pairs]
    apply List.map_congr_left
    intro p _
    field_simp
    ring
  have hadj0 : List.zipWith (fun x y => x - θ * (y - meanOf (z.map Prod.snd))) (z.map Prod.fst)
      (z.map Prod.snd) = z.map (fun p => p.1 - θ * (p.2 - meanOf (z.map Prod.snd))) := zipWith_pairs _ _
  rw [hadj, hadj0]
  set f : K × K → K := fun p => p.1 - θ * (p.2 - meanOf (z.map Prod.snd)) with hf
  have hst : List.zipWith (fun x (bc : K × K) => (![x, bc.1, bc.2] : Fin 3 → K)) (z.map f)
      ((z.map Prod.fst).zip ((z.map Prod.snd).map (fun y => a * y + b))) =
      (z.map (fun p => ![f p, p.1, p.2])).map (affCol a b) := by
    have : (z.map Prod.fst).zip ((z.map Prod.snd).map (fun y => a * y + b)) =
        z.map (fun p => (p.1, a * p.2 + b)) := by
      rw [List.zip, List.zipWith_map_right, zipWith_pairs]
    rw [this, List.zipWith_map_left, List.zipWith_map_right, List.zipWith_self, List.map_map]
    rfl
  rw [hst, cuped_stack]
  set S := z.map (fun p => (![f p, p.1, p.2] : Fin 3 → K)) with hS
  clear_value S
  have hrow : rowOf (S.map (affCol a b)) 0 = rowOf S 0 := by
    unfold rowOf; rw [List.map_map]; rfl
  -- the trimmed stacks
  cases hT : mkTrimmed R argsort S q with
  | error e =>
    have : mkTrimmed R argsort (S.map (affCol a b)) q = .error e := by
      unfold mkTrimmed at hT ⊢
      rw [hrow]
      simp only [raiseIf_bind_err, List.length_map] at hT ⊢
      simpa [pure, Except.pure] using hT
    rw [this]; rfl
  | ok T =>
    obtain ⟨⟨hq0, hq1⟩, hTu, hTg, hTl, hTt⟩ := mkTrimmed_ok hT
    have hT' : mkTrimmed R argsort (S.map (affCol a b)) q =
        .ok ⟨S.map (affCol a b), T.nTrim, T.trimmed.map (affCol a b)⟩ := by
      rw [mkTrimmed_eq ha _ hq0 hq1 (by rw [List.length_map, ← hTg]; omega), hrow, List.length_map,
        ← hTg, hTt]
      congr 2
      rw [List.map_map]
      apply List.map_congr_left
      intro i hi
      have hi' : i < S.length := by
        have hsub : i ∈ List.range S.length := by
          unfold trimmedIndex at hi
          split_ifs at hi with h0
          · simpa [length_rowOf] using hi
          · rw [List.mem_insertionSort] at hi
            have hi2 : i ∈ argsort (rowOf S 0) := by
              unfold sliceInner at hi
              exact List.mem_of_mem_take (List.mem_of_mem_drop hi)
            have := (ha (rowOf S 0)).1.mem_iff.mp hi2
            rwa [length_rowOf] at this
        simpa using hsub
      simp [List.getElem?_eq_getElem hi']
    rw [hT']
    simp only [bind, Except.bind]
    by_cases hg0 : T.nTrim = 0
    · simp only [if_pos hg0]
    simp only [if_neg hg0, raiseIf, List.map_eq_nil_iff]
    by_cases hne : T.trimmed = []
    · simp only [if_pos hne]
    simp only [if_neg hne]
    obtain ⟨c12, c22⟩ := cov_aff (a := a) (b := b) (T := T)
      (T' := ⟨S.map (affCol a b), T.nTrim, T.trimmed.map (affCol a b)⟩) rfl (by simp [hTu])
      (by rw [hTu]; exact hTl) rfl hne
    rw [c12, c22]
    simp only [mul_eq_zero, ha2, false_or]
    by_cases hc2 : T.cov 0 2 2 = 0
    · simp only [if_pos hc2]
    simp only [if_neg hc2]
    set τ := T.cov 0 1 2 / T.cov 0 2 2 with hτ
    have hτ' : a * T.cov 0 1 2 / (a ^ 2 * T.cov 0 2 2) = τ / a := by rw [hτ]; field_simp
    rw [hτ']
    cases htm : mkTrimmed R argsort (asStack (z.map Prod.fst)) q with
    | error e => rfl
    | ok tm =>
      simp only
      have hno : List.zipWith (fun x y => x - τ / a * y) (z.map Prod.fst)
          ((z.map Prod.snd).map (fun y => a * y + b)) = z.map (fun p => (p.1 - τ * p.2) + (-(τ / a * b))) := by
        rw [List.zipWith_map_right, zipWith_pairs]
        apply List.map_congr_left
        intro p _
        field_simp
        ring
      have hno0 : List.zipWith (fun x y => x - τ * y) (z.map Prod.fst) (z.map Prod.snd) =
          z.map (fun p => p.1 - τ * p.2) := zipWith_pairs _ _
      rw [hno, hno0]
      have hSlen : S.length = z.length := by simp [hS]
      have hgle : 2 * nTrimOf R q z.length ≤ z.length := by
        rw [← hSlen, ← hTg]; omega
      have l1 : (asStack (z.map (fun p => p.1 - τ * p.2))).length = z.length := by simp [asStack]
      have l2 : (asStack (z.map (fun p => (p.1 - τ * p.2) + (-(τ / a * b))))).length = z.length := by
        simp [asStack]
      obtain ⟨tc, htc⟩ : ∃ tc, mkTrimmed R argsort (asStack (z.map (fun p => p.1 - τ * p.2))) q = .ok tc :=
        ⟨_, mkTrimmed_eq ha _ hq0 hq1 (by rw [l1]; exact hgle)⟩
      obtain ⟨tc', htc'⟩ : ∃ tc, mkTrimmed R argsort
          (asStack (z.map (fun p => (p.1 - τ * p.2) + (-(τ / a * b))))) q = .ok tc :=
        ⟨_, mkTrimmed_eq ha _ hq0 hq1 (by rw [l2]; exact hgle)⟩
      have htcne : tc.trimmed ≠ [] := by
        intro hcon
        obtain ⟨-, -, b1, b2, -⟩ := mkTrimmed_ok htc
        rw [l1] at b1 b2
        rw [hcon, b1] at b2
        have := List.length_pos_iff.mpr hne
        rw [hSlen] at hTl hTg
        simp at b2
        omega
      have e := C20_shift_and_scale R argsort argsort ha ha 0 0 _ _ 1 (-(τ / a * b)) (by
          rw [rowOf_asStack, rowOf_asStack, List.map_map]
          apply List.map_congr_left
          intro p _
          simp only [Function.comp_apply]
          ring) q tc tc' htc htc' htcne 0
      rw [htc, htc']
      simp only
      rw [e.2.2, e.1, one_pow, one_mul]
      split_ifs
      · simp only [List.map_map]
        congr 1
        apply List.map_congr_left
        intro p _
        simp only [Function.comp_apply]
        congr 1
        ring
      · rfl

/-- **C24.**  Without trimming, adding a constant to the metric adds it to the adjusted metric. -/
theorem C24_metric_shift (R : Rounding K) (argsort : List K → List ℕ) (metric covariate : List K)
    (q c : K) (out : List (Fl K)) (h : cuped R argsort metric covariate q = .ok out)
    (hg : ⌊R.rnd (q * (metric.length : K))⌋ = 0) (ha : ArgsortOk argsort) :
    cuped R argsort (metric.map (fun x => x + c)) covariate q =
      .ok (out.map (fun v => v + .fin c)) := by
  have hlen : metric.length = covariate.length := by
    unfold cuped at h
    simp only [raiseIf_bind_ok] at h
    simpa using h.1
  obtain ⟨z, rfl, rfl⟩ := exists_pairs hlen
  have hg' : nTrimOf R q z.length = 0 := by
    unfold nTrimOf Rounding.floorMul
    simp only [List.length_map] at hg
    simp only [Int.cast_natCast, hg, Int.toNat_zero]
  have h' := h
  unfold cuped at h'
  simp only [raiseIf_bind_ok, List.length_map] at h'
  obtain ⟨-, hz1, hq, h'⟩ := h'
  have hqq : 0 ≤ q ∧ q < 1 / 2 := by push Not at hq; exact hq
  have hz : z ≠ [] := by rintro rfl; simp at hz1
  have hz2 : (z.map (fun p : K × K => (p.1 + c, p.2))).length = z.length := by simp
  have em : (z.map Prod.fst).map (fun x => x + c) = (z.map (fun p : K × K => (p.1 + c, p.2))).map Prod.fst := by
    simp [List.map_map, Function.comp_def]
  have ec : z.map Prod.snd = (z.map (fun p : K × K => (p.1 + c, p.2))).map Prod.snd := by
    simp [List.map_map, Function.comp_def]
  by_cases hv : sampleCov (z.map Prod.snd) (z.map Prod.snd) = 0
  · rw [if_pos hv, if_pos hg'] at h'
    cases h'
    unfold cuped
    simp only [raiseIf_bind_ok, List.length_map, if_pos hv, if_pos hg']
    refine ⟨by simp, hz1, hq, ?_⟩
    simp only [List.map_map]
    rfl
  · have hS : Spec.sumSqDev (z.map Prod.snd) ≠ 0 := by
      intro hcon
      apply hv
      rw [sampleCov_eq, crossDev_self, hcon, zero_div]
    obtain ⟨-, rfl⟩ := cuped_untrimmed h hg' hS
    have hret : ∃ out', cuped R argsort ((z.map (fun p : K × K => (p.1 + c, p.2))).map Prod.fst)
        ((z.map (fun p : K × K => (p.1 + c, p.2))).map Prod.snd) q = .ok out' := by
      rw [← ec]
      unfold cuped
      simp only [raiseIf_bind_ok, List.length_map, if_neg hv]
      rw [ec, zipWith_pairs, cuped_stack]
      rw [mkTrimmed_eq ha _ hqq.1 hqq.2 (by simp [hg'])]
      simp only [bind, Except.bind, pure, Except.pure, List.length_map, if_pos hg']
      exact ⟨_, by simp, hz1, hq, rfl⟩
    obtain ⟨out', hout'⟩ := hret
    obtain ⟨-, e⟩ := cuped_untrimmed hout' (by rw [hz2]; exact hg') (by rw [← ec]; exact hS)
    rw [em]
    conv_lhs => rw [ec]
    rw [hout', e, ← ec, ← em]
    congr 1
    have hcd : Spec.crossDev ((z.map Prod.fst).map (fun x => x + c)) (z.map Prod.snd) =
        Spec.crossDev (z.map Prod.fst) (z.map Prod.snd) := by
      have := crossDev_comb hz (fun p : K × K => p.1) (fun p : K × K => p.2) (fun p : K × K => p.2) 1 0 c
      have e : (fun p : K × K => 1 * p.1 + 0 * p.2 + c) = (fun x => x + c) ∘ Prod.fst := by
        funext p; simp
      rw [e] at this
      rw [List.map_map]
      simpa using this
    rw [hcd]
    simp only [List.map_map]
    apply List.map_congr_left
    intro p _
    simp only [Function.comp_apply, Fl.fin_add]
    congr 1
    ring

/-! ### Examples -/

/-- Metric with two outliers and a covariate correlated with it. -/
def exMetric : List ℚ := [1, 2, 3, 4, 5, 6, 100, 8]
/-- See `exMetric`. -/
def exCovariate : List ℚ := [1, 2, 2, 4, 6, 6, 7, 9]

deriving instance Repr for Fl

/-- The hypotheses of the theorems are met: untrimmed and trimmed calls return, and the trimmed call
takes the adjusting branch (the output differs from the metric). -/
example : Spec.sumSqDev exCovariate ≠ 0 ∧
    ⌊(Rounding.exact ℚ).rnd (0 * ((exMetric.length : ℕ) : ℚ))⌋ = 0 ∧
    ⌊(Rounding.exact ℚ).rnd (1 / 4 * ((exMetric.length : ℕ) : ℚ))⌋ = 2 := by decide +kernel
example : (match cuped (.exact ℚ) stableArgsort exMetric exCovariate (1 / 4) with
    | .ok out => decide (out.length = 8 ∧ out ≠ exMetric.map .fin)
    | .error _ => false) = true := by decide +kernel
example : (match cuped (.exact ℚ) stableArgsort exMetric exCovariate 0 with
    | .ok out => decide (out.length = 8 ∧ out ≠ exMetric.map .fin)
    | .error _ => false) = true := by decide +kernel

end Feedx
