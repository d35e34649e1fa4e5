import Verif.Props.Cuped
import Verif.Spec.Cuped

/-!
Property C23: what the CUPED adjustment returns when samples are trimmed.
-/

set_option linter.unusedSectionVars false

namespace Feedx

variable {K : Type} [Field K] [LinearOrder K] [IsStrictOrderedRing K] [FloorRing K]

/-- Cutting a list of images cuts the list, up to the choice of a key. -/
theorem trimmed_pairs {α β : Type} {key : α → K} {key' : β → K} {g : ℕ} {all kept : List α} {f : α → β}
    (hk : ∀ a ∈ all, ∀ b ∈ all, key a ≤ key b → key' (f a) ≤ key' (f b)) (h : Spec.Trimmed key g all kept) :
    Spec.Trimmed key' g (all.map f) (kept.map f) := by
  obtain ⟨h1, low, high, h2, h3, h4, h5, h6⟩ := h
  have hmem : ∀ x ∈ low ++ kept ++ high, x ∈ all := fun x hx => h2.mem_iff.mp hx
  refine ⟨h1.map f, low.map f, high.map f, ?_, by simpa using h3, by simpa using h4, ?_, ?_⟩
  · rw [← List.map_append, ← List.map_append]; exact h2.map f
  · intro x hx y hy
    rw [← List.map_append] at hy
    obtain ⟨a, ha, rfl⟩ := List.mem_map.mp hx
    obtain ⟨b, hb, rfl⟩ := List.mem_map.mp hy
    exact hk a (hmem a (by simp [ha])) b (hmem b (by simp at hb ⊢; tauto)) (h5 a ha b hb)
  · intro x hx y hy
    rw [← List.map_append] at hy
    obtain ⟨a, ha, rfl⟩ := List.mem_map.mp hx
    obtain ⟨b, hb, rfl⟩ := List.mem_map.mp hy
    exact hk b (hmem b (by simp at hb ⊢; tauto)) a (hmem a (by simp [ha])) (h6 a ha b hb)

/-- Covariances of a trimmed array are those of its winsorized columns. -/
theorem cov_wins {m : ℕ} (T : TrimmedArray K m) (hlen : T.trimmed.length + 2 * T.nTrim = T.untrimmed.length) (i j : Fin (m + 1)) :
    T.cov 0 i j = Spec.crossDev (rowOf T.wins i) (rowOf T.wins j) / (T.len : K) := by
  rw [T.cov_eq, T.winsorizedMean_eq, T.winsorizedMean_eq]
  unfold Spec.crossDev Spec.mean
  have hl : ∀ k, (rowOf T.wins k).length = T.size := fun k => by rw [length_rowOf, T.length_wins hlen]
  rw [hl, hl]
  unfold rowOf
  rw [List.zipWith_map, List.zipWith_self]
  simp

/-- **C23, the adjustment itself.**  For at least one sample trimmed at each end: items with the same pretest value are not adjusted.  Otherwise the
samples are winsorized by their residuals of the regression on the pretest value, and the slope of the metric on the pretest value in the
winsorized sample is used for the adjustment (there is none if the winsorized pretest values are constant).  The adjusted values
`metric - slope * covariate`, moved by a constant so that the trimmed mean is that of the metric, are returned exactly if their trimmed
variance is smaller than the one of the metric. -/
theorem C23_trimmed_adjustment (R : Rounding K) (argsort : List K → List ℕ) (ha : ArgsortOk argsort) (z : List (K × K)) (q : K) (out : List (Fl K))
    (h : cuped R argsort (z.map Prod.fst) (z.map Prod.snd) q = .ok out) (g : ℕ) (hg : (g : ℤ) = ⌊R.rnd (q * (z.length : K))⌋) (hg0 : g ≠ 0) :
    (Spec.sumSqDev (z.map Prod.snd) = 0 → out = z.map (fun p => .fin p.1)) ∧
    (Spec.sumSqDev (z.map Prod.snd) ≠ 0 →
      ∃ wins, Spec.Winsorized (fun p => p.1 - Spec.slope z * p.2) g z wins ∧
        (Spec.sumSqDev (wins.map Prod.snd) = 0 → out = z.map (fun p => .fin p.1)) ∧
        (Spec.sumSqDev (wins.map Prod.snd) ≠ 0 → ∃ tm tc : TrimmedArray K 0,
          mkTrimmed R argsort (asStack (z.map Prod.fst)) q = .ok tm ∧
          mkTrimmed R argsort (asStack (z.map (fun p => p.1 - Spec.slope wins * p.2))) q = .ok tc ∧
          (tc.var 0 0 < tm.var 0 0 → out = z.map (fun p => .fin (p.1 - Spec.slope wins * p.2 + tm.mean 0 - tc.mean 0))) ∧
          (tm.var 0 0 ≤ tc.var 0 0 → out = z.map (fun p => .fin p.1)))) := by
  unfold cuped at h
  simp only [raiseIf_bind_ok, List.length_map] at h
  obtain ⟨-, h1, h2, h⟩ := h
  push Not at h1
  have hn : ((z.length : K) - 1) ≠ 0 := by
    have : (1 : K) < (z.length : K) := by exact_mod_cast h1
    exact (sub_pos.mpr this).ne'
  have hnt : nTrimOf R q z.length = g := by
    unfold nTrimOf Rounding.floorMul
    simp only [Int.cast_natCast]
    rw [← hg]; simp
  have hcov : sampleCov (z.map Prod.snd) (z.map Prod.snd) = Spec.sumSqDev (z.map Prod.snd) / ((z.length : K) - 1) := by
    rw [sampleCov_eq, crossDev_self]; simp
  constructor
  · intro hz
    rw [if_pos (by rw [hcov, hz, zero_div]), if_neg (by rw [hnt]; exact hg0)] at h
    simp only [raiseIf_bind_ok] at h
    cases h.2
    rw [List.map_map]; rfl
  · intro hz
    have hc : sampleCov (z.map Prod.snd) (z.map Prod.snd) ≠ 0 := by rw [hcov]; exact div_ne_zero hz hn
    rw [if_neg hc, zipWith_pairs, cuped_stack, Py.bind_eq_ok] at h
    obtain ⟨T, hT, h⟩ := h
    obtain ⟨-, hu, hT0, hT3, -⟩ := mkTrimmed_ok hT
    rw [List.length_map, hnt] at hT0
    rw [if_neg (by rw [hT0]; exact hg0)] at h
    simp only [raiseIf_bind_ok] at h
    obtain ⟨hne, h⟩ := h
    have htr := mkTrimmed_trims ha hT
    rw [hT0] at htr
    have hth : sampleCov (z.map Prod.fst) (z.map Prod.snd) / sampleCov (z.map Prod.snd) (z.map Prod.snd) = Spec.slope z := by
      rw [hcov, sampleCov_eq]
      unfold Spec.slope
      simp only [List.length_map]
      field_simp
    have hkey : ∀ c ∈ T.untrimmed, c 1 - Spec.slope z * c 2 = c 0 - Spec.slope z * meanOf (z.map Prod.snd) := by
      intro c hc
      rw [hu] at hc
      obtain ⟨p, -, rfl⟩ := List.mem_map.mp hc
      simp only [Matrix.cons_val_zero, Matrix.cons_val_one, Matrix.cons_val]
      rw [hth]
      ring
    have hback : T.untrimmed.map (fun c => (c 1, c 2)) = z := by
      rw [hu, List.map_map]
      conv_rhs => rw [← List.map_id z]
      apply List.map_congr_left
      intro p _
      simp
    rw [← hu] at htr hT3
    have hsub : ∀ c ∈ T.trimmed, c ∈ T.untrimmed := fun c hc => htr.1.subset hc
    obtain ⟨m1, m2⟩ := argminCol_spec hne
    obtain ⟨m3, m4⟩ := argmaxCol_spec hne
    have hwin : Spec.Winsorized (fun p : K × K => p.1 - Spec.slope z * p.2) g z (T.wins.map (fun c => (c 1, c 2))) := by
      refine ⟨T.trimmed.map (fun c => (c 1, c 2)), (T.minValues 1, T.minValues 2), (T.maxValues 1, T.maxValues 2), ?_, ?_, ?_, ?_, ?_⟩
      · have := trimmed_pairs (key' := fun p : K × K => p.1 - Spec.slope z * p.2) (f := fun c : Fin 3 → K => (c 1, c 2)) (fun a ha' b hb hab => by
          simp only
          rw [hkey a ha', hkey b hb]
          exact sub_le_sub_right hab _) htr
        rwa [hback] at this
      · exact List.mem_map.mpr ⟨_, m1, rfl⟩
      · exact List.mem_map.mpr ⟨_, m3, rfl⟩
      · intro x hx
        obtain ⟨c, hc, rfl⟩ := List.mem_map.mp hx
        simp only
        rw [hkey c (hsub c hc), hkey T.minValues (hsub _ m1), hkey T.maxValues (hsub _ m3)]
        exact ⟨sub_le_sub_right (m2 c hc) _, sub_le_sub_right (m4 c hc) _⟩
      · unfold TrimmedArray.wins
        rw [hT0]
        simp
    have hlen0 : (T.len : K) ≠ 0 := by
      rw [Nat.cast_ne_zero]
      exact (List.length_pos_iff.mpr hne).ne'
    have r1 : rowOf T.wins 1 = (T.wins.map (fun c => (c 1, c 2))).map Prod.fst := by unfold rowOf; rw [List.map_map]; rfl
    have r2 : rowOf T.wins 2 = (T.wins.map (fun c => (c 1, c 2))).map Prod.snd := by unfold rowOf; rw [List.map_map]; rfl
    have c22 : T.cov 0 2 2 = Spec.sumSqDev ((T.wins.map (fun c => (c 1, c 2))).map Prod.snd) / (T.len : K) := by
      rw [cov_wins T hT3, crossDev_self, r2]
    have c12 : T.cov 0 1 2 = Spec.crossDev ((T.wins.map (fun c => (c 1, c 2))).map Prod.fst) ((T.wins.map (fun c => (c 1, c 2))).map Prod.snd) /
        (T.len : K) := by
      rw [cov_wins T hT3, r1, r2]
    refine ⟨T.wins.map (fun c => (c 1, c 2)), hwin, ?_, ?_⟩
    · intro h0
      rw [if_pos (by rw [c22, h0, zero_div])] at h
      cases h
      rw [List.map_map]; rfl
    · intro h0
      have hs : T.cov 0 1 2 / T.cov 0 2 2 = Spec.slope (T.wins.map (fun c => (c 1, c 2))) := by
        rw [c12, c22]
        unfold Spec.slope
        field_simp
      rw [if_neg (by rw [c22]; exact div_ne_zero h0 hlen0)] at h
      simp only [Py.bind_eq_ok] at h
      obtain ⟨tm, htm, tc, htc, h⟩ := h
      rw [zipWith_pairs, hs] at htc h
      refine ⟨tm, tc, htm, htc, ?_, ?_⟩
      · intro hlt
        rw [if_pos hlt] at h
        cases h
        rw [List.map_map]; rfl
      · intro hle
        rw [if_neg (not_lt.mpr hle)] at h
        cases h
        rw [List.map_map]; rfl

/-- Eight samples of which two are trimmed at each end; here the values are adjusted. -/
example : ⌊(Rounding.exact ℚ).rnd (1 / 4 * ((exMetric.zip exCovariate).length : ℚ))⌋ = 2 ∧ Spec.sumSqDev ((exMetric.zip exCovariate).map Prod.snd) ≠ 0 ∧
    (match cuped (.exact ℚ) stableArgsort ((exMetric.zip exCovariate).map Prod.fst) ((exMetric.zip exCovariate).map Prod.snd) (1 / 4) with
    | .ok out => decide (out.length = 8 ∧ out ≠ (exMetric.zip exCovariate).map (fun p => .fin p.1))
    | .error _ => false) = true := by decide +kernel

end Feedx
