import Verif.Props.CupedExact
import Verif.Props.TTestFormulas
import Verif.Props.TTestResults

/-!
Property C30: exactly when the paired test of a plain metric has an interval, and which one.
-/

set_option linter.unusedSectionVars false
set_option linter.unusedSimpArgs false

namespace Feedx
open Fl

/-- **C30, C26: every plain paired test.**  Let `wins` be the pairs after winsorizing by their differences (all pairs, if nothing is trimmed) and `h`
the number of pairs kept.  The reported standard error `s` is that of the winsorized differences.  The two-sided interval is the difference plus
or minus the quantile times that same `s`, unless one of the two winsorized samples is constant: then it is `[nan, nan]`, at every level. -/
theorem C30_two_sided_interval (R : Rounding ℝ) (argsort : List ℝ → List ℕ) (ha : ArgsortOk argsort) (D : TDist) (values1 values2 : List ℝ) (q : ℝ)
    (alpha : ℝ) (h0 : 0 < alpha) (h1 : alpha < 1) (r : TestResult)
    (h : pairedTest R argsort D values1 values2 q none none "two-sided" alpha = .ok r) :
    ∃ (g : ℕ) (wins : List (ℝ × ℝ)) (d s : ℝ), (g : ℤ) = ⌊R.rnd (q * (values1.length : ℝ))⌋ ∧
      Spec.Winsorized (fun p => p.1 - p.2) g (values1.zip values2) wins ∧
      r.absoluteDifference = fin d ∧ r.standardError = fin s ∧
      s = Real.sqrt (Spec.sumSqDev (wins.map (fun p => p.1 - p.2)) / ((r.sampleSize : ℝ) - 1)) / Real.sqrt r.sampleSize ∧
      (Spec.sumSqDev (wins.map Prod.fst) ≠ 0 ∧ Spec.sumSqDev (wins.map Prod.snd) ≠ 0 →
        r.absoluteLower = fin (d - D.ppf ((r.sampleSize : ℝ) - 1) (1 - alpha / 2) * s) ∧
        r.absoluteUpper = fin (d + D.ppf ((r.sampleSize : ℝ) - 1) (1 - alpha / 2) * s)) ∧
      (Spec.sumSqDev (wins.map Prod.fst) = 0 ∨ Spec.sumSqDev (wins.map Prod.snd) = 0 → r.absoluteLower = nan ∧ r.absoluteUpper = nan) := by
  have hlen : values1.length = values2.length := by
    unfold pairedTest at h
    obtain ⟨h0, -⟩ := raiseIf_bind_ok.mp h
    exact not_not.mp h0
  rcases pairedTest_ok h with ⟨x1, x2, e1, -⟩ | ⟨-, -, T, hT, hl, hr⟩
  · cases e1
  have hcl : (stack3 values1 values2).length = values1.length := by simp [stack3, hlen]
  obtain ⟨hu, e1, htr, e2⟩ := C16_trims_exactly_the_extremes R argsort ha 2 _ q T hT
  have hne : T.trimmed ≠ [] := by
    intro h
    unfold TrimmedArray.len at hl
    rw [h] at hl
    simp at hl
  have hstack : ∀ c ∈ stack3 values1 values2, c 0 = c 1 - c 2 := fun c hc => stack3_row c hc
  have hback : (stack3 values1 values2).map (fun c => (c 1, c 2)) = values1.zip values2 := by
    obtain ⟨r1, r2, -⟩ := stack3_rows hlen
    have : (rowOf (stack3 values1 values2) 1).zip (rowOf (stack3 values1 values2) 2) = (stack3 values1 values2).map (fun c => (c 1, c 2)) := by
      unfold rowOf
      rw [List.zip_map']
    rw [← this, r1, r2]
  have hsub : ∀ c ∈ T.trimmed, c 0 = c 1 - c 2 := fun c hc => hstack c (htr.1.subset hc)
  obtain ⟨m1, m2⟩ := argminCol_spec hne
  obtain ⟨m3, m4⟩ := argmaxCol_spec hne
  have hwin : Spec.Winsorized (fun p : ℝ × ℝ => p.1 - p.2) T.nTrim (values1.zip values2) (T.wins.map (fun c => (c 1, c 2))) := by
    refine ⟨T.trimmed.map (fun c => (c 1, c 2)), (T.minValues 1, T.minValues 2), (T.maxValues 1, T.maxValues 2), ?_, ?_, ?_, ?_, ?_⟩
    · have := trimmed_pairs (key' := fun p : ℝ × ℝ => p.1 - p.2) (f := fun c : Fin 3 → ℝ => (c 1, c 2)) (fun a ha' b hb hab => by
        simp only
        rw [← hstack a ha', ← hstack b hb]
        exact hab) htr
      rwa [hback] at this
    · exact List.mem_map.mpr ⟨_, m1, rfl⟩
    · exact List.mem_map.mpr ⟨_, m3, rfl⟩
    · intro x hx
      obtain ⟨c, hc, rfl⟩ := List.mem_map.mp hx
      simp only
      rw [← hsub c hc]
      have a1 := m2 c hc
      have a2 := m4 c hc
      have b1 := hsub _ m1
      have b2 := hsub _ m3
      constructor
      · show T.minValues 1 - T.minValues 2 ≤ c 0
        unfold TrimmedArray.minValues
        rw [← b1]; exact a1
      · show c 0 ≤ T.maxValues 1 - T.maxValues 2
        unfold TrimmedArray.maxValues
        rw [← b2]; exact a2
    · unfold TrimmedArray.wins
      simp
  have hwmem : ∀ c ∈ T.wins, c 0 = c 1 - c 2 := by
    intro c hc
    unfold TrimmedArray.wins at hc
    simp only [List.mem_append, List.mem_replicate] at hc
    rcases hc with (hc | ⟨-, rfl⟩) | ⟨-, rfl⟩
    · exact hsub c hc
    · exact hsub _ m1
    · exact hsub _ m3
  have hn1 : (0 : ℝ) < (T.len : ℝ) - 1 := by
    have : (1 : ℝ) < T.len := by exact_mod_cast hl
    linarith
  have hcov : ∀ i, T.cov 1 i i = Spec.sumSqDev (rowOf T.wins i) / ((T.len : ℝ) - 1) := by
    intro i
    have e : (T.len : ℝ) ≠ 0 := by rw [Nat.cast_ne_zero]; omega
    have k := cov_wins T (by rw [hu]; exact e2) i i
    rw [crossDev_self] at k
    rw [T.cov_eq] at k ⊢
    simp only [Nat.cast_zero, sub_zero, Nat.cast_one] at k ⊢
    rw [div_left_inj' e] at k
    rw [k]
  have r1 : rowOf T.wins 1 = (T.wins.map (fun c => (c 1, c 2))).map Prod.fst := by unfold rowOf; rw [List.map_map]; rfl
  have r2 : rowOf T.wins 2 = (T.wins.map (fun c => (c 1, c 2))).map Prod.snd := by unfold rowOf; rw [List.map_map]; rfl
  have r0 : rowOf T.wins 0 = (T.wins.map (fun c => (c 1, c 2))).map (fun p => p.1 - p.2) := by
    unfold rowOf
    rw [List.map_map]
    exact List.map_congr_left (fun c hc => hwmem c hc)
  obtain ⟨b0, b1, b2, b3, b4⟩ := pairedPlain_se ha hT hl
  obtain ⟨-, a1, a2, a3, a4, a5, a6, a7, a8, a9, a10⟩ := resultsFrom_ok hr
  have a8 : r.sampleSize = T.len := a8
  have hd : (pairedPlain T).mean1 - (pairedPlain T).mean2 = fin (T.mean 0) := by
    rw [b2]; exact fin_sub _ _
  refine ⟨T.nTrim, T.wins.map (fun c => (c 1, c 2)), T.mean 0, Real.sqrt (T.cov 1 0 0) / Real.sqrt T.len, by rw [e1, hcl], hwin, a5,
    by rw [a7, b0], by rw [← r0, hcov 0, a8], ?_, ?_⟩
  · rw [← r1, ← r2]
    rintro ⟨k1, k2⟩
    rw [b4 (by rw [hcov, hcov]; exact mul_ne_zero (div_ne_zero k1 hn1.ne') (div_ne_zero k2 hn1.ne')), b0, b1, hd] at a6
    have c2 := D.ppfFl_fin hn1 (q := 1 - alpha / 2) (by linarith) (by linarith)
    unfold boundsOf at a6
    simp only [if_true, c2, fin_mul, fin_add, fin_sub] at a6
    rw [a8]
    exact ⟨congrArg Prod.fst a6, congrArg Prod.snd a6⟩
  · rw [← r1, ← r2]
    intro k
    rw [b3 (by
      rw [hcov, hcov]
      rcases k with k | k <;> rw [k] <;> ring)] at a6
    unfold boundsOf at a6
    simp only [if_true, mul_nan, sub_nan, add_nan] at a6
    exact ⟨congrArg Prod.fst a6, congrArg Prod.snd a6⟩

/-- **C30 is false for constant samples**: without trimming, the paired test of a sample against any constant one (control values that are all
zero, say) returns a standard error but the interval `[nan, nan]`. -/
theorem C30_constant_sample_false (R : Rounding ℝ) (argsort : List ℝ → List ℕ) (ha : ArgsortOk argsort) (D : TDist) (values1 values2 : List ℝ)
    (hlen : values1.length = values2.length) (hn : 1 < values1.length) (hn' : values1.length ≤ 2 ^ 53)
    (hc : Spec.sumSqDev values1 = 0 ∨ Spec.sumSqDev values2 = 0) (alpha : ℝ) (h0 : 0 < alpha) (h1 : alpha < 1) :
    ∃ r s, pairedTest R argsort D values1 values2 0 none none "two-sided" alpha = .ok r ∧ r.standardError = fin s ∧
      s = Real.sqrt (Spec.sumSqDev (List.zipWith (· - ·) values1 values2) / ((values1.length : ℝ) - 1)) / Real.sqrt values1.length ∧
      r.absoluteLower = nan ∧ r.absoluteUpper = nan := by
  have hz : ∀ n : ℝ, ⌊R.rnd (0 * n)⌋ = 0 := fun n => by
    have := R.intFix 0 (by norm_num)
    rw [zero_mul, show (0 : ℝ) = ((0 : ℤ) : ℝ) by simp, this]; simp
  obtain ⟨r, hr⟩ := (C34_tests_return_partial R argsort ha D values1 values2 0 le_rfl (by norm_num) false "two-sided" (Or.inl rfl) alpha hn'
    (by rw [← hlen]; exact hn') (by rw [hz]; omega) (by rw [hz]; omega)).1 hlen
  obtain ⟨g, wins, d, s, hg, hw, -, h2, h3, -, h5⟩ := C30_two_sided_interval R argsort ha D values1 values2 0 alpha h0 h1 r hr
  rw [hz] at hg
  have hg : g = 0 := by exact_mod_cast hg
  subst hg
  obtain ⟨kept, low, high, t1, -, -, -, rfl⟩ := hw
  have hk : kept.Perm (values1.zip values2) := by
    obtain ⟨-, lo, hi, p1, p2, p3, -⟩ := t1
    rw [List.length_eq_zero_iff] at p2 p3
    subst p2 p3
    simpa using p1
  have ek : kept = values1.zip values2 := t1.1.eq_of_length hk.length_eq
  subst ek
  simp only [List.replicate_zero, List.append_nil] at h3 h5
  have f1 : (values1.zip values2).map Prod.fst = values1 := List.map_fst_zip (by omega)
  have f2 : (values1.zip values2).map Prod.snd = values2 := List.map_snd_zip (by omega)
  have f0 : (values1.zip values2).map (fun p => p.1 - p.2) = List.zipWith (· - ·) values1 values2 := by
    rw [List.zip, List.map_zipWith]
  rw [f1, f2] at h5
  have hs : r.sampleSize = values1.length := by
    obtain ⟨g, kept, ss, k1, k2, -, -, -, k3, -⟩ := C83_paired_test_reports R argsort ha D values1 values2 0 "two-sided" alpha r hr
    rw [hz] at k1
    have k1 : g = 0 := by exact_mod_cast k1
    subst k1
    obtain ⟨-, lo, hi, p1, p2, p3, -⟩ := k2
    rw [List.length_eq_zero_iff] at p2 p3
    subst p2 p3
    have := p1.length_eq
    simp only [List.nil_append, List.append_nil, List.length_zip] at this
    omega
  rw [f0, hs] at h3
  exact ⟨r, s, hr, h2, h3, h5 hc⟩

/-- The hypotheses are met: `[1, 3]` against `[0, 0]`. -/
example : Spec.sumSqDev ([0, 0] : List ℝ) = 0 ∧ Spec.sumSqDev ([1, 3] : List ℝ) ≠ 0 := by
  constructor <;> (simp only [Spec.sumSqDev, Spec.mean, List.map, List.sum_cons, List.sum_nil, List.length]; norm_num)

end Feedx
