import Verif.Model.Ks

/-!
The Kolmogorov–Smirnov statistic.
-/

namespace Feedx

open Fl

/-- The share of the numbers that are at most `t`. -/
noncomputable def Spec.shareUpTo (l : List ℝ) (t : ℝ) : ℝ := (l.countP (fun x => decide (x ≤ t)) : ℝ) / l.length

/-- `d` is the largest distance (the supremum) between the share of the numbers up to `t` and `t`, for `t` between 0 and 1. -/
def Spec.DistanceFromUniform (l : List ℝ) (d : ℝ) : Prop := IsLUB {y | ∃ t, 0 ≤ t ∧ t ≤ 1 ∧ y = |Spec.shareUpTo l t - t|} d

theorem sorted_count_ge {s : List ℝ} (hs : s.Pairwise (· ≤ ·)) {i : ℕ} (hi : i < s.length) {t : ℝ} (ht : s[i] ≤ t) :
    i + 1 ≤ s.countP (fun x => decide (x ≤ t)) := by
  have h1 : (s.take (i + 1)).countP (fun x => decide (x ≤ t)) = (s.take (i + 1)).length := by
    rw [List.countP_eq_length]
    intro x hx
    obtain ⟨j, hj, rfl⟩ := List.getElem_of_mem hx
    rw [List.length_take] at hj
    have hj1 : j ≤ i := by omega
    rw [decide_eq_true_eq, List.getElem_take]
    refine le_trans ?_ ht
    rcases hj1.lt_or_eq with h | h
    · exact List.pairwise_iff_getElem.mp hs j i (by omega) hi h
    · subst h
      exact le_refl _
  have h2 : (s.take (i + 1)).length = i + 1 := by
    rw [List.length_take]
    omega
  rw [← h2, ← h1]
  exact (List.take_sublist _ _).countP_le

theorem sorted_count_le {s : List ℝ} (hs : s.Pairwise (· ≤ ·)) {i : ℕ} (hi : i < s.length) {t : ℝ} (ht : t < s[i]) :
    s.countP (fun x => decide (x ≤ t)) ≤ i := by
  have h0 : (s.drop i).countP (fun x => decide (x ≤ t)) = 0 := by
    rw [List.countP_eq_zero]
    intro x hx
    obtain ⟨j, hj, rfl⟩ := List.getElem_of_mem hx
    rw [decide_eq_true_eq, List.getElem_drop, not_le]
    refine lt_of_lt_of_le ht ?_
    rw [List.length_drop] at hj
    rcases Nat.eq_zero_or_pos j with h | h
    · subst h
      exact le_refl _
    · exact List.pairwise_iff_getElem.mp hs i (i + j) hi (by omega) (by omega)
  conv_lhs => rw [← List.take_append_drop i s]
  rw [List.countP_append, h0, add_zero]
  exact List.countP_le_length.trans (by rw [List.length_take]; omega)

/-- The statistic is at least the two differences at every position, and is one of them. -/
theorem ks_candidates {l : List ℝ} (hl : l ≠ []) :
    (∀ i (hi : i < (l.insertionSort (· ≤ ·)).length),
      ((i : ℝ) + 1) / l.length - (l.insertionSort (· ≤ ·))[i] ≤ ksStatistic l ∧ (l.insertionSort (· ≤ ·))[i] - (i : ℝ) / l.length ≤ ksStatistic l) ∧
    ∃ i, ∃ hi : i < (l.insertionSort (· ≤ ·)).length,
      ksStatistic l = ((i : ℝ) + 1) / l.length - (l.insertionSort (· ≤ ·))[i] ∨ ksStatistic l = (l.insertionSort (· ≤ ·))[i] - (i : ℝ) / l.length := by
  obtain ⟨s, hs⟩ : ∃ s, s = l.insertionSort (· ≤ ·) := ⟨_, rfl⟩
  have hlen : s.length = l.length := by rw [hs, List.length_insertionSort]
  have hpos : 0 < s.length := by
    rw [hlen]
    exact List.length_pos_iff.mpr hl
  obtain ⟨plus, hp⟩ : ∃ p, p = s.zipIdx.map (fun x : ℝ × ℕ => ((x.2 : ℝ) + 1) / (l.length : ℝ) - x.1) := ⟨_, rfl⟩
  obtain ⟨minus, hm⟩ : ∃ p, p = s.zipIdx.map (fun x : ℝ × ℕ => x.1 - (x.2 : ℝ) / (l.length : ℝ)) := ⟨_, rfl⟩
  have hk : ksStatistic l = max (plus.max?.getD 0) (minus.max?.getD 0) := by
    rw [hp, hm, hs]
    rfl
  rw [← hs]
  have memp : ∀ x, x ∈ plus ↔ ∃ i, ∃ hi : i < s.length, x = ((i : ℝ) + 1) / l.length - s[i] := by
    intro x
    rw [hp]
    constructor
    · intro h
      obtain ⟨⟨y, i⟩, hy, rfl⟩ := List.mem_map.mp h
      obtain ⟨hi, e⟩ := List.mem_zipIdx' hy
      exact ⟨i, hi, by rw [← e]⟩
    · rintro ⟨i, hi, rfl⟩
      exact List.mem_map.mpr ⟨(s[i], i), List.mem_iff_getElem.mpr ⟨i, by simpa using hi, by simp⟩, rfl⟩
  have memm : ∀ x, x ∈ minus ↔ ∃ i, ∃ hi : i < s.length, x = s[i] - (i : ℝ) / l.length := by
    intro x
    rw [hm]
    constructor
    · intro h
      obtain ⟨⟨y, i⟩, hy, rfl⟩ := List.mem_map.mp h
      obtain ⟨hi, e⟩ := List.mem_zipIdx' hy
      exact ⟨i, hi, by rw [← e]⟩
    · rintro ⟨i, hi, rfl⟩
      exact List.mem_map.mpr ⟨(s[i], i), List.mem_iff_getElem.mpr ⟨i, by simpa using hi, by simp⟩, rfl⟩
  have hmax : ∀ q : List ℝ, q ≠ [] → q.max?.getD 0 ∈ q ∧ ∀ x ∈ q, x ≤ q.max?.getD 0 := by
    intro q hq
    obtain ⟨m, e⟩ := Option.isSome_iff_exists.mp (List.isSome_max?_of_ne_nil hq)
    rw [e, Option.getD_some]
    exact List.max?_eq_some_iff.mp e
  have hpne : plus ≠ [] := by
    intro e
    have := (memp _).mpr ⟨0, hpos, rfl⟩
    rw [e] at this
    cases this
  have hmne : minus ≠ [] := by
    intro e
    have := (memm _).mpr ⟨0, hpos, rfl⟩
    rw [e] at this
    cases this
  obtain ⟨p1, p2⟩ := hmax plus hpne
  obtain ⟨m1, m2⟩ := hmax minus hmne
  constructor
  · intro i hi
    rw [hk]
    exact ⟨(p2 _ ((memp _).mpr ⟨i, hi, rfl⟩)).trans (le_max_left _ _), (m2 _ ((memm _).mpr ⟨i, hi, rfl⟩)).trans (le_max_right _ _)⟩
  · rw [hk]
    rcases max_choice (plus.max?.getD 0) (minus.max?.getD 0) with e | e
    · rw [e]
      obtain ⟨i, hi, h⟩ := (memp _).mp p1
      exact ⟨i, hi, Or.inl h⟩
    · rw [e]
      obtain ⟨i, hi, h⟩ := (memm _).mp m1
      exact ⟨i, hi, Or.inr h⟩

/-- The statistic of numbers between 0 and 1 is their distance from the uniform distribution. -/
theorem ks_distance {l : List ℝ} (hl : l ≠ []) (h01 : ∀ x ∈ l, 0 ≤ x ∧ x ≤ 1) : Spec.DistanceFromUniform l (ksStatistic l) := by
  obtain ⟨hub, i, hi, he⟩ := ks_candidates hl
  obtain ⟨s, hs⟩ : ∃ s, s = l.insertionSort (· ≤ ·) := ⟨_, rfl⟩
  have hlen : s.length = l.length := by rw [hs, List.length_insertionSort]
  have hsort : s.Pairwise (· ≤ ·) := hs ▸ List.pairwise_insertionSort _ l
  have hperm : s.Perm l := hs ▸ List.perm_insertionSort _ l
  have hcount : ∀ t : ℝ, s.countP (fun x => decide (x ≤ t)) = l.countP (fun x => decide (x ≤ t)) := fun t => hperm.countP_eq _
  have hmem : ∀ i (hi : i < s.length), 0 ≤ s[i] ∧ s[i] ≤ 1 := fun i hi => h01 _ (hperm.mem_iff.mp (List.getElem_mem hi))
  have hposN : 0 < l.length := List.length_pos_iff.mpr hl
  have hpos : (0 : ℝ) < l.length := by exact_mod_cast hposN
  simp only [← hs] at hub hi he
  have hnn : 0 ≤ ksStatistic l := by
    have h := (hub (l.length - 1) (by omega)).1
    have e : (((l.length - 1 : ℕ) : ℝ) + 1) / l.length = 1 := by
      rw [Nat.cast_sub hposN, Nat.cast_one, sub_add_cancel, div_self hpos.ne']
    rw [e] at h
    have := (hmem (l.length - 1) (by omega)).2
    linarith
  constructor
  · rintro y ⟨t, h0, h1, rfl⟩
    unfold Spec.shareUpTo
    rw [← hcount t]
    obtain ⟨k, hk⟩ : ∃ k, k = s.countP (fun x => decide (x ≤ t)) := ⟨_, rfl⟩
    have hkn : k ≤ l.length := by
      rw [hk, ← hlen]
      exact List.countP_le_length
    rw [← hk, abs_le']
    constructor
    · rcases Nat.eq_zero_or_pos k with h | h
      · rw [h, Nat.cast_zero, zero_div]
        linarith
      · have h' := (hub (k - 1) (by omega)).1
        rw [Nat.cast_sub h, Nat.cast_one, sub_add_cancel] at h'
        have : s[k - 1] ≤ t := by
          by_contra hn
          have := sorted_count_le hsort (i := k - 1) (by omega) (not_le.mp hn)
          omega
        linarith
    · rcases hkn.lt_or_eq with h | h
      · have h' := (hub k (by omega)).2
        have : t < s[k] := by
          by_contra hn
          have := sorted_count_ge hsort (i := k) (by omega) (not_lt.mp hn)
          omega
        linarith
      · rw [h, div_self hpos.ne']
        linarith
  · intro b hb
    have hb' : ∀ t, 0 ≤ t → t ≤ 1 → |Spec.shareUpTo l t - t| ≤ b := fun t h0 h1 => hb ⟨t, h0, h1, rfl⟩
    have h := hmem i hi
    rcases he with e | e
    · rw [e]
      refine le_trans ?_ ((le_abs_self _).trans (hb' s[i] h.1 h.2))
      have hc := sorted_count_ge hsort hi (le_refl _)
      rw [hcount] at hc
      have hc' : ((i : ℝ) + 1) ≤ (l.countP (fun x => decide (x ≤ s[i])) : ℝ) := by exact_mod_cast hc
      have := div_le_div_of_nonneg_right hc' hpos.le
      unfold Spec.shareUpTo
      linarith
    · rw [e]
      refine le_of_forall_pos_le_add fun ε hε => ?_
      have hin : 0 ≤ (i : ℝ) / l.length := by positivity
      have hb0 : 0 ≤ b := (abs_nonneg _).trans (hb' 0 (le_refl _) zero_le_one)
      by_cases hz : s[i] ≤ ε
      · linarith
      · rw [not_le] at hz
        have hb2 := hb' (s[i] - ε) (by linarith) (by linarith)
        have hc := sorted_count_le hsort hi (t := s[i] - ε) (by linarith)
        rw [hcount] at hc
        have hc' : (l.countP (fun x => decide (x ≤ s[i] - ε)) : ℝ) ≤ i := by exact_mod_cast hc
        have h3 := div_le_div_of_nonneg_right hc' hpos.le
        have h4 := (abs_le.mp hb2).1
        unfold Spec.shareUpTo at h4
        linarith

/-- Observations in a different order give the same statistic. -/
theorem ks_perm {l l' : List ℝ} (h : l.Perm l') : ksStatistic l = ksStatistic l' := by
  have : l.insertionSort (· ≤ ·) = l'.insertionSort (· ≤ ·) :=
    ((List.perm_insertionSort _ l).trans (h.trans (List.perm_insertionSort _ l').symm)).eq_of_pairwise
      (fun a b _ _ h1 h2 => le_antisymm h1 h2) (List.pairwise_insertionSort _ l) (List.pairwise_insertionSort _ l')
  unfold ksStatistic
  rw [this, h.length_eq]

/-- No sample is closer to the uniform distribution than half a step. -/
theorem ks_ge {l : List ℝ} (hl : l ≠ []) : 1 / (2 * l.length : ℝ) ≤ ksStatistic l := by
  obtain ⟨hub, -⟩ := ks_candidates hl
  have hposN : 0 < l.length := List.length_pos_iff.mpr hl
  have hpos : (0 : ℝ) < l.length := by exact_mod_cast hposN
  obtain ⟨h1, h2⟩ := hub 0 (by rw [List.length_insertionSort]; exact hposN)
  rw [Nat.cast_zero, zero_div] at h2
  rw [Nat.cast_zero, zero_add] at h1
  have : 1 / (2 * l.length : ℝ) = 1 / l.length / 2 := by
    field_simp
  rw [this]
  linarith

open MeasureTheory

theorem ksSurvival_anti (n : ℕ) : Antitone (ksSurvival n) := by
  intro a b h
  unfold ksSurvival
  refine ENNReal.toReal_mono (measure_ne_top _ _) (measure_mono ?_)
  intro u hu
  exact h.trans hu

theorem ksSurvival_small {n : ℕ} (hn : 0 < n) {d : ℝ} (hd : d ≤ 1 / (2 * n : ℝ)) : ksSurvival n d = 1 := by
  unfold ksSurvival
  have : {u : Fin n → unitInterval | d ≤ ksStatistic (List.ofFn (fun i => (u i : ℝ)))} = Set.univ := by
    ext u
    simp only [Set.mem_ofPred_eq, Set.mem_univ, iff_true]
    refine hd.trans ?_
    have h := ks_ge (l := List.ofFn (fun i => (u i : ℝ))) (by
      intro e
      have := congrArg List.length e
      simp at this
      omega)
    rwa [List.length_ofFn] at h
  rw [this, measure_univ, ENNReal.toReal_one]

/-- For every statistic `T` on a probability space, the chance that its p-value (the chance of a value at least as large) is below `τ` is at
most `τ`. -/
theorem p_value_chance {Ω : Type} [MeasurableSpace Ω] (μ : Measure Ω) [IsProbabilityMeasure μ] (T : Ω → ℝ) (τ : ℝ) (h0 : 0 ≤ τ) :
    (μ {ω | (μ {ω' | T ω ≤ T ω'}).toReal < τ}).toReal ≤ τ := by
  obtain ⟨G, hG⟩ : ∃ G : ℝ → ℝ, G = fun d => (μ {ω' | d ≤ T ω'}).toReal := ⟨_, rfl⟩
  have hanti : Antitone G := by
    intro a b h
    rw [hG]
    refine ENNReal.toReal_mono (measure_ne_top _ _) (measure_mono ?_)
    intro u hu
    exact h.trans hu
  have hset : {ω | (μ {ω' | T ω ≤ T ω'}).toReal < τ} = {ω | G (T ω) < τ} := by rw [hG]
  rw [hset]
  by_cases hne : {d | G d < τ}.Nonempty
  swap
  · have : {ω | G (T ω) < τ} = ∅ := by
      ext ω
      simp only [Set.mem_ofPred_eq, Set.mem_empty_iff_false, iff_false]
      intro h
      exact hne ⟨_, h⟩
    rw [this, measure_empty, ENNReal.toReal_zero]
    exact h0
  -- the set is the increasing union of `{G (a k) < τ ∧ a k ≤ T}` for a sequence `a` that decreases to the infimum of `{G < τ}`
  by_cases hbd : ∃ d, G d < τ ∧ ∀ d', G d' < τ → d ≤ d'
  · obtain ⟨d, hd, hmin⟩ := hbd
    have : {ω | G (T ω) < τ} = {ω | d ≤ T ω} := by
      ext ω
      exact ⟨fun h => hmin _ h, fun h => lt_of_le_of_lt (hanti h) hd⟩
    rw [this]
    have e : G d = (μ {ω | d ≤ T ω}).toReal := by rw [hG]
    rw [← e]
    exact hd.le
  · push Not at hbd
    obtain ⟨A, hA⟩ : ∃ A : Set ℚ, A = {q : ℚ | G q < τ} := ⟨_, rfl⟩
    have hU : {ω | G (T ω) < τ} = ⋃ q : A, {ω | ((q : ℚ) : ℝ) ≤ T ω} := by
      ext ω
      simp only [Set.mem_ofPred_eq, Set.mem_iUnion]
      constructor
      · intro h
        obtain ⟨d', hd', hlt⟩ := hbd _ h
        obtain ⟨q, hq1, hq2⟩ := exists_rat_btwn hlt
        exact ⟨⟨q, hA ▸ lt_of_le_of_lt (hanti hq1.le) hd'⟩, hq2.le⟩
      · rintro ⟨⟨q, hq⟩, h⟩
        rw [hA] at hq
        exact lt_of_le_of_lt (hanti h) hq
    have hdir : Directed (· ⊆ ·) (fun q : A => {ω | ((q : ℚ) : ℝ) ≤ T ω}) := by
      intro p q
      rcases le_total (p : ℚ) (q : ℚ) with h | h
      · refine ⟨p, subset_rfl, fun ω hω => ?_⟩
        exact le_trans (b := ((q : ℚ) : ℝ)) (by exact_mod_cast h) hω
      · refine ⟨q, fun ω hω => ?_, subset_rfl⟩
        exact le_trans (b := ((p : ℚ) : ℝ)) (by exact_mod_cast h) hω
    rw [hU, hdir.measure_iUnion]
    refine ENNReal.toReal_le_of_le_ofReal h0 (iSup_le ?_)
    rintro ⟨q, hq⟩
    rw [hA] at hq
    have hq' : (μ {ω | (q : ℝ) ≤ T ω}).toReal < τ := by
      have : G q < τ := hq
      rwa [hG] at this
    rw [← ENNReal.ofReal_toReal (measure_ne_top μ {ω | (q : ℝ) ≤ T ω})]
    exact ENNReal.ofReal_le_ofReal hq'.le

end Feedx
