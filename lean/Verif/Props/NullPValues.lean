import Verif.Proofs.Ks
import Verif.Props.Robustness

/-!
C111: what the check of the A/A p-values says.
-/

namespace Feedx

open Fl MeasureTheory

/-- The Kolmogorov–Smirnov test of the robustness checks is SciPy's. -/
def Spec.ExactKs (X : RobustnessTests) : Prop := ∀ l, X.ks l = ksTest l

/-- The simulations `rs` gave the p-values `ps`. -/
def Spec.GavePValues (rs : List TestResult) (ps : List ℝ) : Prop := rs.map TestResult.pValue = ps.map fin

/-- The numbers of a point of the cube. -/
noncomputable def Spec.coordinates {n : ℕ} (u : Fin n → unitInterval) : List ℝ := List.ofFn (fun i => (u i : ℝ))

/-- The chance that `n` independent uniform numbers between 0 and 1 are at least `d` away from the uniform distribution. -/
noncomputable def Spec.chanceOfDistance (n : ℕ) (d : ℝ) : ℝ :=
  (volume {u : Fin n → unitInterval | ∃ e, Spec.DistanceFromUniform (Spec.coordinates u) e ∧ d ≤ e}).toReal

variable {X : RobustnessTests} {c : SimConfig} {s : SimState}

theorem coordinates_ne {n : ℕ} (hn : 0 < n) (u : Fin n → unitInterval) : Spec.coordinates u ≠ [] := by
  intro e
  have := congrArg List.length e
  unfold Spec.coordinates at this
  rw [List.length_ofFn, List.length_nil] at this
  omega

theorem coordinates_range {n : ℕ} (u : Fin n → unitInterval) : ∀ x ∈ Spec.coordinates u, 0 ≤ x ∧ x ≤ 1 := by
  intro x hx
  obtain ⟨i, rfl⟩ := (List.mem_ofFn' _ _).mp hx
  exact (u i).2

theorem coordinates_distance {n : ℕ} (hn : 0 < n) (u : Fin n → unitInterval) :
    Spec.DistanceFromUniform (Spec.coordinates u) (ksStatistic (Spec.coordinates u)) :=
  ks_distance (coordinates_ne hn u) (coordinates_range u)

theorem chance_eq {n : ℕ} (hn : 0 < n) (d : ℝ) : Spec.chanceOfDistance n d = ksSurvival n d := by
  unfold Spec.chanceOfDistance ksSurvival
  congr 2
  ext u
  constructor
  · rintro ⟨e, he, hd⟩
    rw [he.unique (coordinates_distance hn u)] at hd
    exact hd
  · intro h
    exact ⟨_, coordinates_distance hn u, h⟩

theorem uniformCdf_fin {x : ℝ} (h : 0 ≤ x ∧ x ≤ 1) : uniformCdf (fin x) = x := by
  show max 0 (min x 1) = x
  rw [min_eq_left h.2, max_eq_right h.1]

theorem ksTest_fin {ps : List ℝ} (h01 : ∀ p ∈ ps, 0 ≤ p ∧ p ≤ 1) : ksTest (ps.map fin) = fin (ksSurvival ps.length (ksStatistic ps)) := by
  unfold ksTest
  rw [if_neg, List.length_map, List.map_map]
  · congr 3
    conv_rhs => rw [← List.map_id ps]
    exact List.map_congr_left fun x hx => uniformCdf_fin (h01 x hx)
  · intro h
    obtain ⟨x, -, e⟩ := List.mem_map.mp h
    cases e

theorem nullCheck_eval (hX : Spec.ExactKs X) {aa : List TestResult} (haa : s.aa = some aa) (hne : aa ≠ []) :
    nullCheck X c s = .ok (some (Fl.le (fin c.threshold) (ksTest (aa.map TestResult.pValue)))) := by
  unfold nullCheck aboveThreshold nullPValue resultColumn
  simp only [haa, raiseIf, hne, if_false, bind, Except.bind, pure, Except.pure, Option.map_some]
  rw [hX]

theorem gave_ne {rs : List TestResult} {ps : List ℝ} (h : Spec.GavePValues rs ps) (hl : ps ≠ []) : rs ≠ [] := by
  rintro rfl
  unfold Spec.GavePValues at h
  cases ps with
  | nil => exact hl rfl
  | cons a es => cases h

theorem nullCheck_fin (hX : Spec.ExactKs X) {aa : List TestResult} {ps : List ℝ} (haa : s.aa = some aa) (hps : Spec.GavePValues aa ps)
    (hne : ps ≠ []) (h01 : ∀ p ∈ ps, 0 ≤ p ∧ p ≤ 1) :
    nullCheck X c s = .ok (some (decide (c.threshold ≤ ksSurvival ps.length (ksStatistic ps)))) := by
  rw [nullCheck_eval hX haa (gave_ne hps hne), show aa.map TestResult.pValue = _ from hps, ksTest_fin h01, le_fin]

/-- **C111.**  The check of the A/A p-values passes exactly if uniform numbers would be as far from the uniform distribution as the p-values
are with a chance of at least the threshold. -/
theorem C111_check_is_distance (hX : Spec.ExactKs X) (aa : List TestResult) (ps : List ℝ) (d : ℝ) (haa : s.aa = some aa)
    (hps : Spec.GavePValues aa ps) (hne : ps ≠ []) (h01 : ∀ p ∈ ps, 0 ≤ p ∧ p ≤ 1) (hd : Spec.DistanceFromUniform ps d) :
    ∃ b, nullCheck X c s = .ok (some b) ∧ (b = true ↔ c.threshold ≤ Spec.chanceOfDistance ps.length d) := by
  refine ⟨_, nullCheck_fin hX haa hps hne h01, ?_⟩
  rw [decide_eq_true_eq, chance_eq (List.length_pos_iff.mpr hne), hd.unique (ks_distance hne h01)]

/-- **C111.**  If the p-values of the A/A simulations are independent and uniform, as they should be, the check fails with a chance of at
most the threshold. -/
theorem C111_false_alarms (hX : Spec.ExactKs X) (n : ℕ) (hn : 0 < n) (ht : 0 ≤ c.threshold) (st : (Fin n → unitInterval) → SimState)
    (hst : ∀ u, ∃ rs, (st u).aa = some rs ∧ Spec.GavePValues rs (Spec.coordinates u)) :
    (volume {u | nullCheck X c (st u) ≠ .ok (some true)}).toReal ≤ c.threshold := by
  have key := p_value_chance (volume : Measure (Fin n → unitInterval)) (fun u => ksStatistic (Spec.coordinates u)) c.threshold ht
  have e : {u | nullCheck X c (st u) ≠ .ok (some true)} =
      {u | (volume {u' : Fin n → unitInterval | ksStatistic (Spec.coordinates u) ≤ ksStatistic (Spec.coordinates u')}).toReal < c.threshold} := by
    ext u
    obtain ⟨rs, h1, h2⟩ := hst u
    have h3 := nullCheck_fin (c := c) hX h1 h2 (coordinates_ne hn u) (coordinates_range u)
    have h4 : (Spec.coordinates u).length = n := List.length_ofFn
    simp only [Set.mem_ofPred_eq, h3, ne_eq, Except.ok.injEq, Option.some.injEq, decide_eq_true_eq, not_le, h4]
    rfl
  rw [e]
  exact key

/-- **C111.**  Of two validations with equally many simulations, the one whose p-values are closer to the uniform distribution passes if the
other one does. -/
theorem C111_closer_passes (hX : Spec.ExactKs X) (s' : SimState) (aa aa' : List TestResult) (ps ps' : List ℝ) (d d' : ℝ)
    (haa : s.aa = some aa) (haa' : s'.aa = some aa') (hps : Spec.GavePValues aa ps) (hps' : Spec.GavePValues aa' ps')
    (hne : ps ≠ []) (hlen : ps'.length = ps.length) (h01 : ∀ p ∈ ps, 0 ≤ p ∧ p ≤ 1) (h01' : ∀ p ∈ ps', 0 ≤ p ∧ p ≤ 1)
    (hd : Spec.DistanceFromUniform ps d) (hd' : Spec.DistanceFromUniform ps' d') (hle : d' ≤ d)
    (hpass : nullCheck X c s = .ok (some true)) : nullCheck X c s' = .ok (some true) := by
  have hne' : ps' ≠ [] := by
    rw [← List.length_pos_iff, hlen]
    exact List.length_pos_iff.mpr hne
  rw [nullCheck_fin hX haa hps hne h01] at hpass
  rw [nullCheck_fin hX haa' hps' hne' h01', hlen]
  simp only [Except.ok.injEq, Option.some.injEq, decide_eq_true_eq] at hpass ⊢
  rw [← hd'.unique (ks_distance hne' h01')]
  rw [← hd.unique (ks_distance hne h01)] at hpass
  exact hpass.trans (ksSurvival_anti _ hle)

theorem evenly_spread_share {n : ℕ} (hn : 0 < n) (t : ℝ) (h0 : 0 ≤ t) (h1 : t ≤ 1) :
    |Spec.shareUpTo ((List.range n).map (fun i : ℕ => ((i : ℝ) + 1 / 2) / n)) t - t| ≤ 1 / (2 * n : ℝ) := by
  have hn' : (0 : ℝ) < n := by exact_mod_cast hn
  have hlen : ((List.range n).map (fun i : ℕ => ((i : ℝ) + 1 / 2) / n)).length = n := by rw [List.length_map, List.length_range]
  have hs : ((List.range n).map (fun i : ℕ => ((i : ℝ) + 1 / 2) / n)).Pairwise (· ≤ ·) := by
    rw [List.pairwise_map]
    refine List.pairwise_lt_range.imp fun {a b} h => ?_
    have : (a : ℝ) < b := by exact_mod_cast h
    gcongr
  have hget : ∀ i (hi : i < ((List.range n).map (fun i : ℕ => ((i : ℝ) + 1 / 2) / n)).length),
      ((List.range n).map (fun i : ℕ => ((i : ℝ) + 1 / 2) / n))[i] = ((i : ℝ) + 1 / 2) / n := by
    intro i hi
    rw [List.getElem_map, List.getElem_range]
  obtain ⟨l, hl⟩ : ∃ l, l = (List.range n).map (fun i : ℕ => ((i : ℝ) + 1 / 2) / n) := ⟨_, rfl⟩
  rw [← hl] at hlen hs ⊢
  simp only [← hl] at hget
  unfold Spec.shareUpTo
  rw [hlen]
  obtain ⟨k, hk⟩ : ∃ k, k = l.countP (fun x => decide (x ≤ t)) := ⟨_, rfl⟩
  have hkn : k ≤ n := by
    rw [hk, ← hlen]
    exact List.countP_le_length
  rw [← hk]
  have e : 1 / (2 * n : ℝ) = 1 / 2 / n := by field_simp
  rw [abs_le', e]
  constructor
  · rcases Nat.eq_zero_or_pos k with h | h
    · rw [h, Nat.cast_zero, zero_div]
      have : 0 ≤ 1 / 2 / (n : ℝ) := by positivity
      linarith
    · have hle : l[k - 1] ≤ t := by
        by_contra hc
        have := sorted_count_le hs (i := k - 1) (by omega) (not_le.mp hc)
        omega
      rw [hget _ (by omega), Nat.cast_sub h, Nat.cast_one] at hle
      have : (k : ℝ) / n - 1 / 2 / n = (k - 1 + 1 / 2) / n := by ring
      linarith
  · rcases hkn.lt_or_eq with h | h
    · have hlt : t < l[k] := by
        by_contra hc
        have := sorted_count_ge hs (i := k) (by omega) (not_lt.mp hc)
        omega
      rw [hget _ (by omega)] at hlt
      have : (k : ℝ) / n + 1 / 2 / n = (k + 1 / 2) / n := by ring
      linarith
    · rw [h, div_self hn'.ne']
      have : 0 ≤ 1 / 2 / (n : ℝ) := by positivity
      linarith

theorem evenly_spread_range {n : ℕ} : ∀ x ∈ (List.range n).map (fun i : ℕ => ((i : ℝ) + 1 / 2) / n), 0 ≤ x ∧ x ≤ 1 := by
  intro x hx
  obtain ⟨i, hi, rfl⟩ := List.mem_map.mp hx
  rw [List.mem_range] at hi
  have h1 : (i : ℝ) + 1 ≤ n := by exact_mod_cast hi
  have h2 : (0 : ℝ) ≤ i := by positivity
  exact ⟨by positivity, (div_le_one (by linarith)).mpr (by linarith)⟩

/-- **C111.**  Evenly spread p-values pass, whatever the threshold. -/
theorem C111_evenly_spread (hX : Spec.ExactKs X) (aa : List TestResult) (n : ℕ) (hn : 0 < n) (ps : List ℝ) (haa : s.aa = some aa)
    (hps : Spec.GavePValues aa ps) (heven : ps.Perm ((List.range n).map (fun i : ℕ => ((i : ℝ) + 1 / 2) / n))) (ht : c.threshold ≤ 1) :
    nullCheck X c s = .ok (some true) := by
  have hlen : ps.length = n := by rw [heven.length_eq, List.length_map, List.length_range]
  have hne : ps ≠ [] := by
    rw [← List.length_pos_iff, hlen]
    exact hn
  have hne' : (List.range n).map (fun i : ℕ => ((i : ℝ) + 1 / 2) / n) ≠ [] := by
    rw [← List.length_pos_iff, List.length_map, List.length_range]
    exact hn
  rw [nullCheck_fin hX haa hps hne (fun p hp => evenly_spread_range p (heven.mem_iff.mp hp)), hlen, ks_perm heven]
  have h : ksStatistic ((List.range n).map (fun i : ℕ => ((i : ℝ) + 1 / 2) / n)) ≤ 1 / (2 * n : ℝ) := by
    refine (ks_distance hne' evenly_spread_range).2 ?_
    rintro y ⟨t, h0, h1, rfl⟩
    exact evenly_spread_share hn t h0 h1
  rw [ksSurvival_small hn h, decide_eq_true ht]

/-- **C111.**  If one simulation has no p-value, the check fails. -/
theorem C111_missing_p_value (hX : Spec.ExactKs X) (aa : List TestResult) (haa : s.aa = some aa) (hr : ∃ r ∈ aa, r.pValue = nan) :
    nullCheck X c s = .ok (some false) := by
  obtain ⟨r, hr, e⟩ := hr
  have hne : aa ≠ [] := by
    rintro rfl
    cases hr
  rw [nullCheck_eval hX haa hne]
  have : ksTest (aa.map TestResult.pValue) = nan := by
    unfold ksTest
    rw [if_pos]
    exact List.mem_map.mpr ⟨r, hr, e⟩
  rw [this]
  rfl

theorem share_below {ps : List ℝ} (h01 : ∀ p ∈ ps, 0 ≤ p ∧ p ≤ 1) {d a : ℝ} (hd : Spec.DistanceFromUniform ps d) (h0 : 0 ≤ a)
    (h1 : a ≤ 1) : |(ps.countP (fun x => decide (x < a)) : ℝ) / ps.length - a| ≤ d := by
  have hd0 : 0 ≤ d := (abs_nonneg _).trans (hd.1 ⟨0, le_refl _, zero_le_one, rfl⟩)
  refine le_of_forall_pos_le_add fun ε hε => ?_
  by_cases ha : a = 0
  · have : ps.countP (fun x => decide (x < a)) = 0 := by
      rw [List.countP_eq_zero]
      intro x hx
      rw [decide_eq_true_eq, ha, not_lt]
      exact (h01 x hx).1
    rw [this, Nat.cast_zero, zero_div, ha, sub_zero, abs_zero]
    linarith
  · have hpos : 0 < a := lt_of_le_of_ne h0 (Ne.symm ha)
    -- a number below `a` that is at least every p-value below `a`
    have hex : ∀ l : List ℝ, ∃ t, a - ε ≤ t ∧ 0 ≤ t ∧ t < a ∧ ∀ x ∈ l, x < a → x ≤ t := by
      intro l
      induction l with
      | nil => exact ⟨max (a - ε) 0, le_max_left _ _, le_max_right _ _, max_lt (by linarith) hpos, fun x hx => by cases hx⟩
      | cons y l ih =>
        obtain ⟨t, t1, t2, t3, t4⟩ := ih
        by_cases hy : y < a
        · refine ⟨max t y, t1.trans (le_max_left _ _), t2.trans (le_max_left _ _), max_lt t3 hy, ?_⟩
          intro x hx hxa
          rcases List.mem_cons.mp hx with rfl | hx
          · exact le_max_right _ _
          · exact (t4 x hx hxa).trans (le_max_left _ _)
        · refine ⟨t, t1, t2, t3, ?_⟩
          intro x hx hxa
          rcases List.mem_cons.mp hx with rfl | hx
          · exact absurd hxa hy
          · exact t4 x hx hxa
    obtain ⟨t, t1, t2, t3, t4⟩ := hex ps
    have hc : ps.countP (fun x => decide (x < a)) = ps.countP (fun x => decide (x ≤ t)) := by
      refine List.countP_congr fun x hx => ?_
      rw [decide_eq_true_eq, decide_eq_true_eq]
      exact ⟨fun h => t4 x hx h, fun h => lt_of_le_of_lt h t3⟩
    have hb : |Spec.shareUpTo ps t - t| ≤ d := hd.1 ⟨t, t2, t3.le.trans h1, rfl⟩
    rw [hc]
    have h2 := abs_le.mp hb
    unfold Spec.shareUpTo at h2
    rw [abs_le]
    constructor <;> linarith [h2.1, h2.2]

/-- **C111.**  If the check passes, the simulated false positive rate is no further from the significance level than a distance that uniform
numbers reach with a chance of at least the threshold. -/
theorem C111_false_positive_rate (hX : Spec.ExactKs X) (aa : List TestResult) (ps : List ℝ) (r : ℝ) (haa : s.aa = some aa)
    (hps : Spec.GavePValues aa ps) (hne : ps ≠ []) (h01 : ∀ p ∈ ps, 0 ≤ p ∧ p ≤ 1) (h0 : 0 ≤ c.design.alpha.val) (h1 : c.design.alpha.val ≤ 1)
    (hr : falsePositiveRate c.design s = .ok (some r)) (hpass : nullCheck X c s = .ok (some true)) :
    c.threshold ≤ Spec.chanceOfDistance ps.length |r - c.design.alpha.val| := by
  obtain ⟨l, hl, hlne, rfl⟩ := rate_cases hr
  obtain rfl := Option.some.inj (haa.symm.trans hl)
  have hlen : aa.length = ps.length := by
    have := congrArg List.length hps
    simpa using this
  have hcount : sigCount c aa = ps.countP (fun x => decide (x < c.design.alpha.val)) := by
    unfold sigCount
    have e : aa.countP (fun r => Fl.lt r.pValue (.fin c.design.alpha.val)) = (aa.map TestResult.pValue).countP (fun x => Fl.lt x (.fin c.design.alpha.val)) := by
      rw [List.countP_map]
      rfl
    rw [e, show aa.map TestResult.pValue = _ from hps, List.countP_map]
    rfl
  rw [nullCheck_fin hX haa hps hne h01] at hpass
  simp only [Except.ok.injEq, Option.some.injEq, decide_eq_true_eq] at hpass
  rw [chance_eq (List.length_pos_iff.mpr hne), hcount, hlen]
  exact hpass.trans (ksSurvival_anti _ (share_below h01 (ks_distance hne h01) h0 h1))

end Feedx
