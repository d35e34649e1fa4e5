import Verif.Proofs.ExchangeRatio
import Verif.Props.ExchangeRatio

/-!
Property C110, continued: the whole result of a ratio metric of a crossover is mirrored when the groups are exchanged, with trimming (clean cuts) or
with equally large groups.
-/

set_option linter.unusedSectionVars false

namespace Feedx
open Fl

namespace Spec

/-- For each item of a crossover: numerator and denominator while treated, numerator and denominator while not treated. -/
noncomputable def ratioPairs (num den : List CrossoverItem) : List ((ℝ × ℝ) × (ℝ × ℝ)) :=
  ((num.map (fun i => i.treated 0 0)).zip (den.map (fun i => i.treated 0 0))).zip
    ((num.map (fun i => i.untreated 0 0)).zip (den.map (fun i => i.untreated 0 0)))

end Spec

/-- A stable sorting routine: equal values stay in the order of their positions. -/
def Spec.StableSort (argsort : List ℝ → List ℕ) : Prop :=
  ∀ l : List ℝ, (argsort l).Perm (List.range l.length) ∧
    (argsort l).Pairwise (fun i j => l.getD i 0 < l.getD j 0 ∨ l.getD i 0 = l.getD j 0 ∧ i < j)

/-- Exchanging the samples of the paired test of a ratio metric, in terms of the arrays. -/
theorem paired_ratio_swap {R : Rounding ℝ} {argsort : List ℝ → List ℕ} (ha : ArgsortOk argsort) {D : TDist} {v1 v2 w1 w2 : List ℝ} {q α : ℝ}
    (hc : ∀ g : ℕ, (g : ℤ) = ⌊R.rnd (q * (v1.length : ℝ))⌋ → Spec.CleanCut (fun p => p.1.1 - p.2.1) g ((v1.zip w1).zip (v2.zip w2))) {r r' : TestResult}
    (h : pairedTest R argsort D v1 v2 q (some w1) (some w2) "two-sided" α = .ok r)
    (h' : pairedTest R argsort D v2 v1 q (some w2) (some w1) "two-sided" α = .ok r') : Spec.Mirrored r r' := by
  have hlen : v1.length = v2.length ∧ v1.length = w1.length ∧ v1.length = w2.length := by
    unfold pairedTest at h
    obtain ⟨h0, h⟩ := raiseIf_bind_ok.mp h
    obtain ⟨h1, -⟩ := raiseIf_bind_ok.mp h
    push Not at h0 h1
    exact ⟨h0, h1⟩
  obtain ⟨l1, l2, l3⟩ := hlen
  have z1 : ((v1.zip w1).zip (v2.zip w2)).map Prod.fst = v1.zip w1 := List.map_fst_zip (by simp [← l1, ← l2, ← l3])
  have z2 : ((v1.zip w1).zip (v2.zip w2)).map Prod.snd = v2.zip w2 := List.map_snd_zip (by simp [← l1, ← l2, ← l3])
  have e1 : ((v1.zip w1).zip (v2.zip w2)).map (fun p => p.1.1) = v1 := by
    rw [show (fun p : (ℝ × ℝ) × (ℝ × ℝ) => p.1.1) = Prod.fst ∘ Prod.fst from rfl, ← List.map_map, z1, List.map_fst_zip (by omega)]
  have e2 : ((v1.zip w1).zip (v2.zip w2)).map (fun p => p.1.2) = w1 := by
    rw [show (fun p : (ℝ × ℝ) × (ℝ × ℝ) => p.1.2) = Prod.snd ∘ Prod.fst from rfl, ← List.map_map, z1, List.map_snd_zip (by omega)]
  have e3 : ((v1.zip w1).zip (v2.zip w2)).map (fun p => p.2.1) = v2 := by
    rw [show (fun p : (ℝ × ℝ) × (ℝ × ℝ) => p.2.1) = Prod.fst ∘ Prod.snd from rfl, ← List.map_map, z2, List.map_fst_zip (by omega)]
  have e4 : ((v1.zip w1).zip (v2.zip w2)).map (fun p => p.2.2) = w2 := by
    rw [show (fun p : (ℝ × ℝ) × (ℝ × ℝ) => p.2.2) = Prod.snd ∘ Prod.snd from rfl, ← List.map_map, z2, List.map_snd_zip (by omega)]
  have hl : ((v1.zip w1).zip (v2.zip w2)).length = v1.length := by simp [← l1, ← l2, ← l3]
  obtain ⟨c1, c2, c3, c4, c5, c6, c7, c8, c9⟩ := paired_ratio_mirror ha (items := (v1.zip w1).zip (v2.zip w2)) (q := q) (α := α) (D := D) (R := R)
    (r := r) (r' := r') (by rw [hl]; exact hc) (by rw [e1, e2, e3, e4]; exact h) (by rw [e1, e2, e3, e4]; exact h')
  exact ⟨c2, c1, c5, c6, c7, c8, c9, fun _ _ => ⟨c3, c4⟩⟩

theorem untreated_sum (items : List Spec.CrossoverItem) (a b : ℝ) : (items.map (fun i => i.untreated a b)).sum =
    (items.map (fun i => i.untreated 0 0)).sum - (items.map (fun i => (a + b) / 2 + itemSign i * (b - a) / 2)).sum := by
  induction items with
  | nil => simp
  | cons i l ih =>
    simp only [List.map_cons, List.sum_cons, ih]
    unfold Spec.CrossoverItem.untreated itemSign
    by_cases h : i.treatedFirst <;> simp [h] <;> ring

theorem balanced_sign {items : List Spec.CrossoverItem} (h : Spec.Balanced items) : (items.map itemSign).sum = 0 := by
  classical
  have : (items.map itemSign).sum = (items.countP (fun i => decide i.treatedFirst) : ℝ) - (items.countP (fun i => decide (¬ i.treatedFirst)) : ℝ) := by
    clear h
    induction items with
    | nil => simp
    | cons i l ih =>
      rw [List.map_cons, List.sum_cons, ih, List.countP_cons, List.countP_cons]
      unfold itemSign
      by_cases hi : i.treatedFirst <;> simp [hi] <;> ring
  rw [this]
  unfold Spec.Balanced at h
  rw [h, sub_self]

/-- The constant added back to both arrays of an untrimmed crossover with equally large groups. -/
theorem balanced_shift {items : List Spec.CrossoverItem} (hb : Spec.Balanced items) (hne : items ≠ []) {a b c : ℝ}
    (h : Spec.mean (items.map (fun i => i.untreated a b + c)) = Spec.mean (items.map (fun i => i.untreated 0 0))) : c = (a + b) / 2 := by
  have hpos : (0 : ℝ) < items.length := by exact_mod_cast List.length_pos_iff.mpr hne
  unfold Spec.mean at h
  simp only [List.length_map] at h
  rw [div_left_inj' hpos.ne', List.sum_map_add, untreated_sum, List.sum_map_add] at h
  have e : (items.map (fun i => itemSign i * (b - a) / 2)).sum = 0 := by
    have : (fun i : Spec.CrossoverItem => itemSign i * (b - a) / 2) = fun i => itemSign i * ((b - a) / 2) := by
      funext i
      ring
    rw [this, List.sum_map_mul_right, balanced_sign hb, zero_mul]
  rw [e] at h
  simp only [List.map_const', List.sum_replicate, nsmul_eq_mul, add_zero] at h
  have h2 : (items.length : ℝ) * c = items.length * ((a + b) / 2) := by linarith
  exact mul_left_cancel₀ hpos.ne' h2

theorem balanced_flip {items : List Spec.CrossoverItem} (hb : Spec.Balanced items) : Spec.Balanced (items.map flipItem) := by
  classical
  unfold Spec.Balanced at hb ⊢
  rw [List.countP_map, List.countP_map]
  have e1 : items.countP ((fun i => decide i.treatedFirst) ∘ flipItem) = items.countP (fun i => decide (¬ i.treatedFirst)) :=
    List.countP_congr (fun i _ => by by_cases h : i.treatedFirst <;> simp [flipItem, h])
  have e2 : items.countP ((fun i => decide (¬ i.treatedFirst)) ∘ flipItem) = items.countP (fun i => decide i.treatedFirst) :=
    List.countP_congr (fun i _ => by simp only [Function.comp_apply, decide_eq_true_eq, flipItem, not_not])
  rw [e1, e2, hb]

/-- The arrays with the groups exchanged are the exchanged arrays. -/
theorem arrays_exchanged {items : List Spec.CrossoverItem} {q : ℝ} {v1 v2 u1 u2 : List ℝ} (h : CrossoverArrays items q v1 v2)
    (h' : CrossoverArrays (items.map flipItem) q u1 u2) (hne : items ≠ []) (hb : q = 0 → Spec.Balanced items) : u1 = v2 ∧ u2 = v1 := by
  by_cases hq : q = 0
  · obtain ⟨m1, m2, c, e1, e2, rfl, rfl, e3⟩ := h.2 hq
    obtain ⟨n1, n2, c', f1, f2, rfl, rfl, f3⟩ := h'.2 hq
    have hm1 : n1 = m1 := by rw [e1, f1, List.map_map]; rfl
    have hm2 : n2 = m2 := by rw [e2, f2, List.map_map]; rfl
    have hc := balanced_shift (hb hq) hne e3
    have hc' := balanced_shift (balanced_flip (hb hq)) (by simpa using hne) f3
    rw [hm1, hm2, ← hc] at hc'
    subst hc' hm1 hm2
    rw [List.map_map, List.map_map]
    exact ⟨List.map_congr_left fun i _ => by simp only [Function.comp_apply, (flip_treated i _ _).1],
      List.map_congr_left fun i _ => by simp only [Function.comp_apply, (flip_treated i _ _).2]⟩
  · obtain ⟨rfl, rfl⟩ := h.1 hq
    obtain ⟨rfl, rfl⟩ := h'.1 hq
    rw [List.map_map, List.map_map]
    exact ⟨List.map_congr_left fun i _ => by simp only [Function.comp_apply, (flip_treated i _ _).1],
      List.map_congr_left fun i _ => by simp only [Function.comp_apply, (flip_treated i _ _).2]⟩

/-- **C110, ratio metrics of crossovers.**  Exchanging the groups mirrors the whole result, if either a trimming quantile is set and the cut is clean
(items with the same difference of the numerators at the cut also agree in all other values), or none is set and the groups are
equally large.  Missing: groups of different size without trimming (false, `C110_unequal_groups_false`) and ties at the cut (false, `C110_ties_false`). -/
theorem C110_mirrored_partial (R : Rounding ℝ) (argsort : List ℝ → List ℕ) (ha : ArgsortOk argsort) (D : TDist) (piv piv' : Pivoted ℝ)
    (metrics : List String) (itemCol treatmentCol : String) (hne : itemCol ≠ treatmentCol)
    (hi : ¬ Spec.Reserved itemCol) (ht : ¬ Spec.Reserved treatmentCol)
    (hidx : ∀ k ∈ piv.index, k.length = 2) (hidx' : ∀ k ∈ piv'.index, k.length = 2)
    (d : DesignParams ℝ) (hd : d.isCrossover = true) (metric denominator : String) (hx : Spec.Exchanged piv piv' metric)
    (hz : Spec.Exchanged piv piv' denominator) (hk1 : Spec.KeepsFractions piv metric) (hk2 : Spec.KeepsFractions piv denominator) (override : Option ℝ)
    (hbal : override.getD d.postTrim.val = 0 → ∀ m items, Spec.CrossoverItems piv m items → Spec.Balanced items)
    (hcut : override.getD d.postTrim.val ≠ 0 → ∀ num den, Spec.CrossoverItems piv metric num → Spec.CrossoverItems piv denominator den →
      ∀ g : ℕ, (g : ℤ) = ⌊R.rnd (override.getD d.postTrim.val * (num.length : ℝ))⌋ →
        Spec.CleanCut (fun p => p.1.1 - p.2.1) g (Spec.ratioPairs num den)) (r r' : TestResult)
    (h : analyzeSingleMetric R argsort D piv metrics [itemCol, treatmentCol] d metric (some denominator) treatmentCol override = .ok r)
    (h' : analyzeSingleMetric R argsort D piv' metrics [itemCol, treatmentCol] d metric (some denominator) treatmentCol override = .ok r') :
    Spec.Mirrored r r' := by
  obtain ⟨num, den, v1, v2, w1, w2, a1, a2, a3, a4, h⟩ :=
    C38_crossover_pairs_ratio_partial R argsort D piv metrics itemCol treatmentCol hne hi ht hidx d hd metric denominator hk1 hk2 override r h
  obtain ⟨num', den', u1, u2, x1, x2, b1, b2, b3, b4, h'⟩ :=
    C38_crossover_pairs_ratio_partial R argsort D piv' metrics itemCol treatmentCol hne hi ht hidx' d hd metric denominator (exchanged_keeps hx hk1) (exchanged_keeps hz hk2) override r' h'
  rw [exchanged_items hx a1 b1] at b3
  rw [exchanged_items hz a2 b2] at b4
  have hnd : num.length = den.length := a1.length_eq.symm.trans a2.length_eq
  have hv : v1.length = num.length := by
    by_cases hq : override.getD d.postTrim.val = 0
    · obtain ⟨m1, m2, c, -, -, rfl, -⟩ := a3.2 hq
      simp
    · rw [(a3.1 hq).1, List.length_map]
  have hnum : num ≠ [] := by
    rintro rfl
    rcases pairedTest_ok h with ⟨y1, y2, e1, e2, T, t, hl, -⟩ | ⟨e1, -⟩
    swap
    · cases e1
    have h3 := (mkTrimmed_ok t).2.2.2.1
    rw [List.length_nil, List.length_eq_zero_iff] at hv
    subst hv
    simp only [stack5, List.zip_nil_left, List.zipWith_nil_left, List.length_nil] at h3
    unfold TrimmedArray.len at hl
    omega
  have hden : den ≠ [] := by
    intro e
    rw [e, List.length_nil, List.length_eq_zero_iff] at hnd
    exact hnum hnd
  obtain ⟨rfl, rfl⟩ := arrays_exchanged a3 b3 hnum (fun hq => hbal hq _ _ a1)
  obtain ⟨rfl, rfl⟩ := arrays_exchanged a4 b4 hden (fun hq => hbal hq _ _ a2)
  refine paired_ratio_swap ha ?_ h h'
  intro g hg
  by_cases hq : override.getD d.postTrim.val = 0
  · refine Or.inl ?_
    have := R.intFix 0 (by norm_num)
    rw [hq, zero_mul, show (0 : ℝ) = ((0 : ℤ) : ℝ) by simp, this] at hg
    simpa using hg
  · rw [hv] at hg
    have := hcut hq num den a1 a2 g hg
    unfold Spec.ratioPairs at this
    rw [(a3.1 hq).1, (a3.1 hq).2, (a4.1 hq).1, (a4.1 hq).2]
    exact this

/-! ### Ties at the cut -/

theorem stable_ok {argsort : List ℝ → List ℕ} (h : Spec.StableSort argsort) : ArgsortOk argsort := by
  intro l
  refine ⟨(h l).1, ?_⟩
  rw [List.pairwise_map]
  exact (h l).2.imp (fun {i j} hij => by rcases hij with h | ⟨h, -⟩ <;> linarith)

theorem stable_eq {argsort : List ℝ → List ℕ} (h : Spec.StableSort argsort) {l : List ℝ} {a : List ℕ} (hp : a.Perm (List.range l.length))
    (ha : a.Pairwise (fun i j => l.getD i 0 < l.getD j 0 ∨ l.getD i 0 = l.getD j 0 ∧ i < j)) : argsort l = a := by
  refine List.Perm.eq_of_pairwise (fun i j _ _ h1 h2 => ?_) (h l).2 ha ((h l).1.trans hp.symm)
  exfalso
  rcases h1 with h1 | ⟨h1, h1'⟩ <;> rcases h2 with h2 | ⟨h2, h2'⟩
  · linarith
  · linarith
  · linarith
  · omega

/-- The crossover analysis of a ratio metric returns. -/
theorem analyze_ratio_trimmed_returns {R : Rounding ℝ} {argsort : List ℝ → List ℕ} (ha : ArgsortOk argsort) {D : TDist} {piv : Pivoted ℝ}
    {metrics : List String} {itemCol treatmentCol : String} (hne : itemCol ≠ treatmentCol)
    (hi : ¬ Spec.Reserved itemCol) (ht : ¬ Spec.Reserved treatmentCol) (hidx : ∀ k ∈ piv.index, k.length = 2)
    (hi' : Cell.str itemCol ∉ piv.periods) (ht' : Cell.str treatmentCol ∉ piv.periods)
    {d : DesignParams ℝ} (hd : d.isCrossover = true) {metric denominator : String} (hm : metric ∈ metrics) (hm' : denominator ∈ metrics)
    (h1 : Cell.str "test_1" ∈ piv.periods) (h2 : Cell.str "test_2" ∈ piv.periods)
    {y1 y2 z1 z2 : List ℝ} (hy1 : Spec.ValuesOf piv metric "test_1" y1) (hy2 : Spec.ValuesOf piv metric "test_2" y2)
    (hz1 : Spec.ValuesOf piv denominator "test_1" z1) (hz2 : Spec.ValuesOf piv denominator "test_2" z2)
    (hle : piv.index.length ≤ 2 ^ 53) (hq0 : 0 < d.postTrim.val) (hq1 : d.postTrim.val < 1 / 2)
    (hr : 2 * ⌊R.rnd (d.postTrim.val * (piv.index.length : ℝ))⌋ + 1 < piv.index.length) :
    ∃ r, analyzeSingleMetric R argsort D piv metrics [itemCol, treatmentCol] d metric (some denominator) treatmentCol none = .ok r := by
  obtain ⟨f, hf⟩ := metricSubset_returns (metrics := metrics) hm hi' ht'
  obtain ⟨g, hg⟩ := metricSubset_returns (metrics := metrics) hm' hi' ht'
  unfold Spec.Reserved at hi ht
  push Not at hi ht
  unfold analyzeSingleMetric
  rw [hf]
  have hreq : ¬ ((requiredColumns d treatmentCol).any (fun c => decide (c ∉ f.cols) || decide (c ∉ g.cols)) = true) := by
    have e1 : treatmentCol ∈ f.cols := by rw [(metricSubset_ok hf).1]; simp
    have e2 : "test_1" ∈ f.cols := (mem_period_cols hf hi.2.2.1.symm ht.2.2.1.symm (by decide)).mpr h1
    have e3 : "test_2" ∈ f.cols := (mem_period_cols hf hi.2.2.2.symm ht.2.2.2.symm (by decide)).mpr h2
    have e4 : treatmentCol ∈ g.cols := by rw [(metricSubset_ok hg).1]; simp
    have e5 : "test_1" ∈ g.cols := (mem_period_cols hg hi.2.2.1.symm ht.2.2.1.symm (by decide)).mpr h1
    have e6 : "test_2" ∈ g.cols := (mem_period_cols hg hi.2.2.2.symm ht.2.2.2.symm (by decide)).mpr h2
    simp [requiredColumns, hd, e1, e2, e3, e4, e5, e6]
  simp only [bind, Except.bind, pure, Except.pure, hg]
  unfold raiseIf
  rw [if_neg hreq, hd]
  simp only [if_true, Option.getD_none]
  unfold analyzeCrossover crossoverItems
  simp only [subset_values_eq hf hi.2.2.1.symm ht.2.2.1.symm hy1, subset_values_eq hf hi.2.2.2.symm ht.2.2.2.symm hy2,
    subset_values_eq hg hi.2.2.1.symm ht.2.2.1.symm hz1, subset_values_eq hg hi.2.2.2.symm ht.2.2.2.symm hz2,
    bind, Except.bind, pure, Except.pure]
  have lens : ∀ (s : ℝ → ℝ) (f : Frame ℝ) (m : String) (a b : List ℝ), metricSubset piv metrics [itemCol, treatmentCol] m = .ok f → a.length = piv.index.length →
      b.length = piv.index.length → (prepareCrossover s (((f.col treatmentCol).map (cellEq 1)).zip (a.zip b)) (decide (d.postTrim.val = 0))).1.length = piv.index.length ∧
      (prepareCrossover s (((f.col treatmentCol).map (cellEq 1)).zip (a.zip b)) (decide (d.postTrim.val = 0))).2.length = piv.index.length := by
    intro s f m a b hf la lb
    rw [subset_mask hf hne hidx 1]
    rw [(prepareCrossover_length _ _ _).1, (prepareCrossover_length _ _ _).2]
    simp [la, lb]
  obtain ⟨l1, l2⟩ := lens (storeFirst piv metric) f metric y1 y2 hf hy1.length_eq.symm hy2.length_eq.symm
  obtain ⟨l3, l4⟩ := lens ((some denominator).elim id (storeFirst piv)) g denominator z1 z2 hg hz1.length_eq.symm hz2.length_eq.symm
  generalize prepareCrossover (storeFirst piv metric) (((f.col treatmentCol).map (cellEq 1)).zip (y1.zip y2)) (decide (d.postTrim.val = 0)) = p at *
  generalize prepareCrossover ((some denominator).elim id (storeFirst piv)) (((g.col treatmentCol).map (cellEq 1)).zip (z1.zip z2)) (decide (d.postTrim.val = 0)) = p' at *
  exact (C34_ratio_tests_return R argsort ha D p.1 p.2 p'.1 p'.2 _ hq0.le hq1 false "two-sided" (Or.inl rfl) defaultAlpha
    (by rw [l1, l3]) (by rw [l2, l4]) (by rw [l1]; exact hle) (by rw [l2]; exact hle) (by rw [l1]; exact hr) (by rw [l2]; exact hr)).1 (by rw [l1, l2])

/-- Pivoted data of four items in a crossover: "a" has one click in both periods, the others have two in the first and one in the second; impressions
are `n` for "d" in the first period and 1 otherwise.  "a" is in group `!b`, the others in group `b`. -/
noncomputable def tieTable (n : ℝ) (b : Bool) : Pivoted ℝ where
  index := [[.str "a", .int (if b then 0 else 1)], [.str "b", .int (if b then 1 else 0)], [.str "c", .int (if b then 1 else 0)],
    [.str "d", .int (if b then 1 else 0)]]
  periods := [.str "test_1", .str "test_2"]
  value := fun k m p =>
    if m = "impressions" then (if p = "test_1" ∧ k[0]? = some (.str "d") then .fin n else .fin 1)
    else if p = "test_1" ∧ k[0]? ≠ some (.str "a") then .fin 2 else .fin 1

theorem tieTable_exchanged (n : ℝ) (m : String) : Spec.Exchanged (tieTable n true) (tieTable n false) m := by
  refine ⟨rfl, rfl, ?_⟩
  simp only [tieTable, if_true, Bool.false_eq_true, if_false, List.forall₂_cons, List.forall₂_nil_left_iff, and_true]
  refine ⟨⟨rfl, fun p => by simp, Or.inr ⟨⟨_, _, rfl, ?_⟩, ⟨_, _, rfl, ?_⟩⟩⟩, ⟨rfl, fun p => by simp, Or.inl ⟨⟨_, _, rfl, ?_⟩, ⟨_, _, rfl, ?_⟩⟩⟩,
    ⟨rfl, fun p => by simp, Or.inl ⟨⟨_, _, rfl, ?_⟩, ⟨_, _, rfl, ?_⟩⟩⟩, ⟨rfl, fun p => by simp, Or.inl ⟨⟨_, _, rfl, ?_⟩, ⟨_, _, rfl, ?_⟩⟩⟩⟩ <;>
    simp [Cell.toFl]

theorem tieTable_items {n : ℝ} {m : String} {items : List Spec.CrossoverItem} {b : Bool} (h : Spec.CrossoverItems (tieTable n b) m items) :
    items = [⟨b = false, 1, 1⟩, ⟨b = true, if m = "impressions" then 1 else 2, 1⟩, ⟨b = true, if m = "impressions" then 1 else 2, 1⟩,
      ⟨b = true, if m = "impressions" then n else 2, 1⟩] := by
  unfold Spec.CrossoverItems tieTable at h
  simp only at h
  rcases h with _ | ⟨a1, h⟩
  rcases h with _ | ⟨a2, h⟩
  rcases h with _ | ⟨a3, h⟩
  rcases h with _ | ⟨a4, h⟩
  cases h
  rename_i i1 i2 i3 i4
  rcases i1 with ⟨t1, f1, s1⟩
  rcases i2 with ⟨t2, f2, s2⟩
  rcases i3 with ⟨t3, f3, s3⟩
  rcases i4 with ⟨t4, f4, s4⟩
  simp only [assignedTo_int] at a1 a2 a3 a4
  have k1 : t1 = (b = false) := propext (by rw [a1.1]; cases b <;> simp)
  have k2 : t2 = (b = true) := propext (by rw [a2.1]; cases b <;> simp)
  have k3 : t3 = (b = true) := propext (by rw [a3.1]; cases b <;> simp)
  have k4 : t4 = (b = true) := propext (by rw [a4.1]; cases b <;> simp)
  subst k1 k2 k3 k4
  obtain ⟨-, p1, q1⟩ := a1
  obtain ⟨-, p2, q2⟩ := a2
  obtain ⟨-, p3, q3⟩ := a3
  obtain ⟨-, p4, q4⟩ := a4
  by_cases hm : m = "impressions"
  · simp [hm] at p1 p2 p3 p4 q1 q2 q3 q4
    subst p1 p2 p3 p4 q1 q2 q3 q4
    simp [hm]
  · simp [hm] at p1 p2 p3 p4 q1 q2 q3 q4
    subst p1 p2 p3 p4 q1 q2 q3 q4
    simp [hm]

theorem tieTable_returns (R : Rounding ℝ) (argsort : List ℝ → List ℕ) (ha : ArgsortOk argsort) (D : TDist) (n : ℝ) (b : Bool) :
    ∃ r, analyzeSingleMetric R argsort D (tieTable n b) ["clicks", "impressions"] ["item_id", "treatment_assignment"]
      { tenPercentParams with isCrossover := true, washout := some 0, postTrim := .float (1 / 4) } "clicks" (some "impressions")
      "treatment_assignment" none = .ok r := by
  refine analyze_ratio_trimmed_returns ha (by decide) (by unfold Spec.Reserved; decide) (by unfold Spec.Reserved; decide) (by simp [tieTable])
    (by simp [tieTable]) (by simp [tieTable]) rfl (by simp) (by simp)
    (by simp [tieTable]) (by simp [tieTable]) (y1 := [1, 2, 2, 2]) (y2 := [1, 1, 1, 1]) (z1 := [1, 1, 1, n]) (z2 := [1, 1, 1, 1])
    (by simp [Spec.ValuesOf, tieTable]) (by simp [Spec.ValuesOf, tieTable]) (by simp [Spec.ValuesOf, tieTable])
    (by simp [Spec.ValuesOf, tieTable]) (by simp [tieTable]) ?_ ?_ ?_
  · show (0 : ℝ) < 1 / 4
    norm_num
  · show (1 / 4 : ℝ) < 1 / 2
    norm_num
  · show 2 * ⌊R.rnd (1 / 4 * ((4 : ℕ) : ℝ))⌋ + 1 < (4 : ℕ)
    rw [quarter_of_four]
    simp

theorem tieTable_arrays {R : Rounding ℝ} {argsort : List ℝ → List ℕ} {D : TDist} {n : ℝ} {b : Bool} {r : TestResult}
    (h : analyzeSingleMetric R argsort D (tieTable n b) ["clicks", "impressions"] ["item_id", "treatment_assignment"]
      { tenPercentParams with isCrossover := true, washout := some 0, postTrim := .float (1 / 4) } "clicks" (some "impressions")
      "treatment_assignment" none = .ok r) :
    (b = true → pairedTest R argsort D [1, 2, 2, 2] [1, 1, 1, 1] (1 / 4) (some [1, 1, 1, n]) (some [1, 1, 1, 1]) "two-sided" (1 / 20) = .ok r) ∧
    (b = false → pairedTest R argsort D [1, 1, 1, 1] [1, 2, 2, 2] (1 / 4) (some [1, 1, 1, 1]) (some [1, 1, 1, n]) "two-sided" (1 / 20) = .ok r) := by
  obtain ⟨num, den, v1, v2, w1, w2, a1, a2, a3, a4, h⟩ :=
    C38_crossover_pairs_ratio_partial R argsort D (tieTable n b) _ _ _ (by decide) (by unfold Spec.Reserved; decide) (by unfold Spec.Reserved; decide)
      (by simp [tieTable]) _ rfl _ _ (keeps_float rfl) (keeps_float rfl) none r h
  have hq : (Option.getD none (PyNum.float (1 / 4 : ℝ)).val) ≠ 0 := by
    show (1 / 4 : ℝ) ≠ 0
    norm_num
  obtain ⟨rfl, rfl⟩ := a3.1 hq
  obtain ⟨rfl, rfl⟩ := a4.1 hq
  rw [tieTable_items a1, tieTable_items a2] at h
  constructor
  · rintro rfl
    simp only [List.map_cons, List.map_nil, Spec.CrossoverItem.treated, Spec.CrossoverItem.untreated, if_true, if_false, sub_zero,
      String.reduceEq, Bool.true_eq_false] at h
    exact h
  · rintro rfl
    simp only [List.map_cons, List.map_nil, Spec.CrossoverItem.treated, Spec.CrossoverItem.untreated, if_true, if_false, sub_zero,
      String.reduceEq, Bool.false_eq_true] at h
    exact h

/-- What the paired test of four items reports for a ratio metric, by the two items that are kept. -/
theorem four_kept {R : Rounding ℝ} {argsort : List ℝ → List ℕ} {D : TDist} {v1 v2 w1 w2 : List ℝ} {α : ℝ} {r : TestResult}
    (h : pairedTest R argsort D v1 v2 (1 / 4) (some w1) (some w2) "two-sided" α = .ok r) (h4 : (stack5 v1 w1 v2 w2).length = 4)
    {i j : ℕ} (hk : (sliceInner (argsort (rowOf (stack5 v1 w1 v2 w2) 0)) 1).insertionSort (· ≤ ·) = [i, j]) :
    r.absoluteDifference =
      fin (((stack5 v1 w1 v2 w2).getD i 0 1 + (stack5 v1 w1 v2 w2).getD j 0 1) / 2) / fin (((stack5 v1 w1 v2 w2).getD i 0 2 + (stack5 v1 w1 v2 w2).getD j 0 2) / 2) -
        fin (((stack5 v1 w1 v2 w2).getD i 0 3 + (stack5 v1 w1 v2 w2).getD j 0 3) / 2) / fin (((stack5 v1 w1 v2 w2).getD i 0 4 + (stack5 v1 w1 v2 w2).getD j 0 4) / 2) := by
  rcases pairedTest_ok h with ⟨x1, x2, e1, e2, T, t, hl, hr⟩ | ⟨e1, -⟩
  swap
  · cases e1
  cases e1
  cases e2
  obtain ⟨-, -, t2, -, t4⟩ := mkTrimmed_ok t
  rw [h4, quarter_nTrim] at t2
  have hT : T.trimmed = [(stack5 v1 w1 v2 w2).getD i 0, (stack5 v1 w1 v2 w2).getD j 0] := by
    rw [t4, t2]
    unfold trimmedIndex
    rw [if_neg (by norm_num), hk]
    rfl
  have hm : ∀ k, T.mean k = ((stack5 v1 w1 v2 w2).getD i 0 k + (stack5 v1 w1 v2 w2).getD j 0 k) / 2 := by
    intro k
    simp [TrimmedArray.mean, rowOf, TrimmedArray.len, hT]
  obtain ⟨-, -, -, -, -, a5, -⟩ := resultsFrom_ok hr
  rw [a5]
  show fin (T.mean 1) / fin (T.mean 2) - fin (T.mean 3) / fin (T.mean 4) = _
  rw [hm, hm, hm, hm]

/-- **C110 is false for ratio metrics when equal differences are at the cut**, with a stable sorting routine: four items, one trimmed at each end.  Three
items have the same difference of clicks, but different impressions; which of them is cut depends on the direction.  The estimate is 1;
with the groups exchanged it is -1/3. -/
theorem C110_ties_false (R : Rounding ℝ) (argsort : List ℝ → List ℕ) (hs : Spec.StableSort argsort) (D : TDist) :
    ∃ (piv piv' : Pivoted ℝ) (d : DesignParams ℝ) (r r' : TestResult), (∀ m, Spec.Exchanged piv piv' m) ∧ d.isCrossover = true ∧
      analyzeSingleMetric R argsort D piv ["clicks", "impressions"] ["item_id", "treatment_assignment"] d "clicks" (some "impressions")
        "treatment_assignment" none = .ok r ∧
      analyzeSingleMetric R argsort D piv' ["clicks", "impressions"] ["item_id", "treatment_assignment"] d "clicks" (some "impressions")
        "treatment_assignment" none = .ok r' ∧
      r.absoluteDifference = fin 1 ∧ r'.absoluteDifference = fin (-1 / 3) := by
  have ha := stable_ok hs
  have hi : ¬ Spec.Reserved "item_id" := by unfold Spec.Reserved; decide
  have ht : ¬ Spec.Reserved "treatment_assignment" := by unfold Spec.Reserved; decide
  have hidx : ∀ b, ∀ k ∈ (tieTable 2 b).index, k.length = 2 := by intro b; simp [tieTable]
  obtain ⟨r, hr⟩ := tieTable_returns R argsort ha D 2 true
  obtain ⟨r', hr'⟩ := tieTable_returns R argsort ha D 2 false
  refine ⟨tieTable 2 true, tieTable 2 false, _, r, r', tieTable_exchanged 2, rfl, hr, hr', ?_, ?_⟩
  · have e : argsort (rowOf (stack5 [1, 2, 2, 2] [1, 1, 1, 2] [1, 1, 1, 1] [1, 1, 1, 1]) 0) = [0, 1, 2, 3] := by
      refine stable_eq hs (by decide) ?_
      simp [rowOf, stack5]
    rw [four_kept ((tieTable_arrays hr).1 rfl) rfl (i := 1) (j := 2) (by rw [e]; decide)]
    simp [stack5]
    rw [fin_div_ne (by norm_num), fin_div_ne (by norm_num), fin_sub]
    norm_num
  · have e : argsort (rowOf (stack5 [1, 1, 1, 1] [1, 1, 1, 1] [1, 2, 2, 2] [1, 1, 1, 2]) 0) = [1, 2, 3, 0] := by
      refine stable_eq hs (by decide) ?_
      simp [rowOf, stack5]
    rw [four_kept ((tieTable_arrays hr').2 rfl) rfl (i := 2) (j := 3) (by rw [e]; decide)]
    simp [stack5]
    rw [fin_div_ne (by norm_num), fin_div_ne (by norm_num), fin_sub]
    norm_num

/-- Stable sorting routines exist. -/
example : ∃ argsort, Spec.StableSort argsort := by
  classical
  refine ⟨fun l => (List.range l.length).insertionSort (fun i j => l.getD i 0 < l.getD j 0 ∨ l.getD i 0 = l.getD j 0 ∧ i ≤ j),
    fun l => ⟨List.perm_insertionSort _ _, ?_⟩⟩
  have : Std.Total (fun i j : ℕ => l.getD i 0 < l.getD j 0 ∨ l.getD i 0 = l.getD j 0 ∧ i ≤ j) := ⟨fun i j => by
    rcases lt_trichotomy (l.getD i 0) (l.getD j 0) with h | h | h
    · exact Or.inl (Or.inl h)
    · rcases le_total i j with h' | h'
      · exact Or.inl (Or.inr ⟨h, h'⟩)
      · exact Or.inr (Or.inr ⟨h.symm, h'⟩)
    · exact Or.inr (Or.inl h)⟩
  have : IsTrans ℕ (fun i j : ℕ => l.getD i 0 < l.getD j 0 ∨ l.getD i 0 = l.getD j 0 ∧ i ≤ j) := ⟨fun i j k h1 h2 => by
    rcases h1 with h1 | ⟨h1, h1'⟩ <;> rcases h2 with h2 | ⟨h2, h2'⟩
    · exact Or.inl (h1.trans h2)
    · exact Or.inl (h2 ▸ h1)
    · exact Or.inl (h1 ▸ h2)
    · exact Or.inr ⟨h1.trans h2, h1'.trans h2'⟩⟩
  have hs := List.pairwise_insertionSort (fun i j : ℕ => l.getD i 0 < l.getD j 0 ∨ l.getD i 0 = l.getD j 0 ∧ i ≤ j) (List.range l.length)
  have hd : ((List.range l.length).insertionSort (fun i j => l.getD i 0 < l.getD j 0 ∨ l.getD i 0 = l.getD j 0 ∧ i ≤ j)).Nodup :=
    (List.perm_insertionSort _ _).nodup_iff.mpr List.nodup_range
  refine (hs.and hd).imp (fun {i j} h => ?_)
  rcases h with ⟨h | ⟨h, h'⟩, hne⟩
  · exact Or.inl h
  · exact Or.inr ⟨h, lt_of_le_of_ne h' hne⟩

/-- `C110_mirrored_partial` is not vacuous with trimming: the items with equal differences agree in all values. -/
example (R : Rounding ℝ) (argsort : List ℝ → List ℕ) (ha : ArgsortOk argsort) (D : TDist) :
    ∃ r r', analyzeSingleMetric R argsort D (tieTable 1 true) ["clicks", "impressions"] ["item_id", "treatment_assignment"]
        { tenPercentParams with isCrossover := true, washout := some 0, postTrim := .float (1 / 4) } "clicks" (some "impressions")
        "treatment_assignment" none = .ok r ∧
      analyzeSingleMetric R argsort D (tieTable 1 false) ["clicks", "impressions"] ["item_id", "treatment_assignment"]
        { tenPercentParams with isCrossover := true, washout := some 0, postTrim := .float (1 / 4) } "clicks" (some "impressions")
        "treatment_assignment" none = .ok r' ∧ Spec.Mirrored r r' := by
  obtain ⟨r, hr⟩ := tieTable_returns R argsort ha D 1 true
  obtain ⟨r', hr'⟩ := tieTable_returns R argsort ha D 1 false
  refine ⟨r, r', hr, hr', C110_mirrored_partial R argsort ha D _ _ _ _ _ (by decide) (by unfold Spec.Reserved; decide) (by unfold Spec.Reserved; decide)
    (by simp [tieTable]) (by simp [tieTable]) _ rfl _ _ (tieTable_exchanged 1 _) (tieTable_exchanged 1 _) (keeps_float rfl) (keeps_float rfl) none ?_ ?_ r r' hr hr'⟩
  · intro h
    exfalso
    revert h
    show ¬ (1 / 4 : ℝ) = 0
    norm_num
  · intro _ num den h1 h2 g _
    refine Or.inr ?_
    rw [tieTable_items h1, tieTable_items h2]
    intro a ha b hb hab
    refine Or.inl ?_
    simp [Spec.ratioPairs, Spec.CrossoverItem.treated, Spec.CrossoverItem.untreated] at ha hb
    rcases ha with rfl | rfl <;> rcases hb with rfl | rfl <;> first | rfl | (exfalso; norm_num at hab)

/-- `C110_mirrored_partial` is not vacuous without trimming. -/
example (R : Rounding ℝ) (argsort : List ℝ → List ℕ) (ha : ArgsortOk argsort) (D : TDist) :
    ∃ r r', analyzeSingleMetric R argsort D (ratioPair true) ["clicks", "impressions"] ["item_id", "treatment_assignment"]
        { tenPercentParams with isCrossover := true, washout := some 0, postTrim := .float 0 } "clicks" (some "impressions") "treatment_assignment" none = .ok r ∧
      analyzeSingleMetric R argsort D (ratioPair false) ["clicks", "impressions"] ["item_id", "treatment_assignment"]
        { tenPercentParams with isCrossover := true, washout := some 0, postTrim := .float 0 } "clicks" (some "impressions") "treatment_assignment" none = .ok r' ∧
      Spec.Mirrored r r' := by
  classical
  have hi : ¬ Spec.Reserved "item_id" := by unfold Spec.Reserved; decide
  have ht : ¬ Spec.Reserved "treatment_assignment" := by unfold Spec.Reserved; decide
  have hidx : ∀ b, ∀ k ∈ (ratioPair b).index, k.length = 2 := by intro b; simp [ratioPair]
  have hret : ∀ b, ∃ r, analyzeSingleMetric R argsort D (ratioPair b) ["clicks", "impressions"] ["item_id", "treatment_assignment"]
      { tenPercentParams with isCrossover := true, washout := some 0, postTrim := .float 0 } "clicks" (some "impressions") "treatment_assignment" none = .ok r := by
    intro b
    exact analyze_ratio_returns ha (by decide) hi ht (hidx b) (by simp [ratioPair]) (by simp [ratioPair]) rfl (by simp) (by simp)
      (by simp [ratioPair]) (by simp [ratioPair]) (y1 := [1, 1]) (y2 := [1, 1]) (z1 := [4, 1]) (z2 := [1, 1])
      (by simp [Spec.ValuesOf, ratioPair]) (by simp [Spec.ValuesOf, ratioPair]) (by simp [Spec.ValuesOf, ratioPair])
      (by simp [Spec.ValuesOf, ratioPair]) (by simp [ratioPair]) (by simp [ratioPair]) rfl
  obtain ⟨r, hr⟩ := hret true
  obtain ⟨r', hr'⟩ := hret false
  have hx : ∀ m, Spec.Exchanged (ratioPair true) (ratioPair false) m := by
    intro m
    refine ⟨rfl, rfl, ?_⟩
    simp only [ratioPair, if_true, Bool.false_eq_true, if_false, List.forall₂_cons, List.forall₂_nil_left_iff, and_true]
    refine ⟨⟨rfl, fun p => by simp, Or.inl ⟨⟨_, _, rfl, ?_⟩, ⟨_, _, rfl, ?_⟩⟩⟩, ⟨rfl, fun p => by simp, Or.inr ⟨⟨_, _, rfl, ?_⟩, ⟨_, _, rfl, ?_⟩⟩⟩⟩ <;>
      simp [Cell.toFl]
  refine ⟨r, r', hr, hr', C110_mirrored_partial R argsort ha D _ _ _ _ _ (by decide) hi ht (hidx true) (hidx false) _ rfl _ _ (hx _) (hx _) (keeps_float rfl) (keeps_float rfl) none ?_
    (fun h => absurd rfl h) r r' hr hr'⟩
  intro _ m items h
  unfold Spec.CrossoverItems ratioPair at h
  simp only at h
  rcases h with _ | ⟨a1, h⟩
  rcases h with _ | ⟨a2, h⟩
  cases h
  simp only [assignedTo_int] at a1 a2
  unfold Spec.Balanced
  simp [a1.1, a2.1]

end Feedx
