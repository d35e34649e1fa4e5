import Verif.Props.Exchange

/-!
Property C110, ratio metrics of crossover designs without trimming: what is estimated, that exchanging the groups negates it when the groups are equally
large, and that it does not otherwise.
-/

set_option linter.unusedSectionVars false

namespace Feedx
open Fl

namespace Spec

/-- Average of the items' values while not treated. -/
noncomputable def untreatedMean (items : List CrossoverItem) : ℝ := mean (items.map (fun i => i.untreated 0 0))

/-- Average of the items' values while treated. -/
noncomputable def treatedMean (items : List CrossoverItem) : ℝ := mean (items.map (fun i => i.treated 0 0))

/-- Average difference between treated and untreated values, after subtracting from each period its average over all items. -/
noncomputable def adjustedDifference (items : List CrossoverItem) : ℝ :=
  mean (items.map (fun i => i.treated (mean (items.map (fun i => i.first))) (mean (items.map (fun i => i.second))) -
    i.untreated (mean (items.map (fun i => i.first))) (mean (items.map (fun i => i.second)))))

open Classical in
/-- Equally many items are treated first as second. -/
def Balanced (items : List CrossoverItem) : Prop :=
  items.countP (fun i => decide i.treatedFirst) = items.countP (fun i => decide (¬ i.treatedFirst))

end Spec

theorem rows_stack5 {a b c d : List ℝ} (h1 : b.length = a.length) (h2 : c.length = a.length) (h3 : d.length = a.length) :
    rowOf (stack5 a b c d) 1 = a ∧ rowOf (stack5 a b c d) 2 = b ∧ rowOf (stack5 a b c d) 3 = c ∧ rowOf (stack5 a b c d) 4 = d := by
  unfold rowOf stack5
  induction a generalizing b c d with
  | nil =>
    simp only [List.length_nil, List.length_eq_zero_iff] at h1 h2 h3
    subst h1 h2 h3
    simp
  | cons x a ih =>
    cases b with
    | nil => simp at h1
    | cons y b =>
      cases c with
      | nil => simp at h2
      | cons z c =>
        cases d with
        | nil => simp at h3
        | cons u d =>
          simp only [List.length_cons, add_left_inj] at h1 h2 h3
          obtain ⟨i1, i2, i3, i4⟩ := ih h1 h2 h3
          simp only [List.zip_cons_cons, List.zipWith_cons_cons, List.map_cons, i1, i2, i3, i4]
          exact ⟨rfl, rfl, rfl, rfl⟩

/-- The difference the untrimmed paired test reports for a ratio metric. -/
theorem paired_ratio_untrimmed {R : Rounding ℝ} {argsort : List ℝ → List ℕ} {D : TDist} {v1 v2 w1 w2 : List ℝ} {alt : String} {α : ℝ}
    {r : TestResult} (h : pairedTest R argsort D v1 v2 0 (some w1) (some w2) alt α = .ok r) :
    v1 ≠ [] ∧ r.absoluteDifference = fin (Spec.mean v1) / fin (Spec.mean w1) - fin (Spec.mean v2) / fin (Spec.mean w2) := by
  have hlen : v1.length = v2.length ∧ v1.length = w1.length ∧ v1.length = w2.length := by
    unfold pairedTest at h
    obtain ⟨h0, h⟩ := raiseIf_bind_ok.mp h
    obtain ⟨h1, -⟩ := raiseIf_bind_ok.mp h
    push Not at h0 h1
    exact ⟨h0, h1⟩
  rcases pairedTest_ok h with ⟨x1, x2, e1, e2, T, hT, hl, h⟩ | ⟨e, -⟩
  swap
  · cases e
  cases e1; cases e2
  rw [mkTrimmed_zero] at hT
  cases hT
  have l5 : (stack5 v1 w1 v2 w2).length = v1.length := by simp [stack5, ← hlen.1, ← hlen.2.1, ← hlen.2.2]
  obtain ⟨r1, r2, r3, r4⟩ := rows_stack5 (a := v1) (b := w1) (c := v2) (d := w2) hlen.2.1.symm hlen.1.symm hlen.2.2.symm
  refine ⟨?_, ?_⟩
  · rintro rfl
    simp [TrimmedArray.len, l5] at hl
  · rw [(resultsFrom_ok h).2.2.2.2.2.1]
    have m1 : (⟨stack5 v1 w1 v2 w2, 0, stack5 v1 w1 v2 w2⟩ : TrimmedArray ℝ 4).mean 1 = Spec.mean v1 := by
      unfold TrimmedArray.mean TrimmedArray.len Spec.mean
      simp only [r1, l5]
    have m2 : (⟨stack5 v1 w1 v2 w2, 0, stack5 v1 w1 v2 w2⟩ : TrimmedArray ℝ 4).mean 2 = Spec.mean w1 := by
      unfold TrimmedArray.mean TrimmedArray.len Spec.mean
      simp only [r2, l5, hlen.2.1]
    have m3 : (⟨stack5 v1 w1 v2 w2, 0, stack5 v1 w1 v2 w2⟩ : TrimmedArray ℝ 4).mean 3 = Spec.mean v2 := by
      unfold TrimmedArray.mean TrimmedArray.len Spec.mean
      simp only [r3, l5, hlen.1]
    have m4 : (⟨stack5 v1 w1 v2 w2, 0, stack5 v1 w1 v2 w2⟩ : TrimmedArray ℝ 4).mean 4 = Spec.mean w2 := by
      unfold TrimmedArray.mean TrimmedArray.len Spec.mean
      simp only [r4, l5, hlen.2.2]
    show fin (TrimmedArray.mean _ 1) / fin (TrimmedArray.mean _ 2) - fin (TrimmedArray.mean _ 3) / fin (TrimmedArray.mean _ 4) = _
    rw [m1, m2, m3, m4]

/-- The averages of the two arrays of an untrimmed crossover differ by the period-adjusted difference, whatever is stored. -/
theorem arrays_means_into {s : ℝ → ℝ} {items : List Spec.CrossoverItem} {v1 v2 : List ℝ} (h : CrossoverArraysInto s items 0 v1 v2) :
    Spec.mean v1 = Spec.mean v2 + Spec.adjustedDifference items := by
  obtain ⟨m1, m2, c, e1, e2, rfl, rfl, h3⟩ := h.2 rfl
  unfold Spec.adjustedDifference
  rw [← e1, ← e2]
  unfold Spec.mean
  simp only [List.length_map]
  rw [← add_div]
  congr 1
  clear * -
  induction items with
  | nil => simp
  | cons i l ih =>
    simp only [List.map_cons, List.sum_cons, ih]
    ring

/-- The averages of the two arrays of an untrimmed crossover. -/
theorem arrays_means {items : List Spec.CrossoverItem} {v1 v2 : List ℝ} (h : CrossoverArrays items 0 v1 v2) :
    Spec.mean v2 = Spec.untreatedMean items ∧ Spec.mean v1 = Spec.untreatedMean items + Spec.adjustedDifference items := by
  obtain ⟨m1, m2, c, e1, e2, rfl, rfl, h3⟩ := h.2 rfl
  refine ⟨h3, ?_⟩
  unfold Spec.untreatedMean
  rw [← h3]
  unfold Spec.adjustedDifference
  rw [← e1, ← e2]
  unfold Spec.mean
  simp only [List.length_map]
  rw [← add_div]
  congr 1
  clear * -
  induction items with
  | nil => simp
  | cons i l ih =>
    simp only [List.map_cons, List.sum_cons, ih]
    ring

/-- **C110, what an untrimmed crossover estimates for a ratio metric.**  With `U` and `V` the averages of numerator and denominator while not treated,
and `δ`, `ε` the period-adjusted differences of numerator and denominator, the reported difference is `(U + δ) / (V + ε) - U / V`. -/
theorem C110_estimate_partial (R : Rounding ℝ) (argsort : List ℝ → List ℕ) (D : TDist) (piv : Pivoted ℝ)
    (metrics : List String) (itemCol treatmentCol : String) (hne : itemCol ≠ treatmentCol)
    (hi : ¬ Spec.Reserved itemCol) (ht : ¬ Spec.Reserved treatmentCol) (hidx : ∀ k ∈ piv.index, k.length = 2)
    (d : DesignParams ℝ) (hd : d.isCrossover = true) (metric denominator : String)
    (hk1 : Spec.KeepsFractions piv metric) (hk2 : Spec.KeepsFractions piv denominator) (override : Option ℝ) (hq : override.getD d.postTrim.val = 0)
    (r : TestResult)
    (h : analyzeSingleMetric R argsort D piv metrics [itemCol, treatmentCol] d metric (some denominator) treatmentCol override = .ok r) :
    ∃ num den, Spec.CrossoverItems piv metric num ∧ Spec.CrossoverItems piv denominator den ∧ num ≠ [] ∧
      r.absoluteDifference = fin (Spec.untreatedMean num + Spec.adjustedDifference num) / fin (Spec.untreatedMean den + Spec.adjustedDifference den) -
        fin (Spec.untreatedMean num) / fin (Spec.untreatedMean den) := by
  obtain ⟨num, den, v1, v2, w1, w2, a1, a2, a3, a4, h⟩ :=
    C38_crossover_pairs_ratio_partial R argsort D piv metrics itemCol treatmentCol hne hi ht hidx d hd metric denominator hk1 hk2 override r h
  rw [hq] at a3 a4 h
  obtain ⟨b1, b2⟩ := paired_ratio_untrimmed h
  have n1 : num ≠ [] := by
    rintro rfl
    obtain ⟨m1, m2, c, -, -, e, -⟩ := a3.2 rfl
    exact b1 (by simpa using e)
  obtain ⟨c1, c2⟩ := arrays_means a3
  obtain ⟨c3, c4⟩ := arrays_means a4
  exact ⟨num, den, a1, a2, n1, by rw [b2, c1, c2, c3, c4]⟩

theorem flip_means (items : List Spec.CrossoverItem) :
    Spec.untreatedMean (items.map flipItem) = Spec.treatedMean items ∧
      Spec.adjustedDifference (items.map flipItem) = -Spec.adjustedDifference items := by
  constructor
  · unfold Spec.untreatedMean Spec.treatedMean
    rw [List.map_map]
    congr 1
    exact List.map_congr_left (fun i _ => (flip_treated i 0 0).2)
  · unfold Spec.adjustedDifference
    have e1 : (items.map flipItem).map (fun i => i.first) = items.map (fun i => i.first) := by rw [List.map_map]; rfl
    have e2 : (items.map flipItem).map (fun i => i.second) = items.map (fun i => i.second) := by rw [List.map_map]; rfl
    rw [e1, e2]
    generalize Spec.mean (items.map (fun i => i.first)) = a
    generalize Spec.mean (items.map (fun i => i.second)) = b
    unfold Spec.mean
    rw [List.map_map]
    simp only [List.length_map]
    rw [← neg_div]
    congr 1
    clear * -
    induction items with
    | nil => simp
    | cons i l ih =>
      simp only [List.map_cons, List.sum_cons, Function.comp_apply] at ih ⊢
      rw [ih, (flip_treated i a b).1, (flip_treated i a b).2]
      ring

theorem balanced_difference {items : List Spec.CrossoverItem} (h : Spec.Balanced items) :
    Spec.adjustedDifference items = Spec.treatedMean items - Spec.untreatedMean items := by
  classical
  have hs : (items.map itemSign).sum = 0 := by
    have : (items.map itemSign).sum = (items.countP (fun i => decide i.treatedFirst) : ℝ) - (items.countP (fun i => decide (¬ i.treatedFirst)) : ℝ) := by
      clear h
      induction items with
      | nil => simp
      | cons i l ih =>
        rw [List.map_cons, List.sum_cons, ih, List.countP_cons, List.countP_cons]
        unfold itemSign
        by_cases hi : i.treatedFirst <;> simp [hi] <;> ring
    rw [this]
    unfold Spec.Balanced at h
    rw [h, sub_self]
  have key : ∀ a b : ℝ, Spec.mean (items.map (fun i => i.treated a b - i.untreated a b)) =
      (items.map (fun i => itemSign i * (i.first - i.second))).sum / (items.length : ℝ) := by
    intro a b
    have := crossover_difference items a b 0
    rw [hs, zero_mul, sub_zero] at this
    rw [← this, List.zipWith_map_left, List.zipWith_map_right, List.zipWith_self]
    simp
  unfold Spec.adjustedDifference
  rw [key, ← key 0 0]
  unfold Spec.treatedMean Spec.untreatedMean Spec.mean
  simp only [List.length_map]
  rw [← sub_div]
  congr 1
  clear * -
  induction items with
  | nil => simp
  | cons i l ih =>
    simp only [List.map_cons, List.sum_cons, ih]
    ring

/-- **C110, ratio metrics of untrimmed crossovers, equally large groups.**  Exchanging the groups negates the reported difference.  Missing compared with plain metrics:
standard error, p-value, groups of different size (false, below) and trimming. -/
theorem C110_equal_groups_partial (R : Rounding ℝ) (argsort : List ℝ → List ℕ) (D : TDist) (piv piv' : Pivoted ℝ)
    (metrics : List String) (itemCol treatmentCol : String) (hne : itemCol ≠ treatmentCol)
    (hi : ¬ Spec.Reserved itemCol) (ht : ¬ Spec.Reserved treatmentCol)
    (hidx : ∀ k ∈ piv.index, k.length = 2) (hidx' : ∀ k ∈ piv'.index, k.length = 2)
    (d : DesignParams ℝ) (hd : d.isCrossover = true) (metric denominator : String) (hx : Spec.Exchanged piv piv' metric)
    (hz : Spec.Exchanged piv piv' denominator) (hk1 : Spec.KeepsFractions piv metric) (hk2 : Spec.KeepsFractions piv denominator) (override : Option ℝ) (hq : override.getD d.postTrim.val = 0)
    (hbal : ∀ m items, Spec.CrossoverItems piv m items → Spec.Balanced items) (r r' : TestResult)
    (h : analyzeSingleMetric R argsort D piv metrics [itemCol, treatmentCol] d metric (some denominator) treatmentCol override = .ok r)
    (h' : analyzeSingleMetric R argsort D piv' metrics [itemCol, treatmentCol] d metric (some denominator) treatmentCol override = .ok r') :
    r'.absoluteDifference = -r.absoluteDifference := by
  obtain ⟨num, den, a1, a2, -, e⟩ := C110_estimate_partial R argsort D piv metrics itemCol treatmentCol hne hi ht hidx d hd metric denominator hk1 hk2
    override hq r h
  obtain ⟨num', den', b1, b2, -, e'⟩ := C110_estimate_partial R argsort D piv' metrics itemCol treatmentCol hne hi ht hidx' d hd metric denominator (exchanged_keeps hx hk1) (exchanged_keeps hz hk2)
    override hq r' h'
  rw [exchanged_items hx a1 b1, exchanged_items hz a2 b2, (flip_means num).1, (flip_means num).2, (flip_means den).1, (flip_means den).2,
    balanced_difference (hbal _ _ a1), balanced_difference (hbal _ _ a2)] at e'
  rw [balanced_difference (hbal _ _ a1), balanced_difference (hbal _ _ a2)] at e
  rw [e, e', neg_sub']
  congr 3 <;> ring_nf

/-- The untrimmed crossover analysis of a ratio metric returns. -/
theorem analyze_ratio_returns {R : Rounding ℝ} {argsort : List ℝ → List ℕ} (ha : ArgsortOk argsort) {D : TDist} {piv : Pivoted ℝ}
    {metrics : List String} {itemCol treatmentCol : String} (hne : itemCol ≠ treatmentCol)
    (hi : ¬ Spec.Reserved itemCol) (ht : ¬ Spec.Reserved treatmentCol) (hidx : ∀ k ∈ piv.index, k.length = 2)
    (hi' : Cell.str itemCol ∉ piv.periods) (ht' : Cell.str treatmentCol ∉ piv.periods)
    {d : DesignParams ℝ} (hd : d.isCrossover = true) {metric denominator : String} (hm : metric ∈ metrics) (hm' : denominator ∈ metrics)
    (h1 : Cell.str "test_1" ∈ piv.periods) (h2 : Cell.str "test_2" ∈ piv.periods)
    {y1 y2 z1 z2 : List ℝ} (hy1 : Spec.ValuesOf piv metric "test_1" y1) (hy2 : Spec.ValuesOf piv metric "test_2" y2)
    (hz1 : Spec.ValuesOf piv denominator "test_1" z1) (hz2 : Spec.ValuesOf piv denominator "test_2" z2)
    (hl : 1 < piv.index.length) (hle : piv.index.length ≤ 2 ^ 53) (hq : d.postTrim.val = 0) :
    ∃ r, analyzeSingleMetric R argsort D piv metrics [itemCol, treatmentCol] d metric (some denominator) treatmentCol none = .ok r := by
  obtain ⟨f, hf⟩ := metricSubset_returns (metrics := metrics) hm hi' ht'
  obtain ⟨g, hg⟩ := metricSubset_returns (metrics := metrics) hm' hi' ht'
  unfold Spec.Reserved at hi ht
  push Not at hi ht
  unfold analyzeSingleMetric
  rw [hf]
  have hreq : ¬ ((requiredColumns d treatmentCol).any (fun c => decide (c ∉ f.cols) || decide (c ∉ g.cols)) = true) := by
    have e1 : treatmentCol ∈ f.cols := by rw [(metricSubset_ok hf).1]; simp
    have e2 : "test_1" ∈ f.cols := (mem_period_cols hf hi.2.2.1.symm ht.2.2.1.symm (by decide)).mpr h1
    have e3 : "test_2" ∈ f.cols := (mem_period_cols hf hi.2.2.2.symm ht.2.2.2.symm (by decide)).mpr h2
    have e4 : treatmentCol ∈ g.cols := by rw [(metricSubset_ok hg).1]; simp
    have e5 : "test_1" ∈ g.cols := (mem_period_cols hg hi.2.2.1.symm ht.2.2.1.symm (by decide)).mpr h1
    have e6 : "test_2" ∈ g.cols := (mem_period_cols hg hi.2.2.2.symm ht.2.2.2.symm (by decide)).mpr h2
    simp [requiredColumns, hd, e1, e2, e3, e4, e5, e6]
  simp only [bind, Except.bind, pure, Except.pure, hg]
  unfold raiseIf
  rw [if_neg hreq, hd]
  simp only [if_true, Option.getD_none]
  unfold analyzeCrossover crossoverItems
  simp only [subset_values_eq hf hi.2.2.1.symm ht.2.2.1.symm hy1, subset_values_eq hf hi.2.2.2.symm ht.2.2.2.symm hy2,
    subset_values_eq hg hi.2.2.1.symm ht.2.2.1.symm hz1, subset_values_eq hg hi.2.2.2.symm ht.2.2.2.symm hz2,
    bind, Except.bind, pure, Except.pure]
  have lens : ∀ (s : ℝ → ℝ) (f : Frame ℝ) (m : String) (a b : List ℝ), metricSubset piv metrics [itemCol, treatmentCol] m = .ok f → a.length = piv.index.length →
      b.length = piv.index.length → (prepareCrossover s (((f.col treatmentCol).map (cellEq 1)).zip (a.zip b)) (decide (d.postTrim.val = 0))).1.length = piv.index.length ∧
      (prepareCrossover s (((f.col treatmentCol).map (cellEq 1)).zip (a.zip b)) (decide (d.postTrim.val = 0))).2.length = piv.index.length := by
    intro s f m a b hf la lb
    rw [subset_mask hf hne hidx 1]
    rw [(prepareCrossover_length _ _ _).1, (prepareCrossover_length _ _ _).2]
    simp [la, lb]
  obtain ⟨l1, l2⟩ := lens (storeFirst piv metric) f metric y1 y2 hf hy1.length_eq.symm hy2.length_eq.symm
  obtain ⟨l3, l4⟩ := lens ((some denominator).elim id (storeFirst piv)) g denominator z1 z2 hg hz1.length_eq.symm hz2.length_eq.symm
  generalize prepareCrossover (storeFirst piv metric) (((f.col treatmentCol).map (cellEq 1)).zip (y1.zip y2)) (decide (d.postTrim.val = 0)) = p at *
  generalize prepareCrossover ((some denominator).elim id (storeFirst piv)) (((g.col treatmentCol).map (cellEq 1)).zip (z1.zip z2)) (decide (d.postTrim.val = 0)) = p' at *
  rw [hq]
  have hz : ∀ n : ℝ, ⌊R.rnd (0 * n)⌋ = 0 := fun n => by
    have := R.intFix 0 (by norm_num)
    rw [zero_mul, show (0 : ℝ) = ((0 : ℤ) : ℝ) by simp, this]; simp
  exact (C34_ratio_tests_return R argsort ha D p.1 p.2 p'.1 p'.2 0 le_rfl (by norm_num) false "two-sided" (Or.inl rfl) defaultAlpha
    (by rw [l1, l3]) (by rw [l2, l4]) (by rw [l1]; exact hle) (by rw [l2]; exact hle) (by rw [hz, l1]; omega) (by rw [hz, l2]; omega)).1 (by rw [l1, l2])

/-- Pivoted data of three items in a crossover: clicks are always 1, impressions are 4 for "a" in the first period and 1 otherwise.  "a" is in group `b`,
the other two in the other group. -/
noncomputable def ratioTable (b : Bool) : Pivoted ℝ where
  index := [[.str "a", .int (if b then 1 else 0)], [.str "b", .int (if b then 0 else 1)], [.str "c", .int (if b then 0 else 1)]]
  periods := [.str "test_1", .str "test_2"]
  value := fun k m p => if m = "impressions" ∧ p = "test_1" ∧ k[0]? = some (.str "a") then .fin 4 else .fin 1

theorem ratioTable_exchanged (m : String) : Spec.Exchanged (ratioTable true) (ratioTable false) m := by
  refine ⟨rfl, rfl, ?_⟩
  simp only [ratioTable, if_true, Bool.false_eq_true, if_false, List.forall₂_cons, List.forall₂_nil_left_iff, and_true]
  refine ⟨⟨rfl, fun p => by simp, Or.inl ⟨⟨_, _, rfl, ?_⟩, ⟨_, _, rfl, ?_⟩⟩⟩, ⟨rfl, fun p => by simp, Or.inr ⟨⟨_, _, rfl, ?_⟩, ⟨_, _, rfl, ?_⟩⟩⟩,
    ⟨rfl, fun p => by simp, Or.inr ⟨⟨_, _, rfl, ?_⟩, ⟨_, _, rfl, ?_⟩⟩⟩⟩ <;> simp [Cell.toFl]

theorem ratioTable_items {m : String} {items : List Spec.CrossoverItem} {b : Bool} (h : Spec.CrossoverItems (ratioTable b) m items) :
    items = [⟨b = true, if m = "impressions" then 4 else 1, 1⟩, ⟨b = false, 1, 1⟩, ⟨b = false, 1, 1⟩] := by
  unfold Spec.CrossoverItems ratioTable at h
  simp only at h
  rcases h with _ | ⟨a1, h⟩
  rcases h with _ | ⟨a2, h⟩
  rcases h with _ | ⟨a3, h⟩
  cases h
  rename_i i1 i2 i3
  rcases i1 with ⟨t1, f1, s1⟩
  rcases i2 with ⟨t2, f2, s2⟩
  rcases i3 with ⟨t3, f3, s3⟩
  simp only [assignedTo_int] at a1 a2 a3
  have k1 : t1 = (b = true) := propext (by rw [a1.1]; cases b <;> simp)
  have k2 : t2 = (b = false) := propext (by rw [a2.1]; cases b <;> simp)
  have k3 : t3 = (b = false) := propext (by rw [a3.1]; cases b <;> simp)
  subst k1 k2 k3
  obtain ⟨-, p1, q1⟩ := a1
  obtain ⟨-, p2, q2⟩ := a2
  obtain ⟨-, p3, q3⟩ := a3
  simp at p2 p3 q1 q2 q3
  subst p2 p3 q1 q2 q3
  by_cases hm : m = "impressions"
  · simp [hm] at p1
    subst p1
    simp [hm]
  · simp [hm] at p1
    subst p1
    simp [hm]

/-- **C110 is false for ratio metrics of crossovers with groups of different size**: three items, nothing trimmed.  With "a" treated first the estimate
is -4/7; with the groups exchanged it is 1. -/
theorem C110_unequal_groups_false (R : Rounding ℝ) (argsort : List ℝ → List ℕ) (ha : ArgsortOk argsort) (D : TDist) :
    ∃ (piv piv' : Pivoted ℝ) (d : DesignParams ℝ) (r r' : TestResult), (∀ m, Spec.Exchanged piv piv' m) ∧ d.isCrossover = true ∧ d.postTrim.val = 0 ∧
      analyzeSingleMetric R argsort D piv ["clicks", "impressions"] ["item_id", "treatment_assignment"] d "clicks" (some "impressions")
        "treatment_assignment" none = .ok r ∧
      analyzeSingleMetric R argsort D piv' ["clicks", "impressions"] ["item_id", "treatment_assignment"] d "clicks" (some "impressions")
        "treatment_assignment" none = .ok r' ∧
      r.absoluteDifference = fin (-4 / 7) ∧ r'.absoluteDifference = fin 1 := by
  obtain ⟨d, hdd⟩ : ∃ d : DesignParams ℝ, d = { tenPercentParams with isCrossover := true, washout := some 0, postTrim := .float 0 } := ⟨_, rfl⟩
  have hd : d.isCrossover = true := by rw [hdd]
  have hq : d.postTrim.val = 0 := by rw [hdd]; rfl
  have hi : ¬ Spec.Reserved "item_id" := by unfold Spec.Reserved; decide
  have ht : ¬ Spec.Reserved "treatment_assignment" := by unfold Spec.Reserved; decide
  have hidx : ∀ b, ∀ k ∈ (ratioTable b).index, k.length = 2 := by intro b; simp [ratioTable]
  have hret : ∀ b, ∃ r, analyzeSingleMetric R argsort D (ratioTable b) ["clicks", "impressions"] ["item_id", "treatment_assignment"] d "clicks"
      (some "impressions") "treatment_assignment" none = .ok r := by
    intro b
    exact analyze_ratio_returns ha (by decide) hi ht (hidx b) (by simp [ratioTable]) (by simp [ratioTable]) hd (by simp) (by simp)
      (by simp [ratioTable]) (by simp [ratioTable]) (y1 := [1, 1, 1]) (y2 := [1, 1, 1]) (z1 := [4, 1, 1]) (z2 := [1, 1, 1])
      (by simp [Spec.ValuesOf, ratioTable]) (by simp [Spec.ValuesOf, ratioTable]) (by simp [Spec.ValuesOf, ratioTable])
      (by simp [Spec.ValuesOf, ratioTable]) (by simp [ratioTable]) (by simp [ratioTable]) hq
  have hest : ∀ b r, analyzeSingleMetric R argsort D (ratioTable b) ["clicks", "impressions"] ["item_id", "treatment_assignment"] d "clicks"
      (some "impressions") "treatment_assignment" none = .ok r → r.absoluteDifference = fin (if b then -4 / 7 else 1) := by
    intro b r hr
    obtain ⟨num, den, a1, a2, -, e⟩ := C110_estimate_partial R argsort D (ratioTable b) _ _ _ (by decide) hi ht (hidx b) d hd _ _ (keeps_float rfl) (keeps_float rfl) none
      (by rw [Option.getD_none]; exact hq) r hr
    rw [e, ratioTable_items a1, ratioTable_items a2]
    unfold Spec.untreatedMean Spec.adjustedDifference Spec.mean Spec.CrossoverItem.treated Spec.CrossoverItem.untreated
    cases b
    · simp
      norm_num
      rw [fin_div_ne (by norm_num), fin_div_ne (by norm_num), fin_sub]
      norm_num
    · simp
      norm_num
      rw [fin_div_ne (by norm_num), fin_div_ne (by norm_num), fin_sub]
      norm_num
  obtain ⟨r, hr⟩ := hret true
  obtain ⟨r', hr'⟩ := hret false
  exact ⟨ratioTable true, ratioTable false, d, r, r', ratioTable_exchanged, hd, hq, hr, hr', by simpa using hest true r hr, by simpa using hest false r' hr'⟩

/-- Pivoted data of two items: as `ratioTable`, with one item in each group. -/
noncomputable def ratioPair (b : Bool) : Pivoted ℝ where
  index := [[.str "a", .int (if b then 1 else 0)], [.str "b", .int (if b then 0 else 1)]]
  periods := [.str "test_1", .str "test_2"]
  value := fun k m p => if m = "impressions" ∧ p = "test_1" ∧ k[0]? = some (.str "a") then .fin 4 else .fin 1

/-- C110 for ratio metrics of balanced crossovers is not vacuous. -/
example (R : Rounding ℝ) (argsort : List ℝ → List ℕ) (ha : ArgsortOk argsort) (D : TDist) :
    ∃ r r', analyzeSingleMetric R argsort D (ratioPair true) ["clicks", "impressions"] ["item_id", "treatment_assignment"]
        { tenPercentParams with isCrossover := true, washout := some 0, postTrim := .float 0 } "clicks" (some "impressions") "treatment_assignment" none = .ok r ∧
      analyzeSingleMetric R argsort D (ratioPair false) ["clicks", "impressions"] ["item_id", "treatment_assignment"]
        { tenPercentParams with isCrossover := true, washout := some 0, postTrim := .float 0 } "clicks" (some "impressions") "treatment_assignment" none = .ok r' ∧
      r'.absoluteDifference = -r.absoluteDifference := by
  classical
  have hi : ¬ Spec.Reserved "item_id" := by unfold Spec.Reserved; decide
  have ht : ¬ Spec.Reserved "treatment_assignment" := by unfold Spec.Reserved; decide
  have hidx : ∀ b, ∀ k ∈ (ratioPair b).index, k.length = 2 := by intro b; simp [ratioPair]
  have hret : ∀ b, ∃ r, analyzeSingleMetric R argsort D (ratioPair b) ["clicks", "impressions"] ["item_id", "treatment_assignment"]
      { tenPercentParams with isCrossover := true, washout := some 0, postTrim := .float 0 } "clicks" (some "impressions") "treatment_assignment" none = .ok r := by
    intro b
    exact analyze_ratio_returns ha (by decide) hi ht (hidx b) (by simp [ratioPair]) (by simp [ratioPair]) rfl (by simp) (by simp)
      (by simp [ratioPair]) (by simp [ratioPair]) (y1 := [1, 1]) (y2 := [1, 1]) (z1 := [4, 1]) (z2 := [1, 1])
      (by simp [Spec.ValuesOf, ratioPair]) (by simp [Spec.ValuesOf, ratioPair]) (by simp [Spec.ValuesOf, ratioPair])
      (by simp [Spec.ValuesOf, ratioPair]) (by simp [ratioPair]) (by simp [ratioPair]) rfl
  obtain ⟨r, hr⟩ := hret true
  obtain ⟨r', hr'⟩ := hret false
  have hx : ∀ m, Spec.Exchanged (ratioPair true) (ratioPair false) m := by
    intro m
    refine ⟨rfl, rfl, ?_⟩
    simp only [ratioPair, if_true, Bool.false_eq_true, if_false, List.forall₂_cons, List.forall₂_nil_left_iff, and_true]
    refine ⟨⟨rfl, fun p => by simp, Or.inl ⟨⟨_, _, rfl, ?_⟩, ⟨_, _, rfl, ?_⟩⟩⟩, ⟨rfl, fun p => by simp, Or.inr ⟨⟨_, _, rfl, ?_⟩, ⟨_, _, rfl, ?_⟩⟩⟩⟩ <;>
      simp [Cell.toFl]
  refine ⟨r, r', hr, hr', C110_equal_groups_partial R argsort D _ _ _ _ _ (by decide) hi ht (hidx true) (hidx false) _ rfl _ _ (hx _) (hx _) (keeps_float rfl) (keeps_float rfl) none rfl ?_ r r' hr hr'⟩
  intro m items h
  unfold Spec.CrossoverItems ratioPair at h
  simp only at h
  rcases h with _ | ⟨a1, h⟩
  rcases h with _ | ⟨a2, h⟩
  cases h
  simp only [assignedTo_int] at a1 a2
  unfold Spec.Balanced
  simp [a1.1, a2.1]

end Feedx
