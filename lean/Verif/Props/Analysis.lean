import Verif.Proofs.Analysis
import Verif.Props.Pivot

/-!
Properties C38 - C41: analysis of one metric and of many metrics.
-/

set_option linter.unusedSectionVars false
set_option linter.unusedSimpArgs false

namespace Feedx

open Fl

/-- **C39, plain metric.**  The regular analysis compares exactly the (adjusted) values of the index tuples with assignment 1 with those
with assignment 0, in order; with 0/1 assignments every tuple is in exactly one of the two samples. -/
theorem C39_regular_split (R : Rounding ℝ) (argsort : List ℝ → List ℕ) (D : TDist) (piv : Pivoted ℝ)
    (metrics : List String) (itemCol treatmentCol : String) (hne : itemCol ≠ treatmentCol)
    (hi : ¬ Spec.Reserved itemCol) (ht : ¬ Spec.Reserved treatmentCol) (hidx : ∀ k ∈ piv.index, k.length = 2)
    (d : DesignParams ℝ) (hd : d.isCrossover = false) (metric : String) (override : Option ℝ) (r : TestResult)
    (hc : ¬ Spec.ConstantPretest R piv metric (override.getD d.postTrim.val))
    (h : analyzeSingleMetric R argsort D piv metrics [itemCol, treatmentCol] d metric none treatmentCol override = .ok r) :
    ∃ y, Spec.AdjustedValues R argsort piv metric (override.getD d.postTrim.val) y ∧ y.length = piv.index.length ∧
      indTest R argsort D (Spec.groupOf piv 1 y) (Spec.groupOf piv 0 y) (override.getD d.postTrim.val) none none false
        "two-sided" (1 / 20) = .ok r ∧
      ((∀ k ∈ piv.index, Spec.AssignedTo 0 k ∨ Spec.AssignedTo 1 k) →
        (Spec.groupOf piv 1 y ++ Spec.groupOf piv 0 y).Perm y) := by
  obtain ⟨f, hf, ⟨-, h⟩ | ⟨m', g, hm, -, -⟩⟩ := analyzeSingle_ok h
  swap
  · cases hm
  rw [hd] at h
  simp only [Bool.false_eq_true, if_false] at h
  unfold analyzeRegular at h
  obtain ⟨y, hy, h⟩ := Py.bind_eq_ok.mp h
  obtain ⟨-, v, hv, rfl⟩ | ⟨hc', -⟩ := prepareRegular_ok hf hne hi ht hidx hy
  swap
  · exact absurd hc' hc
  rw [indTestFl_fin] at h
  exact ⟨v, hv, hv.length, h, groupOf_partition hv.length⟩

/-- **C39, ratio metric.**  As for plain metrics; numerator and denominator of an item are on the same side and at the same place. -/
theorem C39_regular_split_ratio (R : Rounding ℝ) (argsort : List ℝ → List ℕ) (D : TDist) (piv : Pivoted ℝ)
    (metrics : List String) (itemCol treatmentCol : String) (hne : itemCol ≠ treatmentCol)
    (hi : ¬ Spec.Reserved itemCol) (ht : ¬ Spec.Reserved treatmentCol) (hidx : ∀ k ∈ piv.index, k.length = 2)
    (d : DesignParams ℝ) (hd : d.isCrossover = false) (metric denominator : String) (override : Option ℝ) (r : TestResult)
    (hc : ¬ Spec.ConstantPretest R piv metric (override.getD d.postTrim.val))
    (hc' : ¬ Spec.ConstantPretest R piv denominator (override.getD d.postTrim.val))
    (h : analyzeSingleMetric R argsort D piv metrics [itemCol, treatmentCol] d metric (some denominator) treatmentCol
      override = .ok r) :
    ∃ y z, Spec.AdjustedValues R argsort piv metric (override.getD d.postTrim.val) y ∧
      Spec.AdjustedValues R argsort piv denominator (override.getD d.postTrim.val) z ∧
      y.length = piv.index.length ∧ z.length = piv.index.length ∧
      indTest R argsort D (Spec.groupOf piv 1 y) (Spec.groupOf piv 0 y) (override.getD d.postTrim.val)
        (some (Spec.groupOf piv 1 z)) (some (Spec.groupOf piv 0 z)) false "two-sided" (1 / 20) = .ok r := by
  obtain ⟨f, hf, ⟨hm, -⟩ | ⟨m', g, hm, hg, h⟩⟩ := analyzeSingle_ok h
  · cases hm
  cases hm
  rw [hd] at h
  simp only [Bool.false_eq_true, if_false] at h
  unfold analyzeRegular at h
  obtain ⟨y, hy, h⟩ := Py.bind_eq_ok.mp h
  obtain ⟨-, v, hv, rfl⟩ | ⟨h1, -⟩ := prepareRegular_ok hf hne hi ht hidx hy
  swap
  · exact absurd h1 hc
  obtain ⟨z, hz, h⟩ := Py.bind_eq_ok.mp h
  obtain ⟨-, w, hw, rfl⟩ | ⟨h1, -⟩ := prepareRegular_ok hg hne hi ht hidx hz
  swap
  · exact absurd h1 hc'
  simp only [indTestFl_fin_ratio] at h
  exact ⟨v, w, hv, hw, hv.length, hw.length, h⟩

/-- The arrays `v1` (treatment) and `v2` (control) of the crossover analysis of the items, when `q` is the trimming fraction: the
items' treated and untreated values, in order; without trimming each period is first moved to mean zero and
then both arrays are moved back by the constant that restores the mean of the untreated values. -/
def CrossoverArrays (items : List Spec.CrossoverItem) (q : ℝ) (v1 v2 : List ℝ) : Prop :=
  (q ≠ 0 → v1 = items.map (fun i => i.treated 0 0) ∧ v2 = items.map (fun i => i.untreated 0 0)) ∧
  (q = 0 → ∃ m1 m2 c, m1 = Spec.mean (items.map (fun i => i.first)) ∧ m2 = Spec.mean (items.map (fun i => i.second)) ∧
    v1 = items.map (fun i => i.treated m1 m2 + c) ∧ v2 = items.map (fun i => i.untreated m1 m2 + c) ∧
    Spec.mean v2 = Spec.mean (items.map (fun i => i.untreated 0 0)))

theorem crossoverItems_spec {piv : Pivoted ℝ} {m : String} {items : List (Bool × ℝ × ℝ)}
    (h : List.Forall₂ (fun k (i : Bool × ℝ × ℝ) => (i.1 = true ↔ Spec.AssignedTo 1 k) ∧
      piv.value k m "test_1" = .fin i.2.1 ∧ piv.value k m "test_2" = .fin i.2.2) piv.index items) :
    Spec.CrossoverItems piv m (items.map (fun i => ⟨i.1 = true, i.2.1, i.2.2⟩)) := by
  unfold Spec.CrossoverItems
  rw [List.forall₂_map_right_iff]
  exact h

/-- The same if the values of the second period are not stored as they are: `s x` is what is left of the value `x`. -/
def CrossoverArraysInto (s : ℝ → ℝ) (items : List Spec.CrossoverItem) (q : ℝ) (v1 v2 : List ℝ) : Prop :=
  (q ≠ 0 → v1 = items.map (fun i => (i.stored s).treated 0 0) ∧ v2 = items.map (fun i => (i.stored s).untreated 0 0)) ∧
  (q = 0 → ∃ m1 m2 c, m1 = Spec.mean (items.map (fun i => i.first)) ∧ m2 = Spec.mean (items.map (fun i => i.second)) ∧
    v1 = items.map (fun i => i.treated m1 m2 + c) ∧ v2 = items.map (fun i => i.untreated m1 m2 + c) ∧
    Spec.mean v2 = Spec.mean (items.map (fun i => (i.stored s).untreated 0 0)))

theorem mean_shift {α : Type} {l : List α} (h : l ≠ []) (f : α → ℝ) (c : ℝ) : Spec.mean (l.map (fun i => f i + c)) = Spec.mean (l.map f) + c := by
  have := mean_comb h f f 1 0 c
  simpa using this

theorem crossoverArraysInto_of (s : ℝ → ℝ) {items : List (Bool × ℝ × ℝ)} (q : ℝ) :
    CrossoverArraysInto s (items.map (fun i => ⟨i.1 = true, i.2.1, i.2.2⟩)) q (prepareCrossover s items (decide (q = 0))).1
      (prepareCrossover s items (decide (q = 0))).2 := by
  constructor
  · intro hq
    rw [decide_eq_false hq]
    simp only [prepareCrossover, Bool.false_eq_true, if_false, List.map_map]
    constructor <;>
    · apply List.map_congr_left
      rintro ⟨b, x, y⟩ _
      cases b <;> simp [Spec.CrossoverItem.treated, Spec.CrossoverItem.untreated, Spec.CrossoverItem.stored, pickTreated, pickControl]
  · intro hq
    rw [decide_eq_true hq]
    obtain ⟨-, c, h2, h3⟩ := prepareCrossover_spec (items := items)
    have hc : prepareCrossover s items true =
        ((prepareCrossover id items true).1.map (fun x => x + (Spec.mean (items.map (fun i => pickControl i.1 i.2.1 (s i.2.2))) -
          Spec.mean (items.map (fun i => pickControl i.1 i.2.1 i.2.2)))),
         (prepareCrossover id items true).2.map (fun x => x + (Spec.mean (items.map (fun i => pickControl i.1 i.2.1 (s i.2.2))) -
          Spec.mean (items.map (fun i => pickControl i.1 i.2.1 i.2.2))))) := by
      simp only [prepareCrossover, if_true, List.map_map, Prod.mk.injEq, id_eq, Spec.mean]
      constructor <;> · apply List.map_congr_left; intro i _; simp only [Function.comp_apply]; ring
    have hu : (items.map (fun i => (⟨i.1 = true, i.2.1, i.2.2⟩ : Spec.CrossoverItem))).map (fun i => i.untreated 0 0) =
        items.map (fun i => pickControl i.1 i.2.1 i.2.2) := by
      rw [List.map_map]
      apply List.map_congr_left
      intro i _
      simp [Spec.CrossoverItem.untreated, pickControl]
    have hu' : (items.map (fun i => (⟨i.1 = true, i.2.1, i.2.2⟩ : Spec.CrossoverItem))).map (fun i => (i.stored s).untreated 0 0) =
        items.map (fun i => pickControl i.1 i.2.1 (s i.2.2)) := by
      rw [List.map_map]
      apply List.map_congr_left
      rintro ⟨b, x, y⟩ _
      cases b <;> simp [Spec.CrossoverItem.untreated, Spec.CrossoverItem.stored, pickControl]
    rw [hu] at h3
    rw [hu']
    generalize hk : Spec.mean (items.map (fun i => pickControl i.1 i.2.1 (s i.2.2))) - Spec.mean (items.map (fun i => pickControl i.1 i.2.1 i.2.2)) = k at hc
    refine ⟨_, _, c + k, rfl, rfl, ?_, ?_, ?_⟩
    · rw [hc, h2]
      simp only [List.map_map, Function.comp_def, add_assoc]
    · rw [hc, h2]
      simp only [List.map_map, Function.comp_def, add_assoc]
    · rw [hc]
      dsimp only
      by_cases h0 : items = []
      · subst h0
        simp [prepareCrossover]
      · have hne : (prepareCrossover id items true).2 ≠ [] := by
          intro e
          have := (prepareCrossover_length id items true).2
          rw [e] at this
          exact h0 (List.length_eq_zero_iff.mp this.symm)
        rw [mean_shift hne (fun x => x) k, List.map_id', h3, ← hk]
        ring

theorem arrays_kept {s : ℝ → ℝ} {piv : Pivoted ℝ} {m : String} (hs : Spec.Stores piv m s) (hk : Spec.KeepsFractions piv m) {items : List Spec.CrossoverItem}
    (h : Spec.CrossoverItems piv m items) {q : ℝ} {v1 v2 : List ℝ} (ha : CrossoverArraysInto s items q v1 v2) : CrossoverArrays items q v1 v2 := by
  have e : ∀ i ∈ items, i.stored s = i := by
    have hi : ∀ i ∈ items, ∃ k ∈ piv.index, piv.value k m "test_2" = .fin i.second := by
      unfold Spec.CrossoverItems at h
      clear * - h
      generalize piv.index = l at h
      induction h with
      | nil => intro i hi; cases hi
      | @cons k i l is hx _ ih =>
        intro j hj
        rcases List.mem_cons.mp hj with rfl | hj
        · exact ⟨k, List.mem_cons_self .., hx.2.2⟩
        · obtain ⟨k', hk', e⟩ := ih j hj
          exact ⟨k', List.mem_cons_of_mem _ hk', e⟩
    intro i hm
    obtain ⟨k, hkm, hx⟩ := hi i hm
    unfold Spec.CrossoverItem.stored
    rw [store_id hs hk hkm hx]
  have e1 : items.map (fun i => (i.stored s).treated 0 0) = items.map (fun i => i.treated 0 0) :=
    List.map_congr_left (fun i hi => by rw [e i hi])
  have e2 : items.map (fun i => (i.stored s).untreated 0 0) = items.map (fun i => i.untreated 0 0) :=
    List.map_congr_left (fun i hi => by rw [e i hi])
  unfold CrossoverArraysInto at ha
  rw [e1, e2] at ha
  exact ha

/-- The arrays of a crossover analysis. -/
theorem crossover_pairs_into {R : Rounding ℝ} {argsort : List ℝ → List ℕ} {D : TDist} {piv : Pivoted ℝ}
    {metrics : List String} {itemCol treatmentCol : String} (hne : itemCol ≠ treatmentCol)
    (hi : ¬ Spec.Reserved itemCol) (ht : ¬ Spec.Reserved treatmentCol) (hidx : ∀ k ∈ piv.index, k.length = 2)
    {d : DesignParams ℝ} (hd : d.isCrossover = true) {metric : String} {override : Option ℝ} {r : TestResult}
    (h : analyzeSingleMetric R argsort D piv metrics [itemCol, treatmentCol] d metric none treatmentCol override = .ok r) :
    ∃ items v1 v2, Spec.CrossoverItems piv metric items ∧
      CrossoverArraysInto (storeFirst piv metric) items (override.getD d.postTrim.val) v1 v2 ∧
      pairedTest R argsort D v1 v2 (override.getD d.postTrim.val) none none "two-sided" (1 / 20) = .ok r := by
  obtain ⟨f, hf, ⟨-, h⟩ | ⟨m', g, hm, -, -⟩⟩ := analyzeSingle_ok h
  swap
  · cases hm
  rw [hd] at h
  simp only [if_true] at h
  unfold analyzeCrossover at h
  obtain ⟨items, hitems, h⟩ := Py.bind_eq_ok.mp h
  exact ⟨_, _, _, crossoverItems_spec (crossoverItems_ok hf hne hi ht hidx hitems), crossoverArraysInto_of _ _, h⟩

/-- **C38, plain metric, what is computed for every metric.**  Each item contributes its treated-period value to treatment and its untreated-period value to
control, where the fractions of second-period values may be lost (`Spec.Stores`); without trimming the periods are demeaned first, with
their fractions, and what is lost only moves both arrays by a constant. -/
theorem C38_crossover_pairs_stored (R : Rounding ℝ) (argsort : List ℝ → List ℕ) (D : TDist) (piv : Pivoted ℝ)
    (metrics : List String) (itemCol treatmentCol : String) (hne : itemCol ≠ treatmentCol)
    (hi : ¬ Spec.Reserved itemCol) (ht : ¬ Spec.Reserved treatmentCol) (hidx : ∀ k ∈ piv.index, k.length = 2)
    (d : DesignParams ℝ) (hd : d.isCrossover = true) (metric : String) (override : Option ℝ) (r : TestResult)
    (h : analyzeSingleMetric R argsort D piv metrics [itemCol, treatmentCol] d metric none treatmentCol override = .ok r) :
    ∃ items v1 v2 s, Spec.CrossoverItems piv metric items ∧ Spec.Stores piv metric s ∧
      CrossoverArraysInto s items (override.getD d.postTrim.val) v1 v2 ∧
      pairedTest R argsort D v1 v2 (override.getD d.postTrim.val) none none "two-sided" (1 / 20) = .ok r := by
  obtain ⟨items, v1, v2, h1, h2, h3⟩ := crossover_pairs_into hne hi ht hidx hd h
  exact ⟨items, v1, v2, _, h1, storeFirst_spec _ _, h2, h3⟩

/-- **C38, plain metric** (partial: a metric held as integers whose first-period values are all whole and whose second-period values are not is
excluded; see `C38_crossover_pairs_false`).  Each item contributes its treated-period value to treatment and its untreated-period value to
control; without trimming the periods are demeaned and the control mean is unchanged. -/
theorem C38_crossover_pairs_partial (R : Rounding ℝ) (argsort : List ℝ → List ℕ) (D : TDist) (piv : Pivoted ℝ)
    (metrics : List String) (itemCol treatmentCol : String) (hne : itemCol ≠ treatmentCol)
    (hi : ¬ Spec.Reserved itemCol) (ht : ¬ Spec.Reserved treatmentCol) (hidx : ∀ k ∈ piv.index, k.length = 2)
    (d : DesignParams ℝ) (hd : d.isCrossover = true) (metric : String) (hk : Spec.KeepsFractions piv metric) (override : Option ℝ) (r : TestResult)
    (h : analyzeSingleMetric R argsort D piv metrics [itemCol, treatmentCol] d metric none treatmentCol override = .ok r) :
    ∃ items v1 v2, Spec.CrossoverItems piv metric items ∧
      CrossoverArrays items (override.getD d.postTrim.val) v1 v2 ∧
      pairedTest R argsort D v1 v2 (override.getD d.postTrim.val) none none "two-sided" (1 / 20) = .ok r := by
  obtain ⟨items, v1, v2, h1, h2, h3⟩ := crossover_pairs_into hne hi ht hidx hd h
  exact ⟨items, v1, v2, h1, arrays_kept (storeFirst_spec _ _) hk h1 h2, h3⟩

/-- **C38, ratio metric, what is computed for every metric.** -/
theorem C38_crossover_pairs_ratio_stored (R : Rounding ℝ) (argsort : List ℝ → List ℕ) (D : TDist) (piv : Pivoted ℝ)
    (metrics : List String) (itemCol treatmentCol : String) (hne : itemCol ≠ treatmentCol)
    (hi : ¬ Spec.Reserved itemCol) (ht : ¬ Spec.Reserved treatmentCol) (hidx : ∀ k ∈ piv.index, k.length = 2)
    (d : DesignParams ℝ) (hd : d.isCrossover = true) (metric denominator : String) (override : Option ℝ) (r : TestResult)
    (h : analyzeSingleMetric R argsort D piv metrics [itemCol, treatmentCol] d metric (some denominator) treatmentCol
      override = .ok r) :
    ∃ items items' v1 v2 w1 w2 s s', Spec.CrossoverItems piv metric items ∧ Spec.CrossoverItems piv denominator items' ∧
      Spec.Stores piv metric s ∧ Spec.Stores piv denominator s' ∧
      CrossoverArraysInto s items (override.getD d.postTrim.val) v1 v2 ∧
      CrossoverArraysInto s' items' (override.getD d.postTrim.val) w1 w2 ∧
      pairedTest R argsort D v1 v2 (override.getD d.postTrim.val) (some w1) (some w2) "two-sided" (1 / 20) = .ok r := by
  obtain ⟨f, hf, ⟨hm, -⟩ | ⟨m', g, hm, hg, h⟩⟩ := analyzeSingle_ok h
  · cases hm
  cases hm
  rw [hd] at h
  simp only [if_true] at h
  unfold analyzeCrossover at h
  obtain ⟨items, hitems, h⟩ := Py.bind_eq_ok.mp h
  obtain ⟨items', hitems', h⟩ := Py.bind_eq_ok.mp h
  have hs := crossoverItems_ok hf hne hi ht hidx hitems
  have hs' := crossoverItems_ok hg hne hi ht hidx hitems'
  exact ⟨_, _, _, _, _, _, _, _, crossoverItems_spec hs, crossoverItems_spec hs', storeFirst_spec _ _, storeFirst_spec _ _, crossoverArraysInto_of _ _,
    crossoverArraysInto_of _ _, h⟩

/-- **C38, ratio metric** (partial, as for plain metrics). -/
theorem C38_crossover_pairs_ratio_partial (R : Rounding ℝ) (argsort : List ℝ → List ℕ) (D : TDist) (piv : Pivoted ℝ)
    (metrics : List String) (itemCol treatmentCol : String) (hne : itemCol ≠ treatmentCol)
    (hi : ¬ Spec.Reserved itemCol) (ht : ¬ Spec.Reserved treatmentCol) (hidx : ∀ k ∈ piv.index, k.length = 2)
    (d : DesignParams ℝ) (hd : d.isCrossover = true) (metric denominator : String)
    (hk : Spec.KeepsFractions piv metric) (hk' : Spec.KeepsFractions piv denominator) (override : Option ℝ) (r : TestResult)
    (h : analyzeSingleMetric R argsort D piv metrics [itemCol, treatmentCol] d metric (some denominator) treatmentCol
      override = .ok r) :
    ∃ items items' v1 v2 w1 w2, Spec.CrossoverItems piv metric items ∧ Spec.CrossoverItems piv denominator items' ∧
      CrossoverArrays items (override.getD d.postTrim.val) v1 v2 ∧
      CrossoverArrays items' (override.getD d.postTrim.val) w1 w2 ∧
      pairedTest R argsort D v1 v2 (override.getD d.postTrim.val) (some w1) (some w2) "two-sided" (1 / 20) = .ok r := by
  obtain ⟨items, items', v1, v2, w1, w2, s, s', hit, hit', hs, hs', ha, hb, h⟩ := C38_crossover_pairs_ratio_stored R argsort D piv metrics itemCol treatmentCol
    hne hi ht hidx d hd metric denominator override r h
  exact ⟨items, items', v1, v2, w1, w2, hit, hit', arrays_kept hs hk hit ha, arrays_kept hs' hk' hit' hb, h⟩

/-- **C38, period effects.**  Adding any constant to all values of the first and any constant to all values of the second period
(a change that affects all items alike) changes neither the estimated difference nor its uncertainty nor its significance. -/
theorem C38_period_effects_cancel (R : Rounding ℝ) (argsort : List ℝ → List ℕ) (D : TDist) (piv piv' : Pivoted ℝ)
    (metrics : List String) (itemCol treatmentCol : String) (hne : itemCol ≠ treatmentCol)
    (hi : ¬ Spec.Reserved itemCol) (ht : ¬ Spec.Reserved treatmentCol) (hidx : ∀ k ∈ piv.index, k.length = 2)
    (d : DesignParams ℝ) (hd : d.isCrossover = true) (metric : String) (override : Option ℝ) (r r' : TestResult)
    (hq : override.getD d.postTrim.val = 0) (a b : ℝ) (hindex : piv'.index = piv.index)
    (h1 : ∀ k ∈ piv.index, piv'.value k metric "test_1" = piv.value k metric "test_1" + .fin a)
    (h2 : ∀ k ∈ piv.index, piv'.value k metric "test_2" = piv.value k metric "test_2" + .fin b)
    (h : analyzeSingleMetric R argsort D piv metrics [itemCol, treatmentCol] d metric none treatmentCol override = .ok r)
    (h' : analyzeSingleMetric R argsort D piv' metrics [itemCol, treatmentCol] d metric none treatmentCol override = .ok r') :
    r'.absoluteDifference = r.absoluteDifference ∧ r'.statistic = r.statistic ∧ r'.pValue = r.pValue ∧
      r'.isSignificant = r.isSignificant ∧ r'.absoluteLower = r.absoluteLower ∧ r'.absoluteUpper = r.absoluteUpper ∧
      r'.standardError = r.standardError ∧ r'.sampleSize = r.sampleSize ∧
      r'.degreesOfFreedom = r.degreesOfFreedom := by
  obtain ⟨f, hf, ⟨-, h⟩ | ⟨m', g, hm, -, -⟩⟩ := analyzeSingle_ok h
  swap
  · cases hm
  obtain ⟨f', hf', ⟨-, h'⟩ | ⟨m', g, hm, -, -⟩⟩ := analyzeSingle_ok h'
  swap
  · cases hm
  rw [hd] at h h'
  simp only [if_true] at h h'
  unfold analyzeCrossover at h h'
  obtain ⟨items, hitems, h⟩ := Py.bind_eq_ok.mp h
  obtain ⟨items', hitems', h'⟩ := Py.bind_eq_ok.mp h'
  have s := crossoverItems_ok hf hne hi ht hidx hitems
  have s' := crossoverItems_ok hf' hne hi ht (by rw [hindex]; exact hidx) hitems'
  have e : items' = items.map (fun i => (i.1, i.2.1 + a, i.2.2 + b)) := by
    rw [hindex] at s'
    clear * - s s' h1 h2
    generalize piv.index = l at *
    induction s generalizing items' with
    | nil => cases s'; rfl
    | @cons k i l is hx _ ih =>
      cases s' with
      | @cons _ i' _ is' hx' hr =>
        rw [List.map_cons, ih _ (fun k hk => h1 k (by simp [hk])) (fun k hk => h2 k (by simp [hk])) hr]
        congr 1
        obtain ⟨b', x', y'⟩ := i'
        obtain ⟨bb, x, y⟩ := i
        simp only at hx hx'
        have e1 := h1 k (by simp)
        have e2 := h2 k (by simp)
        rw [hx.2.1, hx'.2.1, fin_add] at e1
        rw [hx.2.2, hx'.2.2, fin_add] at e2
        simp only [Prod.mk.injEq]
        refine ⟨Bool.eq_iff_iff.mpr (hx'.1.trans hx.1.symm), ?_, ?_⟩
        · injection e1
        · injection e2
  rw [hq] at h h'
  have hne' : items ≠ [] := by
    rintro rfl
    rcases pairedTest_ok h with ⟨x1, x2, e1, -⟩ | ⟨-, -, T, hT, hl, -⟩
    · cases e1
    · rw [mkTrimmed_zero] at hT
      cases hT
      simp [prepareCrossover, TrimmedArray.len, stack3] at hl
  obtain ⟨k, hk⟩ := prepareCrossover_shift (storeFirst piv metric) (storeFirst piv' metric) hne' a b
  rw [e, decide_eq_true rfl, hk] at h'
  rw [decide_eq_true rfl] at h
  exact paired_common_shift h h'

theorem analysis_alpha {R : Rounding ℝ} {argsort : List ℝ → List ℕ} {D : TDist} {piv : Pivoted ℝ}
    {metrics names : List String} {d : DesignParams ℝ} {metric : String} {denominator : Option String}
    {treatmentName : String} {override : Option ℝ} {r : TestResult}
    (h : analyzeSingleMetric R argsort D piv metrics names d metric denominator treatmentName override = .ok r) :
    ∃ e pf, resultsFrom D e pf "two-sided" (1 / 20) = .ok r := by
  have hind : ∀ {v1 v2 q d1 d2 ev}, indTest R argsort D v1 v2 q d1 d2 ev "two-sided" defaultAlpha = .ok r →
      ∃ e pf, resultsFrom D e pf "two-sided" (1 / 20) = .ok r := by
    intro v1 v2 q d1 d2 ev h
    unfold indTest at h
    split at h
    · obtain ⟨-, h⟩ := raiseIf_bind_ok.mp h
      obtain ⟨T1, -, h⟩ := Py.bind_eq_ok.mp h
      obtain ⟨T2, -, h⟩ := Py.bind_eq_ok.mp h
      obtain ⟨-, h⟩ := raiseIf_bind_ok.mp h
      exact ⟨_, _, h⟩
    · obtain ⟨T1, -, h⟩ := Py.bind_eq_ok.mp h
      obtain ⟨T2, -, h⟩ := Py.bind_eq_ok.mp h
      obtain ⟨-, h⟩ := raiseIf_bind_ok.mp h
      exact ⟨_, _, h⟩
    · cases h
  have hfl : ∀ {y q z}, indTestFl R argsort D y q z = .ok r → ∃ e pf, resultsFrom D e pf "two-sided" (1 / 20) = .ok r := by
    intro y q z h
    unfold indTestFl at h
    split at h <;> split at h
    · obtain ⟨-, h⟩ := raiseIf_bind_ok.mp h
      exact ⟨_, _, h⟩
    · obtain ⟨v1, -, h⟩ := Py.bind_eq_ok.mp h
      obtain ⟨v2, -, h⟩ := Py.bind_eq_ok.mp h
      exact hind h
    · obtain ⟨-, h⟩ := raiseIf_bind_ok.mp h
      exact ⟨_, _, h⟩
    · obtain ⟨v1, -, h⟩ := Py.bind_eq_ok.mp h
      obtain ⟨v2, -, h⟩ := Py.bind_eq_ok.mp h
      obtain ⟨d1, -, h⟩ := Py.bind_eq_ok.mp h
      obtain ⟨d2, -, h⟩ := Py.bind_eq_ok.mp h
      exact hind h
  have hpair : ∀ {v1 v2 q d1 d2}, pairedTest R argsort D v1 v2 q d1 d2 "two-sided" defaultAlpha = .ok r →
      ∃ e pf, resultsFrom D e pf "two-sided" (1 / 20) = .ok r := by
    intro v1 v2 q d1 d2 h
    unfold pairedTest at h
    obtain ⟨-, h⟩ := raiseIf_bind_ok.mp h
    split at h
    · obtain ⟨-, h⟩ := raiseIf_bind_ok.mp h
      obtain ⟨T1, -, h⟩ := Py.bind_eq_ok.mp h
      obtain ⟨-, h⟩ := raiseIf_bind_ok.mp h
      exact ⟨_, _, h⟩
    · obtain ⟨T1, -, h⟩ := Py.bind_eq_ok.mp h
      obtain ⟨-, h⟩ := raiseIf_bind_ok.mp h
      exact ⟨_, _, h⟩
    · cases h
  obtain ⟨f, -, ⟨-, h⟩ | ⟨m', g, -, -, h⟩⟩ := analyzeSingle_ok h
  · split at h
    · unfold analyzeCrossover at h
      obtain ⟨items, -, h⟩ := Py.bind_eq_ok.mp h
      exact hpair h
    · unfold analyzeRegular at h
      obtain ⟨y, -, h⟩ := Py.bind_eq_ok.mp h
      exact hfl h
  · split at h
    · unfold analyzeCrossover at h
      obtain ⟨items, -, h⟩ := Py.bind_eq_ok.mp h
      obtain ⟨items', -, h⟩ := Py.bind_eq_ok.mp h
      exact hpair h
    · unfold analyzeRegular at h
      obtain ⟨y, -, h⟩ := Py.bind_eq_ok.mp h
      obtain ⟨z, -, h⟩ := Py.bind_eq_ok.mp h
      exact hfl h

/-- **C40, proved part.**  Every analysis is carried out at level 5 %, whatever the design says; it therefore honours `design.alpha`
exactly when that is 5 %.  (Missing: other levels, for which the property is false, see below.) -/
theorem C40_design_alpha_partial (R : Rounding ℝ) (argsort : List ℝ → List ℕ) (D : TDist) (piv : Pivoted ℝ)
    (metrics names : List String) (d : DesignParams ℝ) (metric : String) (denominator : Option String)
    (treatmentName : String) (override : Option ℝ) (r : TestResult)
    (h : analyzeSingleMetric R argsort D piv metrics names d metric denominator treatmentName override = .ok r) :
    r.alpha = 1 / 20 ∧ r.isSignificant = Fl.lt r.pValue (.fin (1 / 20)) ∧ (r.alpha = d.alpha.val ↔ d.alpha.val = 1 / 20) := by
  obtain ⟨e, pf, h⟩ := analysis_alpha h
  obtain ⟨-, -, -, a3, a4, -⟩ := resultsFrom_ok h
  refine ⟨a4, a3, ?_⟩
  rw [a4]; exact eq_comm

/-- A pivoted table with four items, two per group. -/
noncomputable def smallPivot : Pivoted ℝ where
  index := [[.str "a", .int 0], [.str "b", .int 1], [.str "c", .int 0], [.str "d", .int 1]]
  periods := [.str "test"]
  value := fun k _ _ =>
    if k = [.str "a", .int 0] then .fin 4 else if k = [.str "b", .int 1] then .fin 3
    else if k = [.str "c", .int 0] then .fin 1 else .fin 7

/-- A regular design with `alpha = 0.1`. -/
noncomputable def tenPercentParams : DesignParams ℝ where
  nBefore := 100
  runtime := 4
  primaryMetric := "clicks"
  pretest := 0
  isCrossover := false
  preTop := .float 0
  preBottom := .float 0
  postTrim := .float 0
  washout := none
  alpha := .float (1 / 10)
  power := .float (8 / 10)
  salt := none

theorem assignedTo_int (b : ℝ) (s : Cell ℝ) (i : ℤ) : Spec.AssignedTo b [s, .int i] ↔ (i : ℝ) = b := by
  constructor
  · rintro ⟨x, y, e, h⟩
    simp only [List.cons.injEq, and_true] at e
    rw [← e.2] at h
    simpa [Cell.toFl] using h
  · intro h
    exact ⟨s, .int i, rfl, by simp [Cell.toFl, h]⟩

theorem smallPivot_analysis (R : Rounding ℝ) (argsort : List ℝ → List ℕ) (D : TDist) :
    ∃ r, analyzeSingleMetric R argsort D smallPivot ["clicks"] ["item_id", "treatment_assignment"] tenPercentParams "clicks"
      none "treatment_assignment" none = .ok r := by
  have hv : Spec.ValuesOf smallPivot "clicks" "test" [4, 3, 1, 7] := by
    unfold Spec.ValuesOf smallPivot
    simp
  rw [analyze_regular_eq (by decide) (by unfold Spec.Reserved; decide) (by unfold Spec.Reserved; decide)
    (by simp [smallPivot]) (by simp [smallPivot]) (by simp [smallPivot]) rfl (by simp [tenPercentParams]) (by simp)
    (by simp [smallPivot]) (by simp [smallPivot]) hv]
  have g1 : Spec.groupOf smallPivot 1 [4, 3, 1, 7] = [3, 7] := by
    simp [Spec.groupOf, smallPivot, assignedTo_int, List.filter_cons]
  have g0 : Spec.groupOf smallPivot 0 [4, 3, 1, 7] = [4, 1] := by
    simp [Spec.groupOf, smallPivot, assignedTo_int, List.filter_cons]
  rw [g1, g0]
  have : (none : Option ℝ).getD tenPercentParams.postTrim.val = 0 := rfl
  rw [this, indTest_plain_returns (mkTrimmed_zero _ _ _) (mkTrimmed_zero _ _ _)
      (by simp [TrimmedArray.len, length_asStack]) (by simp [TrimmedArray.len, length_asStack])]
  refine resultsFrom_returns (by simp [KnownAlt]) ?_
  rintro ⟨-, h, -⟩
  have : (⟨asStack [4, 1], 0, asStack [4, 1]⟩ : TrimmedArray ℝ 0).mean 0 = 0 := Fl.fin.inj h
  unfold TrimmedArray.mean at this
  rw [row0_asStack] at this
  norm_num [TrimmedArray.len, asStack] at this

/-- **C40 fails.**  There are a creatable design with `alpha = 0.1` and data for which the analysis reports level 0.05, with
significance decided at 0.05. -/
theorem C40_design_alpha_false (R : Rounding ℝ) (argsort : List ℝ → List ℕ) (D : TDist) :
    ∃ (d : Design ℝ) (piv : Pivoted ℝ) (r : TestResult), mkDesign R tenPercentParams = .ok d ∧ d.alpha.val = 1 / 10 ∧
      analyzeSingleMetric R argsort D piv ["clicks"] ["item_id", "treatment_assignment"] d.toDesignParams "clicks" none
        "treatment_assignment" none = .ok r ∧
      r.alpha = 1 / 20 ∧ r.isSignificant = Fl.lt r.pValue (.fin (1 / 20)) ∧ r.alpha ≠ d.alpha.val := by
  obtain ⟨r, hr⟩ := smallPivot_analysis R argsort D
  obtain ⟨h1, h2, h3⟩ := C40_design_alpha_partial _ _ _ _ _ _ _ _ _ _ _ _ hr
  have z : R.rnd 0 = 0 := by have := R.intFix 0 (by norm_num); simpa using this
  have hd : mkDesign R tenPercentParams = .ok (deriveCounts R tenPercentParams) := by
    rw [mkDesign_ok_iff]
    refine ⟨rfl, ?_⟩
    unfold validateDesign validateCrossover deriveCounts
    norm_num [tenPercentParams, PyNum.val, Rounding.floorMul, z, raiseIf, bind, Except.bind]
  refine ⟨_, smallPivot, r, hd, rfl, hr, h1, h2, ?_⟩
  rw [h1]
  show (1 / 20 : ℝ) ≠ 1 / 10
  norm_num

/-- C39 is not vacuous: the analysis of the small table returns, and its items are all assigned to 0 or 1. -/
example (R : Rounding ℝ) (argsort : List ℝ → List ℕ) (D : TDist) :
    (∃ r, analyzeSingleMetric R argsort D smallPivot ["clicks"] ["item_id", "treatment_assignment"] tenPercentParams "clicks"
      none "treatment_assignment" none = .ok r) ∧
    (∀ k ∈ smallPivot.index, Spec.AssignedTo 0 k ∨ Spec.AssignedTo 1 k) ∧ (∀ k ∈ smallPivot.index, k.length = 2) := by
  refine ⟨smallPivot_analysis R argsort D, ?_, by simp [smallPivot]⟩
  simp [smallPivot, assignedTo_int]

/-- A pivoted table of a crossover experiment with three items. -/
noncomputable def smallCrossover (a b : ℝ) : Pivoted ℝ where
  index := [[.str "a", .int 0], [.str "b", .int 1], [.str "c", .int 0]]
  periods := [.str "test_1", .str "test_2"]
  value := fun k _ p =>
    (if k = [.str "a", .int 0] then .fin 4 else if k = [.str "b", .int 1] then .fin (if p = "test_1" then 3 else 5)
      else .fin 1) + .fin (if p = "test_1" then a else b)

/-- C38 is not vacuous: the crossover analysis of the small table returns, with or without period effects. -/
example (R : Rounding ℝ) (argsort : List ℝ → List ℕ) (D : TDist) (a b : ℝ) :
    Spec.KeepsFractions (smallCrossover a b) "clicks" ∧ ∃ r, analyzeSingleMetric R argsort D (smallCrossover a b) ["clicks"] ["item_id", "treatment_assignment"]
      { tenPercentParams with isCrossover := true, washout := some 0 } "clicks" none "treatment_assignment" none = .ok r := by
  refine ⟨fun h => absurd h (by simp [smallCrossover]), ?_⟩
  obtain ⟨f, hf⟩ := metricSubset_returns (piv := smallCrossover a b) (metrics := ["clicks"]) (itemCol := "item_id")
    (treatmentCol := "treatment_assignment") (m := "clicks") (by simp) (by simp [smallCrossover]) (by simp [smallCrossover])
  have v1 : Spec.ValuesOf (smallCrossover a b) "clicks" "test_1" [4 + a, 3 + a, 1 + a] := by
    unfold Spec.ValuesOf smallCrossover
    simp
  have v2 : Spec.ValuesOf (smallCrossover a b) "clicks" "test_2" [4 + b, 5 + b, 1 + b] := by
    unfold Spec.ValuesOf smallCrossover
    simp
  have hc : ∀ c ∈ ["treatment_assignment", "test_1", "test_2"], c ∈ f.cols := by
    rw [(metricSubset_ok hf).1]; simp [smallCrossover]
  unfold analyzeSingleMetric
  simp only [hf, bind, Except.bind, pure, Except.pure, raiseIf]
  rw [if_neg (by simp [requiredColumns, hc])]
  simp only [if_true]
  have hq : (none : Option ℝ).getD tenPercentParams.postTrim.val = 0 := rfl
  rw [hq]
  unfold analyzeCrossover crossoverItems
  rw [subset_values_eq hf (by decide) (by decide) v1, subset_values_eq hf (by decide) (by decide) v2]
  simp only [bind, Except.bind, pure, Except.pure, List.zip_cons_cons, List.zip_nil_right, decide_true]
  generalize hy : prepareCrossover _ (((f.col "treatment_assignment").map (cellEq 1)).zip
    [(4 + a, 4 + b), (3 + a, 5 + b), (1 + a, 1 + b)]) true = y
  have hlen : y.1.length = 3 ∧ y.2.length = 3 := by
    rw [← hy]
    unfold Frame.col
    rw [(metricSubset_ok hf).2]
    simp [prepareCrossover, smallCrossover]
  unfold pairedTest raiseIf
  rw [if_neg (by simp [hlen]), mkTrimmed_zero]
  simp only [bind, Except.bind]
  rw [if_neg (by simp [TrimmedArray.len, stack3, hlen])]
  exact resultsFrom_returns (by simp [KnownAlt]) (by simp)

/-! ### C41 -/

theorem pivot_subset {K : Type} [Field K] [LinearOrder K] {d : DesignParams K} {start : ℤ} {ms ms' : List String}
    {itemCol weekCol : String} {treatmentCol : Option String} {periodCol : String} {f : Frame K} {p : Pivoted K}
    (h : (pivotTimeAssignment d start ms itemCol weekCol treatmentCol periodCol f).1 = .ok p) (hs : ms' ⊆ ms) :
    (pivotTimeAssignment d start ms' itemCol weekCol treatmentCol periodCol f).1 = .ok p := by
  unfold pivotTimeAssignment at h ⊢
  by_cases h1 : periodCol ∈ f.cols
  · rw [if_pos h1] at h; cases h
  rw [if_neg h1] at h ⊢
  by_cases h2 : (itemCol :: weekCol :: (ms ++ treatmentCol.toList)).any (fun c => c ∉ f.cols) = true
  · rw [if_pos h2] at h; cases h
  rw [if_neg h2] at h
  rw [if_neg]
  · exact h
  · intro h3
    apply h2
    rw [List.any_eq_true] at h3 ⊢
    obtain ⟨c, hc, e⟩ := h3
    refine ⟨c, ?_, e⟩
    simp only [List.mem_cons, List.mem_append] at hc ⊢
    rcases hc with h | h | h | h
    · exact Or.inl h
    · exact Or.inr (Or.inl h)
    · exact Or.inr (Or.inr (Or.inl (hs h)))
    · exact Or.inr (Or.inr (Or.inr h))

theorem analyzeSingle_subset {R : Rounding ℝ} {argsort : List ℝ → List ℕ} {D : TDist} {piv : Pivoted ℝ}
    {ms ms' names : List String} {d : DesignParams ℝ} {metric : String} {denominator : Option String}
    {treatmentName : String} {override : Option ℝ} {r : TestResult} (hm : metric ∈ ms')
    (hd : ∀ m, denominator = some m → m ∈ ms')
    (h : analyzeSingleMetric R argsort D piv ms names d metric denominator treatmentName override = .ok r) :
    analyzeSingleMetric R argsort D piv ms' names d metric denominator treatmentName override = .ok r := by
  have key : ∀ {m f}, m ∈ ms' → metricSubset piv ms names m = .ok f → metricSubset piv ms' names m = .ok f := by
    intro m f hm h
    unfold metricSubset at h ⊢
    obtain ⟨-, h⟩ := raiseIf_bind_ok.mp h
    exact raiseIf_bind_ok.mpr ⟨not_not.mpr hm, h⟩
  unfold analyzeSingleMetric at h ⊢
  obtain ⟨f, hf, h⟩ := Py.bind_eq_ok.mp h
  rw [key hm hf]
  cases denominator with
  | none => exact h
  | some m' =>
    obtain ⟨g, hg, h⟩ := Py.bind_eq_ok.mp h
    obtain ⟨g', hg', hg⟩ := Py.bind_eq_ok.mp hg
    simp only
    rw [key (hd m' rfl) hg']
    cases hg
    exact h

theorem mapM_ok {α β : Type} {f : α → Py β} {l : List α} {out : List β} (h : l.mapM f = .ok out) :
    List.Forall₂ (fun a b => f a = .ok b) l out := by
  induction l generalizing out with
  | nil => cases h; exact List.Forall₂.nil
  | cons a l ih =>
    rw [List.mapM_cons] at h
    obtain ⟨b, hb, h⟩ := Py.bind_eq_ok.mp h
    obtain ⟨bs, hbs, h⟩ := Py.bind_eq_ok.mp h
    cases h
    exact List.Forall₂.cons hb (ih hbs)

/-- **C41.**  When the analysis of many metrics returns, the table has one row per requested metric, in the order requested and labelled
with its name, and each row is the one obtained by requesting that metric alone: it does not depend on the other metrics. -/
theorem C41_metrics_independent (R : Rounding ℝ) (argsort : List ℝ → List ℕ) (D : TDist) (d : DesignParams ℝ)
    (metrics : List Metric) (weekCol itemCol treatmentCol : String) (f : Frame ℝ) (rows : List (String × TestResult))
    (h : (analyzeExperiment R argsort D d metrics weekCol itemCol treatmentCol f).1 = .ok rows) :
    List.Forall₂ (fun m row => row.1 = m.name ∧
      (analyzeExperiment R argsort D d [m] weekCol itemCol treatmentCol f).1 = .ok [row]) metrics rows := by
  unfold analyzeExperiment at h
  split at h
  · cases h
  generalize hp : pivotTimeAssignment d 0 (metricColumns metrics) itemCol weekCol (some treatmentCol) "time_period" f = p at h
  obtain ⟨p1, p2⟩ := p
  cases p1 with
  | error e => cases h
  | ok piv =>
    simp only at h
    have hF := mapM_ok h
    have hmem : ∀ m ∈ metrics, metricColumns [m] ⊆ metricColumns metrics := by
      intro m hm c hc
      simp only [metricColumns, List.map_cons, List.map_nil, List.mem_append, List.mem_singleton, List.mem_map,
        List.mem_filterMap] at hc ⊢
      rcases hc with rfl | ⟨a, rfl, ha⟩
      · exact Or.inl ⟨m, hm, rfl⟩
      · exact Or.inr ⟨_, hm, ha⟩
    refine List.Forall₂.imp (fun m row hr => ?_) ((List.forall₂_and_left (p := fun m => m ∈ metrics) metrics rows).mpr ⟨fun m hm => hm, hF⟩)
    obtain ⟨hm, hr⟩ := hr
    obtain ⟨r, hr1, e⟩ := Py.bind_eq_ok.mp hr
    cases e
    refine ⟨rfl, ?_⟩
    unfold analyzeExperiment
    rw [if_neg (by simp)]
    simp only
    rw [pivot_subset (by rw [hp]) (hmem m hm)]
    have hr' := analyzeSingle_subset (ms' := metricColumns [m]) (by simp [metricColumns])
      (by intro m' e; simp [metricColumns, e]) hr1
    simp only [List.mapM_cons, List.mapM_nil, hr']
    rfl

/-- A row of the example experiment data. -/
noncomputable def expRow (item : String) (assignment : ℤ) (clicks cost : ℝ) : Row ℝ := fun c =>
  if c = "item_id" then .str item else if c = "treatment_assignment" then .int assignment
  else if c = "week_id" then .int 0 else if c = "clicks" then .num clicks else if c = "cost" then .num cost else .null

/-- Experiment data: four items in one week, two metrics. -/
noncomputable def expFrame : Frame ℝ where
  cols := ["item_id", "treatment_assignment", "week_id", "clicks", "cost"]
  rows := [expRow "a" 0 4 1, expRow "b" 1 3 2, expRow "c" 0 1 3, expRow "d" 1 7 4]

/-- A labelled row of the example. -/
noncomputable def expLabelled (item : String) (assignment : ℤ) (clicks cost : ℝ) : Row ℝ :=
  Function.update (expRow item assignment clicks cost) "time_period" (.str "test")

theorem expFrame_labelled : labelRows tenPercentParams 0 "week_id" "time_period" expFrame =
    .ok ⟨["item_id", "treatment_assignment", "week_id", "clicks", "cost", "time_period"],
      [expLabelled "a" 0 4 1, expLabelled "b" 1 3 2, expLabelled "c" 0 1 3, expLabelled "d" 1 7 4]⟩ := by
  unfold labelRows
  refine raiseIf_bind_ok.mpr ⟨by simp [tenPercentParams], raiseIf_bind_ok.mpr ⟨?_, ?_⟩⟩
  · simp [expFrame, expRow, Cell.isNumeric]
  · simp [expFrame, expRow, Frame.setCol, designLabel, tenPercentParams, regularLabel, lastLabel, weekBetween, Cell.toFl,
      labelCell, expLabelled, pure, Except.pure]

theorem expFrame_pivot : ∃ piv g,
    pivotTimeAssignment tenPercentParams 0 ["clicks", "cost"] "item_id" "week_id" (some "treatment_assignment") "time_period"
      expFrame = (.ok piv, g) ∧ piv.index = smallPivot.index ∧ piv.periods = smallPivot.periods ∧
      Spec.ValuesOf piv "clicks" "test" [1, 3 / 4, 1 / 4, 7 / 4] ∧ Spec.ValuesOf piv "cost" "test" [1 / 4, 1 / 2, 3 / 4, 1] := by
  unfold pivotTimeAssignment
  rw [if_neg (by simp [expFrame]), if_neg (by simp [expFrame]), expFrame_labelled]
  have hper : (pivotTable tenPercentParams (indexColumns "item_id" (some "treatment_assignment")) "time_period"
      [expLabelled "a" 0 4 1, expLabelled "b" 1 3 2, expLabelled "c" 0 1 3, expLabelled "d" 1 7 4]).periods = [.str "test"] := by
    simp [pivotTable, expLabelled, expRow, indexColumns, Cell.isNull, dropDup]
  have hidx : (pivotTable tenPercentParams (indexColumns "item_id" (some "treatment_assignment")) "time_period"
      [expLabelled "a" 0 4 1, expLabelled "b" 1 3 2, expLabelled "c" 0 1 3, expLabelled "d" 1 7 4]).index = smallPivot.index := by
    have h1 : ¬ ("b" ≤ "a") := by decide
    simp [pivotTable, expLabelled, expRow, indexColumns, Cell.isNull, dropDup, groupKeys, smallPivot, keyLe, Cell.le,
      List.insertionSort, List.orderedInsert]
  simp only [hper]
  rw [if_neg (by simp)]
  refine ⟨_, _, rfl, hidx, hper, ?_, ?_⟩
  · unfold Spec.ValuesOf
    rw [hidx]
    simp [smallPivot, pivotTable, indexColumns, expLabelled, expRow, sumCol, Fl.sumSkip, Cell.toFl, Fl.isNan, periodWeeks,
      tenPercentParams, fin_div]
  · unfold Spec.ValuesOf
    rw [hidx]
    simp [smallPivot, pivotTable, indexColumns, expLabelled, expRow, sumCol, Fl.sumSkip, Cell.toFl, Fl.isNan, periodWeeks,
      tenPercentParams, fin_div]
    norm_num

theorem small_indTest_returns (R : Rounding ℝ) (argsort : List ℝ → List ℕ) (D : TDist) {a b c e : ℝ} (h : c + e ≠ 0) :
    ∃ r, indTest R argsort D [a, b] [c, e] 0 none none false "two-sided" defaultAlpha = .ok r := by
  rw [indTest_plain_returns (mkTrimmed_zero _ _ _) (mkTrimmed_zero _ _ _)
      (by simp [TrimmedArray.len, length_asStack]) (by simp [TrimmedArray.len, length_asStack])]
  refine resultsFrom_returns (by simp [KnownAlt]) ?_
  rintro ⟨-, h0, -⟩
  have : (⟨asStack [c, e], 0, asStack [c, e]⟩ : TrimmedArray ℝ 0).mean 0 = 0 := Fl.fin.inj h0
  unfold TrimmedArray.mean at this
  rw [row0_asStack] at this
  norm_num [TrimmedArray.len, asStack] at this
  exact h this

/-- C41 is not vacuous: the analysis of two metrics of the example frame returns two rows. -/
example (R : Rounding ℝ) (argsort : List ℝ → List ℕ) (D : TDist) :
    ∃ r1 r2, (analyzeExperiment R argsort D tenPercentParams [⟨"clicks", "clicks", none, none⟩, ⟨"cost", "cost", none, none⟩]
      "week_id" "item_id" "treatment_assignment" expFrame).1 = .ok [("clicks", r1), ("cost", r2)] := by
  obtain ⟨piv, g, hp, hidx, hper, hv1, hv2⟩ := expFrame_pivot
  have grp (b : ℝ) (y : List ℝ) : Spec.groupOf piv b y = Spec.groupOf smallPivot b y := by
    unfold Spec.groupOf; rw [hidx]
  have key : ∀ m ∈ ["clicks", "cost"], ∀ y : List ℝ, Spec.ValuesOf piv m "test" y →
      analyzeSingleMetric R argsort D piv ["clicks", "cost"] ["item_id", "treatment_assignment"] tenPercentParams m none
        "treatment_assignment" none = indTest R argsort D (Spec.groupOf smallPivot 1 y) (Spec.groupOf smallPivot 0 y) 0
          none none false "two-sided" defaultAlpha := by
    intro m hm y hy
    rw [analyze_regular_eq (by decide) (by unfold Spec.Reserved; decide) (by unfold Spec.Reserved; decide)
      (by rw [hidx]; simp [smallPivot]) (by rw [hper]; simp [smallPivot]) (by rw [hper]; simp [smallPivot]) rfl
      (by simp [tenPercentParams]) hm (by rw [hper]; simp [smallPivot]) (by rw [hper]; simp [smallPivot]) hy, grp, grp]
    rfl
  obtain ⟨r1, h1⟩ := small_indTest_returns R argsort D (a := 3 / 4) (b := 7 / 4) (c := 1) (e := 1 / 4) (by norm_num)
  obtain ⟨r2, h2⟩ := small_indTest_returns R argsort D (a := 1 / 2) (b := 1) (c := 1 / 4) (e := 3 / 4) (by norm_num)
  have g (x y z w : ℝ) : Spec.groupOf smallPivot 1 [x, y, z, w] = [y, w] ∧ Spec.groupOf smallPivot 0 [x, y, z, w] = [x, z] := by
    simp [Spec.groupOf, smallPivot, assignedTo_int, List.filter_cons]
  refine ⟨r1, r2, ?_⟩
  unfold analyzeExperiment
  simp only [metricColumns, List.map_cons, List.map_nil, List.filterMap_cons, List.filterMap_nil, List.append_nil, hp]
  rw [if_neg (by simp)]
  simp only [List.mapM_cons, List.mapM_nil]
  rw [key "clicks" (by simp) _ hv1, key "cost" (by simp) _ hv2, (g _ _ _ _).1, (g _ _ _ _).2, (g _ _ _ _).1, (g _ _ _ _).2, h1, h2]
  rfl

end Feedx
