import Verif.Proofs.Effect
import Verif.Proofs.Cuped

/-!
Property C70: what the analysis reports when a synthetic effect was added.

The property is "adding a constant effect increases the reported absolute difference by exactly that effect".  It holds without CUPED,
and for trimmed crossovers.  It fails for crossovers without trimming when the groups differ in size (the code subtracts the
mean of each period, and the effect moves these means) and with CUPED when the groups' pretest means differ (the code
estimates the coefficient from all items, and the effect moves it); in both cases the exact change is given.
-/

namespace Feedx
open Fl

namespace Spec

open Classical in
/-- Number of rows of the table whose index level `treat` is 1. -/
noncomputable def treatedCount (w : Wide ℝ) (treat : String) : ℕ := w.rows.countP (fun r => decide (Treated w.names treat r.key))

/-- A table as the random assignment returns it: the index levels are the item and the assignment. -/
def AssignedTable (w : Wide ℝ) (item treat : String) : Prop :=
  w.names = [item, treat] ∧ item ≠ treat ∧ ¬ Reserved item ∧ ¬ Reserved treat ∧ ∀ r ∈ w.rows, r.key.length = 2

end Spec

theorem assignedTable_index {w : Wide ℝ} {item treat : String} (h : Spec.AssignedTable w item treat) (metric : String) :
    ∀ k ∈ (w.pivoted metric).index, k.length = 2 := by
  intro k hk
  obtain ⟨r, hr, rfl⟩ := List.mem_map.mp hk
  exact h.2.2.2.2 r hr

/-- **C70, regular experiments without pretest values.**  For every table, design, trimming fraction and effect: when the analysis returns for the table and for
the table with the effect added, the reported difference is larger by exactly the effect, and the standard error, the degrees of freedom
and the sample size are the same. -/
theorem C70_regular_partial (R : Rounding ℝ) (argsort : List ℝ → List ℕ) (ha : ArgsortOk argsort) (D : TDist) (w out : Wide ℝ)
    (item treat metric : String) (hw : Spec.AssignedTable w item treat) (d : DesignParams ℝ) (hd : d.isCrossover = false)
    (hpre : [metric, "pretest"] ∉ w.cols) (e : ℝ) (r r' : TestResult)
    (hout : applyEffect w metric d.isCrossover (.fin e) treat = .ok out)
    (h : analyzeWide R argsort D w d metric treat = .ok r)
    (h' : analyzeWide R argsort D out d metric treat = .ok r') :
    r'.absoluteDifference = r.absoluteDifference + fin e ∧ r'.standardError = r.standardError ∧
      r'.degreesOfFreedom = r.degreesOfFreedom ∧ r'.sampleSize = r.sampleSize := by
  have hidx := assignedTable_index hw metric
  obtain ⟨hn, hne, hi, ht, hk⟩ := hw
  rw [hd] at hout
  obtain ⟨on, oc, oi, op, ov⟩ := regular_effect hn hne hk hout
  have h := analyzeWide_ok h
  have h' := analyzeWide_ok h'
  rw [on, oc] at h'
  rw [hn] at h h'
  have np : Cell.str "pretest" ∉ (w.pivoted metric).periods := fun h => hpre ((pretest_periods w metric).mp h)
  obtain ⟨y, hy, -, hr, -⟩ := C39_regular_split R argsort D _ _ item treat hne hi ht hidx d hd metric none r (fun hc => np hc.1) h
  obtain ⟨y', hy', -, hr', -⟩ := C39_regular_split R argsort D _ _ item treat hne hi ht (by rw [oi]; exact hidx) d hd metric none r'
    (fun hc => np (op ▸ hc.1)) h'
  obtain ⟨test, vt, ⟨-, rfl⟩ | ⟨hc, -⟩⟩ := hy
  swap
  · exact absurd hc np
  obtain ⟨test', vt', ⟨-, rfl⟩ | ⟨hc, -⟩⟩ := hy'
  swap
  · exact absurd (op ▸ hc) np
  unfold Spec.ValuesOf at vt vt'
  rw [oi] at vt'
  have hs := group_values_shift (e := e) vt vt' (fun k hk => ⟨(ov k hk).1, (ov k hk).2.1⟩)
  subst hs
  have hg : ∀ b v, Spec.groupOf (out.pivoted metric) b v = Spec.groupOf (w.pivoted metric) b v := by
    intro b v; unfold Spec.groupOf; rw [oi]
  rw [hg, hg, (groupOf_shift _ _ _).1, (groupOf_shift _ _ _).2] at hr'
  exact ind_first_shift ha hr hr'

open Classical in
/-- The item with the effect added to its value while treated. -/
noncomputable def withEffect (e : ℝ) (i : Spec.CrossoverItem) : Spec.CrossoverItem :=
  if i.treatedFirst then { i with first := i.first + e } else { i with second := i.second + e }

open Classical in
theorem crossover_items_effect {piv piv' : Pivoted ℝ} {m : String} {items items' : List Spec.CrossoverItem} {e : ℝ}
    (hidx : piv'.index = piv.index)
    (h : Spec.CrossoverItems piv m items) (h' : Spec.CrossoverItems piv' m items')
    (hv : ∀ k ∈ piv.index,
        (Spec.AssignedTo 1 k → piv'.value k m "test_1" = piv.value k m "test_1" + .fin e ∧
          piv'.value k m "test_2" = piv.value k m "test_2") ∧
        (¬ Spec.AssignedTo 1 k → piv'.value k m "test_1" = piv.value k m "test_1" ∧
          piv'.value k m "test_2" = piv.value k m "test_2" + .fin e)) :
    items' = items.map (withEffect e) ∧
      items.countP (fun i => decide i.treatedFirst) = piv.index.countP (fun k => decide (Spec.AssignedTo 1 k)) ∧
      items.length = piv.index.length := by
  unfold Spec.CrossoverItems at h h'
  rw [hidx] at h'
  generalize piv.index = idx at h h' hv
  induction h generalizing items' with
  | nil => cases h'; simp
  | @cons k i idx items hx hr ih =>
    rcases h' with _ | ⟨hx', hr'⟩
    rename_i i' items'
    obtain ⟨e1, e2, e3⟩ := ih hr' (fun k hk => hv k (List.mem_cons_of_mem _ hk))
    refine ⟨?_, ?_, by simp [e3]⟩
    · rw [List.map_cons, e1]
      congr 1
      obtain ⟨a1, a2, a3⟩ := hx
      obtain ⟨b1, b2, b3⟩ := hx'
      obtain ⟨v1, v2⟩ := hv k (by simp)
      rcases i with ⟨t, f, s⟩
      rcases i' with ⟨t', f', s'⟩
      simp only at a1 a2 a3 b1 b2 b3
      have ht : t' = t := propext (b1.trans a1.symm)
      subst ht
      unfold withEffect
      by_cases hc : t'
      · simp only [hc, if_true]
        obtain ⟨c1, c2⟩ := v1 (a1.mp hc)
        rw [b2, a2, fin_add] at c1
        rw [b3, a3] at c2
        rw [Fl.fin.inj c1, Fl.fin.inj c2]
      · simp only [hc, if_false]
        obtain ⟨c1, c2⟩ := v2 (fun h => hc (a1.mpr h))
        rw [b2, a2] at c1
        rw [b3, a3, fin_add] at c2
        rw [Fl.fin.inj c1, Fl.fin.inj c2]
    · rw [List.countP_cons, List.countP_cons, e2]
      simp [hx.1]

theorem treated_withEffect (e : ℝ) (i : Spec.CrossoverItem) :
    (withEffect e i).treated 0 0 = i.treated 0 0 + e ∧ (withEffect e i).untreated 0 0 = i.untreated 0 0 := by
  unfold withEffect Spec.CrossoverItem.treated Spec.CrossoverItem.untreated
  by_cases h : i.treatedFirst <;> simp [h]

/-- **C70, crossover experiments with trimming.**  The reported difference is larger by exactly the effect, and the standard error, the degrees of freedom
and the sample size are the same. -/
theorem C70_crossover_trimmed_partial (R : Rounding ℝ) (argsort : List ℝ → List ℕ) (ha : ArgsortOk argsort) (D : TDist) (w out : Wide ℝ)
    (item treat metric : String) (hw : Spec.AssignedTable w item treat) (d : DesignParams ℝ) (hd : d.isCrossover = true)
    (hq : d.postTrim.val ≠ 0) (e : ℝ) (r r' : TestResult)
    (hout : applyEffect w metric d.isCrossover (.fin e) treat = .ok out)
    (h : analyzeWide R argsort D w d metric treat = .ok r)
    (h' : analyzeWide R argsort D out d metric treat = .ok r') :
    r'.absoluteDifference = r.absoluteDifference + fin e ∧ r'.standardError = r.standardError ∧
      r'.degreesOfFreedom = r.degreesOfFreedom ∧ r'.sampleSize = r.sampleSize := by
  have hidx := assignedTable_index hw metric
  obtain ⟨hn, hne, hi, ht, hk⟩ := hw
  rw [hd] at hout
  obtain ⟨on, oc, oi, op, ov⟩ := crossover_effect hn hne hk hout
  have h := analyzeWide_ok h
  have h' := analyzeWide_ok h'
  rw [on, oc] at h'
  rw [hn] at h h'
  obtain ⟨items, v1, v2, s, a, hr⟩ := C38_crossover_pairs_partial R argsort D _ _ item treat hne hi ht hidx d hd metric (keeps_float rfl) none r h
  obtain ⟨items', v1', v2', s', a', hr'⟩ :=
    C38_crossover_pairs_partial R argsort D _ _ item treat hne hi ht (by rw [oi]; exact hidx) d hd metric (keeps_float rfl) none r' h'
  obtain ⟨rfl, -, -⟩ := crossover_items_effect (e := e) oi s s' ov
  obtain ⟨rfl, rfl⟩ := a.1 hq
  obtain ⟨rfl, rfl⟩ := a'.1 hq
  simp only [List.map_map, Function.comp_def, treated_withEffect] at hr'
  have e1 : items.map (fun i => i.treated 0 0 + e) = (items.map (fun i => i.treated 0 0)).map (· + e) := by simp
  rw [e1] at hr'
  exact paired_first_shift ha hr hr'

open Classical in
/-- Plus one for items treated first, minus one for the others. -/
noncomputable def itemSign (i : Spec.CrossoverItem) : ℝ := if i.treatedFirst then 1 else -1

theorem crossover_difference (items : List Spec.CrossoverItem) (m1 m2 c : ℝ) :
    Spec.mean (List.zipWith (· - ·) (items.map (fun i => i.treated m1 m2 + c)) (items.map (fun i => i.untreated m1 m2 + c))) =
      ((items.map (fun i => itemSign i * (i.first - i.second))).sum - (items.map itemSign).sum * (m1 - m2)) / (items.length : ℝ) := by
  unfold Spec.mean
  rw [List.zipWith_map_left, List.zipWith_map_right, List.zipWith_self, List.length_map]
  congr 1
  induction items with
  | nil => simp
  | cons i items ih =>
    simp only [List.map_cons, List.sum_cons, ih]
    unfold Spec.CrossoverItem.treated Spec.CrossoverItem.untreated itemSign
    by_cases h : i.treatedFirst <;> simp [h] <;> ring

open Classical in
theorem effect_sums (items : List Spec.CrossoverItem) (e : ℝ) :
    ((items.map (withEffect e)).map (fun i => itemSign i * (i.first - i.second))).sum =
      (items.map (fun i => itemSign i * (i.first - i.second))).sum + (items.length : ℝ) * e ∧
    ((items.map (withEffect e)).map itemSign).sum = (items.map itemSign).sum ∧
    ((items.map (withEffect e)).map (fun i => i.first)).sum - ((items.map (withEffect e)).map (fun i => i.second)).sum =
      (items.map (fun i => i.first)).sum - (items.map (fun i => i.second)).sum + e * (items.map itemSign).sum ∧
    (items.map itemSign).sum = 2 * (items.countP (fun i => decide i.treatedFirst) : ℝ) - items.length := by
  induction items with
  | nil => simp
  | cons i items ih =>
    obtain ⟨h1, h2, h3, h4⟩ := ih
    simp only [List.map_cons, List.sum_cons, List.length_cons, List.countP_cons]
    rw [h1, h2, h4]
    rw [h4] at h3
    have ht : itemSign (withEffect e i) = itemSign i := by
      unfold withEffect itemSign; split <;> simp_all
    rw [ht]
    by_cases h : i.treatedFirst
    · have e1 : (withEffect e i).first = i.first + e := by simp [withEffect, h]
      have e2 : (withEffect e i).second = i.second := by simp [withEffect, h]
      have e3 : itemSign i = 1 := by simp [itemSign, h]
      simp only [e1, e2, e3, h, decide_true, if_true]
      push_cast
      refine ⟨by ring, trivial, by linear_combination h3, by ring⟩
    · have e1 : (withEffect e i).first = i.first := by simp [withEffect, h]
      have e2 : (withEffect e i).second = i.second + e := by simp [withEffect, h]
      have e3 : itemSign i = -1 := by simp [itemSign, h]
      simp only [e1, e2, e3, h, decide_false]
      push_cast
      refine ⟨by ring, trivial, by linear_combination h3, by simp; ring⟩

theorem treatedCount_eq {w : Wide ℝ} {item treat : String} (hw : Spec.AssignedTable w item treat) (metric : String) :
    Spec.treatedCount w treat = (w.pivoted metric).index.countP (fun k => @decide (Spec.AssignedTo 1 k) (Classical.propDecidable _)) := by
  obtain ⟨hn, hne, hi, ht, hk⟩ := hw
  unfold Spec.treatedCount Wide.pivoted
  simp only
  rw [List.countP_map]
  apply List.countP_congr
  intro r hr
  simp only [Function.comp_apply, decide_eq_true_eq]
  rw [← isTreated_iff (by rw [hn]; simp [hne]) (by rw [hn]; exact hk r hr) (by rw [hn]; simp), hn]
  exact isTreated_assigned hne (hk r hr)

/-- **C70, crossover experiments without trimming.**  The reported difference is larger by the effect times `4 nt nc / n²`, where `nt` of the `n` items are treated first
and `nc` second: exactly the effect iff the two groups have the same size. -/
theorem C70_crossover_partial (R : Rounding ℝ) (argsort : List ℝ → List ℕ) (D : TDist) (w out : Wide ℝ)
    (item treat metric : String) (hw : Spec.AssignedTable w item treat) (d : DesignParams ℝ) (hd : d.isCrossover = true)
    (hq : d.postTrim.val = 0) (e : ℝ) (r r' : TestResult)
    (hout : applyEffect w metric d.isCrossover (.fin e) treat = .ok out)
    (h : analyzeWide R argsort D w d metric treat = .ok r)
    (h' : analyzeWide R argsort D out d metric treat = .ok r') (n nt nc : ℕ) (hn' : n = w.rows.length)
    (hnt : nt = Spec.treatedCount w treat) (hnc : nt + nc = n) :
    r'.absoluteDifference = r.absoluteDifference + fin (e * (4 * nt * nc / n ^ 2)) ∧
      (nt = nc → r'.absoluteDifference = r.absoluteDifference + fin e) ∧
      (nt ≠ nc → e ≠ 0 → r'.absoluteDifference ≠ r.absoluteDifference + fin e) := by
  have hidx := assignedTable_index hw metric
  rw [treatedCount_eq hw metric] at hnt
  have hlen : (w.pivoted metric).index.length = w.rows.length := by simp [Wide.pivoted]
  obtain ⟨hn, hne, hi, ht, hk⟩ := hw
  rw [hd] at hout
  obtain ⟨on, oc, oi, op, ov⟩ := crossover_effect hn hne hk hout
  have h := analyzeWide_ok h
  have h' := analyzeWide_ok h'
  rw [on, oc] at h'
  rw [hn] at h h'
  obtain ⟨items, v1, v2, s, a, hr⟩ := C38_crossover_pairs_partial R argsort D _ _ item treat hne hi ht hidx d hd metric (keeps_float rfl) none r h
  obtain ⟨items', v1', v2', s', a', hr'⟩ :=
    C38_crossover_pairs_partial R argsort D _ _ item treat hne hi ht (by rw [oi]; exact hidx) d hd metric (keeps_float rfl) none r' h'
  obtain ⟨rfl, c1, c2⟩ := crossover_items_effect (e := e) oi s s' ov
  obtain ⟨m1, m2, c, hm1, hm2, rfl, rfl, -⟩ := a.2 hq
  obtain ⟨m1', m2', c', hm1', hm2', rfl, rfl, -⟩ := a'.2 hq
  simp only [Option.getD_none, hq] at hr hr'
  obtain ⟨d1, ne, -⟩ := paired_untrimmed_difference hr
  obtain ⟨d2, -, -⟩ := paired_untrimmed_difference hr'
  rw [crossover_difference] at d1 d2
  obtain ⟨s1, s2, s3, s4⟩ := effect_sums items e
  rw [s1, s2, List.length_map] at d2
  have hl : items.length = n := by rw [c2, hlen, hn']
  have hn0 : (n : ℝ) ≠ 0 := by
    rw [← hl, Nat.cast_ne_zero]
    intro h0
    exact ne (by simp [List.length_eq_zero_iff.mp h0])
  have hcnt : (items.map itemSign).sum = 2 * (nt : ℝ) - n := by
    rw [s4, hl, hnt, c1]
  have hm : m1' - m2' = m1 - m2 + e * (2 * nt - n) / n := by
    rw [hm1, hm2, hm1', hm2']
    unfold Spec.mean
    simp only [List.length_map, hl]
    rw [hcnt] at s3
    rw [← sub_div, s3]
    field_simp
  have hsum : (n : ℝ) = nt + nc := by rw [← hnc]; push_cast; ring
  have key : r'.absoluteDifference = r.absoluteDifference + fin (e * (4 * nt * nc / n ^ 2)) := by
    rw [d1, d2, fin_add, hm, hcnt, hl]
    congr 1
    have : (nc : ℝ) = n - nt := by rw [hsum]; ring
    rw [this]
    field_simp
    ring
  refine ⟨key, ?_, ?_⟩
  · rintro rfl
    rw [key]
    congr 2
    rw [hsum] at hn0 ⊢
    have : (nt : ℝ) ≠ 0 := by intro h0; apply hn0; rw [h0]; ring
    field_simp
    ring
  · intro hneq he hcon
    rw [key, d1, fin_add, fin_add] at hcon
    have h1 := add_left_cancel (Fl.fin.inj hcon)
    have h2 : (4 * (nt : ℝ) * nc / n ^ 2) = 1 := by
      have : e * (4 * (nt : ℝ) * nc / n ^ 2) = e * 1 := by rw [h1, mul_one]
      exact mul_left_cancel₀ he this
    rw [div_eq_one_iff_eq (by positivity), hsum] at h2
    have h3 : ((nt : ℝ) - nc) ^ 2 = 0 := by linear_combination -h2
    have h4 : (nt : ℝ) = nc := by
      have := pow_eq_zero_iff (two_ne_zero) |>.mp h3
      linarith
    exact hneq (by exact_mod_cast h4)

/-! ### CUPED -/

open Classical in
theorem groupOf_triples {piv : Pivoted ℝ} {L : List (List (Cell ℝ) × ℝ × ℝ)} (h : piv.index = L.map Prod.fst) (b : ℝ)
    (f : List (Cell ℝ) × ℝ × ℝ → ℝ) :
    Spec.groupOf piv b (L.map f) = (L.filter (fun p => decide (Spec.AssignedTo b p.1))).map f := by
  unfold Spec.groupOf
  rw [h]
  clear h
  induction L with
  | nil => rfl
  | cons p L ih =>
    simp only [List.map_cons, List.zip_cons_cons, List.filter_cons]
    by_cases hp : Spec.AssignedTo b p.1 <;> simp [hp, ih]

open Classical in
theorem filter_assigned_perm {L : List (List (Cell ℝ) × ℝ × ℝ)}
    (h : ∀ p ∈ L, Spec.AssignedTo 0 p.1 ∨ Spec.AssignedTo 1 p.1) :
    (L.filter (fun p => decide (Spec.AssignedTo 1 p.1)) ++ L.filter (fun p => decide (Spec.AssignedTo 0 p.1))).Perm L := by
  have : L.filter (fun p => decide (Spec.AssignedTo 0 p.1)) = L.filter (fun p => !decide (Spec.AssignedTo 1 p.1)) := by
    apply List.filter_congr
    intro p hp
    rcases h p hp with h0 | h1
    · have : ¬ Spec.AssignedTo 1 p.1 := fun h1 => by
        have := assigned_unique h0 h1
        norm_num at this
      simp [h0, this]
    · have : ¬ Spec.AssignedTo 0 p.1 := fun h0 => by
        have := assigned_unique h0 h1
        norm_num at this
      simp [h1, this]
  rw [this]
  exact List.filter_append_perm _ _

theorem sum_sub_const {α : Type} (l : List α) (f : α → ℝ) (c : ℝ) :
    (l.map (fun p => f p - c)).sum = (l.map f).sum - (l.length : ℝ) * c := by
  induction l with
  | nil => simp
  | cons a l ih => simp only [List.map_cons, List.sum_cons, ih, List.length_cons]; push_cast; ring

open Classical in
/-- The cross deviation of the treatment indicator and a sample. -/
theorem crossDev_indicator {L : List (List (Cell ℝ) × ℝ × ℝ)}
    (h : ∀ p ∈ L, Spec.AssignedTo 0 p.1 ∨ Spec.AssignedTo 1 p.1)
    (h1 : L.filter (fun p => decide (Spec.AssignedTo 1 p.1)) ≠ []) (h0 : L.filter (fun p => decide (Spec.AssignedTo 0 p.1)) ≠ []) :
    let L1 := L.filter (fun p => decide (Spec.AssignedTo 1 p.1))
    let L0 := L.filter (fun p => decide (Spec.AssignedTo 0 p.1))
    Spec.crossDev (L.map (fun p => if Spec.AssignedTo 1 p.1 then (1 : ℝ) else 0)) (L.map (fun p => p.2.2)) =
      (L1.length : ℝ) * L0.length / L.length * (Spec.mean (L1.map (fun p => p.2.2)) - Spec.mean (L0.map (fun p => p.2.2))) := by
  intro L1 L0
  have hperm := filter_assigned_perm h
  have hlen : (L.length : ℝ) = L1.length + L0.length := by
    rw [← hperm.length_eq, List.length_append]; push_cast; rfl
  have p1 : (L1.length : ℝ) ≠ 0 := by
    rw [Nat.cast_ne_zero]; exact fun hc => h1 (List.length_eq_zero_iff.mp hc)
  have p0 : (L0.length : ℝ) ≠ 0 := by
    rw [Nat.cast_ne_zero]; exact fun hc => h0 (List.length_eq_zero_iff.mp hc)
  have pn : (L.length : ℝ) ≠ 0 := by
    rw [hlen]; positivity
  have hsx : (L.map (fun p => p.2.2)).sum = (L1.map (fun p => p.2.2)).sum + (L0.map (fun p => p.2.2)).sum := by
    rw [← (hperm.map _).sum_eq, List.map_append, List.sum_append]
  have i1 : ∀ p ∈ L1, (if Spec.AssignedTo 1 p.1 then (1 : ℝ) else 0) = 1 := by
    intro p hp
    rw [if_pos (by simpa using (List.mem_filter.mp hp).2)]
  have i0 : ∀ p ∈ L0, (if Spec.AssignedTo 1 p.1 then (1 : ℝ) else 0) = 0 := by
    intro p hp
    have : Spec.AssignedTo 0 p.1 := by simpa using (List.mem_filter.mp hp).2
    rw [if_neg]
    intro h1
    have := assigned_unique this h1
    norm_num at this
  have hsi : (L.map (fun p => if Spec.AssignedTo 1 p.1 then (1 : ℝ) else 0)).sum = L1.length := by
    rw [← (hperm.map _).sum_eq, List.map_append, List.sum_append, List.map_congr_left i1, List.map_congr_left i0]
    simp [L1]
  rw [crossDev_pairs]
  generalize hmi : Spec.mean (L.map (fun p => if Spec.AssignedTo 1 p.1 then (1 : ℝ) else 0)) = μ
  generalize hmx : Spec.mean (L.map (fun p => p.2.2)) = ξ
  have e1 : L1.map (fun p => ((if Spec.AssignedTo 1 p.1 then (1 : ℝ) else 0) - μ) * (p.2.2 - ξ)) =
      L1.map (fun p => (1 - μ) * (p.2.2 - ξ)) := List.map_congr_left (fun p hp => by rw [i1 p hp])
  have e0 : L0.map (fun p => ((if Spec.AssignedTo 1 p.1 then (1 : ℝ) else 0) - μ) * (p.2.2 - ξ)) =
      L0.map (fun p => (0 - μ) * (p.2.2 - ξ)) := List.map_congr_left (fun p hp => by rw [i0 p hp])
  rw [← (hperm.map _).sum_eq, List.map_append, List.sum_append]
  show (L1.map _).sum + (L0.map _).sum = _
  rw [e1, e0, List.sum_map_mul_left, List.sum_map_mul_left, sum_sub_const, sum_sub_const]
  rw [← hmi, ← hmx]
  unfold Spec.mean
  simp only [List.length_map]
  rw [hsi, hsx, hlen]
  rw [hlen] at pn
  field_simp
  ring

theorem exists_triples {α : Type} {idx : List α} {a b : List ℝ} (h1 : a.length = idx.length) (h2 : b.length = idx.length) :
    ∃ L : List (α × ℝ × ℝ), idx = L.map Prod.fst ∧ a = L.map (fun p => p.2.1) ∧ b = L.map (fun p => p.2.2) := by
  induction idx generalizing a b with
  | nil =>
    refine ⟨[], rfl, ?_, ?_⟩
    · simpa using h1
    · simpa using h2
  | cons k idx ih =>
    cases a with
    | nil => simp at h1
    | cons x a =>
      cases b with
      | nil => simp at h2
      | cons y b =>
        obtain ⟨L, rfl, rfl, rfl⟩ := ih (a := a) (b := b) (by simpa using h1) (by simpa using h2)
        exact ⟨(k, x, y) :: L, rfl, rfl, rfl⟩

/-- The untrimmed adjustment when it gives numbers. -/
theorem cuped_zero_triples {R : Rounding ℝ} {argsort : List ℝ → List ℕ} {α : Type} {L : List α} {f g : α → ℝ} {y : List ℝ}
    (h : cuped R argsort (L.map f) (L.map g) 0 = .ok (y.map .fin)) :
    Spec.sumSqDev (L.map g) ≠ 0 ∧ y = L.map (fun p => f p - Spec.crossDev (L.map f) (L.map g) /
      Spec.sumSqDev (L.map g) * (g p - Spec.mean (L.map g))) := by
  have hz : ∀ n : ℕ, nTrimOf R (0 : ℝ) n = 0 := by
    intro n
    have := R.intFix 0 (by norm_num)
    unfold nTrimOf Rounding.floorMul
    simp only [zero_mul]
    rw [show (0 : ℝ) = ((0 : ℤ) : ℝ) by simp, this]; simp
  have hv : Spec.sumSqDev (L.map g) ≠ 0 := by
    intro hv
    unfold cuped at h
    simp only [raiseIf_bind_ok, List.length_map] at h
    obtain ⟨-, h1, h2, h⟩ := h
    rw [if_pos (by rw [sampleCov_eq, crossDev_self, hv, zero_div]), hz] at h
    simp only [if_true] at h
    have := Except.ok.inj h
    cases L with
    | nil => simp at h1
    | cons a L =>
      cases y with
      | nil => simp at this
      | cons b y => simp at this
  refine ⟨hv, ?_⟩
  have hm1 : (L.map (fun p => (f p, g p))).map Prod.fst = L.map f := by simp [Function.comp_def]
  have hm2 : (L.map (fun p => (f p, g p))).map Prod.snd = L.map g := by simp [Function.comp_def]
  have := (cuped_untrimmed (z := L.map (fun p => (f p, g p))) (by rw [hm1, hm2]; exact h) (hz _) (by rw [hm2]; exact hv)).2
  rw [hm1, hm2] at this
  simp only [List.map_map, Function.comp_def] at this
  have hinj : Function.Injective (fun x : ℝ => (Fl.fin x)) := fun _ _ h => Fl.fin.inj h
  apply List.map_injective_iff.mpr hinj
  simp only [List.map_map, Function.comp_def]
  exact this

/-- **C70, regular experiments with pretest values and without trimming.**  The reported difference is larger by the effect times
`1 - (nt nc / n) (x̄t - x̄c)² / Sxx`, where `x` are the pretest values: exactly the effect iff the pretest means of the groups are equal,
and otherwise less.  (If all pretest values are equal then there is no result, see C124.) -/
theorem C70_cuped_partial (R : Rounding ℝ) (argsort : List ℝ → List ℕ) (D : TDist) (w out : Wide ℝ)
    (item treat metric : String) (hw : Spec.AssignedTable w item treat) (d : DesignParams ℝ) (hd : d.isCrossover = false)
    (hpre : [metric, "pretest"] ∈ w.cols) (hq : d.postTrim.val = 0) (hvar : ¬ Spec.ConstantPretest R (w.pivoted metric) metric 0)
    (hall : ∀ r ∈ w.rows, Spec.AssignedTo 0 r.key ∨ Spec.AssignedTo 1 r.key) (e : ℝ) (r r' : TestResult)
    (hout : applyEffect w metric d.isCrossover (.fin e) treat = .ok out)
    (h : analyzeWide R argsort D w d metric treat = .ok r)
    (h' : analyzeWide R argsort D out d metric treat = .ok r') :
    ∃ x, Spec.ValuesOf (w.pivoted metric) metric "pretest" x ∧ 0 < Spec.sumSqDev x ∧
      let x1 := Spec.groupOf (w.pivoted metric) 1 x
      let x0 := Spec.groupOf (w.pivoted metric) 0 x
      0 < x1.length ∧ 0 < x0.length ∧
      r'.absoluteDifference = r.absoluteDifference + fin (e * (1 - (x1.length : ℝ) * x0.length / x.length *
        (Spec.mean x1 - Spec.mean x0) ^ 2 / Spec.sumSqDev x)) ∧
      (e ≠ 0 → (r'.absoluteDifference = r.absoluteDifference + fin e ↔ Spec.mean x1 = Spec.mean x0)) := by
  classical
  have hidx := assignedTable_index hw metric
  obtain ⟨hn, hne, hi, ht, hk⟩ := hw
  rw [hd] at hout
  obtain ⟨on, oc, oi, op, ov⟩ := regular_effect hn hne hk hout
  have h := analyzeWide_ok h
  have h' := analyzeWide_ok h'
  rw [on, oc] at h'
  rw [hn] at h h'
  obtain ⟨y, hy, -, hr, -⟩ := C39_regular_split R argsort D _ _ item treat hne hi ht hidx d hd metric none r
    (by rw [Option.getD_none, hq]; exact hvar) h
  obtain ⟨y', hy', -, hr', -⟩ := C39_regular_split R argsort D _ _ item treat hne hi ht (by rw [oi]; exact hidx) d hd metric none r' (by
    rw [Option.getD_none, hq]
    rintro ⟨c1, ⟨c, c2⟩, c3⟩
    refine hvar ⟨op ▸ c1, ⟨c, fun k hk => ?_⟩, by rw [← oi]; exact c3⟩
    rw [← (ov k hk).2.2]
    exact c2 k (by rw [oi]; exact hk)) h'
  have hp : Cell.str "pretest" ∈ (w.pivoted metric).periods := (pretest_periods w metric).mpr hpre
  obtain ⟨test, vt, ⟨hc, -⟩ | ⟨-, pre, vp, hcu⟩⟩ := hy
  · exact absurd hp hc
  obtain ⟨test', vt', ⟨hc, -⟩ | ⟨-, pre', vp', hcu'⟩⟩ := hy'
  · exact absurd (op ▸ hp) hc
  have hpp : pre' = pre := by
    unfold Spec.ValuesOf at vp vp'
    rw [oi] at vp'
    have hv : ∀ k ∈ (w.pivoted metric).index, (out.pivoted metric).value k metric "pretest" = (w.pivoted metric).value k metric "pretest" :=
      fun k hk => (ov k hk).2.2
    clear * - vp vp' hv
    generalize (w.pivoted metric).index = idx at *
    induction vp generalizing pre' with
    | nil => cases vp'; rfl
    | cons hx _ ih =>
      rcases vp' with _ | ⟨hx', hr'⟩
      rw [hv _ (by simp), hx] at hx'
      rw [ih _ hr' (fun k hk => hv k (List.mem_cons_of_mem _ hk)), Fl.fin.inj hx']
  subst hpp
  have vt0 := vt
  have vp0 := vp
  unfold Spec.ValuesOf at vt vt' vp
  rw [oi] at vt'
  have hs := group_values_shift (e := e) vt vt' (fun k hk => ⟨(ov k hk).1, (ov k hk).2.1⟩)
  simp only [Option.getD_none, hq] at hr hr' hcu hcu'
  have hg : ∀ b v, Spec.groupOf (out.pivoted metric) b v = Spec.groupOf (w.pivoted metric) b v := by
    intro b v; unfold Spec.groupOf; rw [oi]
  rw [hg, hg] at hr'
  obtain ⟨L, hL, rfl, rfl⟩ := exists_triples vt.length_eq.symm vp.length_eq.symm
  have hs' : test' = L.map (fun p => p.2.1 + e * (if Spec.AssignedTo 1 p.1 then (1 : ℝ) else 0)) := by
    rw [hs, hL, List.zipWith_map_left, List.zipWith_map_right, List.zipWith_self]
    apply List.map_congr_left
    intro p _
    split_ifs <;> simp
  subst hs'
  obtain ⟨hv, rfl⟩ := cuped_zero_triples hcu
  obtain ⟨-, rfl⟩ := cuped_zero_triples hcu'
  have hallL : ∀ p ∈ L, Spec.AssignedTo 0 p.1 ∨ Spec.AssignedTo 1 p.1 := by
    intro p hp
    have : p.1 ∈ (w.pivoted metric).index := by rw [hL]; exact List.mem_map_of_mem hp
    obtain ⟨r, hr, he⟩ := List.mem_map.mp this
    rw [← he]
    exact hall r hr
  simp only [groupOf_triples hL] at hr hr'
  obtain ⟨a1, n1, n0⟩ := ind_untrimmed_difference hr
  obtain ⟨a2, -, -⟩ := ind_untrimmed_difference hr'
  have n1' : L.filter (fun p => decide (Spec.AssignedTo 1 p.1)) ≠ [] := by simpa using n1
  have n0' : L.filter (fun p => decide (Spec.AssignedTo 0 p.1)) ≠ [] := by simpa using n0
  have hLne : L ≠ [] := by rintro rfl; simp at n1
  have hind := crossDev_indicator hallL n1' n0'
  simp only at hind
  have hcr : Spec.crossDev (L.map (fun p => p.2.1 + e * (if Spec.AssignedTo 1 p.1 then (1 : ℝ) else 0))) (L.map (fun p => p.2.2)) =
      Spec.crossDev (L.map (fun p => p.2.1)) (L.map (fun p => p.2.2)) +
        e * Spec.crossDev (L.map (fun p => if Spec.AssignedTo 1 p.1 then (1 : ℝ) else 0)) (L.map (fun p => p.2.2)) := by
    have := crossDev_comb hLne (fun p => p.2.1) (fun p => if Spec.AssignedTo 1 p.1 then (1 : ℝ) else 0) (fun p => p.2.2) 1 e 0
    simp only [one_mul, add_zero] at this
    exact this
  have hi1 : ∀ p ∈ L.filter (fun p => decide (Spec.AssignedTo 1 p.1)), (if Spec.AssignedTo 1 p.1 then (1 : ℝ) else 0) = 1 := by
    intro p hp
    rw [if_pos (by simpa using (List.mem_filter.mp hp).2)]
  have hi0 : ∀ p ∈ L.filter (fun p => decide (Spec.AssignedTo 0 p.1)), (if Spec.AssignedTo 1 p.1 then (1 : ℝ) else 0) = 0 := by
    intro p hp
    have : Spec.AssignedTo 0 p.1 := by simpa using (List.mem_filter.mp hp).2
    rw [if_neg]
    intro h1
    have := assigned_unique this h1
    norm_num at this
  rw [hcr, hind] at a2
  have hvpos : 0 < Spec.sumSqDev (L.map (fun p => p.2.2)) := lt_of_le_of_ne (sumSqDev_nonneg _) (Ne.symm hv)
  refine ⟨L.map (fun p => p.2.2), vp0, hvpos, ?_⟩
  simp only [groupOf_triples hL]
  generalize L.filter (fun p => decide (Spec.AssignedTo 1 p.1)) = L1 at *
  generalize L.filter (fun p => decide (Spec.AssignedTo 0 p.1)) = L0 at *
  generalize Spec.crossDev (L.map (fun p => p.2.1)) (L.map (fun p => p.2.2)) = C at *
  generalize Spec.sumSqDev (L.map (fun p => p.2.2)) = S at *
  generalize Spec.mean (L.map (fun p => p.2.2)) = ξ at *
  simp only [List.length_map]
  have l1 : 0 < L1.length := List.length_pos_of_ne_nil n1'
  have l0 : 0 < L0.length := List.length_pos_of_ne_nil n0'
  have lL : 0 < L.length := List.length_pos_of_ne_nil hLne
  have f1 : ∀ (l : List (List (Cell ℝ) × ℝ × ℝ)), l ≠ [] → ∀ t c : ℝ, Spec.mean (l.map (fun p => p.2.1 + c - t * (p.2.2 - ξ))) =
      Spec.mean (l.map (fun p => p.2.1)) + c - t * (Spec.mean (l.map (fun p => p.2.2)) - ξ) := by
    intro l hl t c
    have := mean_comb hl (fun p => p.2.1) (fun p => p.2.2) 1 (-t) (c + t * ξ)
    have e2 : l.map (fun p => p.2.1 + c - t * (p.2.2 - ξ)) = l.map (fun p => 1 * p.2.1 + -t * p.2.2 + (c + t * ξ)) :=
      List.map_congr_left (fun p _ => by ring)
    rw [e2, this]
    ring
  have g1 : ∀ (l : List (List (Cell ℝ) × ℝ × ℝ)) (t : ℝ), l.map (fun p => p.2.1 - t * (p.2.2 - ξ)) =
      l.map (fun p => p.2.1 + 0 - t * (p.2.2 - ξ)) := fun l t => List.map_congr_left (fun p _ => by ring)
  have key : r'.absoluteDifference = r.absoluteDifference + fin (e * (1 - (L1.length : ℝ) * L0.length / L.length *
        (Spec.mean (L1.map (fun p => p.2.2)) - Spec.mean (L0.map (fun p => p.2.2))) ^ 2 / S)) := by
    rw [a1, a2, fin_add]
    rw [g1, g1, f1 L1 n1', f1 L0 n0']
    have m1 : ∀ t : ℝ, L1.map (fun p => p.2.1 + e * (if Spec.AssignedTo 1 p.1 then (1 : ℝ) else 0) - t * (p.2.2 - ξ)) =
        L1.map (fun p => p.2.1 + e - t * (p.2.2 - ξ)) := fun t => List.map_congr_left (fun p hp => by rw [hi1 p hp, mul_one])
    have m0 : ∀ t : ℝ, L0.map (fun p => p.2.1 + e * (if Spec.AssignedTo 1 p.1 then (1 : ℝ) else 0) - t * (p.2.2 - ξ)) =
        L0.map (fun p => p.2.1 + 0 - t * (p.2.2 - ξ)) := fun t => List.map_congr_left (fun p hp => by rw [hi0 p hp, mul_zero])
    rw [m1, m0, f1 L1 n1', f1 L0 n0']
    congr 1
    field_simp
    ring
  refine ⟨l1, l0, key, fun he => ?_⟩
  rw [key, a1, fin_add, fin_add]
  constructor
  · intro hc
    have h1 := add_left_cancel (Fl.fin.inj hc)
    have h2 : (1 - (L1.length : ℝ) * L0.length / L.length *
        (Spec.mean (L1.map (fun p => p.2.2)) - Spec.mean (L0.map (fun p => p.2.2))) ^ 2 / S) = 1 :=
      mul_left_cancel₀ he (by rw [h1, mul_one])
    have h3 : (L1.length : ℝ) * L0.length / L.length *
        (Spec.mean (L1.map (fun p => p.2.2)) - Spec.mean (L0.map (fun p => p.2.2))) ^ 2 / S = 0 := by linarith
    have hn1 : (L1.length : ℝ) ≠ 0 := by positivity
    have hn0 : (L0.length : ℝ) ≠ 0 := by positivity
    have hnL : (L.length : ℝ) ≠ 0 := by positivity
    have : (Spec.mean (L1.map (fun p => p.2.2)) - Spec.mean (L0.map (fun p => p.2.2))) ^ 2 = 0 := by
      field_simp at h3
      simpa [hn1, hn0] using h3
    have := pow_eq_zero_iff two_ne_zero |>.mp this
    linarith
  · intro hc
    rw [hc]
    congr 2
    ring

/-! ### Tables for which the analyses return -/

theorem analyze_crossover_trimmed_returns {R : Rounding ℝ} {argsort : List ℝ → List ℕ} (ha : ArgsortOk argsort) {D : TDist} {piv : Pivoted ℝ}
    {metrics : List String} {itemCol treatmentCol : String} (hne : itemCol ≠ treatmentCol)
    (hi : ¬ Spec.Reserved itemCol) (ht : ¬ Spec.Reserved treatmentCol) (hidx : ∀ k ∈ piv.index, k.length = 2)
    (hi' : Cell.str itemCol ∉ piv.periods) (ht' : Cell.str treatmentCol ∉ piv.periods)
    {d : DesignParams ℝ} (hd : d.isCrossover = true) {metric : String} (hm : metric ∈ metrics)
    (h1 : Cell.str "test_1" ∈ piv.periods) (h2 : Cell.str "test_2" ∈ piv.periods)
    {y1 y2 : List ℝ} (hy1 : Spec.ValuesOf piv metric "test_1" y1) (hy2 : Spec.ValuesOf piv metric "test_2" y2)
    (h0 : 0 ≤ d.postTrim.val) (hh : d.postTrim.val < 1 / 2) (hl : 2 * nTrimOf R d.postTrim.val piv.index.length + 1 < piv.index.length) :
    ∃ r, analyzeSingleMetric R argsort D piv metrics [itemCol, treatmentCol] d metric none treatmentCol none = .ok r := by
  obtain ⟨f, hf⟩ := metricSubset_returns (metrics := metrics) hm hi' ht'
  unfold Spec.Reserved at hi ht
  push Not at hi ht
  unfold analyzeSingleMetric
  rw [hf]
  have hreq : ¬ ((requiredColumns d treatmentCol).any (fun c => decide (c ∉ f.cols) || false) = true) := by
    have e1 : treatmentCol ∈ f.cols := by rw [(metricSubset_ok hf).1]; simp
    have e2 : "test_1" ∈ f.cols := (mem_period_cols hf hi.2.2.1.symm ht.2.2.1.symm (by decide)).mpr h1
    have e3 : "test_2" ∈ f.cols := (mem_period_cols hf hi.2.2.2.symm ht.2.2.2.symm (by decide)).mpr h2
    simp [requiredColumns, hd, e1, e2, e3]
  simp only [bind, Except.bind, pure, Except.pure]
  unfold raiseIf
  rw [if_neg hreq, hd]
  simp only [if_true, Option.getD_none]
  unfold analyzeCrossover crossoverItems
  rw [subset_values_eq hf hi.2.2.1.symm ht.2.2.1.symm hy1, subset_values_eq hf hi.2.2.2.symm ht.2.2.2.symm hy2]
  simp only [bind, Except.bind, pure, Except.pure]
  have hl1 := hy1.length_eq
  have hl2 := hy2.length_eq
  generalize hy : prepareCrossover _ (((f.col treatmentCol).map (cellEq 1)).zip (y1.zip y2)) (decide (d.postTrim.val = 0)) = y
  have hlen : y.1.length = piv.index.length ∧ y.2.length = piv.index.length := by
    rw [← hy, subset_mask hf hne hidx 1]
    rw [(prepareCrossover_length _ _ _).1, (prepareCrossover_length _ _ _).2]
    simp [← hl1, ← hl2]
  have hs : (stack3 y.1 y.2).length = piv.index.length := by simp [stack3, hlen]
  unfold pairedTest raiseIf
  rw [if_neg (by simp [hlen]), mkTrimmed_eq ha _ h0 hh (by rw [hs]; omega)]
  simp only [bind, Except.bind]
  rw [if_neg]
  · exact resultsFrom_returns (by simp [KnownAlt]) (by simp)
  · obtain ⟨-, low, high, hp, hlo, hhi, -⟩ :=
      trimmedIndex_trims ha (stack3 y.1 y.2) (nTrimOf R d.postTrim.val (stack3 y.1 y.2).length) (by rw [hs]; omega)
    have hlen' := hp.length_eq
    simp only [List.length_append] at hlen'
    rw [hlo, hhi] at hlen'
    unfold TrimmedArray.len
    dsimp only
    rw [hs] at hlen' ⊢
    omega

theorem analyze_crossover_returns {R : Rounding ℝ} {argsort : List ℝ → List ℕ} (ha : ArgsortOk argsort) {D : TDist} {piv : Pivoted ℝ}
    {metrics : List String} {itemCol treatmentCol : String} (hne : itemCol ≠ treatmentCol)
    (hi : ¬ Spec.Reserved itemCol) (ht : ¬ Spec.Reserved treatmentCol) (hidx : ∀ k ∈ piv.index, k.length = 2)
    (hi' : Cell.str itemCol ∉ piv.periods) (ht' : Cell.str treatmentCol ∉ piv.periods)
    {d : DesignParams ℝ} (hd : d.isCrossover = true) {metric : String} (hm : metric ∈ metrics)
    (h1 : Cell.str "test_1" ∈ piv.periods) (h2 : Cell.str "test_2" ∈ piv.periods)
    {y1 y2 : List ℝ} (hy1 : Spec.ValuesOf piv metric "test_1" y1) (hy2 : Spec.ValuesOf piv metric "test_2" y2)
    (hl : 1 < piv.index.length) (h0 : 0 ≤ d.postTrim.val) (hh : d.postTrim.val < 1 / 2)
    (hz : nTrimOf R d.postTrim.val piv.index.length = 0) :
    ∃ r, analyzeSingleMetric R argsort D piv metrics [itemCol, treatmentCol] d metric none treatmentCol none = .ok r :=
  analyze_crossover_trimmed_returns ha hne hi ht hidx hi' ht' hd hm h1 h2 hy1 hy2 h0 hh (by rw [hz]; omega)

/-- A row from its index and a list of labelled values. -/
noncomputable def exampleRow (k : List (Cell ℝ)) (l : List (List String × ℝ)) : WideRow ℝ :=
  ⟨k, fun lab => match l.lookup lab with
    | some x => .fin x
    | none => .nan⟩

/-- Three items in a crossover, one of them treated first. -/
noncomputable def unevenCrossover : Wide ℝ where
  names := ["item_id", "treatment_assignment"]
  cols := [["clicks", "test_1"], ["clicks", "test_2"]]
  rows := [exampleRow [.str "a", .int 0] [(["clicks", "test_1"], 4), (["clicks", "test_2"], 4)],
    exampleRow [.str "b", .int 1] [(["clicks", "test_1"], 3), (["clicks", "test_2"], 5)],
    exampleRow [.str "c", .int 0] [(["clicks", "test_1"], 1), (["clicks", "test_2"], 2)]]

theorem uneven_assigned : Spec.AssignedTable unevenCrossover "item_id" "treatment_assignment" := by
  refine ⟨rfl, by decide, by unfold Spec.Reserved; decide, by unfold Spec.Reserved; decide, ?_⟩
  simp [unevenCrossover, exampleRow]

theorem uneven_count : Spec.treatedCount unevenCrossover "treatment_assignment" = 1 := by
  rw [treatedCount_eq uneven_assigned "clicks"]
  simp [unevenCrossover, Wide.pivoted, exampleRow, assignedTo_int]

/-- Both analyses of the table return, with any trimming fraction up to one sixth and any effect. -/
theorem uneven_returns (R : Rounding ℝ) (argsort : List ℝ → List ℕ) (ha : ArgsortOk argsort) (D : TDist) (q e : ℝ) (h0 : 0 ≤ q)
    (h1 : q ≤ 1 / 6) :
    ∃ out r r', applyEffect unevenCrossover "clicks" true (.fin e) "treatment_assignment" = .ok out ∧
      analyzeWide R argsort D unevenCrossover { tenPercentParams with isCrossover := true, washout := some 0, postTrim := .float q } "clicks"
        "treatment_assignment" = .ok r ∧
      analyzeWide R argsort D out { tenPercentParams with isCrossover := true, washout := some 0, postTrim := .float q } "clicks"
        "treatment_assignment" = .ok r' := by
  have hz : nTrimOf R q 3 = 0 := by
    unfold nTrimOf Rounding.floorMul
    have m := R.mono (show q * ((3 : ℤ) : ℝ) ≤ ((1 : ℤ) : ℝ) / 2 by push_cast; linarith)
    rw [R.halfFix 1 (by norm_num)] at m
    have m0 := R.mono (show ((0 : ℤ) : ℝ) ≤ q * ((3 : ℤ) : ℝ) by push_cast; linarith)
    rw [R.intFix 0 (by norm_num)] at m0
    rw [Int.toNat_eq_zero]
    have : ⌊R.rnd (q * ((3 : ℤ) : ℝ))⌋ < 1 := by
      rw [Int.floor_lt]
      push_cast at m ⊢
      linarith
    have e3 : (((3 : ℕ) : ℤ) : ℝ) = ((3 : ℤ) : ℝ) := by norm_num
    rw [e3]
    omega
  have hap : applyEffect unevenCrossover "clicks" true (.fin e) "treatment_assignment" =
      .ok (addWhere (addWhere unevenCrossover (isTreated unevenCrossover.names "treatment_assignment") ["clicks", "test_1"] (.fin e))
        (fun k => !isTreated unevenCrossover.names "treatment_assignment" k) ["clicks", "test_2"] (.fin e)) := by
    unfold applyEffect
    refine raiseIf_bind_ok.mpr ⟨by simp [unevenCrossover], raiseIf_bind_ok.mpr ⟨by simp [unevenCrossover], rfl⟩⟩
  have any : ∀ w : Wide ℝ, w.names = unevenCrossover.names → w.cols = unevenCrossover.cols → w.rows.map WideRow.key = unevenCrossover.rows.map WideRow.key →
      (∃ y1, Spec.ValuesOf (w.pivoted "clicks") "clicks" "test_1" y1) → (∃ y1, Spec.ValuesOf (w.pivoted "clicks") "clicks" "test_2" y1) →
      ∃ r, analyzeWide R argsort D w { tenPercentParams with isCrossover := true, washout := some 0, postTrim := .float q } "clicks"
        "treatment_assignment" = .ok r := by
    intro w hn hc hk ⟨y1, hy1⟩ ⟨y2, hy2⟩
    have hp : (w.pivoted "clicks").periods = [.str "test_1", .str "test_2"] := by
      unfold Wide.pivoted
      rw [hc]
      simp [unevenCrossover]
    have hx : (w.pivoted "clicks").index = [[.str "a", .int 0], [.str "b", .int 1], [.str "c", .int 0]] := by
      unfold Wide.pivoted
      rw [hk]
      simp [unevenCrossover, exampleRow]
    obtain ⟨r, hr⟩ := analyze_crossover_returns ha (D := D) (piv := w.pivoted "clicks") (metrics := w.cols.map (fun l => l.headD ""))
      (itemCol := "item_id") (treatmentCol := "treatment_assignment")
      (d := { tenPercentParams with isCrossover := true, washout := some 0, postTrim := .float q }) (metric := "clicks") (R := R)
      (by decide) (by unfold Spec.Reserved; decide) (by unfold Spec.Reserved; decide) (by rw [hx]; simp) (by rw [hp]; simp) (by rw [hp]; simp)
      rfl (by rw [hc]; simp [unevenCrossover]) (by rw [hp]; simp) (by rw [hp]; simp) hy1 hy2 (by rw [hx]; simp) h0
      (by show q < 1 / 2; linarith) (by rw [hx]; exact hz)
    refine ⟨r, raiseIf_bind_ok.mpr ⟨?_, ?_⟩⟩
    · rw [hk, hc]
      simp [unevenCrossover, exampleRow]
    · rw [hn]; exact hr
  obtain ⟨r, hr⟩ := any unevenCrossover rfl rfl rfl ⟨[4, 3, 1], by simp [Spec.ValuesOf, Wide.pivoted, unevenCrossover, exampleRow, List.find?_cons, List.lookup]⟩
    ⟨[4, 5, 2], by simp [Spec.ValuesOf, Wide.pivoted, unevenCrossover, exampleRow, List.find?_cons, List.lookup]⟩
  obtain ⟨r', hr'⟩ := any (addWhere (addWhere unevenCrossover (isTreated unevenCrossover.names "treatment_assignment") ["clicks", "test_1"] (.fin e))
        (fun k => !isTreated unevenCrossover.names "treatment_assignment" k) ["clicks", "test_2"] (.fin e)) rfl rfl
    (by simp [addWhere, List.map_map, Function.comp_def])
    ⟨[4, 3 + e, 1], by
      simp [Spec.ValuesOf, Wide.pivoted, unevenCrossover, exampleRow, addWhere, List.find?_cons, List.lookup, isTreated, levelOf, Cell.toFl, fin_add]⟩
    ⟨[4 + e, 5, 2 + e], by
      simp [Spec.ValuesOf, Wide.pivoted, unevenCrossover, exampleRow, addWhere, List.find?_cons, List.lookup, isTreated, levelOf, Cell.toFl, fin_add]⟩
  exact ⟨_, r, r', hap, hr, hr'⟩

/-- **C70 fails.**  A crossover design without trimming and three items, one of them treated first: after adding 9 to every treated value the
analysis reports a difference that is only 8 larger. -/
theorem C70_false (R : Rounding ℝ) (argsort : List ℝ → List ℕ) (ha : ArgsortOk argsort) (D : TDist) :
    ∃ (w out : Wide ℝ) (d : DesignParams ℝ) (r r' : TestResult), Spec.AssignedTable w "item_id" "treatment_assignment" ∧
      applyEffect w "clicks" d.isCrossover (.fin 9) "treatment_assignment" = .ok out ∧
      analyzeWide R argsort D w d "clicks" "treatment_assignment" = .ok r ∧
      analyzeWide R argsort D out d "clicks" "treatment_assignment" = .ok r' ∧
      r'.absoluteDifference = r.absoluteDifference + fin 8 ∧ r'.absoluteDifference ≠ r.absoluteDifference + fin 9 := by
  obtain ⟨out, r, r', h1, h2, h3⟩ := uneven_returns R argsort ha D 0 9 le_rfl (by norm_num)
  obtain ⟨e1, -, e2⟩ := C70_crossover_partial R argsort D unevenCrossover out "item_id" "treatment_assignment" "clicks" uneven_assigned _ rfl rfl 9 r r'
    h1 h2 h3 3 1 2 rfl uneven_count.symm rfl
  refine ⟨unevenCrossover, out, { tenPercentParams with isCrossover := true, washout := some 0, postTrim := .float 0 }, r, r', uneven_assigned, h1, h2, h3, ?_, e2 (by decide) (by norm_num)⟩
  rw [e1]
  norm_num

/-- C70 for trimmed crossovers is not vacuous: a design that trims a tenth at both ends. -/
example (R : Rounding ℝ) (argsort : List ℝ → List ℕ) (ha : ArgsortOk argsort) (D : TDist) (e : ℝ) :
    ∃ (w out : Wide ℝ) (d : DesignParams ℝ) (r r' : TestResult), Spec.AssignedTable w "item_id" "treatment_assignment" ∧
      d.isCrossover = true ∧ d.postTrim.val ≠ 0 ∧
      applyEffect w "clicks" d.isCrossover (.fin e) "treatment_assignment" = .ok out ∧
      analyzeWide R argsort D w d "clicks" "treatment_assignment" = .ok r ∧
      analyzeWide R argsort D out d "clicks" "treatment_assignment" = .ok r' := by
  obtain ⟨out, r, r', h1, h2, h3⟩ := uneven_returns R argsort ha D (1 / 10) e (by norm_num) (by norm_num)
  exact ⟨unevenCrossover, out, { tenPercentParams with isCrossover := true, washout := some 0, postTrim := .float (1 / 10) }, r, r', uneven_assigned, rfl,
    by simp [PyNum.val], h1, h2, h3⟩

/-- Four items in a regular experiment, with or without pretest values. -/
noncomputable def fourItems (pre : Bool) (e : ℝ) : Wide ℝ where
  names := ["item_id", "treatment_assignment"]
  cols := ["clicks", "test"] :: (if pre then [["clicks", "pretest"]] else [])
  rows := [exampleRow [.str "a", .int 0] [(["clicks", "test"], 4), (["clicks", "pretest"], 1)],
    exampleRow [.str "b", .int 1] [(["clicks", "test"], 3 + e), (["clicks", "pretest"], 2)],
    exampleRow [.str "c", .int 0] [(["clicks", "test"], 1), (["clicks", "pretest"], 3)],
    exampleRow [.str "d", .int 1] [(["clicks", "test"], 7 + e), (["clicks", "pretest"], 2)]]

theorem four_periods (pre : Bool) (e : ℝ) : ((fourItems pre e).pivoted "clicks").periods =
    .str "test" :: (if pre then [.str "pretest"] else []) := by
  cases pre <;> simp [Wide.pivoted, fourItems]

theorem four_index (pre : Bool) (e : ℝ) : ((fourItems pre e).pivoted "clicks").index =
    [[.str "a", .int 0], [.str "b", .int 1], [.str "c", .int 0], [.str "d", .int 1]] := by
  simp [Wide.pivoted, fourItems, exampleRow]

theorem four_assigned (pre : Bool) (e : ℝ) : Spec.AssignedTable (fourItems pre e) "item_id" "treatment_assignment" := by
  refine ⟨rfl, by decide, by unfold Spec.Reserved; decide, by unfold Spec.Reserved; decide, ?_⟩
  simp [fourItems, exampleRow]

theorem four_values (pre : Bool) (e : ℝ) :
    Spec.ValuesOf ((fourItems pre e).pivoted "clicks") "clicks" "test" [4, 3 + e, 1, 7 + e] ∧
    Spec.ValuesOf ((fourItems pre e).pivoted "clicks") "clicks" "pretest" [1, 2, 3, 2] := by
  constructor <;>
  simp [Spec.ValuesOf, Wide.pivoted, fourItems, exampleRow, List.find?_cons, List.lookup]

theorem four_effect (pre : Bool) (e : ℝ) :
    applyEffect (fourItems pre 0) "clicks" false (.fin e) "treatment_assignment" = .ok (addWhere (fourItems pre 0)
      (isTreated (fourItems pre 0).names "treatment_assignment") ["clicks", "test"] (.fin e)) := by
  unfold applyEffect
  refine raiseIf_bind_ok.mpr ⟨by simp [fourItems], raiseIf_bind_ok.mpr ⟨by simp [fourItems], rfl⟩⟩

theorem four_effect_values (pre : Bool) (e : ℝ) (p : String) (hp : p = "test" ∨ p = "pretest") : 
    ∀ k ∈ ((fourItems pre e).pivoted "clicks").index,
    ((addWhere (fourItems pre 0) (isTreated (fourItems pre 0).names "treatment_assignment") ["clicks", "test"] (.fin e)).pivoted "clicks").value k
      "clicks" p = ((fourItems pre e).pivoted "clicks").value k "clicks" p := by
  intro k hk
  rw [four_index] at hk
  rw [addWhere_value]
  rcases hp with rfl | rfl <;> simp only [List.mem_cons, List.not_mem_nil, or_false] at hk <;> rcases hk with rfl | rfl | rfl | rfl <;>
  simp [Wide.pivoted, fourItems, exampleRow, List.find?_cons, List.lookup, isTreated, levelOf, Cell.toFl, fin_add]

/-- The regular analysis of a plain metric with pretest data and without trimming, as an equation. -/
theorem analyze_cuped_eq {R : Rounding ℝ} {argsort : List ℝ → List ℕ} {D : TDist} {piv : Pivoted ℝ}
    {metrics : List String} {itemCol treatmentCol : String} (hne : itemCol ≠ treatmentCol)
    (hi : ¬ Spec.Reserved itemCol) (ht : ¬ Spec.Reserved treatmentCol) (hidx : ∀ k ∈ piv.index, k.length = 2)
    (hi' : Cell.str itemCol ∉ piv.periods) (ht' : Cell.str treatmentCol ∉ piv.periods)
    {d : DesignParams ℝ} (hd : d.isCrossover = false) {metric : String} (hm : metric ∈ metrics)
    (htest : Cell.str "test" ∈ piv.periods) (hp : Cell.str "pretest" ∈ piv.periods)
    {y x z : List ℝ} (hy : Spec.ValuesOf piv metric "test" y) (hx : Spec.ValuesOf piv metric "pretest" x)
    (hz : cuped R argsort y x d.postTrim.val = .ok (z.map .fin)) :
    analyzeSingleMetric R argsort D piv metrics [itemCol, treatmentCol] d metric none treatmentCol none =
      indTest R argsort D (Spec.groupOf piv 1 z) (Spec.groupOf piv 0 z) d.postTrim.val none none false
        "two-sided" defaultAlpha := by
  obtain ⟨f, hf⟩ := metricSubset_returns (metrics := metrics) hm hi' ht'
  unfold Spec.Reserved at hi ht
  push Not at hi ht
  have hp' : "pretest" ∈ f.cols := by
    rw [mem_period_cols hf hi.1.symm ht.1.symm (by decide)]; exact hp
  unfold analyzeSingleMetric
  rw [hf]
  have hreq : ¬ ((requiredColumns d treatmentCol).any (fun c => decide (c ∉ f.cols) || false) = true) := by
    have e1 : treatmentCol ∈ f.cols := by rw [(metricSubset_ok hf).1]; simp
    have e2 : "test" ∈ f.cols := (mem_period_cols hf hi.2.1.symm ht.2.1.symm (by decide)).mpr htest
    simp only [requiredColumns, hd]
    by_cases h0 : 0 < d.pretest <;> simp [h0, e1, e2, hp']
  simp only [bind, Except.bind, pure, Except.pure]
  unfold raiseIf
  rw [if_neg hreq, hd]
  simp only [Bool.false_eq_true, if_false, Option.getD_none]
  unfold analyzeRegular prepareRegular
  rw [subset_values_eq hf hi.2.1.symm ht.2.1.symm hy, subset_values_eq hf hi.1.symm ht.1.symm hx, subset_mask hf hne hidx 1,
    subset_mask hf hne hidx 0]
  simp only [if_pos hp', bind, Except.bind, hz]
  exact (congrArg₂ (fun a b => indTestFl R argsort D (a, b) d.postTrim.val none) (maskSelect_group 1 z) (maskSelect_group 0 z)).trans (indTestFl_fin _ _ _)

/-- The analysis when every adjusted value is nan. -/
theorem analyze_cuped_nan {R : Rounding ℝ} {argsort : List ℝ → List ℕ} {D : TDist} {piv : Pivoted ℝ}
    {metrics : List String} {itemCol treatmentCol : String} (hne : itemCol ≠ treatmentCol)
    (hi : ¬ Spec.Reserved itemCol) (ht : ¬ Spec.Reserved treatmentCol) (hidx : ∀ k ∈ piv.index, k.length = 2)
    (hi' : Cell.str itemCol ∉ piv.periods) (ht' : Cell.str treatmentCol ∉ piv.periods)
    {d : DesignParams ℝ} (hd : d.isCrossover = false) {metric : String} (hm : metric ∈ metrics)
    (htest : Cell.str "test" ∈ piv.periods) (hp : Cell.str "pretest" ∈ piv.periods)
    {y x : List ℝ} (hy : Spec.ValuesOf piv metric "test" y) (hx : Spec.ValuesOf piv metric "pretest" x)
    (hz : cuped R argsort y x d.postTrim.val = .ok (y.map fun _ => .nan)) :
    analyzeSingleMetric R argsort D piv metrics [itemCol, treatmentCol] d metric none treatmentCol none =
      indTestFl R argsort D (List.replicate (groupSize piv 1) .nan, List.replicate (groupSize piv 0) .nan) d.postTrim.val none := by
  obtain ⟨f, hf⟩ := metricSubset_returns (metrics := metrics) hm hi' ht'
  unfold Spec.Reserved at hi ht
  push Not at hi ht
  have hp' : "pretest" ∈ f.cols := by
    rw [mem_period_cols hf hi.1.symm ht.1.symm (by decide)]; exact hp
  unfold analyzeSingleMetric
  rw [hf]
  have hreq : ¬ ((requiredColumns d treatmentCol).any (fun c => decide (c ∉ f.cols) || false) = true) := by
    have e1 : treatmentCol ∈ f.cols := by rw [(metricSubset_ok hf).1]; simp
    have e2 : "test" ∈ f.cols := (mem_period_cols hf hi.2.1.symm ht.2.1.symm (by decide)).mpr htest
    simp only [requiredColumns, hd]
    by_cases h0 : 0 < d.pretest <;> simp [h0, e1, e2, hp']
  simp only [bind, Except.bind, pure, Except.pure]
  unfold raiseIf
  rw [if_neg hreq, hd]
  simp only [Bool.false_eq_true, if_false, Option.getD_none]
  unfold analyzeRegular prepareRegular
  rw [subset_values_eq hf hi.2.1.symm ht.2.1.symm hy, subset_values_eq hf hi.1.symm ht.1.symm hx, subset_mask hf hne hidx 1,
    subset_mask hf hne hidx 0]
  simp only [if_pos hp', bind, Except.bind, hz]
  exact congrArg₂ (fun a b => indTestFl R argsort D (a, b) d.postTrim.val none) (maskSelect_nan 1 hy.length_eq.symm) (maskSelect_nan 0 hy.length_eq.symm)

theorem indTest_zero_returns (R : Rounding ℝ) (argsort : List ℝ → List ℕ) (D : TDist) {v1 v2 : List ℝ} (h1 : 1 < v1.length) (h2 : 1 < v2.length)
    (h : Spec.mean v2 ≠ 0) : ∃ r, indTest R argsort D v1 v2 0 none none false "two-sided" defaultAlpha = .ok r := by
  rw [indTest_plain_returns (mkTrimmed_zero _ _ _) (mkTrimmed_zero _ _ _)
      (by simpa [TrimmedArray.len, length_asStack] using h1) (by simpa [TrimmedArray.len, length_asStack] using h2)]
  refine resultsFrom_returns (by simp [KnownAlt]) ?_
  rintro ⟨-, h', -⟩
  apply h
  have : (⟨asStack v2, 0, asStack v2⟩ : TrimmedArray ℝ 0).mean 0 = 0 := Fl.fin.inj h'
  unfold TrimmedArray.mean at this
  rw [row0_asStack] at this
  simpa [TrimmedArray.len, length_asStack, Spec.mean] using this

theorem four_cuped (R : Rounding ℝ) (argsort : List ℝ → List ℕ) (e : ℝ) :
    cuped R argsort [4, 3 + e, 1, 7 + e] [1, 2, 3, 2] 0 = .ok ([5 / 2, 3 + e, 5 / 2, 7 + e].map .fin) := by
  unfold cuped
  have h1 : sampleCov ([1, 2, 3, 2] : List ℝ) [1, 2, 3, 2] = 2 / 3 := by norm_num [sampleCov, meanOf]
  have h2 : sampleCov ([4, 3 + e, 1, 7 + e] : List ℝ) [1, 2, 3, 2] = -1 := by simp [sampleCov, meanOf]; ring
  have h3 : meanOf ([1, 2, 3, 2] : List ℝ) = 2 := by norm_num [meanOf]
  refine raiseIf_bind_ok.mpr ⟨by simp, raiseIf_bind_ok.mpr ⟨by simp, raiseIf_bind_ok.mpr ⟨by norm_num, ?_⟩⟩⟩
  rw [h1, if_neg (by norm_num), h2, h3]
  refine Py.bind_eq_ok.mpr ⟨_, mkTrimmed_zero _ _ _, ?_⟩
  rw [if_pos rfl]
  show Except.ok _ = _
  norm_num

/-- C70 for regular experiments is not vacuous, without (`pre = false`) and with pretest values: for every effect both analyses return. -/
theorem four_returns (R : Rounding ℝ) (argsort : List ℝ → List ℕ) (D : TDist) (pre : Bool) (e : ℝ) :
    ∃ out r r', applyEffect (fourItems pre 0) "clicks" false (.fin e) "treatment_assignment" = .ok out ∧
      analyzeWide R argsort D (fourItems pre 0) tenPercentParams "clicks" "treatment_assignment" = .ok r ∧
      analyzeWide R argsort D out tenPercentParams "clicks" "treatment_assignment" = .ok r' := by
  have any : ∀ (w : Wide ℝ) (e : ℝ), w.names = (fourItems pre e).names → w.cols = (fourItems pre e).cols →
      w.rows.map WideRow.key = (fourItems pre e).rows.map WideRow.key →
      (∀ p, p = "test" ∨ p = "pretest" → ∀ k ∈ ((fourItems pre e).pivoted "clicks").index, (w.pivoted "clicks").value k "clicks" p =
        ((fourItems pre e).pivoted "clicks").value k "clicks" p) →
      ∃ r, analyzeWide R argsort D w tenPercentParams "clicks" "treatment_assignment" = .ok r := by
    intro w e hn hc hk hv
    have hp : (w.pivoted "clicks").periods = .str "test" :: (if pre then [.str "pretest"] else []) := by
      rw [← four_periods pre e]
      unfold Wide.pivoted
      rw [hc]
    have hx' : (w.pivoted "clicks").index = ((fourItems pre e).pivoted "clicks").index := by
      unfold Wide.pivoted
      rw [hk]
    have hx : (w.pivoted "clicks").index = [[.str "a", .int 0], [.str "b", .int 1], [.str "c", .int 0], [.str "d", .int 1]] := by
      rw [hx', four_index]
    have vals : ∀ p, p = "test" ∨ p = "pretest" → ∀ v, Spec.ValuesOf ((fourItems pre e).pivoted "clicks") "clicks" p v →
        Spec.ValuesOf (w.pivoted "clicks") "clicks" p v := by
      intro p hp v hvv
      unfold Spec.ValuesOf at hvv ⊢
      rw [hx']
      have this := hv p hp
      clear hv
      generalize ((fourItems pre e).pivoted "clicks").index = idx at hvv this
      induction hvv with
      | nil => exact List.Forall₂.nil
      | cons h _ ih => exact List.Forall₂.cons (by rw [this _ (by simp), h]) (ih (fun k' hk' => this k' (List.mem_cons_of_mem _ hk')))
    have v1 := vals "test" (Or.inl rfl) _ (four_values pre e).1
    have v2 := vals "pretest" (Or.inr rfl) _ (four_values pre e).2
    have g1 : ∀ a b c d : ℝ, Spec.groupOf (w.pivoted "clicks") 1 [a, b, c, d] = [b, d] := by
      intro a b c d
      simp [Spec.groupOf, hx, assignedTo_int]
    have g0 : ∀ a b c d : ℝ, Spec.groupOf (w.pivoted "clicks") 0 [a, b, c, d] = [a, c] := by
      intro a b c d
      simp [Spec.groupOf, hx, assignedTo_int]
    have hr : ∃ r, analyzeSingleMetric R argsort D (w.pivoted "clicks") (w.cols.map (fun l => l.headD "")) w.names tenPercentParams "clicks" none
        "treatment_assignment" none = .ok r := by
      rw [hn]
      cases pre with
      | false =>
        rw [show (fourItems false e).names = ["item_id", "treatment_assignment"] from rfl,
          analyze_regular_eq (by decide) (by unfold Spec.Reserved; decide) (by unfold Spec.Reserved; decide)
          (by rw [hx]; simp) (by rw [hp]; simp) (by rw [hp]; simp) rfl (by simp [tenPercentParams]) (by rw [hc]; simp [fourItems])
          (by rw [hp]; simp) (by rw [hp]; simp) v1, g1, g0]
        exact indTest_zero_returns R argsort D (by simp) (by simp) (by norm_num [Spec.mean])
      | true =>
        rw [show (fourItems true e).names = ["item_id", "treatment_assignment"] from rfl,
          analyze_cuped_eq (by decide) (by unfold Spec.Reserved; decide) (by unfold Spec.Reserved; decide)
          (by rw [hx]; simp) (by rw [hp]; simp) (by rw [hp]; simp) rfl (by rw [hc]; simp [fourItems])
          (by rw [hp]; simp) (by rw [hp]; simp) v1 v2 (four_cuped R argsort e), g1, g0]
        exact indTest_zero_returns R argsort D (by simp) (by simp) (by norm_num [Spec.mean])
    obtain ⟨r, hr⟩ := hr
    refine ⟨r, raiseIf_bind_ok.mpr ⟨?_, hr⟩⟩
    rw [hk, hc]
    cases pre <;> simp [fourItems, exampleRow]
  obtain ⟨r, hr⟩ := any (fourItems pre 0) 0 rfl rfl rfl (fun _ _ _ _ => rfl)
  obtain ⟨r', hr'⟩ := any (addWhere (fourItems pre 0) (isTreated (fourItems pre 0).names "treatment_assignment") ["clicks", "test"] (.fin e)) e
    rfl rfl (by simp [addWhere, fourItems, exampleRow]) (four_effect_values pre e)
  exact ⟨_, r, r', four_effect pre e, hr, hr'⟩

end Feedx
