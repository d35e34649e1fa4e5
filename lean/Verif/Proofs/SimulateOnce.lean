import Verif.Proofs.SimulateTable
import Verif.Props.TTestSymmetry
import Verif.Proofs.OverTime

/-!
The assignment and the two analyses of one simulated experiment.
-/

set_option linter.unusedSectionVars false
set_option linter.unusedSimpArgs false

namespace Feedx
open Fl

variable {R : Rounding ℝ} {argsort : List ℝ → List ℕ} {D : TDist} {c : SimConfig}

/-- The names of the periods (experiment_analysis.py:139-155 and 380-400). -/
def Spec.periodNames : List String := ["pretest", "test", "washout_1", "test_1", "washout_2", "test_2"]

/-- Names with which the simulated assignment works: an ordinary metric name, and item and treatment columns that are not called like a
period or like "metric__period". -/
structure Spec.SimulationNames (metric item treat : String) : Prop where
  plainMetric : Spec.PlainName metric
  plainItem : Spec.NoOuterScore item.toList
  different : item ≠ treat ∧ metric ≠ treat
  free : item ∉ Spec.periodNames ∧ treat ∉ Spec.periodNames
  flat : ∀ p ∈ Spec.periodNames, item ≠ metric ++ "__" ++ p ∧ treat ≠ metric ++ "__" ++ p

theorem plain_period {p : String} (h : p ∈ Spec.periodNames) : Spec.PlainName p := by
  have key : ∀ s : List Char, (∀ i < s.length, ¬ (s[i]? = some '_' ∧ s[i + 1]? = some '_')) → ¬ Spec.HasDoubleScore s := by
    rintro s hs ⟨a, b, rfl⟩
    refine hs a.length (by simp) ⟨?_, ?_⟩ <;> simp [List.getElem?_append]
  simp only [Spec.periodNames, List.mem_cons, List.not_mem_nil, or_false] at h
  rcases h with rfl | rfl | rfl | rfl | rfl | rfl <;> exact ⟨by decide, key _ (by decide), by constructor <;> decide⟩

theorem period_of_timeline {d : DesignParams ℝ} {start : ℤ} {label : String} {lo hi : ℤ} (h : (label, lo, hi) ∈ Spec.timeline d start) :
    label ∈ Spec.periodNames := by
  unfold Spec.timeline at h
  split_ifs at h <;>
  · simp only [Spec.crossoverTimeline, Spec.regularTimeline, List.mem_cons, Prod.mk.injEq, List.not_mem_nil, or_false] at h
    simp only [Spec.periodNames, List.mem_cons, List.not_mem_nil, or_false]
    tauto

/-- A table of assigned items with finite values of one metric. -/
structure SimTable (w : Wide ℝ) (item treat m : String) : Prop where
  names : w.names = [item, treat]
  nodup : (w.rows.map WideRow.key).Nodup
  keys : ∀ r ∈ w.rows, ∃ i : Cell ℝ, ∃ b : Bool, r.key = [i, .int (if b then 1 else 0)]
  cols : ∀ l ∈ w.cols, ∃ p ∈ Spec.periodNames, l = [m, p]
  finite : ∀ l ∈ w.cols, ∀ r ∈ w.rows, ∃ y, r.val l = .fin y

/-- Is the item of the row in group 1? -/
noncomputable def treatedRow (r : WideRow ℝ) : Bool := decide (r.key[1]? = some (.int 1))

/-- The value of a row as a number. -/
noncomputable def numAt (l : List String) (r : WideRow ℝ) : ℝ := match r.val l with
  | .fin y => y
  | _ => 0

theorem SimTable.key {w : Wide ℝ} {item treat m : String} (h : SimTable w item treat m) {r : WideRow ℝ} (hr : r ∈ w.rows) :
    ∃ i, r.key = [i, .int (if treatedRow r then 1 else 0)] := by
  obtain ⟨i, b, e⟩ := h.keys r hr
  refine ⟨i, ?_⟩
  unfold treatedRow
  rw [e]
  cases b <;> simp

theorem SimTable.num {w : Wide ℝ} {item treat m : String} (h : SimTable w item treat m) {l : List String} (hl : l ∈ w.cols) {r : WideRow ℝ}
    (hr : r ∈ w.rows) : r.val l = .fin (numAt l r) := by
  obtain ⟨y, hy⟩ := h.finite l hl r hr
  unfold numAt
  rw [hy]

theorem SimTable.treated {w : Wide ℝ} {item treat m : String} (h : SimTable w item treat m) (hne : item ≠ treat) {r : WideRow ℝ}
    (hr : r ∈ w.rows) : isTreated w.names treat r.key = treatedRow r := by
  obtain ⟨i, b, e⟩ := h.keys r hr
  unfold treatedRow
  rw [h.names, e]
  have hne : (treat == item) = false := by simpa using hne.symm
  cases b <;> simp [isTreated, levelOf, List.lookup, hne, Cell.toFl]

/-- Adding a number keeps the shape of the table. -/
theorem SimTable.addWhere {w : Wide ℝ} {item treat m : String} (h : SimTable w item treat m) (mask : List (Cell ℝ) → Bool) (label : List String)
    (e : ℝ) : SimTable (addWhere w mask label (.fin e)) item treat m := by
  have hmem : ∀ r ∈ (Feedx.addWhere w mask label (.fin e)).rows, ∃ r0 ∈ w.rows, r.key = r0.key ∧
      ∀ l, r.val l = if l = label ∧ mask r0.key = true then r0.val l + .fin e else r0.val l := by
    intro r hr
    obtain ⟨r0, hr0, rfl⟩ := List.mem_map.mp hr
    exact ⟨r0, hr0, rfl, fun _ => rfl⟩
  refine ⟨h.names, ?_, ?_, h.cols, ?_⟩
  · show ((w.rows.map _).map WideRow.key).Nodup
    rw [List.map_map]
    exact h.nodup
  · intro r hr
    obtain ⟨r0, hr0, e1, -⟩ := hmem r hr
    rw [e1]
    exact h.keys r0 hr0
  · intro l hl r hr
    obtain ⟨r0, hr0, -, e2⟩ := hmem r hr
    obtain ⟨y, hy⟩ := h.finite l hl r0 hr0
    rw [e2, hy]
    split_ifs
    · exact ⟨y + e, fin_add _ _⟩
    · exact ⟨y, rfl⟩

theorem SimTable.values {w : Wide ℝ} {item treat m p : String} (h : SimTable w item treat m) (hl : [m, p] ∈ w.cols) :
    Spec.ValuesOf (w.pivoted m) m p (w.rows.map (numAt [m, p])) := by
  unfold Spec.ValuesOf
  show List.Forall₂ _ (w.rows.map WideRow.key) _
  rw [List.forall₂_map_left_iff, List.forall₂_map_right_iff, List.forall₂_same]
  intro r hr
  show (match w.rows.find? (fun r' => decide (r'.key = r.key)) with | some r' => r'.val [m, p] | none => .nan) = _
  obtain ⟨x, hx⟩ : ∃ x, w.rows.find? (fun r' => decide (r'.key = r.key)) = some x := by
    rw [← Option.isSome_iff_exists, List.find?_isSome]
    exact ⟨r, hr, by simp⟩
  have e : x = r := List.inj_on_of_nodup_map h.nodup (List.mem_of_find?_eq_some hx) hr (by simpa using List.find?_some hx)
  rw [hx]
  subst e
  exact h.num hl hr

theorem SimTable.period {w : Wide ℝ} {m p : String} : Cell.str p ∈ (w.pivoted m).periods ↔ [m, p] ∈ w.cols := by
  unfold Wide.pivoted
  simp only [List.mem_filterMap]
  constructor
  · rintro ⟨l, hl, h⟩
    split at h
    · rename_i m' p'
      split_ifs at h with hm
      subst hm
      simp only [Option.some.injEq, Cell.str.injEq] at h
      rw [← h]; exact hl
    · cases h
  · intro h
    exact ⟨_, h, by simp⟩

theorem SimTable.plain {w : Wide ℝ} {item treat m : String} (h : SimTable w item treat m) (hn : Spec.SimulationNames m item treat) :
    ¬ Spec.Reserved item ∧ ¬ Spec.Reserved treat ∧ (∀ k ∈ (w.pivoted m).index, k.length = 2) ∧ Cell.str item ∉ (w.pivoted m).periods ∧
      Cell.str treat ∉ (w.pivoted m).periods := by
  have hres : ∀ s : String, s ∉ Spec.periodNames → ¬ Spec.Reserved s ∧ Cell.str s ∉ (w.pivoted m).periods := by
    intro s hs
    constructor
    · intro hr
      apply hs
      unfold Spec.Reserved at hr
      rcases hr with rfl | rfl | rfl | rfl <;> decide
    · intro hp
      obtain ⟨p, hp', e⟩ := h.cols _ (SimTable.period.mp hp)
      simp only [List.cons.injEq, and_true, true_and] at e
      exact hs (e ▸ hp')
  refine ⟨(hres _ hn.free.1).1, (hres _ hn.free.2).1, ?_, (hres _ hn.free.1).2, (hres _ hn.free.2).2⟩
  intro k hk
  obtain ⟨r, hr, rfl⟩ := List.mem_map.mp hk
  obtain ⟨i, b, e⟩ := h.keys r hr
  rw [e]; rfl

/-- The analysis of a table as the analysis of its pivoted data. -/
theorem SimTable.analyze {w : Wide ℝ} {item treat m : String} (h : SimTable w item treat m) (d : DesignParams ℝ) :
    analyzeWide R argsort D w d m treat =
      analyzeSingleMetric R argsort D (w.pivoted m) (w.cols.map (fun l => l.headD "")) [item, treat] d m none treat none := by
  unfold analyzeWide
  rw [h.names]
  unfold raiseIf
  rw [if_neg]
  · rfl
  · rintro (h1 | h1)
    · exact h1 h.nodup
    · obtain ⟨l, hl, h2⟩ := List.any_eq_true.mp h1
      obtain ⟨p, -, rfl⟩ := h.cols l hl
      simp at h2

theorem mem_heads {w : Wide ℝ} {m p : String} (h : [m, p] ∈ w.cols) : m ∈ w.cols.map (fun l => l.headD "") := List.mem_map.mpr ⟨_, h, rfl⟩

/-- Crossover: the analysis returns whatever the values are. -/
theorem SimTable.crossover_returns {w : Wide ℝ} {item treat m : String} (h : SimTable w item treat m) (ha : ArgsortOk argsort)
    (hn : Spec.SimulationNames m item treat) {d : DesignParams ℝ} (hd : d.isCrossover = true) (h1 : [m, "test_1"] ∈ w.cols)
    (h2 : [m, "test_2"] ∈ w.cols) (hq0 : 0 ≤ d.postTrim.val) (hq1 : d.postTrim.val < 1 / 2) (hle : w.rows.length ≤ 2 ^ 53)
    (hleft : 2 * ⌊R.rnd (d.postTrim.val * (w.rows.length : ℝ))⌋ + 1 < w.rows.length) :
    ∃ r, analyzeWide R argsort D w d m treat = .ok r := by
  rw [h.analyze]
  obtain ⟨hi, ht, hidx, hi', ht'⟩ := h.plain hn
  have hy1 := h.values h1
  have hy2 := h.values h2
  obtain ⟨f, hf⟩ := metricSubset_returns (metrics := w.cols.map (fun l => l.headD "")) (mem_heads h1) hi' ht'
  unfold Spec.Reserved at hi ht
  push Not at hi ht
  unfold analyzeSingleMetric
  rw [hf]
  have hreq : ¬ ((requiredColumns d treat).any (fun c => decide (c ∉ f.cols) || false) = true) := by
    have e1 : treat ∈ f.cols := by rw [(metricSubset_ok hf).1]; simp
    have e2 : "test_1" ∈ f.cols := (mem_period_cols hf hi.2.2.1.symm ht.2.2.1.symm (by decide)).mpr (SimTable.period.mpr h1)
    have e3 : "test_2" ∈ f.cols := (mem_period_cols hf hi.2.2.2.symm ht.2.2.2.symm (by decide)).mpr (SimTable.period.mpr h2)
    simp [requiredColumns, hd, e1, e2, e3]
  simp only [bind, Except.bind, pure, Except.pure]
  unfold raiseIf
  rw [if_neg hreq, hd]
  simp only [if_true, Option.getD_none]
  unfold analyzeCrossover crossoverItems
  rw [subset_values_eq hf hi.2.2.1.symm ht.2.2.1.symm hy1, subset_values_eq hf hi.2.2.2.symm ht.2.2.2.symm hy2]
  simp only [bind, Except.bind, pure, Except.pure]
  generalize hy : prepareCrossover _ (((f.col treat).map (cellEq 1)).zip ((w.rows.map (numAt [m, "test_1"])).zip (w.rows.map (numAt [m, "test_2"]))))
    (decide (d.postTrim.val = 0)) = y
  have hix : (w.pivoted m).index.length = w.rows.length := by simp [Wide.pivoted]
  have hlen : y.1.length = w.rows.length ∧ y.2.length = w.rows.length := by
    rw [← hy, subset_mask hf hn.different.1 hidx 1]
    rw [(prepareCrossover_length _ _ _).1, (prepareCrossover_length _ _ _).2]
    simp [hix]
  have key := (C34_tests_return_partial R argsort ha D y.1 y.2 d.postTrim.val hq0 hq1 false "two-sided" (Or.inl rfl) defaultAlpha
    (by rw [hlen.1]; exact hle) (by rw [hlen.2]; exact hle) (by rw [hlen.1]; exact hleft) (by rw [hlen.2]; exact hleft)).1 (by rw [hlen.1, hlen.2])
  exact key

open Classical in
theorem groupOf_rows {w : Wide ℝ} {m : String} {y : WideRow ℝ → ℝ} {g : WideRow ℝ → Bool} {b : Bool}
    (hk : ∀ r ∈ w.rows, ∃ i, r.key = [i, .int (if g r then 1 else 0)]) :
    Spec.groupOf (w.pivoted m) (if b then 1 else 0) (w.rows.map y) = (w.rows.filter (fun r => g r == b)).map y := by
  unfold Spec.groupOf Wide.pivoted
  simp only
  generalize w.rows = l at hk
  induction l with
  | nil => rfl
  | cons r l ih =>
    obtain ⟨i, hi⟩ := hk r (by simp)
    have ih := ih (fun r hr => hk r (List.mem_cons_of_mem _ hr))
    simp only [List.map_cons, List.zip_cons_cons, List.filter_cons]
    have e : Spec.AssignedTo (if b then 1 else 0) r.key ↔ (g r == b) = true := by
      rw [hi, assignedTo_int]
      cases g r <;> cases b <;> simp
    by_cases hg : (g r == b) = true
    · rw [if_pos hg, if_pos (by simpa using e.mpr hg), List.map_cons, List.map_cons, ih]
    · rw [if_neg hg, if_neg (by simpa using fun h => hg (e.mp h)), ih]

open Classical in
/-- The number of values of a group. -/
theorem groupOf_length {w : Wide ℝ} {item treat m : String} (h : SimTable w item treat m) {z : List ℝ} (hz : z.length = w.rows.length) (b : Bool) :
    (Spec.groupOf (w.pivoted m) (if b then 1 else 0) z).length = w.rows.countP (fun r => treatedRow r == b) := by
  have hk : ∀ r ∈ w.rows, ∃ i, r.key = [i, .int (if treatedRow r then 1 else 0)] := fun r hr => h.key hr
  unfold Spec.groupOf Wide.pivoted
  simp only
  generalize w.rows = l at hk hz
  induction l generalizing z with
  | nil => simp
  | cons r l ih =>
    obtain ⟨x, z, rfl⟩ : ∃ x z', z = x :: z' := by
      cases z with
      | nil => simp at hz
      | cons x z' => exact ⟨x, z', rfl⟩
    obtain ⟨i, hi⟩ := hk r (by simp)
    have ih := ih (z := z) (fun r hr => hk r (List.mem_cons_of_mem _ hr)) (by simpa using hz)
    simp only [List.map_cons, List.zip_cons_cons, List.filter_cons, List.countP_cons]
    have e : Spec.AssignedTo (if b then 1 else 0) r.key ↔ (treatedRow r == b) = true := by
      rw [hi, assignedTo_int]
      cases treatedRow r <;> cases b <;> simp
    by_cases hg : (treatedRow r == b) = true
    · rw [if_pos hg, if_pos (by simpa using e.mpr hg), List.map_cons, List.length_cons, ih]
    · rw [if_neg hg, if_neg (by simpa using fun h => hg (e.mp h)), ih, Nat.add_zero]

theorem trimmed_mean_pos {l : List ℝ} (hl : ∀ x ∈ l, 0 < x) {q : ℝ} {T : TrimmedArray ℝ 0} (ha : ArgsortOk argsort)
    (hT : mkTrimmed R argsort (asStack l) q = .ok T) (hne : 0 < T.len) : 0 < T.mean 0 := by
  obtain ⟨-, -, ht, -⟩ := C16_trims_exactly_the_extremes R argsort ha 0 _ q T hT
  unfold TrimmedArray.mean
  refine div_pos (List.sum_pos _ ?_ ?_) (by exact_mod_cast hne)
  · intro x hx
    unfold rowOf at hx
    obtain ⟨v, hv, rfl⟩ := List.mem_map.mp hx
    have := ht.1.subset hv
    unfold asStack at this
    obtain ⟨y, hy, rfl⟩ := List.mem_map.mp this
    exact hl y hy
  · intro he
    unfold rowOf at he
    rw [List.map_eq_nil_iff] at he
    unfold TrimmedArray.len at hne
    rw [he] at hne
    simp at hne

/-- Regular experiment without pretest column: the analysis returns, or the control mean is zero; it returns when the control values are
positive. -/
theorem SimTable.regular_returns {w : Wide ℝ} {item treat m : String} (h : SimTable w item treat m) (ha : ArgsortOk argsort)
    (hn : Spec.SimulationNames m item treat) {d : DesignParams ℝ} (hd : d.isCrossover = false) (hpre : ¬ 0 < d.pretest) (h1 : [m, "test"] ∈ w.cols)
    (h2 : [m, "pretest"] ∉ w.cols) (hq0 : 0 ≤ d.postTrim.val) (hq1 : d.postTrim.val < 1 / 2) (hle : w.rows.length ≤ 2 ^ 53)
    (hleft : ∀ b, 2 * ⌊R.rnd (d.postTrim.val * (w.rows.countP (fun r => treatedRow r == b) : ℝ))⌋ + 1 <
      w.rows.countP (fun r => treatedRow r == b)) (hpos : ∀ r ∈ w.rows, treatedRow r = false → 0 < numAt [m, "test"] r) :
    ∃ r, analyzeWide R argsort D w d m treat = .ok r := by
  rw [h.analyze]
  obtain ⟨hi, ht, hidx, hi', ht'⟩ := h.plain hn
  rw [analyze_regular_eq hn.different.1 hi ht hidx hi' ht' hd hpre (mem_heads h1) (SimTable.period.mpr h1) (fun hp => h2 (SimTable.period.mp hp))
    (h.values h1)]
  have g1 := groupOf_rows (w := w) (m := m) (y := numAt [m, "test"]) (g := treatedRow) (b := true) (fun r hr => h.key hr)
  have g0 := groupOf_rows (w := w) (m := m) (y := numAt [m, "test"]) (g := treatedRow) (b := false) (fun r hr => h.key hr)
  simp only [if_true, Bool.false_eq_true, if_false] at g1 g0
  rw [g1, g0, Option.getD_none]
  have hlen : ∀ b, ((w.rows.filter (fun r => treatedRow r == b)).map (numAt [m, "test"])).length = w.rows.countP (fun r => treatedRow r == b) := by
    intro b; rw [List.length_map, List.countP_eq_length_filter]
  have hcle : ∀ b, w.rows.countP (fun r => treatedRow r == b) ≤ 2 ^ 53 := fun b => (List.countP_le_length).trans hle
  obtain ⟨-, T1, T2, hT1, hT2, hiff, -⟩ := C34_tests_return_partial R argsort ha D _ _ d.postTrim.val hq0 hq1 false "two-sided" (Or.inl rfl) defaultAlpha
    (by rw [hlen true]; exact hcle true) (by rw [hlen false]; exact hcle false) (by rw [hlen true]; exact hleft true)
    (by rw [hlen false]; exact hleft false)
  refine hiff.mpr ?_
  rintro ⟨h0, -⟩
  refine ne_of_gt (trimmed_mean_pos (l := (w.rows.filter (fun r => treatedRow r == false)).map (numAt [m, "test"])) ?_ ha hT2 ?_) h0
  · intro x hx
    obtain ⟨r, hr, rfl⟩ := List.mem_map.mp hx
    obtain ⟨hr1, hr2⟩ := List.mem_filter.mp hr
    exact hpos r hr1 (by simpa using hr2)
  · obtain ⟨-, e1, -, e2⟩ := C16_trims_exactly_the_extremes R argsort ha 0 _ _ T2 hT2
    have hl := hleft false
    rw [length_asStack, hlen false] at e2
    rw [length_asStack, hlen false] at e1
    unfold TrimmedArray.len
    omega

/-- Regular experiment with a pretest column: the analysis returns or raises `ZeroDivisionError`. -/
theorem SimTable.cuped_outcome {w : Wide ℝ} {item treat m : String} (h : SimTable w item treat m) (ha : ArgsortOk argsort)
    (hn : Spec.SimulationNames m item treat) {d : DesignParams ℝ} (hd : d.isCrossover = false) (h1 : [m, "test"] ∈ w.cols)
    (h2 : [m, "pretest"] ∈ w.cols) (hq0 : 0 ≤ d.postTrim.val) (hq1 : d.postTrim.val < 1 / 2) (hle : w.rows.length ≤ 2 ^ 53)
    (hall : 1 < w.rows.length) (hallq : 2 * ⌊R.rnd (d.postTrim.val * (w.rows.length : ℝ))⌋ < w.rows.length)
    (hleft : ∀ b, 2 * ⌊R.rnd (d.postTrim.val * (w.rows.countP (fun r => treatedRow r == b) : ℝ))⌋ + 1 <
      w.rows.countP (fun r => treatedRow r == b)) :
    (∃ r, analyzeWide R argsort D w d m treat = .ok r) ∨ analyzeWide R argsort D w d m treat = .error .zeroDivision := by
  rw [h.analyze]
  obtain ⟨hi, ht, hidx, hi', ht'⟩ := h.plain hn
  obtain ⟨out, hout⟩ := C22_cuped_returns R argsort ha (w.rows.map (numAt [m, "test"])) (w.rows.map (numAt [m, "pretest"])) (by simp)
    (by rw [List.length_map]; omega) (by rw [List.length_map]; exact hle) d.postTrim.val hq0 hq1 (by rw [List.length_map]; exact hallq)
  have hcle' : ∀ b, w.rows.countP (fun r => treatedRow r == b) ≤ w.rows.length := fun b => List.countP_le_length
  have hfl : ∀ n : ℕ, 0 ≤ ⌊R.rnd (d.postTrim.val * (n : ℝ))⌋ := by
    intro n
    have := floorMul_nonneg R hq0 (Int.natCast_nonneg n)
    unfold Rounding.floorMul at this
    simpa using this
  by_cases hcon : Spec.sumSqDev (w.rows.map (numAt [m, "pretest"])) = 0 ∧ ⌊R.rnd (d.postTrim.val * (w.rows.length : ℝ))⌋ = 0
  · obtain ⟨hc1, hc2⟩ := hcon
    have hout' := cuped_constant hout (by unfold nTrimOf Rounding.floorMul; rw [List.length_map]; simp [hc2]) hc1
    subst hout'
    rw [analyze_cuped_nan hn.different.1 hi ht hidx hi' ht' hd (mem_heads h1) (SimTable.period.mpr h1) (SimTable.period.mpr h2)
      (h.values h1) (h.values h2) hout]
    have s1 : groupSize (w.pivoted m) 1 = w.rows.countP (fun r => treatedRow r == true) := by
      rw [← groupOf_size 1 (v := w.rows.map (numAt [m, "test"])) (by simp [Wide.pivoted])]
      exact groupOf_length h (by simp) true
    have s0 : groupSize (w.pivoted m) 0 = w.rows.countP (fun r => treatedRow r == false) := by
      rw [← groupOf_size 0 (v := w.rows.map (numAt [m, "test"])) (by simp [Wide.pivoted])]
      exact groupOf_length h (by simp) false
    have trim : ∀ b, nTrimOf R d.postTrim.val (w.rows.countP (fun r => treatedRow r == b)) = 0 ∧ 1 < w.rows.countP (fun r => treatedRow r == b) := by
      intro b
      have hm' : ⌊R.rnd (d.postTrim.val * (w.rows.countP (fun r => treatedRow r == b) : ℝ))⌋ ≤ ⌊R.rnd (d.postTrim.val * (w.rows.length : ℝ))⌋ :=
        Int.floor_le_floor (R.mono (mul_le_mul_of_nonneg_left (by exact_mod_cast hcle' b) hq0))
      have := hfl (w.rows.countP (fun r => treatedRow r == b))
      have := hleft b
      refine ⟨?_, by omega⟩
      unfold nTrimOf Rounding.floorMul
      rw [Int.toNat_eq_zero]
      simpa using hm'.trans hc2.le
    obtain ⟨t1, t2⟩ := trim true
    obtain ⟨t3, t4⟩ := trim false
    obtain ⟨r, hr, -⟩ := nan_results D (w.rows.countP (fun r => treatedRow r == true)) (w.rows.countP (fun r => treatedRow r == false)) true
    refine Or.inl ⟨r, ?_⟩
    unfold indTestFl raiseIf
    simp only [onlyNan_replicate, List.length_replicate, s1, s0]
    rw [if_pos (by omega), if_neg (by omega)]
    exact hr
  obtain ⟨z, rfl, hzl⟩ : ∃ z : List ℝ, out = z.map .fin ∧ z.length = w.rows.length := by
    by_cases hz : ⌊R.rnd (d.postTrim.val * (w.rows.length : ℝ))⌋ = 0
    · have hsq : Spec.sumSqDev (w.rows.map (numAt [m, "pretest"])) ≠ 0 := fun h0 => hcon ⟨h0, hz⟩
      obtain ⟨v, hv1, hv2, -⟩ := C22_cuped_without_trimming R argsort _ _ _ out hout (by rw [List.length_map]; exact hz) hsq
      exact ⟨v, hv1, by rw [hv2, List.length_map]⟩
    · obtain ⟨v, hv1, hv2, -⟩ := C23_cuped_with_trimming R argsort argsort argsort ha ha ha _ _ _ out hout (by rw [List.length_map]; exact hz)
      exact ⟨v, hv1, by rw [hv2, List.length_map]⟩
  rw [analyze_cuped_eq hn.different.1 hi ht hidx hi' ht' hd (mem_heads h1) (SimTable.period.mpr h1) (SimTable.period.mpr h2)
    (h.values h1) (h.values h2) hout]
  have l1 := groupOf_length h hzl true
  have l0 := groupOf_length h hzl false
  simp only [if_true, Bool.false_eq_true, if_false] at l1 l0
  have hcle : ∀ b, w.rows.countP (fun r => treatedRow r == b) ≤ 2 ^ 53 := fun b => (List.countP_le_length).trans hle
  obtain ⟨-, T1, T2, hT1, hT2, hiff, herr⟩ := C34_tests_return_partial R argsort ha D _ _ d.postTrim.val hq0 hq1 false "two-sided" (Or.inl rfl) defaultAlpha
    (by rw [l1]; exact hcle true) (by rw [l0]; exact hcle false) (by rw [l1]; exact hleft true)
    (by rw [l0]; exact hleft false)
  by_cases hz : T2.mean 0 = 0 ∧ 0 ≤ T1.mean 0
  · exact Or.inr (herr hz)
  · exact Or.inl (hiff.mpr hz)

end Feedx
