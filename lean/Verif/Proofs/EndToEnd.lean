import Verif.Proofs.SimulateRun
import Verif.Proofs.SimulateOnce
import Verif.Proofs.Experiment
import Verif.Spec.EndToEnd

/-!
The analysis of the data of an experiment (C103).
-/

set_option linter.unusedSectionVars false
set_option linter.unusedSimpArgs false

namespace Feedx
open Fl

variable {R : Rounding ℝ} {argsort : List ℝ → List ℕ} {D : TDist}

theorem mem_metricColumns {cols : List String} {metrics : List Metric} (h : Spec.MetricsFrom cols metrics) :
    ∀ c ∈ metricColumns metrics, c ∈ cols := by
  intro c hc
  unfold metricColumns at hc
  rcases List.mem_append.mp hc with hc | hc
  · obtain ⟨m, hm, rfl⟩ := List.mem_map.mp hc
    exact (h.2 m hm).1
  · obtain ⟨m, hm, e⟩ := List.mem_filterMap.mp hc
    exact (h.2 m hm).2.1 c e

/-- The pivoted data of an experiment. -/
structure PivotedData (d : Design ℝ) (itemCol weekCol treatCol : String) (metrics : List String) (f : Frame ℝ) (piv : Pivoted ℝ) : Prop where
  nodup : piv.index.Nodup
  length : (piv.index.length : ℤ) = d.nAfterPre
  keys : ∀ k ∈ piv.index, ∃ i : Cell ℝ, ∃ b : Bool, k = [i, .int (if b then 1 else 0)]
  mem : ∀ r ∈ f.rows, [r itemCol, r treatCol] ∈ piv.index
  group : ∀ b : Bool, (piv.index.countP (fun k => decide (k[1]? = some (.int (if b then 1 else 0))))) = (Spec.groupItems f itemCol treatCol b).card
  here : ∀ label lo hi, (label, lo, hi) ∈ Spec.timeline d.toDesignParams 0 → lo < hi → Cell.str label ∈ piv.periods
  only : ∀ x ∈ piv.periods, ∃ label lo hi, x = .str label ∧ (label, lo, hi) ∈ Spec.timeline d.toDesignParams 0 ∧ lo < hi
  value : ∀ m ∈ metrics, ∀ k label lo hi, (label, lo, hi) ∈ Spec.timeline d.toDesignParams 0 → lo < hi →
    ∃ y, piv.value k m label = .fin y ∧ Spec.total f.rows [itemCol, treatCol] weekCol k lo hi m = .fin (y * ((hi - lo : ℤ) : ℝ))
  ofRow : ∀ k ∈ piv.index, ∃ r ∈ f.rows, k = [r itemCol, r treatCol]
  whole : ∀ m ∈ metrics, (piv.whole m = true ↔ ∀ r ∈ f.rows, ∃ n : ℤ, r m = .int n)

/-- The pivot of the data of an experiment returns, with one row per item. -/
theorem analysable_pivot {p : DesignParams ℝ} {d : Design ℝ} (hd : mkDesign R p = .ok d) {i w t : String} {cols metrics : List String}
    {f : Frame ℝ} (h : Spec.ExperimentData d i w t cols f) (hm : ∀ m ∈ metrics, m ∈ cols) :
    ∃ piv f', pivotTimeAssignment d.toDesignParams 0 metrics i w (some t) "time_period" f = (.ok piv, f') ∧
      PivotedData d i w t metrics f piv := by
  classical
  have hcol : ∀ c ∈ i :: w :: (metrics ++ [t]), c ∈ f.cols := by
    intro c hc
    apply h.present
    simp only [List.mem_cons, List.mem_append, List.not_mem_nil, or_false] at hc ⊢
    rcases hc with hc | hc | hc | hc
    · exact Or.inl hc
    · exact Or.inr (Or.inl hc)
    · exact Or.inr (Or.inr (Or.inr (hm _ hc)))
    · exact Or.inr (Or.inr (Or.inl hc))
  have hweeks : ∀ r ∈ f.rows, r w = .null ∨ ∃ x : ℤ, r w = .int x := by
    intro r hr
    obtain ⟨x, hx, -⟩ := h.weeks r hr
    exact Or.inr ⟨x, hx⟩
  obtain ⟨tr, htr⟩ := h.groups
  obtain ⟨hdd, hval⟩ := (mkDesign_ok_iff R p d).mp hd
  have hleg := ((validateDesign_ok_iff R _).mp hval).1
  have hrun : 0 < d.runtime := hleg.runtime_pos
  have hpre : 0 ≤ d.pretest := (created_pretest hd).1
  have hg : labelRows d.toDesignParams 0 w "time_period" f = .ok (f.setCol "time_period" (rowLabel d.toDesignParams 0 w)) := by
    unfold labelRows
    refine raiseIf_bind_ok.mpr ⟨?_, raiseIf_bind_ok.mpr ⟨?_, rfl⟩⟩
    · rintro ⟨h1, h2⟩
      obtain ⟨wo, h3, -⟩ := created_crossover hd h1
      rw [h3] at h2; cases h2
    · intro hany
      obtain ⟨r, hr, hn⟩ := List.any_eq_true.mp hany
      rcases hweeks r hr with h | ⟨x, h⟩ <;> rw [h] at hn <;> simp [Cell.isNumeric] at hn
  have hit : i ≠ "time_period" := fun e => h.free (e ▸ hcol i (by simp))
  have htt : t ≠ "time_period" := fun e => h.free (e ▸ hcol t (by simp))
  -- every week is in a period
  have hinp : ∀ x : ℤ, -d.pretest ≤ x → x < d.runtime → ∃ label, Spec.InPeriod d.toDesignParams 0 label x := by
    intro x h1 h2
    by_cases hx : d.isCrossover = true
    · obtain ⟨wo, hwo, hwo0, hwo1, hev⟩ := created_crossover hd hx
      rw [Int.even_iff] at hev
      unfold Spec.InPeriod Spec.timeline
      rw [hx, hwo]
      simp only [if_true, Option.getD_some, Spec.crossoverTimeline, zero_sub, zero_add]
      by_cases c1 : x < 0
      · exact ⟨"pretest", _, _, by simp, h1, c1⟩
      by_cases c2 : x < wo
      · exact ⟨"washout_1", 0, wo, by simp, by omega, c2⟩
      by_cases c3 : x < d.runtime / 2
      · exact ⟨"test_1", wo, d.runtime / 2, by simp, by omega, c3⟩
      by_cases c4 : x < d.runtime / 2 + wo
      · exact ⟨"washout_2", d.runtime / 2, d.runtime / 2 + wo, by simp, by omega, c4⟩
      · exact ⟨"test_2", d.runtime / 2 + wo, d.runtime, by simp, by omega, h2⟩
    · have hx : d.isCrossover = false := by simpa using hx
      unfold Spec.InPeriod Spec.timeline
      rw [hx]
      simp only [Bool.false_eq_true, if_false, Spec.regularTimeline, zero_sub, zero_add]
      by_cases c1 : x < 0
      · exact ⟨"pretest", _, _, by simp, h1, c1⟩
      · exact ⟨"test", 0, d.runtime, by simp, by omega, h2⟩
  -- the periods are inside the calendar of the design
  have hins : ∀ label lo hi, (label, lo, hi) ∈ Spec.timeline d.toDesignParams 0 → -d.pretest ≤ lo ∧ hi ≤ d.runtime := by
    intro label lo hi hmem
    by_cases hx : d.isCrossover = true
    · obtain ⟨wo, hwo, hwo0, hwo1, hev⟩ := created_crossover hd hx
      rw [Int.even_iff] at hev
      unfold Spec.timeline at hmem
      rw [hx, hwo] at hmem
      simp only [if_true, Option.getD_some, Spec.crossoverTimeline, zero_sub, zero_add, List.mem_cons, Prod.mk.injEq, List.not_mem_nil,
        or_false] at hmem
      rcases hmem with ⟨-, rfl, rfl⟩ | ⟨-, rfl, rfl⟩ | ⟨-, rfl, rfl⟩ | ⟨-, rfl, rfl⟩ | ⟨-, rfl, rfl⟩ <;> constructor <;> omega
    · have hx : d.isCrossover = false := by simpa using hx
      unfold Spec.timeline at hmem
      rw [hx] at hmem
      simp only [Bool.false_eq_true, if_false, Spec.regularTimeline, zero_sub, zero_add, List.mem_cons, Prod.mk.injEq, List.not_mem_nil,
        or_false] at hmem
      rcases hmem with ⟨-, rfl, rfl⟩ | ⟨-, rfl, rfl⟩ <;> constructor <;> omega
  have hper : ∀ label lo hi, (label, lo, hi) ∈ Spec.timeline d.toDesignParams 0 → lo < hi →
      Cell.str label ∈ (pivotTable d.toDesignParams [i, t] "time_period" (f.setCol "time_period" (rowLabel d.toDesignParams 0 w)).rows).periods := by
    intro label lo hi' hmem hlt
    obtain ⟨r, hr, hx⟩ := h.everyWeek lo (hins _ _ _ hmem).1 (by have := (hins _ _ _ hmem).2; omega)
    have hlab := (rowLabel_iff hd (start := 0) (hweeks r hr) label).mpr ⟨lo, hx, lo, hi', hmem, le_refl _, hlt⟩
    have hnn := h.items r hr
    unfold pivotTable
    rw [mem_dropDup, List.mem_map]
    refine ⟨Function.update r "time_period" (rowLabel d.toDesignParams 0 w r), List.mem_filter.mpr ⟨List.mem_map.mpr ⟨r, hr, rfl⟩, ?_⟩, ?_⟩
    · simp only [Function.update_self, hlab, List.all_cons, List.all_nil, Function.update_of_ne hit, Function.update_of_ne htt, Bool.and_true, htr r hr]
      cases hc : r i <;> simp_all [Cell.isNull]
    · rw [Function.update_self, hlab]
  have hpiv : pivotTimeAssignment d.toDesignParams 0 metrics i w (some t) "time_period" f =
      (.ok (pivotTable d.toDesignParams [i, t] "time_period" (f.setCol "time_period" (rowLabel d.toDesignParams 0 w)).rows),
        (f.setCol "time_period" (rowLabel d.toDesignParams 0 w)).dropCol "time_period") := by
    unfold pivotTimeAssignment
    rw [if_neg h.free, if_neg, hg]
    · refine if_neg ?_
      rintro ⟨h1, h2⟩
      apply h2
      refine hper "test" 0 d.runtime ?_ hrun
      unfold Spec.timeline
      rw [h1]
      simp [Spec.regularTimeline]
    · intro hany
      obtain ⟨c, hc, hn⟩ := List.any_eq_true.mp hany
      exact (by simpa using hn : c ∉ f.cols) (hcol c hc)
  obtain ⟨hnd, hidx⟩ := C13_index_is_items_with_labelled_rows R p d hd 0 metrics i w (some t) "time_period" f _ _ hpiv hweeks
  have hidx' : ∀ k, k ∈ (pivotTable d.toDesignParams [i, t] "time_period" (f.setCol "time_period" (rowLabel d.toDesignParams 0 w)).rows).index ↔
      ∃ r ∈ f.rows, k = [r i, .int (if tr (r i) then 1 else 0)] := by
    intro k
    rw [hidx]
    constructor
    · rintro ⟨⟨r, hr, e, -⟩, -⟩
      exact ⟨r, hr, by rw [← e]; simp [htr r hr]⟩
    · rintro ⟨r, hr, rfl⟩
      obtain ⟨x, hx, h1, h2⟩ := h.weeks r hr
      refine ⟨⟨r, hr, by simp [htr r hr], x, hx, hinp x h1 h2⟩, ?_⟩
      intro c hc
      simp only [List.mem_cons, List.not_mem_nil, or_false] at hc
      rcases hc with rfl | rfl
      · exact h.items r hr
      · simp
  refine ⟨_, _, hpiv, hnd, ?_, ?_, ?_, ?_, hper, ?_, ?_, ?_, ?_⟩
  · rw [← h.count, ← List.toFinset_card_of_nodup hnd]
    congr 1
    have e : (pivotTable d.toDesignParams [i, t] "time_period" (f.setCol "time_period" (rowLabel d.toDesignParams 0 w)).rows).index.toFinset =
        (Spec.itemsOf f i (fun _ => True)).image (fun x => [x, .int (if tr x then 1 else 0)]) := by
      ext k
      rw [List.mem_toFinset, hidx', Finset.mem_image]
      unfold Spec.itemsOf
      simp only [decide_true, List.filter_true, List.mem_toFinset, List.mem_map]
      constructor
      · rintro ⟨r, hr, rfl⟩
        exact ⟨r i, ⟨r, hr, rfl⟩, rfl⟩
      · rintro ⟨x, ⟨r, hr, rfl⟩, rfl⟩
        exact ⟨r, hr, rfl⟩
    rw [e, Finset.card_image_of_injective]
    intro x y hxy
    simpa using (List.cons.inj hxy).1
  · intro k hk
    obtain ⟨r, -, rfl⟩ := (hidx' k).mp hk
    exact ⟨_, _, rfl⟩
  · intro r hr
    exact (hidx' _).mpr ⟨r, hr, by rw [htr r hr]⟩
  · intro b
    rw [List.countP_eq_length_filter, ← List.toFinset_card_of_nodup (hnd.filter _)]
    have e : ((pivotTable d.toDesignParams [i, t] "time_period" (f.setCol "time_period" (rowLabel d.toDesignParams 0 w)).rows).index.filter
        (fun k => decide (k[1]? = some (.int (if b then 1 else 0))))).toFinset =
        (Spec.groupItems f i t b).image (fun x => [x, .int (if tr x then 1 else 0)]) := by
      ext k
      rw [List.mem_toFinset, List.mem_filter, hidx', Finset.mem_image]
      unfold Spec.groupItems Spec.itemsOf
      simp only [List.mem_toFinset, List.mem_map, List.mem_filter, decide_eq_true_eq]
      constructor
      · rintro ⟨⟨r, hr, rfl⟩, e⟩
        refine ⟨r i, ⟨r, ⟨hr, ?_⟩, rfl⟩, rfl⟩
        rw [htr r hr]
        simpa using e
      · rintro ⟨x, ⟨r, ⟨hr, e⟩, rfl⟩, rfl⟩
        refine ⟨⟨r, hr, rfl⟩, ?_⟩
        rw [htr r hr] at e
        simpa using e
    rw [e, Finset.card_image_of_injective]
    intro x y hxy
    simpa using (List.cons.inj hxy).1
  · intro x hx
    unfold pivotTable at hx
    rw [mem_dropDup, List.mem_map] at hx
    obtain ⟨r', hr', rfl⟩ := hx
    obtain ⟨hr1, hr2⟩ := List.mem_filter.mp hr'
    obtain ⟨r, hr, rfl⟩ := List.mem_map.mp hr1
    rw [Function.update_self] at hr2 ⊢
    rcases rowLabel_cases d.toDesignParams 0 w r with h' | ⟨s, h'⟩
    · rw [h'] at hr2; simp [Cell.isNull] at hr2
    · obtain ⟨x, -, lo, hi', hmem, h1, h2⟩ := (rowLabel_iff hd (hweeks r hr) s).mp h'
      exact ⟨s, lo, hi', h', hmem, by omega⟩
  · intro m hm' k label lo hi' hmem hlt
    rw [C13_values_are_weekly_averages R p d hd 0 metrics i w (some t) "time_period" f _ _ hpiv hweeks k m hm' label _ _ hmem]
    obtain ⟨y, hy⟩ := sumSkip_finite (l := (f.rows.filter (Spec.inWeeks [i, t] w k lo hi')).map (fun r => (r m).toFl)) (by
        intro x hx
        obtain ⟨r, hr, rfl⟩ := List.mem_map.mp hx
        exact Or.inr (h.finite m (hm m hm') r (List.mem_filter.mp hr).1))
    have hw : (0 : ℝ) < ((hi' - lo : ℤ) : ℝ) := by exact_mod_cast (by omega : 0 < hi' - lo)
    unfold Spec.total
    simp only [Option.toList_some]
    rw [hy, Fl.fin_div_ne (ne_of_gt hw)]
    exact ⟨_, rfl, by rw [div_mul_cancel₀ _ (ne_of_gt hw)]⟩
  · intro k hk
    obtain ⟨r, hr, rfl⟩ := (hidx' k).mp hk
    exact ⟨r, hr, by rw [htr r hr]⟩
  · intro m hm'
    have hmt : m ≠ "time_period" := fun e => h.free (e ▸ hcol m (by simp [hm']))
    unfold pivotTable Frame.setCol
    simp only [List.all_map, List.all_eq_true, Function.comp_apply, Function.update_of_ne hmt]
    refine forall_congr' fun r => forall_congr' fun _ => ?_
    cases r m <;> simp

section analysis
variable {d : Design ℝ} {i w t : String} {metrics : List String} {f : Frame ℝ} {piv : Pivoted ℝ}

theorem PivotedData.plain (h : PivotedData d i w t metrics f piv)
    (hn : i ≠ t ∧ i ∉ Spec.periodNames ∧ t ∉ Spec.periodNames) :
    ¬ Spec.Reserved i ∧ ¬ Spec.Reserved t ∧ (∀ k ∈ piv.index, k.length = 2) ∧ Cell.str i ∉ piv.periods ∧ Cell.str t ∉ piv.periods := by
  have hres : ∀ s : String, s ∉ Spec.periodNames → ¬ Spec.Reserved s ∧ Cell.str s ∉ piv.periods := by
    intro s hs
    constructor
    · intro hr
      apply hs
      unfold Spec.Reserved at hr
      rcases hr with rfl | rfl | rfl | rfl <;> decide
    · intro hp
      obtain ⟨p, lo, hi, e, hmem, -⟩ := h.only _ hp
      cases e
      exact hs (period_of_timeline hmem)
  refine ⟨(hres _ hn.2.1).1, (hres _ hn.2.2).1, ?_, (hres _ hn.2.1).2, (hres _ hn.2.2).2⟩
  intro k hk
  obtain ⟨x, b, rfl⟩ := h.keys k hk
  rfl

theorem PivotedData.values (h : PivotedData d i w t metrics f piv) {m : String} (hm : m ∈ metrics) {label : String} {lo hi : ℤ}
    (hmem : (label, lo, hi) ∈ Spec.timeline d.toDesignParams 0) (hlt : lo < hi) : ∃ y, Spec.ValuesOf piv m label y := by
  unfold Spec.ValuesOf
  generalize piv.index = l
  induction l with
  | nil => exact ⟨[], List.Forall₂.nil⟩
  | cons k l ih =>
    obtain ⟨ys, hys⟩ := ih
    obtain ⟨y, hy, -⟩ := h.value m hm k label lo hi hmem hlt
    exact ⟨y :: ys, List.Forall₂.cons hy hys⟩

/-- The two test periods of a created crossover design. -/
theorem crossover_periods {p : DesignParams ℝ} (hd : mkDesign R p = .ok d) (hx : d.isCrossover = true) :
    ∃ lo1 hi1 lo2 hi2, ("test_1", lo1, hi1) ∈ Spec.timeline d.toDesignParams 0 ∧ lo1 < hi1 ∧
      ("test_2", lo2, hi2) ∈ Spec.timeline d.toDesignParams 0 ∧ lo2 < hi2 := by
  obtain ⟨wo, hwo, hwo0, hwo1, hev⟩ := created_crossover hd hx
  rw [Int.even_iff] at hev
  refine ⟨wo, d.runtime / 2, d.runtime / 2 + wo, d.runtime, ?_, by omega, ?_, by omega⟩ <;>
  · unfold Spec.timeline
    rw [hx, hwo]
    simp [Spec.crossoverTimeline]

/-- Items of a crossover read from a pivoted table: as many as there are index tuples. -/
theorem crossoverItems_returns {m : String} {g : Frame ℝ} (hg : metricSubset piv metrics [i, t] m = .ok g) (hi : ¬ Spec.Reserved i)
    (ht : ¬ Spec.Reserved t) {y1 y2 : List ℝ} (h1 : Spec.ValuesOf piv m "test_1" y1) (h2 : Spec.ValuesOf piv m "test_2" y2) :
    ∃ items, crossoverItems g t = .ok items ∧ items.length = piv.index.length := by
  unfold Spec.Reserved at hi ht
  push Not at hi ht
  unfold crossoverItems
  rw [subset_values_eq hg hi.2.2.1.symm ht.2.2.1.symm h1, subset_values_eq hg hi.2.2.2.symm ht.2.2.2.symm h2]
  refine ⟨_, rfl, ?_⟩
  have e1 := h1.length_eq
  have e2 := h2.length_eq
  unfold Frame.col
  rw [(metricSubset_ok hg).2]
  simp [← e1, ← e2]

/-- The analysis of a metric of a crossover experiment returns. -/
theorem PivotedData.crossover {p : DesignParams ℝ} (hd : mkDesign R p = .ok d) (h : PivotedData d i w t metrics f piv)
    (hn : i ≠ t ∧ i ∉ Spec.periodNames ∧ t ∉ Spec.periodNames) (ha : ArgsortOk argsort) (hx : d.isCrossover = true) {m : String}
    {den : Option String} {override : Option ℝ} (hm : m ∈ metrics) (hden : ∀ c, den = some c → c ∈ metrics)
    (hq0 : 0 ≤ override.getD d.postTrim.val) (hq1 : override.getD d.postTrim.val < 1 / 2) (hle : piv.index.length ≤ 2 ^ 53)
    (hleft : Spec.EnoughLeft R (override.getD d.postTrim.val) piv.index.length) :
    ∃ r, analyzeSingleMetric R argsort D piv metrics [i, t] d.toDesignParams m den t override = .ok r := by
  obtain ⟨hi, ht, hidx, hi', ht'⟩ := h.plain hn
  obtain ⟨lo1, hi1, lo2, hi2, p1, l1, p2, l2⟩ := crossover_periods hd hx
  have hsub : ∀ c ∈ metrics, ∃ g, metricSubset piv metrics [i, t] c = .ok g ∧ (∀ col ∈ requiredColumns d.toDesignParams t, col ∈ g.cols) ∧
      ∃ items, crossoverItems g t = .ok items ∧ items.length = piv.index.length := by
    intro c hc
    obtain ⟨g, hg⟩ := metricSubset_returns (metrics := metrics) hc hi' ht'
    obtain ⟨y1, hy1⟩ := h.values hc p1 l1
    obtain ⟨y2, hy2⟩ := h.values hc p2 l2
    refine ⟨g, hg, ?_, crossoverItems_returns hg hi ht hy1 hy2⟩
    unfold Spec.Reserved at hi ht
    push Not at hi ht
    intro col hcol
    simp only [requiredColumns, hx, if_true, List.mem_cons, List.not_mem_nil, or_false] at hcol
    rcases hcol with rfl | rfl | rfl
    · rw [(metricSubset_ok hg).1]; simp
    · exact (mem_period_cols hg hi.2.2.1.symm ht.2.2.1.symm (by decide)).mpr (h.here _ _ _ p1 l1)
    · exact (mem_period_cols hg hi.2.2.2.symm ht.2.2.2.symm (by decide)).mpr (h.here _ _ _ p2 l2)
  obtain ⟨g, hg, hreq, items, hitems, hlen⟩ := hsub m hm
  obtain ⟨hy1, hy2⟩ := prepareCrossover_length (storeFirst piv m) items (decide (override.getD d.postTrim.val = 0))
  unfold Spec.EnoughLeft at hleft
  unfold analyzeSingleMetric
  rw [hg]
  cases den with
  | none =>
    simp only [bind, Except.bind, pure, Except.pure]
    unfold raiseIf
    rw [if_neg (by
      intro hany
      obtain ⟨c, hc, hb⟩ := List.any_eq_true.mp hany
      simp [hreq c hc] at hb), hx]
    simp only [if_true]
    unfold analyzeCrossover
    rw [hitems]
    simp only [bind, Except.bind]
    exact (C34_tests_return_partial R argsort ha D _ _ _ hq0 hq1 false "two-sided" (Or.inl rfl) defaultAlpha
      (by rw [hy1, hlen]; exact hle) (by rw [hy2, hlen]; exact hle) (by rw [hy1, hlen]; exact hleft) (by rw [hy2, hlen]; exact hleft)).1
      (by rw [hy1, hy2])
  | some c =>
    obtain ⟨g', hg', hreq', items', hitems', hlen'⟩ := hsub c (hden c rfl)
    obtain ⟨hz1, hz2⟩ := prepareCrossover_length ((some c).elim id (storeFirst piv)) items' (decide (override.getD d.postTrim.val = 0))
    simp only [bind, Except.bind, pure, Except.pure, hg']
    unfold raiseIf
    rw [if_neg (by
      intro hany
      obtain ⟨c, hc, hb⟩ := List.any_eq_true.mp hany
      simp [hreq c hc, hreq' c hc] at hb), hx]
    simp only [if_true]
    unfold analyzeCrossover
    rw [hitems]
    simp only [bind, Except.bind, hitems']
    exact (C34_ratio_tests_return R argsort ha D _ _ _ _ _ hq0 hq1 false "two-sided" (Or.inl rfl) defaultAlpha
      (by rw [hy1, hz1, hlen, hlen']) (by rw [hy2, hz2, hlen, hlen'])
      (by rw [hy1, hlen]; exact hle) (by rw [hy2, hlen]; exact hle) (by rw [hy1, hlen]; exact hleft) (by rw [hy2, hlen]; exact hleft)).1
      (by rw [hy1, hy2])

open Classical in
theorem PivotedData.groupLength (h : PivotedData d i w t metrics f piv) {z : List ℝ} (hz : z.length = piv.index.length) (b : Bool) :
    (Spec.groupOf piv (if b then 1 else 0) z).length = (Spec.groupItems f i t b).card := by
  rw [← h.group b]
  have hk := h.keys
  unfold Spec.groupOf
  generalize piv.index = l at hk hz
  induction l generalizing z with
  | nil => simp
  | cons k l ih =>
    obtain ⟨x, z, rfl⟩ : ∃ x z', z = x :: z' := by
      cases z with
      | nil => simp at hz
      | cons x z' => exact ⟨x, z', rfl⟩
    obtain ⟨x', b', rfl⟩ := hk k (by simp)
    have ih := ih (z := z) (fun k hk' => hk k (List.mem_cons_of_mem _ hk')) (by simpa using hz)
    have e : Spec.AssignedTo (if b then 1 else 0) [x', .int (if b' then 1 else 0)] ↔ b' = b := by
      rw [assignedTo_int]
      cases b <;> cases b' <;> simp
    simp only [List.zip_cons_cons, List.filter_cons, List.countP_cons]
    by_cases hg : b' = b
    · have hdec : decide (([x', .int (if b' then 1 else 0)] : List (Cell ℝ))[1]? = some (.int (if b then 1 else 0))) = true := by
        subst hg; simp
      rw [if_pos (decide_eq_true (e.mpr hg)), if_pos hdec, List.map_cons, List.length_cons, ih]
    · have hdec : ¬ decide (([x', .int (if b' then 1 else 0)] : List (Cell ℝ))[1]? = some (.int (if b then 1 else 0))) = true := by
        cases b <;> cases b' <;> simp_all
      rw [if_neg (fun h' => hg (e.mp (of_decide_eq_true h'))), if_neg hdec, ih, Nat.add_zero]

/-- What the regular analysis prepares for a metric: the test values, adjusted if there are pretest values. -/
theorem PivotedData.prepare {p : DesignParams ℝ} (hd : mkDesign R p = .ok d) (h : PivotedData d i w t metrics f piv)
    (hn : i ≠ t ∧ i ∉ Spec.periodNames ∧ t ∉ Spec.periodNames) (ha : ArgsortOk argsort) (hx : d.isCrossover = false) {m : String}
    (hm : m ∈ metrics) {q : ℝ} (hq0 : 0 ≤ q) (hq1 : q < 1 / 2) (hle : piv.index.length ≤ 2 ^ 53)
    (hleft : Spec.EnoughLeft R q piv.index.length) :
    ∃ g y, metricSubset piv metrics [i, t] m = .ok g ∧ (∀ col ∈ requiredColumns d.toDesignParams t, col ∈ g.cols) ∧
      prepareRegular R argsort g t q = .ok y ∧
      ((¬ Spec.ConstantPretest R piv m q ∧ ∃ z, z.length = piv.index.length ∧ y = ((Spec.groupOf piv 1 z).map .fin, (Spec.groupOf piv 0 z).map .fin) ∧
        (d.pretest = 0 → Spec.ControlPositive d i w t f m → ∀ v ∈ Spec.groupOf piv 0 z, 0 < v)) ∨
      (Spec.ConstantPretest R piv m q ∧ y = (List.replicate (groupSize piv 1) .nan, List.replicate (groupSize piv 0) .nan))) := by
  obtain ⟨hi, ht, hidx, hi', ht'⟩ := h.plain hn
  obtain ⟨g, hg⟩ := metricSubset_returns (metrics := metrics) hm hi' ht'
  have hrun : 0 < d.runtime := (created_pretest hd).2
  have hpre0 : 0 ≤ d.pretest := (created_pretest hd).1
  have htl : ∀ label lo hi, (label, lo, hi) ∈ Spec.timeline d.toDesignParams 0 ↔
      (label = "pretest" ∧ lo = -d.pretest ∧ hi = 0) ∨ (label = "test" ∧ lo = 0 ∧ hi = d.runtime) := by
    intro label lo hi
    unfold Spec.timeline
    rw [hx]
    simp [Spec.regularTimeline]
  have ptest : ("test", 0, d.runtime) ∈ Spec.timeline d.toDesignParams 0 := (htl _ _ _).mpr (Or.inr ⟨rfl, rfl, rfl⟩)
  have ppre : ("pretest", -d.pretest, 0) ∈ Spec.timeline d.toDesignParams 0 := (htl _ _ _).mpr (Or.inl ⟨rfl, rfl, rfl⟩)
  obtain ⟨y, hy⟩ := h.values hm ptest hrun
  have ylen : y.length = piv.index.length := hy.length_eq.symm
  have hi2 := hi
  have ht2 := ht
  unfold Spec.Reserved at hi2 ht2
  push Not at hi2 ht2
  have c1 : "test" ∈ g.cols := (mem_period_cols hg hi2.2.1.symm ht2.2.1.symm (by decide)).mpr (h.here _ _ _ ptest hrun)
  have c2 : "pretest" ∈ g.cols ↔ 0 < d.pretest := by
    rw [mem_period_cols hg hi2.1.symm ht2.1.symm (by decide)]
    constructor
    · intro hc
      obtain ⟨label, lo, hi, e, hmem, hlt⟩ := h.only _ hc
      cases e
      rcases (htl _ _ _).mp hmem with ⟨-, rfl, rfl⟩ | ⟨e, -⟩
      · omega
      · exact absurd e (by decide)
    · intro hp
      exact h.here _ _ _ ppre (by omega)
  have hreq : ∀ col ∈ requiredColumns d.toDesignParams t, col ∈ g.cols := by
    intro col hcol
    simp only [requiredColumns, hx, Bool.false_eq_true, if_false, List.mem_cons] at hcol
    rcases hcol with rfl | rfl | hcol
    · rw [(metricSubset_ok hg).1]; simp
    · exact c1
    · split_ifs at hcol with hp
      · simp only [List.mem_cons, List.not_mem_nil, or_false] at hcol
        rw [hcol]; exact c2.mpr hp
      · cases hcol
  have hfl : 0 ≤ ⌊R.rnd (q * (piv.index.length : ℝ))⌋ := by
    have := floorMul_nonneg R hq0 (Int.natCast_nonneg piv.index.length)
    unfold Rounding.floorMul at this
    simpa using this
  obtain ⟨out, hprep⟩ : ∃ out, prepareRegular R argsort g t q = .ok out := by
    unfold prepareRegular
    rw [subset_values_eq hg hi2.2.1.symm ht2.2.1.symm hy]
    by_cases hp : 0 < d.pretest
    · obtain ⟨x, hx'⟩ := h.values hm ppre (by omega)
      have xlen : x.length = piv.index.length := hx'.length_eq.symm
      unfold Spec.EnoughLeft at hleft
      obtain ⟨out, hout⟩ := C22_cuped_returns R argsort ha y x (by rw [ylen, xlen])
        (by rw [ylen]; omega) (by rw [ylen]; exact hle) q hq0 hq1 (by rw [ylen]; omega)
      simp only [bind, Except.bind, if_pos (c2.mpr hp), subset_values_eq hg hi2.1.symm ht2.1.symm hx', hout]
      exact ⟨_, rfl⟩
    · simp only [bind, Except.bind, if_neg (fun hc => hp (c2.mp hc))]
      exact ⟨_, rfl⟩
  refine ⟨g, out, hg, hreq, hprep, ?_⟩
  rcases prepareRegular_ok hg hn.1 hi ht hidx hprep with ⟨hc, z, hz, rfl⟩ | hc
  swap
  · exact Or.inr hc
  refine Or.inl ⟨hc, z, hz.length, rfl, ?_⟩
  classical
  intro hp0 hpos v hv
  obtain ⟨test, vt, ⟨-, rfl⟩ | ⟨hc', -⟩⟩ := hz
  swap
  · have := c2.mp ((mem_period_cols hg hi2.1.symm ht2.1.symm (by decide)).mpr hc')
    omega
  replace hy := vt
  unfold Spec.groupOf at hv
  obtain ⟨⟨k, v'⟩, he, rfl⟩ := List.mem_map.mp hv
  obtain ⟨hzip, hk⟩ := List.mem_filter.mp he
  replace hk : Spec.AssignedTo 0 k := by simpa using hk
  obtain ⟨x, c, e, hc⟩ := hk
  have hval : piv.value k m "test" = .fin v' := (List.forall₂_iff_zip.mp hy).2 hzip
  obtain ⟨r, hr, e'⟩ := h.ofRow k (List.of_mem_zip hzip).1
  obtain ⟨v2, e1, e2⟩ := h.value m hm k _ _ _ ptest hrun
  rw [hval] at e1
  cases e1
  have hr0 : r t = .int 0 := by
    obtain ⟨x', b, e3⟩ := h.keys k (List.of_mem_zip hzip).1
    have e4 : r t = .int (if b then 1 else 0) := by
      have := e'.symm.trans e3
      simpa using (List.cons.inj (List.cons.inj this).2).1
    have e5 : c = r t := by
      have := e.symm.trans e'
      simpa using (List.cons.inj (List.cons.inj this).2).1
    rw [e5, e4] at hc
    cases b
    · simpa using e4
    · simp [Cell.toFl] at hc
  obtain ⟨u, hu, hu2⟩ := hpos r hr hr0
  rw [← e', e2] at hu2
  have hu3 := Fl.fin.inj hu2
  have hrR : (0 : ℝ) < ((d.runtime - 0 : ℤ) : ℝ) := by exact_mod_cast (by omega : 0 < d.runtime - 0)
  rw [← hu3] at hu
  exact (mul_pos_iff_of_pos_right hrR).mp hu

/-- The analysis of a metric of a regular experiment returns, or raises `ZeroDivisionError` for a metric without denominator. -/
theorem PivotedData.regular {p : DesignParams ℝ} (hd : mkDesign R p = .ok d) (h : PivotedData d i w t metrics f piv)
    (hn : i ≠ t ∧ i ∉ Spec.periodNames ∧ t ∉ Spec.periodNames) (ha : ArgsortOk argsort) (hx : d.isCrossover = false) {m : String}
    {den : Option String} {override : Option ℝ} (hm : m ∈ metrics) (hden : ∀ c, den = some c → c ∈ metrics)
    (hq0 : 0 ≤ override.getD d.postTrim.val) (hq1 : override.getD d.postTrim.val < 1 / 2) (hle : piv.index.length ≤ 2 ^ 53)
    (hleft : Spec.EnoughLeft R (override.getD d.postTrim.val) piv.index.length)
    (hgroups : ∀ b, Spec.EnoughLeft R (override.getD d.postTrim.val) (Spec.groupItems f i t b).card) :
    (∃ r, analyzeSingleMetric R argsort D piv metrics [i, t] d.toDesignParams m den t override = .ok r) ∨
      (den = none ∧ ¬ (d.pretest = 0 ∧ Spec.ControlPositive d i w t f m) ∧
        analyzeSingleMetric R argsort D piv metrics [i, t] d.toDesignParams m den t override = .error .zeroDivision) := by
  have hgle : ∀ b, (Spec.groupItems f i t b).card ≤ 2 ^ 53 := by
    intro b
    rw [← h.group b]
    exact List.countP_le_length.trans hle
  obtain ⟨g, y, hg, hreq, hprep, hy⟩ := h.prepare hd hn ha hx hm hq0 hq1 hle hleft
  have size : ∀ b, groupSize piv (if b then 1 else 0) = (Spec.groupItems f i t b).card := by
    intro b
    rw [← groupOf_size _ (v := List.replicate piv.index.length 0) (by simp)]
    exact h.groupLength (by simp) b
  have s1 := size true
  have s0 := size false
  simp only [if_true, Bool.false_eq_true, if_false] at s1 s0
  unfold Spec.EnoughLeft at hgroups
  have trim : ∀ b, ⌊R.rnd (override.getD d.postTrim.val * (piv.index.length : ℝ))⌋ ≤ 0 →
      1 < (Spec.groupItems f i t b).card ∧ nTrimOf R (override.getD d.postTrim.val) (Spec.groupItems f i t b).card = 0 := by
    intro b h0
    have hc : (Spec.groupItems f i t b).card ≤ piv.index.length := by
      rw [← h.group b]
      exact List.countP_le_length
    have hm' : ⌊R.rnd (override.getD d.postTrim.val * ((Spec.groupItems f i t b).card : ℝ))⌋ ≤ ⌊R.rnd (override.getD d.postTrim.val * (piv.index.length : ℝ))⌋ :=
      Int.floor_le_floor (R.mono (mul_le_mul_of_nonneg_left (by exact_mod_cast hc) hq0))
    have hn' : 0 ≤ ⌊R.rnd (override.getD d.postTrim.val * ((Spec.groupItems f i t b).card : ℝ))⌋ := by
      have := floorMul_nonneg R hq0 (Int.natCast_nonneg (Spec.groupItems f i t b).card)
      unfold Rounding.floorMul at this
      simpa using this
    refine ⟨by have := hgroups b; omega, ?_⟩
    unfold nTrimOf Rounding.floorMul
    rw [Int.toNat_eq_zero]
    simp only [Int.cast_natCast]
    omega
  unfold analyzeSingleMetric
  rw [hg]
  cases den with
  | none =>
    simp only [bind, Except.bind, pure, Except.pure]
    unfold raiseIf
    rw [if_neg (by
      intro hany
      obtain ⟨c, hc, hb⟩ := List.any_eq_true.mp hany
      simp [hreq c hc] at hb), hx]
    simp only [Bool.false_eq_true, if_false]
    unfold analyzeRegular
    rw [hprep]
    simp only [bind, Except.bind]
    rcases hy with ⟨-, z, zlen, rfl, hpos⟩ | ⟨hc, rfl⟩
    swap
    · refine Or.inl ?_
      obtain ⟨t11, t12⟩ := trim true hc.2.2
      obtain ⟨t01, t02⟩ := trim false hc.2.2
      obtain ⟨r, hr, -⟩ := nan_results D (Spec.groupItems f i t true).card (Spec.groupItems f i t false).card true
      refine ⟨r, ?_⟩
      unfold indTestFl raiseIf
      simp only [onlyNan_replicate, List.length_replicate, s1, s0]
      rw [if_pos (by omega), if_neg (by omega)]
      exact hr
    have l1 := h.groupLength zlen true
    have l0 := h.groupLength zlen false
    simp only [if_true, Bool.false_eq_true, if_false] at l1 l0
    rw [indTestFl_fin]
    obtain ⟨-, T1, T2, hT1, hT2, hiff, herr⟩ := C34_tests_return_partial R argsort ha D (Spec.groupOf piv 1 z) (Spec.groupOf piv 0 z)
      (override.getD d.postTrim.val) hq0 hq1 false "two-sided" (Or.inl rfl) defaultAlpha
      (by rw [l1]; exact hgle true) (by rw [l0]; exact hgle false) (by rw [l1]; exact hgroups true) (by rw [l0]; exact hgroups false)
    by_cases hz : T2.mean 0 = 0 ∧ 0 ≤ T1.mean 0
    · refine Or.inr ⟨trivial, ?_, herr hz⟩
      rintro ⟨h1, h2⟩
      have hlen : 0 < T2.len := by
        obtain ⟨-, e1, -, e2⟩ := C16_trims_exactly_the_extremes R argsort ha 0 _ _ T2 hT2
        unfold TrimmedArray.len
        unfold asStack at e1 e2
        rw [List.length_map, l0] at e1 e2
        have := hgroups false
        omega
      have := trimmed_mean_pos (hpos h1 h2) ha hT2 hlen
      rw [hz.1] at this
      exact lt_irrefl _ this
    · exact Or.inl (hiff.mpr hz)
  | some c =>
    obtain ⟨g', y', hg', hreq', hprep', hy'⟩ := h.prepare hd hn ha hx (hden c rfl) hq0 hq1 hle hleft
    simp only [bind, Except.bind, pure, Except.pure, hg']
    unfold raiseIf
    rw [if_neg (by
      intro hany
      obtain ⟨c, hc, hb⟩ := List.any_eq_true.mp hany
      simp [hreq c hc, hreq' c hc] at hb), hx]
    simp only [Bool.false_eq_true, if_false]
    unfold analyzeRegular
    rw [hprep]
    simp only [bind, Except.bind, hprep']
    by_cases hc : Spec.ConstantPretest R piv m (override.getD d.postTrim.val) ∨ Spec.ConstantPretest R piv c (override.getD d.postTrim.val)
    · refine Or.inl ?_
      have h0 : ⌊R.rnd (override.getD d.postTrim.val * (piv.index.length : ℝ))⌋ ≤ 0 := hc.elim (fun h => h.2.2) (fun h => h.2.2)
      obtain ⟨t11, t12⟩ := trim true h0
      obtain ⟨t01, t02⟩ := trim false h0
      obtain ⟨r, hr, -⟩ := nan_results D (Spec.groupItems f i t true).card (Spec.groupItems f i t false).card false
      have len : ∀ {m' : String} {y : List (Fl ℝ) × List (Fl ℝ)}, ((¬ Spec.ConstantPretest R piv m' (override.getD d.postTrim.val) ∧
          ∃ z, z.length = piv.index.length ∧ y = ((Spec.groupOf piv 1 z).map .fin, (Spec.groupOf piv 0 z).map .fin) ∧
          (d.pretest = 0 → Spec.ControlPositive d i w t f m' → ∀ v ∈ Spec.groupOf piv 0 z, 0 < v)) ∨
          (Spec.ConstantPretest R piv m' (override.getD d.postTrim.val) ∧ y = (List.replicate (groupSize piv 1) .nan, List.replicate (groupSize piv 0) .nan))) →
          y.1.length = (Spec.groupItems f i t true).card ∧ y.2.length = (Spec.groupItems f i t false).card := by
        intro m' y hy
        rcases hy with ⟨-, z, zlen, rfl, -⟩ | ⟨-, rfl⟩
        · simp [groupOf_size _ zlen, s1, s0]
        · simp [s1, s0]
      obtain ⟨a1, a0⟩ := len hy
      obtain ⟨b1, b0⟩ := len hy'
      refine ⟨r, ?_⟩
      unfold indTestFl raiseIf
      simp only [a1, a0, b1, b0]
      rw [if_pos, if_neg (by omega)]
      · exact hr
      · rcases hc with hc | hc
        · obtain ⟨-, rfl⟩ := hy.resolve_left fun h => h.1 hc
          exact Or.inl ⟨(onlyNan_replicate _).mpr (by omega), (onlyNan_replicate _).mpr (by omega)⟩
        · obtain ⟨-, rfl⟩ := hy'.resolve_left fun h => h.1 hc
          exact Or.inr ⟨(onlyNan_replicate _).mpr (by omega), (onlyNan_replicate _).mpr (by omega)⟩
    push Not at hc
    obtain ⟨-, z, zlen, rfl, -⟩ := hy.resolve_right fun h => hc.1 h.1
    obtain ⟨-, z', zlen', rfl, -⟩ := hy'.resolve_right fun h => hc.2 h.1
    have l1 := h.groupLength zlen true
    have l0 := h.groupLength zlen false
    have l1' := h.groupLength zlen' true
    have l0' := h.groupLength zlen' false
    simp only [if_true, Bool.false_eq_true, if_false] at l1 l0 l1' l0'
    rw [indTestFl_fin_ratio]
    exact Or.inl (C34_ratio_tests_return R argsort ha D _ _ _ _ _ hq0 hq1 false "two-sided" (Or.inl rfl) defaultAlpha
      (by rw [l1, l1']) (by rw [l0, l0'])
      (by rw [l1]; exact hgle true) (by rw [l0]; exact hgle false) (by rw [l1]; exact hgroups true) (by rw [l0]; exact hgroups false)).2

end analysis

end Feedx
