import Verif.Props.TimePeriod
import Verif.Spec.Pivot

/-!
Properties C13-C15: pivoted values, independence of row order, effect on the caller's frame.
-/

set_option linter.unusedSectionVars false
set_option linter.unusedSimpArgs false
set_option linter.unnecessarySeqFocus false

namespace Feedx

variable {K : Type} [Field K] [LinearOrder K]

/-- Label cell that the labelling writes into a row. -/
def rowLabel (d : DesignParams K) (start : ℤ) (weekCol : String) (r : Row K) : Cell K :=
  match designLabel d start (r weekCol).toFl with
  | .ok l => labelCell l
  | .error _ => .null

theorem labelRows_ok {d : DesignParams K} {start : ℤ} {weekCol periodCol : String} {f g : Frame K}
    (h : labelRows d start weekCol periodCol f = .ok g) :
    g = f.setCol periodCol (rowLabel d start weekCol) := by
  unfold labelRows at h
  simp only [raiseIf_bind_ok] at h
  cases h.2.2
  rfl

theorem pivot_ok {d : DesignParams K} {start : ℤ} {metrics : List String}
    {itemCol weekCol : String} {treatmentCol : Option String} {periodCol : String}
    {f f' : Frame K} {piv : Pivoted K}
    (h : pivotTimeAssignment d start metrics itemCol weekCol treatmentCol periodCol f = (.ok piv, f')) :
    periodCol ∉ f.cols ∧ (∀ c ∈ itemCol :: weekCol :: (metrics ++ treatmentCol.toList), c ∈ f.cols) ∧
      ∃ g, labelRows d start weekCol periodCol f = .ok g ∧
        piv = pivotTable d (indexColumns itemCol treatmentCol) periodCol g.rows ∧
        f' = g.dropCol periodCol ∧ ¬ (d.isCrossover = false ∧ .str "test" ∉ piv.periods) := by
  unfold pivotTimeAssignment at h
  split_ifs at h with h1 h2
  · cases h
  · cases h
  · refine ⟨h1, ?_, ?_⟩
    · intro c hc
      by_contra hcon
      exact h2 (List.any_eq_true.mpr ⟨c, hc, by simpa using hcon⟩)
    · cases hl : labelRows d start weekCol periodCol f with
      | error e => rw [hl] at h; cases h
      | ok g =>
        rw [hl] at h
        simp only at h
        split_ifs at h with h3
        · cases h
        · cases h; exact ⟨g, rfl, rfl, rfl, h3⟩

variable [IsStrictOrderedRing K] [FloorRing K]

/-- The label cell of a row with integer or missing week. -/
theorem rowLabel_iff {R : Rounding K} {p : DesignParams K} {d : Design K}
    (h : mkDesign R p = .ok d) {start : ℤ} {weekCol : String} {r : Row K}
    (hw : r weekCol = .null ∨ ∃ w : ℤ, r weekCol = .int w) (label : String) :
    rowLabel d.toDesignParams start weekCol r = .str label ↔
      ∃ w : ℤ, r weekCol = .int w ∧ Spec.InPeriod d.toDesignParams start label w := by
  unfold rowLabel
  rcases hw with hw | ⟨w, hw⟩
  · simp only [hw, Cell.toFl, reduceCtorEq, false_and, exists_const, iff_false]
    unfold designLabel
    by_cases hc : d.isCrossover = true
    · obtain ⟨wo, hwo, -⟩ := created_crossover h hc
      rw [if_pos hc, hwo]
      simp [crossoverLabel, weekBetween_nan, lastLabel, labelCell]
    · rw [if_neg hc]
      simp [regularLabel, weekBetween_nan, lastLabel, labelCell]
  · simp only [hw, Cell.toFl, Cell.int.injEq, exists_eq_left']
    rw [← designLabel_iff h]
    obtain ⟨l, hl⟩ := designLabel_returns h start (.fin (w : K))
    rw [hl]
    cases l <;> simp [labelCell]

/-- The label cell is always missing or a string. -/
theorem rowLabel_cases (d : DesignParams K) (start : ℤ) (weekCol : String) (r : Row K) :
    rowLabel d start weekCol r = .null ∨ ∃ s, rowLabel d start weekCol r = .str s := by
  unfold rowLabel
  split
  · next l _ => cases l <;> simp [labelCell]
  · left; rfl

/-- In the calendar of a created design a period name determines its range. -/
theorem timeline_range {d : Design K}
    {start : ℤ} {label : String} {lo hi lo' hi' : ℤ}
    (h1 : (label, lo, hi) ∈ Spec.timeline d.toDesignParams start)
    (h2 : (label, lo', hi') ∈ Spec.timeline d.toDesignParams start) : lo = lo' ∧ hi = hi' := by
  unfold Spec.timeline at h1 h2
  split_ifs at h1 h2 with hc
  · simp only [Spec.crossoverTimeline, List.mem_cons, List.not_mem_nil, or_false,
      Prod.mk.injEq] at h1 h2
    rcases h1 with ⟨rfl, rfl, rfl⟩ | ⟨rfl, rfl, rfl⟩ | ⟨rfl, rfl, rfl⟩ | ⟨rfl, rfl, rfl⟩ | ⟨rfl, rfl, rfl⟩ <;>
      simp only [String.reduceEq, false_and, true_and, false_or, or_false] at h2 <;>
      exact ⟨h2.1.symm, h2.2.symm⟩
  · simp only [Spec.regularTimeline, List.mem_cons, List.not_mem_nil, or_false,
      Prod.mk.injEq] at h1 h2
    rcases h1 with ⟨rfl, rfl, rfl⟩ | ⟨rfl, rfl, rfl⟩ <;>
      simp only [String.reduceEq, false_and, true_and, false_or, or_false] at h2 <;>
      exact ⟨h2.1.symm, h2.2.symm⟩

/-- The divisor used for a period is its number of weeks. -/
theorem periodWeeks_timeline {R : Rounding K} {p : DesignParams K} {d : Design K}
    (h : mkDesign R p = .ok d) {start : ℤ} {label : String} {lo hi : ℤ}
    (hmem : (label, lo, hi) ∈ Spec.timeline d.toDesignParams start) :
    periodWeeks d.toDesignParams label = some (hi - lo) := by
  unfold Spec.timeline at hmem
  unfold periodWeeks
  by_cases hc : d.isCrossover = true
  · obtain ⟨wo, h1, h2, h3, h4⟩ := created_crossover h hc
    rw [if_pos hc] at hmem ⊢
    rw [h1] at hmem ⊢
    simp only [Option.getD_some, Spec.crossoverTimeline, List.mem_cons, List.not_mem_nil, or_false,
      Prod.mk.injEq, testPeriodWeeks_eq h4] at hmem ⊢
    rw [Int.even_iff] at h4
    rcases hmem with ⟨rfl, rfl, rfl⟩ | ⟨rfl, rfl, rfl⟩ | ⟨rfl, rfl, rfl⟩ | ⟨rfl, rfl, rfl⟩ | ⟨rfl, rfl, rfl⟩ <;>
      simp only [String.reduceEq, if_true, if_false, true_or, or_true, or_false, false_or,
        Option.some.injEq] <;> omega
  · rw [if_neg hc] at hmem ⊢
    simp only [Spec.regularTimeline, List.mem_cons, List.not_mem_nil, or_false,
      Prod.mk.injEq] at hmem
    rcases hmem with ⟨rfl, rfl, rfl⟩ | ⟨rfl, rfl, rfl⟩ <;>
      simp only [String.reduceEq, if_true, if_false, Option.some.injEq] <;> omega

/-- **C13.**  When `pivot_time_assignment` returns, the value for an item (or (item, treatment) pair)
`k`, a metric and a period `[lo, hi)` of the calendar is the item's total of the metric over exactly
the weeks `lo, ..., hi - 1`, divided by the number of those weeks (0 when the item has no such row). -/
theorem C13_values_are_weekly_averages (R : Rounding K) (p : DesignParams K) (d : Design K)
    (h : mkDesign R p = .ok d) (start : ℤ) (metrics : List String) (itemCol weekCol : String)
    (treatmentCol : Option String) (periodCol : String) (f f' : Frame K) (piv : Pivoted K)
    (hp : pivotTimeAssignment d.toDesignParams start metrics itemCol weekCol treatmentCol periodCol f
      = (.ok piv, f'))
    (hweeks : ∀ r ∈ f.rows, r weekCol = .null ∨ ∃ w : ℤ, r weekCol = .int w)
    (k : List (Cell K)) (m : String) (hm : m ∈ metrics) (label : String) (lo hi : ℤ)
    (hperiod : (label, lo, hi) ∈ Spec.timeline d.toDesignParams start) :
    piv.value k m label =
      Spec.total f.rows (itemCol :: treatmentCol.toList) weekCol k lo hi m / .fin ((hi - lo : ℤ) : K) := by
  obtain ⟨hpc, hcols, g, hg, rfl, -, -⟩ := pivot_ok hp
  have hne : ∀ c ∈ itemCol :: weekCol :: (metrics ++ treatmentCol.toList), c ≠ periodCol := by
    rintro c hc rfl; exact hpc (hcols c hc)
  have hg' := labelRows_ok hg
  simp only [pivotTable, periodWeeks_timeline h hperiod]
  congr 1
  unfold sumCol Spec.total
  congr 1
  rw [hg']
  simp only [Frame.setCol, indexColumns, List.filter_map, List.map_map]
  refine (congrArg _ (List.filter_congr
    (q := Spec.inWeeks (itemCol :: treatmentCol.toList) weekCol k lo hi) ?_)).trans ?_
  · intro r hr
    have e1 : (itemCol :: treatmentCol.toList).map
        (Function.update r periodCol (rowLabel d.toDesignParams start weekCol r)) =
        (itemCol :: treatmentCol.toList).map r := by
      apply List.map_congr_left
      intro c hc
      apply Function.update_of_ne
      apply hne
      simp only [List.mem_cons, List.mem_append] at hc ⊢
      tauto
    simp only [Function.comp_apply, Function.update_self, e1, Spec.inWeeks]
    rw [Bool.eq_iff_iff, decide_eq_true_eq, Bool.and_eq_true, decide_eq_true_eq]
    apply and_congr_right
    intro _
    rw [rowLabel_iff h (hweeks r hr)]
    rcases hweeks r hr with hw | ⟨w, hw⟩
    · simp [hw]
    · simp only [hw, Cell.int.injEq, exists_eq_left', decide_eq_true_eq]
      constructor
      · rintro ⟨lo', hi', hmem, a, b⟩
        obtain ⟨rfl, rfl⟩ := timeline_range hperiod hmem
        exact ⟨a, b⟩
      · rintro ⟨a, b⟩; exact ⟨lo, hi, hperiod, a, b⟩
  apply List.map_congr_left
  intro r _
  simp only [Function.comp_apply]
  rw [Function.update_of_ne]
  apply hne
  simp [hm]

/-- **C13.**  The rows of the result are exactly the items with at least one row in a period of the
calendar (and no missing key), each once. -/
theorem C13_index_is_items_with_labelled_rows (R : Rounding K) (p : DesignParams K) (d : Design K)
    (h : mkDesign R p = .ok d) (start : ℤ) (metrics : List String) (itemCol weekCol : String)
    (treatmentCol : Option String) (periodCol : String) (f f' : Frame K) (piv : Pivoted K)
    (hp : pivotTimeAssignment d.toDesignParams start metrics itemCol weekCol treatmentCol periodCol f
      = (.ok piv, f'))
    (hweeks : ∀ r ∈ f.rows, r weekCol = .null ∨ ∃ w : ℤ, r weekCol = .int w) :
    piv.index.Nodup ∧ ∀ k, k ∈ piv.index ↔
      (∃ r ∈ f.rows, (itemCol :: treatmentCol.toList).map r = k ∧
        ∃ w : ℤ, r weekCol = .int w ∧ ∃ label, Spec.InPeriod d.toDesignParams start label w) ∧
      ∀ c ∈ k, c ≠ .null := by
  obtain ⟨hpc, hcols, g, hg, rfl, -, -⟩ := pivot_ok hp
  have hne : ∀ c ∈ itemCol :: weekCol :: (metrics ++ treatmentCol.toList), c ≠ periodCol := by
    rintro c hc rfl; exact hpc (hcols c hc)
  have hg' := labelRows_ok hg
  refine ⟨nodup_groupKeys _ _, fun k => ?_⟩
  simp only [pivotTable, mem_groupKeys, indexColumns]
  apply and_congr_left
  intro _
  rw [hg']
  simp only [Frame.setCol, List.mem_filter, List.mem_map]
  have e1 : ∀ r : Row K, (itemCol :: treatmentCol.toList).map
      (Function.update r periodCol (rowLabel d.toDesignParams start weekCol r)) =
      (itemCol :: treatmentCol.toList).map r := by
    intro r
    apply List.map_congr_left
    intro c hc
    apply Function.update_of_ne
    apply hne
    simp only [List.mem_cons, List.mem_append] at hc ⊢
    tauto
  constructor
  · rintro ⟨_, ⟨⟨r, hr, rfl⟩, hnn⟩, hk⟩
    rw [e1] at hk
    refine ⟨r, hr, hk, ?_⟩
    simp only [Function.update_self] at hnn
    rcases rowLabel_cases d.toDesignParams start weekCol r with hl | ⟨s, hl⟩
    · rw [hl] at hnn; simp [Cell.isNull] at hnn
    · obtain ⟨w, hw, hin⟩ := (rowLabel_iff h (hweeks r hr) s).mp hl
      exact ⟨w, hw, s, hin⟩
  · rintro ⟨r, hr, hk, w, hw, label, hin⟩
    refine ⟨_, ⟨⟨r, hr, rfl⟩, ?_⟩, by rw [e1, hk]⟩
    simp only [Function.update_self]
    rw [(rowLabel_iff h (hweeks r hr) label).mpr ⟨w, hw, hin⟩]
    rfl

/-- **C13.**  Rows outside the calendar never influence a value: dropping them changes nothing. -/
theorem C13_unlabelled_rows_irrelevant (R : Rounding K) (p : DesignParams K) (d : Design K)
    (h : mkDesign R p = .ok d) (start : ℤ) (metrics : List String) (itemCol weekCol : String)
    (treatmentCol : Option String) (periodCol : String) (f f1 f2 : Frame K) (piv piv' : Pivoted K)
    (keep : Row K → Bool)
    (hkeep : ∀ r ∈ f.rows, keep r = false → ∀ w : ℤ, r weekCol = .int w →
      ∀ label, ¬ Spec.InPeriod d.toDesignParams start label w)
    (hp : pivotTimeAssignment d.toDesignParams start metrics itemCol weekCol treatmentCol periodCol f
      = (.ok piv, f1))
    (hp' : pivotTimeAssignment d.toDesignParams start metrics itemCol weekCol treatmentCol periodCol
      (f.filterRows keep) = (.ok piv', f2))
    (hweeks : ∀ r ∈ f.rows, r weekCol = .null ∨ ∃ w : ℤ, r weekCol = .int w)
    (k : List (Cell K)) (m : String) (hm : m ∈ metrics) (label : String) (lo hi : ℤ)
    (hperiod : (label, lo, hi) ∈ Spec.timeline d.toDesignParams start) :
    piv.value k m label = piv'.value k m label := by
  rw [C13_values_are_weekly_averages R p d h start metrics itemCol weekCol treatmentCol periodCol f f1
      piv hp hweeks k m hm label lo hi hperiod,
    C13_values_are_weekly_averages R p d h start metrics itemCol weekCol treatmentCol periodCol _ f2
      piv' hp' (fun r hr => hweeks r (List.mem_filter.mp hr).1) k m hm label lo hi hperiod]
  congr 1
  unfold Spec.total Frame.filterRows
  rw [List.filter_filter]
  congr 2
  apply List.filter_congr
  intro r hr
  by_cases hk : keep r = true
  · simp [hk]
  · rw [Bool.not_eq_true] at hk
    simp only [hk, Bool.and_false]
    simp only [Spec.inWeeks, Bool.and_eq_false_iff]
    right
    rcases hweeks r hr with hw | ⟨w, hw⟩
    · simp [hw]
    · simp only [hw, decide_eq_false_iff_not]
      intro hin
      exact hkeep r hr hk w hw label ⟨lo, hi, hperiod, hin⟩

/-- Weekly data of two items around a start in week 10; week 5 lies before the pretest weeks of the
example design and the last row has no week. -/
def pivotExampleRow (item : String) (week : Cell ℚ) (clicks : ℚ) : Row ℚ := fun c =>
  if c = "item_id" then .str item else if c = "week_id" then week
  else if c = "clicks" then .num clicks else .null

/-- See `pivotExampleRow`. -/
def pivotExampleFrame : Frame ℚ :=
  ⟨["item_id", "week_id", "clicks"],
    [pivotExampleRow "b" (.int 10) 4, pivotExampleRow "a" (.int 9) 1, pivotExampleRow "a" (.int 10) 2,
     pivotExampleRow "a" (.int 11) 3, pivotExampleRow "a" (.int 1) 7, pivotExampleRow "c" .null 7]⟩

/-- The hypotheses of the C13 theorems are met by the example design and frame (also when the rows
outside the calendar are removed), and the value is not trivial. -/
example :
    (∃ d : Design ℚ, mkDesign (Rounding.exact ℚ) exampleParams = .ok d ∧ d.toDesignParams = exampleParams) ∧
    (∃ piv f', pivotTimeAssignment exampleParams 10 ["clicks"] "item_id" "week_id" none "time_period"
      pivotExampleFrame = (.ok piv, f') ∧
      piv.value [.str "a"] "clicks" "test" = .fin (5 / exampleParams.runtime)) ∧
    (∃ piv f', pivotTimeAssignment exampleParams 10 ["clicks"] "item_id" "week_id" none "time_period"
      (pivotExampleFrame.filterRows (fun r => decide (r "week_id" = .int 10 ∨ r "week_id" = .int 9 ∨
        r "week_id" = .int 11))) = (.ok piv, f')) ∧
    (∀ r ∈ pivotExampleFrame.rows, r "week_id" = .null ∨ ∃ w : ℤ, r "week_id" = .int w) ∧
    ("test", 10, 10 + exampleParams.runtime) ∈ Spec.timeline exampleParams 10 := by
  refine ⟨⟨⟨exampleParams, 970, 952⟩, by decide +kernel, rfl⟩, ?_, ?_, ?_, by decide⟩
  · have h : (match (pivotTimeAssignment exampleParams 10 ["clicks"] "item_id" "week_id" none
      "time_period" pivotExampleFrame).1 with
      | .ok piv => decide (piv.value [.str "a"] "clicks" "test" = .fin (5 / exampleParams.runtime))
      | .error _ => false) = true := by decide +kernel
    rcases hq : pivotTimeAssignment exampleParams 10 ["clicks"] "item_id" "week_id" none
      "time_period" pivotExampleFrame with ⟨r, f'⟩
    rw [hq] at h
    cases r with
    | ok piv => exact ⟨piv, f', rfl, of_decide_eq_true h⟩
    | error e => cases h
  · have h : (match (pivotTimeAssignment exampleParams 10 ["clicks"] "item_id" "week_id" none
      "time_period" (pivotExampleFrame.filterRows (fun r => decide (r "week_id" = .int 10 ∨
        r "week_id" = .int 9 ∨ r "week_id" = .int 11)))).1 with
      | .ok _ => true
      | .error _ => false) = true := by decide +kernel
    rcases hq : pivotTimeAssignment exampleParams 10 ["clicks"] "item_id" "week_id" none
      "time_period" (pivotExampleFrame.filterRows (fun r => decide (r "week_id" = .int 10 ∨
        r "week_id" = .int 9 ∨ r "week_id" = .int 11))) with ⟨r, f'⟩
    rw [hq] at h
    cases r with
    | ok piv => exact ⟨piv, f', rfl⟩
    | error e => cases h
  · intro r hr
    simp only [pivotExampleFrame, List.mem_cons, List.not_mem_nil, or_false] at hr
    rcases hr with rfl | rfl | rfl | rfl | rfl | rfl <;> simp [pivotExampleRow]

/-- **C14.**  Reordering the rows of the input does not change whether the pivot succeeds, any of its
values, nor the set of its rows and periods. -/
theorem C14_row_order_irrelevant (d : DesignParams K) (start : ℤ) (metrics : List String)
    (itemCol weekCol : String) (treatmentCol : Option String) (periodCol : String)
    (f f' : Frame K) (hcols : f.cols = f'.cols) (hperm : f.rows.Perm f'.rows) (piv : Pivoted K)
    (g : Frame K)
    (hp : pivotTimeAssignment d start metrics itemCol weekCol treatmentCol periodCol f = (.ok piv, g)) :
    ∃ piv' g', pivotTimeAssignment d start metrics itemCol weekCol treatmentCol periodCol f' =
        (.ok piv', g') ∧ piv'.value = piv.value ∧ piv'.index.Perm piv.index ∧
        piv'.periods.Perm piv.periods := by
  obtain ⟨hpc, hreq, g0, hg, rfl, rfl, hnk⟩ := pivot_ok hp
  have hg' := labelRows_ok hg
  have hl : labelRows d start weekCol periodCol f' =
      .ok (f'.setCol periodCol (rowLabel d start weekCol)) := by
    unfold labelRows at hg ⊢
    simp only [raiseIf_bind_ok] at hg ⊢
    refine ⟨hg.1, ?_, rfl⟩
    have h2 := hg.2.1
    simp only [List.any_eq_true, not_exists, not_and] at h2 ⊢
    intro r hr
    exact h2 r (hperm.mem_iff.mpr hr)
  have hrows : g0.rows.Perm (f'.setCol periodCol (rowLabel d start weekCol)).rows := by
    rw [hg']; exact hperm.map _
  have hper : (pivotTable d (indexColumns itemCol treatmentCol) periodCol
      (f'.setCol periodCol (rowLabel d start weekCol)).rows).periods.Perm
      (pivotTable d (indexColumns itemCol treatmentCol) periodCol g0.rows).periods :=
    dropDup_perm ((hrows.symm.filter _).map _)
  refine ⟨_, (f'.setCol periodCol (rowLabel d start weekCol)).dropCol periodCol, ?_, ?_, ?_, hper⟩
  · unfold pivotTimeAssignment
    rw [if_neg (hcols ▸ hpc), if_neg, hl]
    · simp only
      rw [if_neg]
      rintro ⟨h1, h2⟩
      exact hnk ⟨h1, fun h3 => h2 (hper.mem_iff.mpr h3)⟩
    · rw [List.any_eq_true]
      rintro ⟨c, hc, hc'⟩
      have := hreq c hc
      rw [hcols] at this
      simp [this] at hc'
  · funext k m q
    simp only [pivotTable]
    have : sumCol ((f'.setCol periodCol (rowLabel d start weekCol)).rows.filter (fun r =>
        (indexColumns itemCol treatmentCol).map r = k ∧ r periodCol = .str q)) m =
        sumCol (g0.rows.filter (fun r =>
        (indexColumns itemCol treatmentCol).map r = k ∧ r periodCol = .str q)) m :=
      Fl.sumSkip_perm ((hrows.symm.filter _).map _)
    rw [this]
  · simp only [pivotTable]
    unfold groupKeys
    refine (List.perm_insertionSort _ _).trans (List.Perm.trans ?_ (List.perm_insertionSort _ _).symm)
    exact dropDup_perm (((hrows.symm.filter _).map _).filter _)

/-! ### C15 -/

/-- **C15, the part that holds.**  When the pivot returns, or raises because of missing or existing
columns (`ValueError`) or an unusable week column (`TypeError`), the caller's frame has the same
columns and cells as before.  Missing: the `KeyError` raised when no row falls into the test
weeks. -/
theorem C15_caller_frame_unchanged_partial (d : DesignParams K) (start : ℤ) (metrics : List String)
    (itemCol weekCol : String) (treatmentCol : Option String) (periodCol : String) (f f' : Frame K)
    (res : Py (Pivoted K))
    (hp : pivotTimeAssignment d start metrics itemCol weekCol treatmentCol periodCol f = (res, f'))
    (hres : res ≠ .error .keyError) : f'.Same f := by
  unfold pivotTimeAssignment at hp
  split_ifs at hp with h1 h2
  · cases hp; exact ⟨rfl, rfl⟩
  · cases hp; exact ⟨rfl, rfl⟩
  · cases hl : labelRows d start weekCol periodCol f with
    | error e => rw [hl] at hp; cases hp; exact ⟨rfl, rfl⟩
    | ok g =>
      rw [hl] at hp
      simp only at hp
      split_ifs at hp with h3
      · cases hp; exact absurd rfl hres
      · cases hp
        have hg := labelRows_ok hl
        subst hg
        have hcols : (f.cols ++ [periodCol]).filter (fun k => k ≠ periodCol) = f.cols := by
          rw [List.filter_append]
          have : f.cols.filter (fun k => k ≠ periodCol) = f.cols := by
            rw [List.filter_eq_self]
            intro c hc
            simp only [ne_eq, decide_eq_true_eq]
            rintro rfl; exact h1 hc
          rw [this]; simp
        refine ⟨?_, ?_⟩
        · simp only [Frame.dropCol, Frame.setCol, if_neg h1, hcols]
        · simp only [Frame.table, Frame.dropCol, Frame.setCol, if_neg h1, hcols, List.map_map]
          apply List.map_congr_left
          intro r _
          apply List.map_congr_left
          intro c hc
          apply Function.update_of_ne
          rintro rfl; exact h1 hc

/-- One pretest row of item `a` in week 9. -/
def pretestOnlyRow : Row ℚ := fun c =>
  if c = "item_id" then .str "a" else if c = "week_id" then .int 9
  else if c = "clicks" then .num 1 else .null

/-- A frame without any row in the test weeks. -/
def pretestOnlyFrame : Frame ℚ := ⟨["item_id", "week_id", "clicks"], [pretestOnlyRow]⟩

/-- **C15 fails.**  For the example design starting in week 10 and data that ends before the start, the
pivot raises `KeyError` and leaves an extra column in the caller's frame, so that the same call
repeated on it raises a different error (`ValueError`). -/
theorem C15_caller_frame_unchanged_false :
    ∃ f' : Frame ℚ,
      (pivotTimeAssignment exampleParams 10 ["clicks"] "item_id" "week_id" none "time_period"
        pretestOnlyFrame).1 = .error .keyError ∧
      (pivotTimeAssignment exampleParams 10 ["clicks"] "item_id" "week_id" none "time_period"
        pretestOnlyFrame).2 = f' ∧
      ¬ f'.Same pretestOnlyFrame ∧
      (pivotTimeAssignment exampleParams 10 ["clicks"] "item_id" "week_id" none "time_period" f').1 =
        .error .valueError := by
  refine ⟨_, ?_, rfl, ?_, ?_⟩
  · decide +kernel
  · rintro ⟨h, _⟩
    revert h
    decide +kernel
  · decide +kernel

end Feedx
