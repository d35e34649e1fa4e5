import Verif.Props.LeftOut
import Verif.Props.RowOrderExample

/-!
C123 is not vacuous: tables that are accepted, and the rows that can be left out of them.
-/

set_option linter.unusedSectionVars false

namespace Feedx

variable {K : Type}

/-- If no two rows have the same item and date, each is the only one of its item and date. -/
theorem onlyRow_of_nodup {E : Ext K} {itemCol dateCol : String} {raw : Frame K}
    (h : (raw.rows.map (fun r => (E.toStr (r itemCol), E.toDate (r dateCol)))).Nodup) {z : Row K} (hz : z ∈ raw.rows) :
    Spec.OnlyRow E itemCol dateCol raw z := by
  obtain ⟨l, l', e⟩ := List.append_of_mem hz
  refine ⟨l ++ l', by rw [e]; exact List.perm_middle, ?_⟩
  intro r hr hc
  have hp : raw.rows.Perm (z :: (l ++ l')) := by rw [e]; exact List.perm_middle
  have := (hp.map (fun r => (E.toStr (r itemCol), E.toDate (r dateCol)))).nodup_iff.mp h
  rw [List.map_cons, List.nodup_cons] at this
  exact this.1 (List.mem_map.mpr ⟨r, hr, by rw [hc.1, hc.2]⟩)

/-- The performance data of a correctly run experiment, without the row whose value is missing. -/
def runKept (K : Type) [Field K] : Frame K where
  cols := ["id", "day", "clk"]
  rows := [("0", 0, Cell.num 3), ("0", 7 * 86400000000000, .num 1), ("1", 7 * 86400000000000, .num 2),
    ("1", 14 * 86400000000000, .num 5)].map (fun q c => if c = "id" then .str q.1 else if c = "day" then .time q.2.1 else if c = "clk" then q.2.2
      else .null)

/-- The row left out. -/
def runLeft (K : Type) [Field K] : List (Row K) :=
  [("0", (14 * 86400000000000 : ℤ), (.null : Cell K))].map (fun q c => if c = "id" then .str q.1 else if c = "day" then .time q.2.1 else if c = "clk" then q.2.2
      else .null)

theorem run_without (K : Type) [Field K] : Spec.Without (runPerf K) (runLeft K) (runKept K) := by
  refine ⟨rfl, ?_⟩
  unfold runPerf runLeft runKept
  rw [← List.map_append]
  refine List.Perm.map _ ?_
  exact (List.perm_middle (l₁ := [_, _])).trans (List.perm_append_singleton _ _).symm

theorem run_notNeeded (K : Type) [Field K] [LinearOrder K] [IsStrictOrderedRing K] [FloorRing K] :
    Spec.NotNeeded (runChecker K).ext "id" "day" runArgs (runAssign K) (runPerf K) (runKept K) (runLeft K) := by
  intro z hz
  have hm : z ∈ (runPerf K).rows := (run_without K).rows.mem_iff.mpr (List.mem_append_right _ hz)
  obtain ⟨q, hq, rfl⟩ := List.mem_map.mp hz
  rw [List.mem_singleton] at hq
  subst hq
  refine ⟨⟨_, List.mem_map.mpr ⟨("1", 14 * 86400000000000, .num 5), by simp, rfl⟩, rfl⟩, Or.inr ⟨⟨?_, ?_⟩, ?_⟩⟩
  · rintro c (hc | hc | hc | hc | hc) <;> cases hc
    exact Or.inr rfl
  · simp [runArgs]
  · refine onlyRow_of_nodup ?_ hm
    show ([("0", .ok (some 0)), ("0", .ok (some (7 * 86400000000000))), ("0", .ok (some (14 * 86400000000000))),
      ("1", .ok (some (7 * 86400000000000))), ("1", .ok (some (14 * 86400000000000)))] : List (String × Py (Option ℤ))).Nodup
    decide

/-- A correctly run experiment with sixty items: the row with a missing value can be left out. -/
example {K : Type} [Field K] [LinearOrder K] [IsStrictOrderedRing K] [FloorRing K] (R : Rounding K) (x : Bool) :
    ∃ out out', prepareExperiment (runChecker K) (runPerf K) (runAssign K) (sixtyDesign K x) "2024-01-08" "id" "day" "t" runArgs = .ok out ∧
      prepareExperiment (runChecker K) (runKept K) (runAssign K) (sixtyDesign K x) "2024-01-08" "id" "day" "t" runArgs = .ok out' ∧
      out'.rows.Perm out.rows := by
  obtain ⟨out, h⟩ := run_prepared R x
  obtain ⟨out', h', -, hp⟩ := C123_experiment_data (by decide) (by simp [runAssign]) (by simp [runAssign]) (by decide) (run_without K) (run_notNeeded K) h
  exact ⟨out, out', h, h', hp⟩

/-- The weekly data without the row of zero. -/
def weeklyKept : Frame ℚ where
  cols := ["id", "day", "clk"]
  rows := (([0, 2] : List ℕ).map (fun (n : ℕ) c => if c = "id" then .int 7 else if c = "day" then .time (n * (7 * 86400000000000))
      else if c = "clk" then .num (n - 1) else .null)) ++
    [fun c => if c = "id" then .str "b" else if c = "day" then .time (7 * 86400000000000) else if c = "clk" then .num 4 else .null]

/-- The row left out. -/
def weeklyLeft : List (Row ℚ) :=
  ([1] : List ℕ).map (fun (n : ℕ) c => if c = "id" then .int 7 else if c = "day" then .time (n * (7 * 86400000000000)) else if c = "clk" then .num (n - 1) else .null)

theorem weekly_without : Spec.Without rawWeekly weeklyLeft weeklyKept := by
  refine ⟨rfl, ?_⟩
  exact (List.perm_middle (l₁ := [_])).trans (List.perm_append_singleton _ _).symm

theorem weekly_nothing : Spec.NothingHappened exampleExt "id" "day" "other" "clk" rawWeekly weeklyKept weeklyLeft := by
  intro z hz
  have hm : z ∈ rawWeekly.rows := weekly_without.rows.mem_iff.mpr (List.mem_append_right _ hz)
  obtain ⟨q, hq, rfl⟩ := List.mem_map.mp hz
  rw [List.mem_singleton] at hq
  subst hq
  refine ⟨Or.inl (by decide +kernel), onlyRow_of_nodup (by decide +kernel) hm, ⟨_, List.mem_append_left _ (List.mem_map.mpr ⟨0, by simp, rfl⟩), rfl⟩,
    ⟨_, List.mem_append_right _ (List.mem_singleton.mpr rfl), rfl⟩⟩

/-- Weekly data: a value of zero. -/
example : ∃ out out', prepareHistorical (Rounding.exact ℚ) (takeSampler _) exampleExt (stableSorter ℚ) rawWeekly "id" "day" "other" "clk" 1
      ["all_metrics_are_non_negative"] = .ok out ∧
    prepareHistorical (Rounding.exact ℚ) (takeSampler _) exampleExt (stableSorter ℚ) weeklyKept "id" "day" "other" "clk" 1
      ["all_metrics_are_non_negative"] = .ok out' ∧ out'.rows.Perm out.rows := by
  have hc : (rawWeekly.rows.map (fun q => exampleExt.toStr (q "id"))).toFinset.card = 2 := by decide +kernel
  obtain ⟨out, h, -⟩ := C96_accepted (Rounding.exact ℚ) (takeSampler _) exampleExt (stableSorter ℚ) rawWeekly "id" "day" "other" "clk"
    1 0 7 3 dayOf clicksOf rawWeekly_usable (by norm_num) (by norm_num) (by rw [hc]; norm_num) (by rw [hc]; norm_num)
    ["all_metrics_are_non_negative"] (by decide) (Or.inl (by decide))
  obtain ⟨out', h', -, hp⟩ := C123_historical_data weekly_without weekly_nothing h
  exact ⟨out, out', h, h', hp⟩

/-! ### A daily study -/

/-- The row of an item on a day; the values are 0, 1, 2, ... by item. -/
def dailyRow (p : ℕ × ℕ) : Row ℝ := fun c =>
  if c = "id" then .str (itemText p.1) else if c = "day" then .time (p.2 * 86400000000000) else if c = "profit" then .num p.1 else .null

/-- Sixty items over 35 days. -/
def dailyRaw : Frame ℝ where
  cols := ["id", "day", "profit"]
  rows := (List.range 60 ×ˢ List.range 35).map dailyRow

/-- The same without the rows of the first item after the first day. -/
def dailyKept : Frame ℝ where
  cols := ["id", "day", "profit"]
  rows := ((List.range 60 ×ˢ List.range 35).filter (fun p => decide (p.1 ≠ 0 ∨ p.2 = 0))).map dailyRow

/-- The rows left out. -/
def dailyLeft : List (Row ℝ) := ((List.range 60 ×ˢ List.range 35).filter (fun p => !decide (p.1 ≠ 0 ∨ p.2 = 0))).map dailyRow

theorem dailyRaw_mem {r : Row ℝ} (h : r ∈ dailyRaw.rows) : ∃ i w, i < 60 ∧ w < 35 ∧ r = dailyRow (i, w) := by
  obtain ⟨⟨i, w⟩, hp, rfl⟩ := List.mem_map.mp h
  rw [List.mem_product, List.mem_range, List.mem_range] at hp
  exact ⟨i, w, hp.1, hp.2, rfl⟩

theorem mem_dailyRaw {i w : ℕ} (hi : i < 60) (hw : w < 35) : dailyRow (i, w) ∈ dailyRaw.rows :=
  List.mem_map.mpr ⟨(i, w), List.mem_product.mpr ⟨List.mem_range.mpr hi, List.mem_range.mpr hw⟩, rfl⟩

theorem daily_without : Spec.Without dailyRaw dailyLeft dailyKept := by
  refine ⟨rfl, ?_⟩
  unfold dailyRaw dailyLeft dailyKept
  rw [← List.map_append]
  exact (List.filter_append_perm _ _).symm.map _

theorem daily_keys : (dailyRaw.rows.map (fun r => (studyExt.toStr (r "id"), studyExt.toDate (r "day")))).Nodup := by
  unfold dailyRaw
  rw [List.map_map]
  refine (List.nodup_map_iff_inj_on (List.Nodup.product List.nodup_range List.nodup_range)).mpr ?_
  rintro ⟨i, w⟩ - ⟨i', w'⟩ - e
  obtain ⟨e1, e2⟩ := Prod.mk.inj e
  have e1 : itemText i = itemText i' := e1
  have e2 : (w : ℤ) * 86400000000000 = (w' : ℤ) * 86400000000000 := Option.some.inj (Except.ok.inj e2)
  rw [itemText_inj e1, show w = w' by omega]

theorem daily_nothing : Spec.NothingHappened studyExt "id" "day" "other" "profit" dailyRaw dailyKept dailyLeft := by
  intro z hz
  obtain ⟨⟨i, w⟩, hp, rfl⟩ := List.mem_map.mp hz
  obtain ⟨hp, hn⟩ := List.mem_filter.mp hp
  rw [List.mem_product, List.mem_range, List.mem_range] at hp
  have hn : i = 0 ∧ w ≠ 0 := by simpa using hn
  obtain ⟨rfl, hw0⟩ := hn
  have hk : ∀ i w : ℕ, i < 60 → w < 35 → (i ≠ 0 ∨ w = 0) → dailyRow (i, w) ∈ dailyKept.rows := by
    intro i w hi hw h
    exact List.mem_map.mpr ⟨(i, w), List.mem_filter.mpr ⟨List.mem_product.mpr ⟨List.mem_range.mpr hi, List.mem_range.mpr hw⟩, decide_eq_true h⟩, rfl⟩
  refine ⟨Or.inl ?_, onlyRow_of_nodup daily_keys (mem_dailyRaw hp.1 hp.2), ⟨_, hk 0 0 (by norm_num) (by norm_num) (Or.inr rfl), rfl⟩,
    ⟨_, hk 1 w (by norm_num) hp.2 (Or.inl (by norm_num)), rfl⟩⟩
  show Except.ok (Fl.fin ((0 : ℕ) : ℝ)) = _
  rw [Nat.cast_zero]

/-- The value of a row. -/
noncomputable def dailyValue (r : Row ℝ) : ℝ := match r "profit" with | .num x => x | _ => 0

theorem dailyRaw_usable : Spec.UsableRaw studyExt dailyRaw "id" "day" "other" "profit" 0 1 35 studyTime dailyValue := by
  refine ⟨by decide, fun _ => by decide, by simp [dailyRaw], by decide, ?_, ?_, ?_, Or.inl ⟨rfl, by norm_num⟩⟩
  · intro r hr
    obtain ⟨i, w, -, -, rfl⟩ := dailyRaw_mem hr
    rfl
  · intro r hr
    obtain ⟨i, w, -, -, rfl⟩ := dailyRaw_mem hr
    rfl
  · intro t
    constructor
    · rintro ⟨r, hr, rfl⟩
      obtain ⟨i, w, -, hw, rfl⟩ := dailyRaw_mem hr
      exact ⟨w, by omega, by omega, by change (w : ℤ) * 86400000000000 = _; omega⟩
    · rintro ⟨k, h0, hk, rfl⟩
      obtain ⟨n, rfl⟩ := Int.eq_ofNat_of_zero_le h0
      refine ⟨_, mem_dailyRaw (i := 0) (w := n) (by norm_num) (by omega), ?_⟩
      change (n : ℤ) * 86400000000000 = _
      omega

theorem dailyRaw_items : (dailyRaw.rows.map (fun q => studyExt.toStr (q "id"))).toFinset.card = 60 := by
  have : (dailyRaw.rows.map (fun q => studyExt.toStr (q "id"))).toFinset = (Finset.range 60).image itemText := by
    ext x
    rw [List.mem_toFinset, List.mem_map, Finset.mem_image]
    constructor
    · rintro ⟨r, hr, rfl⟩
      obtain ⟨i, w, hi, -, rfl⟩ := dailyRaw_mem hr
      exact ⟨i, Finset.mem_range.mpr hi, rfl⟩
    · rintro ⟨i, hi, rfl⟩
      exact ⟨_, mem_dailyRaw (w := 0) (Finset.mem_range.mp hi) (by norm_num), rfl⟩
  rw [this, Finset.card_image_of_injective _ (fun _ _ => itemText_inj), Finset.card_range]

/-- The daily study is opened. -/
theorem daily_opened (x : Bool) (V : StudyEnv) (hV : V.ext = studyExt) (ha : ArgsortOk V.argsort) :
    ∃ data s, openStudy V (oneForm x) dailyRaw = .ok (data, s) ∧ s ≠ [] := by
  have hc := dailyRaw_items
  obtain ⟨data, hdata, -, hw, hi, -⟩ := C96_accepted V.R V.rng studyExt V.sorter dailyRaw "id" "day" "other" "profit" 1 0 1 35 studyTime
    dailyValue dailyRaw_usable (by norm_num) le_rfl (by rw [hc]; norm_num) (by rw [hc]; norm_num) [] (by simp) (Or.inr (by
      intro r hr
      obtain ⟨i, w, -, -, rfl⟩ := dailyRaw_mem hr
      exact Nat.cast_nonneg (α := ℝ) i))
  have hn : nunique (data.col "item_id") = 60 := by
    rw [nunique_eq]
    have : (data.col "item_id").toFinset = (Finset.range 60).image (fun i => (.str (itemText i) : Cell ℝ)) := by
      ext x
      rw [List.mem_toFinset, hi rfl, Finset.mem_image]
      constructor
      · rintro ⟨r, hr, rfl⟩
        obtain ⟨i, w, hi, -, rfl⟩ := dailyRaw_mem hr
        exact ⟨i, Finset.mem_range.mpr hi, rfl⟩
      · rintro ⟨i, hi, rfl⟩
        exact ⟨_, mem_dailyRaw (w := 0) (Finset.mem_range.mp hi) (by norm_num), rfl⟩
    rw [this, Finset.erase_eq_of_notMem (by simp), Finset.card_image_of_injective _ (fun a b e => itemText_inj (by simpa using e)), Finset.card_range]
  have h4 : Spec.completeWeeks 1 35 = 5 := by decide
  rw [h4] at hw
  rw [← hV] at hdata
  obtain ⟨s, h, hs, -⟩ := oneForm_opened_of x V ha hdata
    ⟨⟨(hw 0).mpr (by norm_num), fun w h => ((hw w).mp h).1⟩, (hw 4).mpr (by norm_num), fun w h => by have := ((hw w).mp h).2; omega⟩ hn
  exact ⟨data, s, h, hs⟩

theorem daily_dates (t : ℤ) : (∃ r ∈ dailyRaw.rows, studyExt.toDate (r "day") = .ok (some t)) ↔ ∃ k : ℤ, 0 ≤ k ∧ k < 35 ∧ t = 0 + k * 86400000000000 := by
  constructor
  · rintro ⟨r, hr, e⟩
    obtain ⟨i, w, -, hw, rfl⟩ := dailyRaw_mem hr
    have e : (w : ℤ) * 86400000000000 = t := Option.some.inj (Except.ok.inj e)
    exact ⟨w, by omega, by omega, by omega⟩
  · rintro ⟨k, h0, hk, rfl⟩
    obtain ⟨n, rfl⟩ := Int.eq_ofNat_of_zero_le h0
    refine ⟨_, mem_dailyRaw (i := 0) (w := n) (by norm_num) (by omega), ?_⟩
    show Except.ok (some ((n : ℤ) * 86400000000000)) = _
    rw [zero_add]

/-- The daily study without the rows of zeros, and with its rows in another order. -/
example (x : Bool) (V : StudyEnv) (hV : V.ext = studyExt) (ha : ArgsortOk V.argsort) :
    ∃ data s, s ≠ [] ∧ openStudy V (oneForm x) dailyRaw = .ok (data, s) ∧ openStudy V (oneForm x) dailyKept = .ok (data, s) ∧
      openStudy V (oneForm x) dailyRaw.reversed = .ok (data, s) := by
  obtain ⟨data, s, h, hs⟩ := daily_opened x V hV ha
  refine ⟨data, s, hs, h, ?_, ?_⟩
  · exact C123_designer_daily V (oneForm x) daily_without (by rw [hV]; exact daily_nothing) 0 35 (by rw [hV]; exact daily_dates) data s h
  · exact C122_designer_daily V (oneForm x) (sameRows_reversed _) 0 35 (by rw [hV]; exact daily_dates) data s h

/-- The tables shown are the same too. -/
example (x : Bool) (V : StudyEnv) (hV : V.ext = studyExt) (ha : ArgsortOk V.argsort) (cells : List StudyCell) (S : SummarySorter) (text : SVal ℝ → String) :
    ∃ data s data' s', openStudy V (oneForm x) dailyRaw = .ok (data, s) ∧ openStudy V (oneForm x) dailyKept = .ok (data', s') ∧
      showStudy V S text true (runCells V data' s' cells) = showStudy V S text true (runCells V data s cells) := by
  obtain ⟨data, s, h, hs⟩ := daily_opened x V hV ha
  obtain ⟨data', s', h', -, -, hc⟩ := C123_designer V (oneForm x) rfl daily_without (by rw [hV]; exact daily_nothing) data s h
  exact ⟨data, s, data', s', h, h', (hc cells).1 S text true⟩

/-- The daily data, of which half of the items are kept. -/
example (R : Rounding ℝ) (rng : Sampler (Cell ℝ)) (S : DateSorter ℝ) :
    ∃ out, prepareHistorical R rng studyExt S dailyRaw "id" "day" "other" "profit" (1 / 2) [] = .ok out ∧
      prepareHistorical R rng studyExt S dailyKept "id" "day" "other" "profit" (1 / 2) [] = .ok out := by
  have hc := dailyRaw_items
  obtain ⟨out, h, -⟩ := C96_accepted R rng studyExt S dailyRaw "id" "day" "other" "profit" (1 / 2) 0 1 35 studyTime
    dailyValue dailyRaw_usable (by norm_num) (by norm_num) (by rw [hc]; norm_num) (by rw [hc]; norm_num) [] (by simp) (Or.inr (by
      intro r hr
      obtain ⟨i, w, -, -, rfl⟩ := dailyRaw_mem hr
      exact Nat.cast_nonneg (α := ℝ) i))
  exact ⟨out, h, C123_daily_history daily_without daily_nothing 0 35 daily_dates h⟩

/-! ### The report -/

/-- The rows of one more item come last. -/
theorem report_without (n : ℕ) : Spec.Without (reportPerfOf (n + 1)) ((List.range 4).map (fun w => reportRow (n, w))) (reportPerfOf n) := by
  refine ⟨rfl, List.Perm.of_eq ?_⟩
  show List.map reportRow (List.product (List.range (n + 1)) (List.range 4)) = List.map reportRow (List.product (List.range n) (List.range 4)) ++ _
  unfold List.product
  rw [List.range_succ (n := n), List.flatMap_append, List.map_append, List.flatMap_singleton, List.map_map]
  rfl

/-- The report of the study of C119, whose data has an item that is not assigned. -/
example (argsort : List ℝ → List ℕ) (ha : ArgsortOk argsort) (D : TDist) :
    ∃ (V : StudyEnv) (C : Checker ℝ) (items : Frame ℝ) (file : Dict (YVal ℝ)) (rows : List (String × TestResult)),
    prepareStudy V.R (1 / 20) (4 / 5) C reportForm file.reverse (reportPerfOf 61) (renamed items) >>= analyseData V.R argsort D notebookMetrics = .ok rows ∧
    prepareStudy V.R (1 / 20) (4 / 5) C reportForm file.reverse (reportPerfOf 60) (renamed items) >>= analyseData V.R argsort D notebookMetrics = .ok rows := by
  obtain ⟨V, data, cells, C, items, file, d, h1, h2, h3, h4, h5, h6, h7, h8, -, -, hE, h9⟩ := oneForm_run_of true 61 (by norm_num)
  obtain ⟨rows, hr, hn⟩ := C119_crossover_analysed V (oneForm true) (studyRaw "profit") data cells C h1 items file h3 rfl h4 file.reverse file.reverse_perm (1 / 20)
    (4 / 5) d h5 h6 reportForm (reportPerfOf 61) (renamed items) 0 h9 argsort ha D notebookMetrics (notebookMetrics_fit reportForm_given) (by
      intro m hm q hq
      rw [notebook_override hm hq, h8]
      exact enoughLeft_zero V.R (by norm_num))
  refine ⟨V, C, items, file, rows, hr, ?_⟩
  obtain ⟨⟨d1, f1⟩, e1, hr1⟩ := Py.bind_eq_ok.mp hr
  have hV : V.ext = studyExt := h1.symm.trans hE
  obtain ⟨-, -, -, -, -, -, -, hitems, -⟩ := exported_correct h1 h3 rfl h4 file.reverse_perm (1 / 20) (4 / 5)
  obtain ⟨f1', e1', -, ha'⟩ := C123_report V.R argsort D (1 / 20) (4 / 5) C reportForm file.reverse (by decide) (by simp [renamed, reportForm])
    (by simp [renamed, reportForm]) (report_without 60) (by
      rw [hE]
      intro z hz
      obtain ⟨w, hw, rfl⟩ := List.mem_map.mp hz
      refine ⟨⟨_, mem_reportPerf (i := 0) (by norm_num) (List.mem_range.mp hw), rfl⟩, Or.inl ?_⟩
      rintro ⟨r, hr, e⟩
      obtain ⟨q, hq, rfl⟩ := List.mem_map.mp hr
      obtain ⟨q', hq', e'⟩ := hitems _ (List.mem_map.mpr ⟨q, hq, rfl⟩)
      obtain ⟨i, w', hi, -, rfl⟩ := studyRaw_mem hq'
      have e2 : q "item_id" = .str (itemText i) := by rw [e', hV]; rfl
      have e3 : studyExt.toStr (q "item_id") = itemText 60 := e
      rw [e2] at e3
      have := itemText_inj (show itemText i = itemText 60 from e3)
      omega) d1 f1 e1
  exact Py.bind_eq_ok.mpr ⟨_, e1', by rw [ha']; exact hr1⟩

end Feedx
