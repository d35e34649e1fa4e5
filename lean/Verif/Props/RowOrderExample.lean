import Verif.Props.RowOrderStudy
import Verif.Props.CorrectRun
import Verif.Props.AnalyseStudyExample
import Verif.Props.DesignExample

/-!
C122 is not vacuous: tables that are accepted, with their rows in reverse order.
-/

set_option linter.unusedSectionVars false

namespace Feedx

/-- The rows in reverse order. -/
def Frame.reversed {K : Type} (f : Frame K) : Frame K := ⟨f.cols, f.rows.reverse⟩

theorem sameRows_reversed {K : Type} (f : Frame K) : Spec.SameRows f f.reversed := ⟨rfl, f.rows.reverse_perm⟩

/-- A correctly run experiment with sixty items. -/
example {K : Type} [Field K] [LinearOrder K] [IsStrictOrderedRing K] [FloorRing K] (R : Rounding K) (x : Bool) :
    ∃ out out', prepareExperiment (runChecker K) (runPerf K) (runAssign K) (sixtyDesign K x) "2024-01-08" "id" "day" "t" runArgs = .ok out ∧
      prepareExperiment (runChecker K) (runPerf K).reversed (runAssign K).reversed (sixtyDesign K x) "2024-01-08" "id" "day" "t" runArgs = .ok out' ∧
      out'.rows.Perm out.rows := by
  obtain ⟨out, h⟩ := run_prepared R x
  obtain ⟨out', h', -, hp⟩ := C122_experiment_data (sameRows_reversed _) (sameRows_reversed _) (by decide) h
  exact ⟨out, out', h, h', hp⟩

/-- Weekly data. -/
example : ∃ out out', prepareHistorical (Rounding.exact ℚ) (takeSampler _) exampleExt (stableSorter ℚ) rawWeekly "id" "day" "other" "clk" 1
      ["all_metrics_are_non_negative"] = .ok out ∧
    prepareHistorical (Rounding.exact ℚ) (takeSampler _) exampleExt (stableSorter ℚ) rawWeekly.reversed "id" "day" "other" "clk" 1
      ["all_metrics_are_non_negative"] = .ok out' ∧ out'.rows.Perm out.rows := by
  have hc : (rawWeekly.rows.map (fun q => exampleExt.toStr (q "id"))).toFinset.card = 2 := by decide +kernel
  obtain ⟨out, h, -⟩ := C96_accepted (Rounding.exact ℚ) (takeSampler _) exampleExt (stableSorter ℚ) rawWeekly "id" "day" "other" "clk"
    1 0 7 3 dayOf clicksOf rawWeekly_usable (by norm_num) (by norm_num) (by rw [hc]; norm_num) (by rw [hc]; norm_num)
    ["all_metrics_are_non_negative"] (by decide) (Or.inl (by decide))
  obtain ⟨out', h', -, hp⟩ := C122_historical_data (sameRows_reversed _) h
  exact ⟨out, out', h, h', hp⟩

/-- Daily data, of which half of the items are kept. -/
example : ∃ out, prepareHistorical (Rounding.exact ℚ) (takeSampler _) exampleExt (stableSorter ℚ) rawHistory "id" "day" "clicks" "clk" (1 / 2) ["no_nulls"] =
      .ok out ∧
    prepareHistorical (Rounding.exact ℚ) (takeSampler _) exampleExt (stableSorter ℚ) rawHistory.reversed "id" "day" "clicks" "clk" (1 / 2) ["no_nulls"] =
      .ok out := by
  have hc : (rawHistory.rows.map (fun q => exampleExt.toStr (q "id"))).toFinset.card = 2 := by decide +kernel
  obtain ⟨out, h, -⟩ := C96_accepted (Rounding.exact ℚ) (takeSampler _) exampleExt (stableSorter ℚ) rawHistory "id" "day" "clicks" "clk"
    (1 / 2) 0 1 16 dayOf clicksOf rawHistory_usable (by norm_num) (by norm_num) (by rw [hc]; norm_num) (by rw [hc]; norm_num) ["no_nulls"] (by decide)
    (Or.inr (by
      intro r hr
      rcases List.mem_append.mp hr with hr | hr <;> obtain ⟨n, -, rfl⟩ := List.mem_map.mp hr
      · change (0 : ℚ) ≤ (n : ℚ)
        positivity
      · change (0 : ℚ) ≤ 1
        norm_num))
  refine ⟨out, h, C122_daily_history (sameRows_reversed _) 0 16 ?_ h⟩
  intro t
  have hg := rawHistory_usable.grid t
  constructor
  · rintro ⟨r, hr, e⟩
    rw [rawHistory_usable.dates r hr] at e
    obtain ⟨k, h1, h2, h3⟩ := hg.mp ⟨r, hr, by simpa using e⟩
    exact ⟨k, h1, h2, by omega⟩
  · rintro ⟨k, h1, h2, h3⟩
    obtain ⟨r, hr, e⟩ := hg.mpr ⟨k, h1, h2, by omega⟩
    exact ⟨r, hr, by rw [rawHistory_usable.dates r hr, e]⟩

/-- The study of C118, validated and exported, and opened with the rows of its data reversed. -/
example (x : Bool) : ∃ (V : StudyEnv) (data : Frame ℝ) (s : Study) (cells : List StudyCell) (id : List Char) (data' : Frame ℝ) (s' : Study),
    openStudy V (oneForm x) (studyRaw "profit") = .ok (data, s) ∧ openStudy V (oneForm x) (studyRaw "profit").reversed = .ok (data', s') ∧
    ∃ table table' file, (exportStudy V binomTest noShuffle [1] data id "design.yaml" (runCells V data s cells)).1 = .ok (table, file) ∧
      (exportStudy V binomTest noShuffle [1] data' id "design.yaml" (runCells V data' s' cells)).1 = .ok (table', file) ∧ table'.rows.Perm table.rows := by
  obtain ⟨V, data, s, cells, id, -, -, -, h, -, -, -, -, items, file, s1, hexp⟩ := oneForm_exported x
  obtain ⟨data', s', h', -, -, hcells⟩ := C122_designer V (oneForm x) rfl (sameRows_reversed _) data s h
  obtain ⟨-, -, hx⟩ := hcells cells
  obtain ⟨table', he, -, hp⟩ := (hx binomTest noShuffle [1] id "design.yaml").1 items file (by rw [hexp])
  exact ⟨V, data, s, cells, id, data', s', h, h', items, table', file, by rw [hexp], he, hp⟩

/-- The report of the study of C119, with the rows of both tables reversed. -/
example (argsort : List ℝ → List ℕ) (ha : ArgsortOk argsort) (D : TDist) :
    ∃ (V : StudyEnv) (C : Checker ℝ) (items : Frame ℝ) (file : Dict (YVal ℝ)) (rows : List (String × TestResult)),
    prepareStudy V.R (1 / 20) (4 / 5) C reportForm file.reverse reportPerf (renamed items) >>= analyseData V.R argsort D notebookMetrics = .ok rows ∧
    prepareStudy V.R (1 / 20) (4 / 5) C reportForm file.reverse reportPerf.reversed (renamed items).reversed >>= analyseData V.R argsort D notebookMetrics =
      .ok rows := by
  obtain ⟨V, data, cells, C, items, file, d, h1, h2, h3, h4, h5, h6, h7, h8, -, -, -, h9⟩ := oneForm_run true
  obtain ⟨rows, hr, hn⟩ := C119_crossover_analysed V (oneForm true) (studyRaw "profit") data cells C h1 items file h3 rfl h4 file.reverse file.reverse_perm (1 / 20)
    (4 / 5) d h5 h6 reportForm reportPerf (renamed items) 0 h9 argsort ha D notebookMetrics (notebookMetrics_fit reportForm_given) (by
      intro m hm q hq
      rw [notebook_override hm hq, h8]
      exact enoughLeft_zero V.R (by norm_num))
  refine ⟨V, C, items, file, rows, hr, ?_⟩
  obtain ⟨⟨d1, f1⟩, e1, hr1⟩ := Py.bind_eq_ok.mp hr
  obtain ⟨f1', e1', -, ha'⟩ := C122_report V.R argsort D (1 / 20) (4 / 5) C reportForm file.reverse (sameRows_reversed reportPerf)
    (sameRows_reversed (renamed items)) d1 f1 e1
  exact Py.bind_eq_ok.mpr ⟨_, e1', by rw [ha']; exact hr1⟩

end Feedx
