import Verif.Props.AnalyseStudyExample

/-!
C120: the columns of the prepared experiment data, and metrics that are not among them.
-/

set_option linter.unusedSectionVars false
set_option linter.unusedSimpArgs false

namespace Feedx

section columns
variable {K : Type} [Field K] [LinearOrder K] [FloorRing K]

theorem addAtLeastOne_cols {pairs : List (String × String)} {f out : Frame K} (h : addAtLeastOne pairs f = .ok out) (c : String) :
    c ∈ out.cols ↔ c ∈ f.cols ∨ c ∈ pairs.map Prod.snd := by
  induction pairs generalizing f with
  | nil => cases h; simp
  | cons p pairs ih =>
    obtain ⟨m, new⟩ := p
    unfold addAtLeastOne at h
    obtain ⟨-, h⟩ := raiseIf_bind_ok.mp h
    obtain ⟨-, h⟩ := raiseIf_bind_ok.mp h
    rw [ih h, setCol_mem, List.map_cons, List.mem_cons]
    tauto

theorem preparedMetrics_eq (a : ExperimentArgs) :
    (Spec.requestedMetrics a.std ++ a.other.map (fun c => (c, c))).map Prod.fst = preparedMetrics a := by
  unfold preparedMetrics Spec.requestedMetrics
  rw [List.map_append, List.map_map]
  congr 1
  · cases a.std.clicks <;> cases a.std.impressions <;> cases a.std.totalCost <;> cases a.std.conversions <;>
      cases a.std.totalConversionValue <;> rfl
  · exact List.map_id' _

/-- **C120, the columns.**  The prepared experiment data has exactly these columns: the item, the date, the metrics asked for, the calendar, the
at-least-one metrics and the columns of the assignment table. -/
theorem C120_columns (C : Checker K) (perf assign out : Frame K) (d : Design K) (startDate itemCol dateCol treatCol : String) (a : ExperimentArgs)
    (h : prepareExperiment C perf assign d startDate itemCol dateCol treatCol a = .ok out) (hc : assign.cols = [itemCol, treatCol])
    (hne : itemCol ≠ treatCol) (c : String) :
    c ∈ out.cols ↔ c ∈ ["item_id", "date", "week_id", "week_start", "time_period", "treatment_assignment"] ∨ c ∈ preparedMetrics a ∨
      c ∈ a.atLeastOne.map Prod.snd := by
  unfold prepareExperiment at h
  obtain ⟨f, hb, h⟩ := Py.bind_eq_ok.mp h
  obtain ⟨_, -, h⟩ := Py.bind_eq_ok.mp h
  obtain rfl : f = out := Except.ok.inj h
  unfold buildExperiment at hb
  obtain ⟨a', ea, hb⟩ := Py.bind_eq_ok.mp hb
  obtain ⟨missing, em, hb⟩ := Py.bind_eq_ok.mp hb
  obtain ⟨f1, e1, hb⟩ := Py.bind_eq_ok.mp hb
  obtain ⟨f2, e2, hb⟩ := Py.bind_eq_ok.mp hb
  obtain ⟨f3, e3, hb⟩ := Py.bind_eq_ok.mp hb
  obtain ⟨f4, e4, hb⟩ := Py.bind_eq_ok.mp hb
  obtain ⟨f5, e5, hb⟩ := Py.bind_eq_ok.mp hb
  obtain ⟨-, -, start, -, -, hf3⟩ := addWeeks_ok e3
  unfold addTimePeriodColumn at e4
  obtain ⟨-, e4⟩ := raiseIf_bind_ok.mp e4
  obtain ⟨-, e4⟩ := raiseIf_bind_ok.mp e4
  unfold labelRows at e4
  obtain ⟨-, e4⟩ := raiseIf_bind_ok.mp e4
  obtain ⟨-, e4⟩ := raiseIf_bind_ok.mp e4
  replace e4 := (Except.ok.inj e4).symm
  unfold fillMissing at e2
  obtain ⟨-, e2⟩ := raiseIf_bind_ok.mp e2
  obtain ⟨-, e2⟩ := raiseIf_bind_ok.mp e2
  replace e2 := (Except.ok.inj e2).symm
  have h1 : f1.cols = "item_id" :: "date" :: preparedMetrics a := by
    rw [(standardize_ok (standardize_nodup e1) e1).2.2.2.1, columnNames_eq, List.map_cons, List.map_cons, preparedMetrics_eq]
  have ha : a'.cols = ["item_id", "treatment_assignment"] := by
    unfold cleanAssignment at ea
    simp only at ea
    obtain ⟨-, ea⟩ := raiseIf_bind_ok.mp ea
    obtain ⟨-, ea⟩ := raiseIf_bind_ok.mp ea
    obtain ⟨-, ea⟩ := raiseIf_bind_ok.mp ea
    obtain ⟨rows, -, ea⟩ := Py.bind_eq_ok.mp ea
    rw [← Except.ok.inj ea, hc]
    simp [renameCol, hne]
  unfold mergeAssignment at hb
  obtain ⟨-, hb⟩ := raiseIf_bind_ok.mp hb
  rw [← Except.ok.inj hb]
  simp only [List.mem_append, ha, addAtLeastOne_cols e5, e4, setCol_mem, hf3, withWeeks, e2, mergeMissing, h1]
  simp only [List.mem_cons, List.mem_filter, List.not_mem_nil, or_false, decide_eq_true_eq]
  by_cases k1 : c = "item_id" <;> by_cases k2 : c = "date" <;> by_cases k3 : c = "treatment_assignment" <;> simp_all <;> tauto

end columns

/-- **C120, metrics that were not given.**  If a metric or a denominator is not among the metrics and columns of the prepared data, the analysis of the
whole list of metrics is refused with `ValueError`. -/
theorem C120_unknown_metric (R : Rounding ℝ) (argsort : List ℝ → List ℕ) (D : TDist) (dflt05 dflt08 : ℝ) (C : Checker ℝ) (form : AnalyserForm)
    (file : Dict (YVal ℝ)) (perf assign out : Frame ℝ) (d : Design ℝ) (h : prepareStudy R dflt05 dflt08 C form file perf assign = .ok (d, out))
    (hc : assign.cols = [form.itemCol, form.treatCol]) (hne : form.itemCol ≠ form.treatCol) (metrics : List Metric) (m : Metric) (hm : m ∈ metrics)
    (c : String) (hmc : m.column = c ∨ m.denominator = some c)
    (hk : c ∉ ["item_id", "date", "week_id", "week_start", "treatment_assignment"] ++ form.metricNames ++ form.atLeastOne.map Prod.snd) :
    analyseData R argsort D metrics (d, out) = .error .valueError := by
  unfold prepareStudy at h
  obtain ⟨d', -, h⟩ := Py.bind_eq_ok.mp h
  obtain ⟨out', h, e⟩ := Py.bind_eq_ok.mp h
  cases e
  have hcols := C120_columns C perf assign out d form.startDate form.itemCol form.dateCol form.treatCol form.args h hc hne
  have h0 : raiseIf PyErr.keyError ("time_period" ∉ out.cols) = .ok () := raiseIf_ok.mpr (not_not.mpr ((hcols _).mpr (Or.inl (by simp))))
  unfold analyseData
  simp only [h0, bind, Except.bind]
  unfold analyzeExperiment
  rw [if_neg (List.ne_nil_of_mem hm)]
  have hp : pivotTimeAssignment d.toDesignParams 0 (metricColumns metrics) "item_id" "week_id" (some "treatment_assignment") "time_period"
      (out.dropCol "time_period") = (.error .valueError, out.dropCol "time_period") := by
    unfold pivotTimeAssignment
    rw [if_neg (by unfold Frame.dropCol; simp), if_pos]
    rw [List.any_eq_true]
    refine ⟨c, ?_, ?_⟩
    · have : c ∈ metricColumns metrics := by
        unfold metricColumns
        rw [List.mem_append]
        rcases hmc with e | e
        · exact Or.inl (List.mem_map.mpr ⟨m, hm, e⟩)
        · exact Or.inr (List.mem_filterMap.mpr ⟨m, hm, e⟩)
      simp [this]
    · rw [decide_eq_true_eq]
      intro hin
      unfold Frame.dropCol at hin
      obtain ⟨h1, h2⟩ := List.mem_filter.mp hin
      rw [hcols, form_metricNames] at h1
      apply hk
      have h2 : c ≠ "time_period" := by simpa using h2
      simp only [List.mem_append, List.mem_cons, List.not_mem_nil, or_false] at h1 ⊢
      have e : form.args.atLeastOne = form.atLeastOne := rfl
      rw [e] at h1
      tauto
  simp only [hp]

/-- **C120, columns left empty.**  The analyser lets the user leave a column of a standard
metric empty and accepts the data; the analysis with the notebook's list of metrics is then always refused with `ValueError`, for the metrics that were given
as well. -/
theorem C120_left_empty (R : Rounding ℝ) (argsort : List ℝ → List ℕ) (D : TDist) (dflt05 dflt08 : ℝ) (C : Checker ℝ) (form : AnalyserForm)
    (file : Dict (YVal ℝ)) (items perf assign out : Frame ℝ) (d : Design ℝ) (h : prepareStudy R dflt05 dflt08 C form file perf assign = .ok (d, out))
    (hr : Spec.ReadBack C.ext items assign form.itemCol form.treatCol) (hf : Spec.FormFits perf form) (hg : ¬ Spec.AllGiven form) :
    analyseData R argsort D notebookMetrics (d, out) = .error .valueError := by
  have hal : ∀ c, c ∈ form.atLeastOne.map Prod.snd → c ∈ ["at_least_one_click", "at_least_one_impression", "at_least_one_conversion"] := by
    intro c hc
    obtain ⟨p, hp, rfl⟩ := List.mem_map.mp hc
    have := (form_atLeastOne hp).2
    simp only [List.mem_cons, List.not_mem_nil, or_false] at this ⊢
    rcases this with rfl | rfl | rfl <;> simp
  have key : ∀ c name, (⟨name, c, none, none⟩ : Metric) ∈ notebookMetrics → c ∈ standardNames →
      c ∉ ["item_id", "date", "week_id", "week_start", "treatment_assignment"] →
      c ∉ ["at_least_one_click", "at_least_one_impression", "at_least_one_conversion"] →
      (c ∈ form.metricNames → c ∈ form.others) → analyseData R argsort D notebookMetrics (d, out) = .error .valueError := by
    intro c name h1 h2 h3 h4 h5
    refine C120_unknown_metric R argsort D dflt05 dflt08 C form file perf assign out d h hr.1 hf.different notebookMetrics _ h1 c (Or.inl rfl) ?_
    rw [List.mem_append, List.mem_append]
    rintro ((k | k) | k)
    · exact h3 k
    · exact (hf.others c (h5 k)).1 h2
    · exact h4 (hal c k)
  unfold Spec.AllGiven at hg
  by_cases g1 : form.clicks = ""
  · exact key "clicks" "Clicks" (by simp [notebookMetrics]) (by decide) (by decide) (by decide) (by unfold AnalyserForm.metricNames; simp [g1]; try tauto)
  by_cases g2 : form.impressions = ""
  · exact key "impressions" "Impressions" (by simp [notebookMetrics]) (by decide) (by decide) (by decide) (by unfold AnalyserForm.metricNames; simp [g2]; try tauto)
  by_cases g3 : form.totalCost = ""
  · exact key "total_cost" "Cost" (by simp [notebookMetrics]) (by decide) (by decide) (by decide) (by unfold AnalyserForm.metricNames; simp [g3]; try tauto)
  by_cases g4 : form.conversions = ""
  · exact key "conversions" "Conversions" (by simp [notebookMetrics]) (by decide) (by decide) (by decide) (by unfold AnalyserForm.metricNames; simp [g4]; try tauto)
  by_cases g5 : form.totalConversionValue = ""
  · exact key "total_conversion_value" "Conversion value" (by simp [notebookMetrics]) (by decide) (by decide) (by decide)
      (by unfold AnalyserForm.metricNames; simp [g5]; try tauto)
  exact absurd ⟨g1, g2, g3, g4, g5⟩ hg

/-- The concrete study, with the cost left empty: the data is accepted, the analysis refused. -/
example (argsort : List ℝ → List ℕ) (D : TDist) : ∃ (V : StudyEnv) (C : Checker ℝ) (items : Frame ℝ) (file : Dict (YVal ℝ)) (d : Design ℝ) (out : Frame ℝ),
    prepareStudy V.R (1 / 20) (4 / 5) C { reportForm with totalCost := "" } file.reverse reportPerf (renamed items) = .ok (d, out) ∧
    "clicks" ∈ out.cols ∧ analyseData V.R argsort D notebookMetrics (d, out) = .error .valueError := by
  obtain ⟨V, data, cells, C, items, file, d, h1, h2, h3, h4, h5, h6, h7, h8, hpm, -, -, h9⟩ := oneForm_run true
  obtain ⟨d', hl, -, hacc⟩ := C119_data_accepted V (oneForm true) (studyRaw "profit") data cells C h1 items file h3 rfl h4 file.reverse file.reverse_perm
    (1 / 20) (4 / 5)
  rw [h5] at hl
  cases hl
  have hfit : Spec.FormFits reportPerf { reportForm with totalCost := "" } := by
    refine ⟨?_, ?_, by decide, by decide⟩
    · show ∀ c ∈ ["id", "day", "clk", "imp", "conv", "val", "profit"], c ∈ ["id", "day", "profit", "clk", "imp", "cost", "conv", "val"]
      decide
    · show ["id", "day", "clk", "imp", "conv", "val", "profit"].Nodup
      decide
  have hp := h9.performance
  obtain ⟨out, ho⟩ := hacc { reportForm with totalCost := "" } reportPerf (renamed items) 0 h9.table hfit (by intro s hs; cases hs) h9.date
    ⟨hp.dates, hp.first, hp.last, hp.spaced, hp.once, fun s hs => hp.numbers s (by revert hs; unfold Spec.metricSources Spec.requestedMetrics; simp [AnalyserForm.args, reportForm, givenName]; tauto), by
      rw [hpm, form_metricNames]
      decide⟩
  refine ⟨V, C, items, file, d, out, ho, ?_, C120_left_empty V.R argsort D _ _ C _ _ items _ _ out d ho h9.table hfit (by unfold Spec.AllGiven; simp)⟩
  obtain ⟨-, ho⟩ := prepareStudy_ok h5 ho
  rw [C120_columns C _ _ out d _ _ _ _ _ ho rfl (by decide), form_metricNames]
  exact Or.inr (Or.inl (by decide))

end Feedx
