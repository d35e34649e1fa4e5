import Verif.Props.AnalyserUnits
import Verif.Props.AnalyseStudyExample
import Verif.Props.ReportUnitsExample

/-!
C131 is not vacuous: the crossover of the concrete study, with its cost in euros and in cents.
-/

set_option linter.unusedSectionVars false

namespace Feedx

/-- The performance data with the cost in cents. -/
noncomputable def centsPerf : Frame ℝ where
  cols := reportPerf.cols
  rows := (List.range 60 ×ˢ List.range 4).map (fun p => Function.update (reportRow p) "cost" (.num (100 * (1 * (p.1 + 1)))))

theorem cents_perf : Spec.PerfUnits studyExt reportForm.args "total_cost" "cost" 100 reportPerf centsPerf := by
  refine ⟨rfl, ?_⟩
  have e1 : reportPerf.rows = (List.range 60 ×ˢ List.range 4).map reportRow := by unfold reportPerf reportPerfOf scaledPerf; rfl
  have e2 : centsPerf.rows = (List.range 60 ×ˢ List.range 4).map (fun p => Function.update (reportRow p) "cost" (.num (100 * (1 * (p.1 + 1))))) := by
    unfold centsPerf; rfl
  rw [e1, e2]
  rw [List.forall₂_map_left_iff, List.forall₂_map_right_iff, List.forall₂_same]
  intro p _
  refine ⟨fun x hx => Function.update_of_ne hx _ _, ?_⟩
  rw [Function.update_self]
  have e : reportRow p "cost" = .num (1 * (p.1 + 1)) := by
    unfold reportRow scaledRow
    rw [if_neg (by decide), if_neg (by decide)]
  rw [e]
  have hn : "total_cost" ∉ reportForm.args.other := by decide
  unfold Spec.parsed
  rw [if_neg hn, if_neg hn]
  exact rfl

/-- C131 for a session that is analysed. -/
theorem analysed_units {R : Rounding ℝ} {dflt05 dflt08 : ℝ} {C : Checker ℝ} {argsort : List ℝ → List ℕ} {D : TDist} {form : AnalyserForm}
    {file : Dict (YVal ℝ)} {perf perf' assign : Frame ℝ} {metrics : List Metric} {m col : String} (hm : (m, col) ∈ Spec.metricSources form.args)
    (hcol : col ∉ [form.itemCol, form.dateCol])
    (hn : m ∉ ["week_id", "week_start", "time_period", "treatment_assignment", "at_least_one_click", "at_least_one_impression", "at_least_one_conversion"])
    {c : ℝ} (hc : 0 < c) (hs : Spec.SortsInUnits argsort c) (h : Spec.PerfUnits C.ext form.args m col c perf perf') {rows : List (String × TestResult)}
    (hr : prepareStudy R dflt05 dflt08 C form file perf assign >>= analyseData R argsort D metrics = .ok rows) :
    ∃ rows' x, prepareStudy R dflt05 dflt08 C form file perf' assign >>= analyseData R argsort D metrics = .ok rows' ∧
      Spec.ReportInUnits c m x metrics rows rows' := by
  have key := C131_session_units R dflt05 dflt08 C argsort D form file perf perf' assign metrics m col hm hcol hn c hc hs h
  obtain ⟨p, hp, hr⟩ := Py.bind_eq_ok.mp hr
  rw [hp] at key
  cases hp' : prepareStudy R dflt05 dflt08 C form file perf' assign with
  | error e => rw [hp'] at key; exact key.elim
  | ok p' =>
    rw [hp'] at key
    obtain ⟨-, -, -, key⟩ := key
    rw [hr] at key
    cases hr' : analyseData R argsort D metrics p' with
    | error e => rw [hr'] at key; exact key.elim
    | ok rows' =>
      rw [hr'] at key
      exact ⟨rows', _, hr', key⟩

/-- All hypotheses of C131 are met by the crossover of the study: with the cost in cents, the report has the same eleven rows.  The cost (third row) and
the cost per click (tenth) are a hundred times as high, and the return on the cost (eleventh) is a hundredth. -/
example (D : TDist) : ∃ (V : StudyEnv) (C : Checker ℝ) (items : Frame ℝ) (file : Dict (YVal ℝ)) (rows rows' : List (String × TestResult)),
    prepareStudy V.R (1 / 20) (4 / 5) C reportForm file.reverse reportPerf (renamed items) >>= analyseData V.R stableArgsort D notebookMetrics = .ok rows ∧
    prepareStudy V.R (1 / 20) (4 / 5) C reportForm file.reverse centsPerf (renamed items) >>= analyseData V.R stableArgsort D notebookMetrics = .ok rows' ∧
    rows.length = 11 ∧ (∃ x, Spec.ReportInUnits 100 "total_cost" x notebookMetrics rows rows') ∧
    notebookMetrics.map (Spec.factorOf 100 "total_cost") = [1, 1, 100, 1, 1, 1, 1, 1, 1, 100, 1 / 100] := by
  obtain ⟨V, data, cells, C, items, file, d, h1, h2, h3, h4, h5, h6, h7, h8, -, -, hE, h9⟩ := oneForm_run true
  obtain ⟨rows, hr, hn⟩ := C119_crossover_analysed V (oneForm true) (studyRaw "profit") data cells C h1 items file h3 rfl h4 file.reverse file.reverse_perm (1 / 20)
    (4 / 5) d h5 h6 reportForm reportPerf (renamed items) 0 h9 stableArgsort stableArgsort_ok D notebookMetrics (notebookMetrics_fit reportForm_given) (by
      intro m hm q hq
      rw [notebook_override hm hq, h8]
      exact enoughLeft_zero V.R (by norm_num))
  obtain ⟨rows', x, hr', hx⟩ := analysed_units (m := "total_cost") (col := "cost") (by decide) (by decide) (by decide) (by norm_num : (0 : ℝ) < 100)
    (stableArgsort_units (by norm_num)) (by rw [hE]; exact cents_perf) hr
  refine ⟨V, C, items, file, rows, rows', hr, hr', ?_, ⟨x, hx⟩, ?_⟩
  · have := congrArg List.length hn
    simpa [notebookMetrics] using this
  · simp [notebookMetrics, Spec.factorOf]

end Feedx
