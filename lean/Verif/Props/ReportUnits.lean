import Verif.Proofs.ScalingAnalysis
import Verif.Props.Units

/-!
C128: the report does not depend on the unit of a metric.
-/

set_option linter.unusedSectionVars false
set_option maxHeartbeats 1000000

namespace Feedx

open Fl

/-- **C128.**  If the values of a column are given in other units (cents instead of euros, `c` times the number), then the analysis of the same data either
fails with the same error, or returns the same rows in the new units: for each metric the same statistic, p-value, significance, degrees of freedom, sample size
and relative difference, and the averages, differences, standard errors and intervals times the factor by which the unit of the metric changes.  That factor
is `c` for metrics of the column, `1 / c` for ratios by it, and 1 for the others, whose results are the same.  In regular experiments the interval of the
relative difference is the same, too, if the interval of the difference is shorter (to either side) than the average of the control group (in general it is
not, see `C33_false`).  In crossover experiments the column must not be held as integers in either table (fractions are lost then, see
`C115_crossover_false`). -/
theorem C128_report_units (R : Rounding ℝ) (argsort : List ℝ → List ℕ) (D : TDist) (c : ℝ) (hc : 0 < c) (hs : Spec.SortsInUnits argsort c)
    (d : DesignParams ℝ) (metrics : List Metric) (weekCol itemCol treatCol col : String) (hcol : col ∉ [itemCol, weekCol, treatCol, "time_period"])
    (hi : itemCol ∉ ["test", "pretest", "test_1", "test_2"]) (ht : treatCol ∉ ["test", "pretest", "test_1", "test_2"])
    (f f' : Frame ℝ) (hf : Spec.ColumnTimes c col f f')
    (hw : d.isCrossover = true → ¬ Spec.IntegerColumn f col ∧ ¬ Spec.IntegerColumn f' col) :
    Spec.SameOutcome
      (fun rows rows' => rows.length = metrics.length ∧ rows'.length = metrics.length ∧
        List.Forall₂ (fun m (e : (String × TestResult) × (String × TestResult)) => e.1.1 = m.name ∧ e.2.1 = m.name ∧
            Spec.ReportTimes (Spec.factorOf c col m) e.1.2 e.2.2 ∧ (Spec.factorOf c col m = 1 → e.2.2 = e.1.2) ∧
            (d.isCrossover = false → Spec.Precise e.1.2 → Spec.SameRelativeBounds e.1.2 e.2.2))
          metrics (rows.zip rows'))
      (analyzeExperiment R argsort D d metrics weekCol itemCol treatCol f).1
      (analyzeExperiment R argsort D d metrics weekCol itemCol treatCol f').1 := by
  have hne : itemCol ≠ col ∧ weekCol ≠ col ∧ treatCol ≠ col ∧ "time_period" ≠ col := by
    simp only [List.mem_cons, List.not_mem_nil, or_false, not_or] at hcol
    exact ⟨fun e => hcol.1 e.symm, fun e => hcol.2.1 e.symm, fun e => hcol.2.2.1 e.symm, fun e => hcol.2.2.2 e.symm⟩
  unfold analyzeExperiment
  by_cases hm : metrics = []
  · simp only [if_pos hm]; rfl
  simp only [if_neg hm]
  have hp := pivot_scale hc (d := d) (start := 0) (metrics := metricColumns metrics) hne.1 hne.2.1 hne.2.2.1 hne.2.2.2 hf.1 hf.2
  generalize (pivotTimeAssignment d 0 (metricColumns metrics) itemCol weekCol (some treatCol) "time_period" f) = x at hp ⊢
  generalize (pivotTimeAssignment d 0 (metricColumns metrics) itemCol weekCol (some treatCol) "time_period" f') = y at hp ⊢
  obtain ⟨x, x2⟩ := x
  obtain ⟨y, y2⟩ := y
  cases x with
  | error e =>
    cases y with
    | error e' => exact hp
    | ok p' => exact hp.elim
  | ok p =>
    cases y with
    | error e' => exact hp.elim
    | ok p' =>
      obtain ⟨hpt, w1, w2⟩ := hp
      have hwc : d.isCrossover = true → p.whole col = false ∧ p'.whole col = false := fun hx => by
        obtain ⟨n1, n2⟩ := hw hx
        refine ⟨?_, ?_⟩
        · by_contra hb
          rcases w1 col (by simpa using hb) with h | h
          · exact n1 h
          · exact hne.2.2.2 h.symm
        · by_contra hb
          rcases w2 col (by simpa using hb) with h | h
          · exact n2 h
          · exact hne.2.2.2 h.symm
      show Spec.SameOutcome _ (metrics.mapM _) (metrics.mapM _)
      have key : ∀ l : List Metric, Spec.SameOutcome
          (fun rows rows' => rows.length = l.length ∧ rows'.length = l.length ∧
            List.Forall₂ (fun m (e : (String × TestResult) × (String × TestResult)) => e.1.1 = m.name ∧ e.2.1 = m.name ∧
                Spec.ReportTimes (Spec.factorOf c col m) e.1.2 e.2.2 ∧ (Spec.factorOf c col m = 1 → e.2.2 = e.1.2) ∧
                (d.isCrossover = false → Spec.Precise e.1.2 → Spec.SameRelativeBounds e.1.2 e.2.2))
              l (rows.zip rows'))
          (l.mapM (fun m => do
            let r ← analyzeSingleMetric R argsort D p (metricColumns metrics) [itemCol, treatCol] d m.column m.denominator treatCol m.override
            pure (m.name, r)))
          (l.mapM (fun m => do
            let r ← analyzeSingleMetric R argsort D p' (metricColumns metrics) [itemCol, treatCol] d m.column m.denominator treatCol m.override
            pure (m.name, r))) := by
        intro l
        induction l with
        | nil => exact ⟨rfl, rfl, List.Forall₂.nil⟩
        | cons m l ih =>
          rw [List.mapM_cons, List.mapM_cons]
          refine Spec.SameOutcome.bind (P := fun (e e' : String × TestResult) => e.1 = m.name ∧ e'.1 = m.name ∧
            Spec.ReportTimes (Spec.factorOf c col m) e.2 e'.2 ∧ (Spec.factorOf c col m = 1 → e'.2 = e.2) ∧
            (d.isCrossover = false → Spec.Precise e.2 → Spec.SameRelativeBounds e.2 e'.2)) ?_ fun e e' he => ?_
          · refine (single_scale hc R argsort hs D hpt hi ht d hwc m).bind fun r r' hr => ?_
            exact ⟨rfl, rfl, hr.1.1, hr.1.2, hr.2⟩
          · refine ih.bind fun a b hab => ?_
            exact ⟨congrArg (· + 1) hab.1, congrArg (· + 1) hab.2.1, List.Forall₂.cons he hab.2.2⟩
      exact key metrics

end Feedx
