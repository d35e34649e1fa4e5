import Verif.Props.Experiment
import Verif.Spec.ReportUnits
import Verif.Model.AnalyseStudy

/-!
Specification for C131: a session of the experiment analyser, with a metric of the performance data in other units.
-/

namespace Feedx.Spec

/-- The performance tables are the same except in the column `col` of the metric `m`: there, both have a cell that cannot be read, with the same error, or the
value read from the second table is the one of the first table times `c`. -/
def PerfUnits (E : Ext ℝ) (a : ExperimentArgs) (m col : String) (c : ℝ) (perf perf' : Frame ℝ) : Prop :=
  perf'.cols = perf.cols ∧ List.Forall₂ (fun r r' => (∀ x, x ≠ col → r' x = r x) ∧
    SameOutcome (fun v v' => v' = .fin c * v) (parsed E a m (r col)) (parsed E a m (r' col))) perf.rows perf'.rows

/-- The rows of the two reports are about the same metrics, with the same results in units that differ by the factor of the metric; nothing changes for
metrics that do not use `m`. -/
def ReportInUnits (c : ℝ) (m : String) (crossover : Bool) (metrics : List Metric) (rows rows' : List (String × TestResult)) : Prop :=
  rows.length = metrics.length ∧ rows'.length = metrics.length ∧
    List.Forall₂ (fun μ (e : (String × TestResult) × (String × TestResult)) => e.1.1 = μ.name ∧ e.2.1 = μ.name ∧
        ReportTimes (factorOf c m μ) e.1.2 e.2.2 ∧ (factorOf c m μ = 1 → e.2.2 = e.1.2) ∧
        (crossover = false → Precise e.1.2 → SameRelativeBounds e.1.2 e.2.2))
      metrics (rows.zip rows')

/-- The shown rows have the same metric and colour, and the same texts except in the columns of absolute effects. -/
def ShownAlike (s s' : ShownRow) : Prop :=
  s'.metric = s.metric ∧ s'.style = s.style ∧
    s'.cells.map Prod.fst = s.cells.map Prod.fst ∧
    ∀ head text, head.1 ∉ ["Absolute Effect Size (per item per week)", "Projected Effect Size (whole feed, per year)"] →
      ((head, text) ∈ s'.cells ↔ (head, text) ∈ s.cells)

end Feedx.Spec
