import Verif.Model.Pipeline
import Verif.Model.Analysis
import Verif.Model.Format

/-!
Model of the workflow of the experiment analyser (notebooks/02_experiment_analyzer.ipynb, numbering all cells from 0): load the design (cell 14), prepare
the experiment data (19 or 21), count its days (23), analyse it (26, 27) and show the results (28, 30).  Loading the raw data and splitting the texts of the form into lists are
left out, as are the plots (24, 32), which are modelled in Model/Plotting.lean and Model/OverTime.lean.
-/

set_option linter.unusedSectionVars false

namespace Feedx

/-- What the user enters (cells 19, 21), with the lists already split; no other metrics and an empty list of them are the same. -/
structure AnalyserForm where
  itemCol : String
  dateCol : String
  treatCol : String
  startDate : String
  clicks : String
  impressions : String
  totalCost : String
  conversions : String
  totalConversionValue : String
  others : List String
  concluded : Bool
  skip : List String

/-- A column name left empty becomes `None` (cells 19, 21). -/
def givenName (s : String) : Option String := if s = "" then none else some s

/-- `metric_columns` before the at-least-one metrics are added (cells 19, 21). -/
def AnalyserForm.metricNames (form : AnalyserForm) : List String :=
  (if form.clicks ≠ "" then ["clicks"] else []) ++ (if form.impressions ≠ "" then ["impressions"] else []) ++
    (if form.totalCost ≠ "" then ["total_cost"] else []) ++ (if form.conversions ≠ "" then ["conversions"] else []) ++
    (if form.totalConversionValue ≠ "" then ["total_conversion_value"] else []) ++ form.others

/-- `at_least_one_metrics` (cells 19, 21). -/
def AnalyserForm.atLeastOne (form : AnalyserForm) : List (String × String) :=
  [("clicks", "at_least_one_click"), ("impressions", "at_least_one_impression"), ("conversions", "at_least_one_conversion")].filter
    (fun p => decide (p.1 ∈ form.metricNames))

/-- The arguments of `prepare_and_validate_experiment_data` (cells 19, 21). -/
def AnalyserForm.args (form : AnalyserForm) : ExperimentArgs where
  std := { clicks := givenName form.clicks, impressions := givenName form.impressions, totalCost := givenName form.totalCost
           conversions := givenName form.conversions, totalConversionValue := givenName form.totalConversionValue }
  other := form.others
  atLeastOne := form.atLeastOne
  concluded := form.concluded
  skip := form.skip

/-- `metrics` (cell 26). -/
noncomputable def notebookMetrics : List Metric :=
  [⟨"Clicks", "clicks", none, none⟩, ⟨"Impressions", "impressions", none, none⟩, ⟨"Cost", "total_cost", none, none⟩,
    ⟨"Conversions", "conversions", none, none⟩, ⟨"Conversion value", "total_conversion_value", none, none⟩,
    ⟨"At least one impression", "at_least_one_impression", none, some 0⟩, ⟨"At least one click", "at_least_one_click", none, some 0⟩,
    ⟨"At least one conversion", "at_least_one_conversion", none, some 0⟩, ⟨"CTR", "clicks", some "impressions", none⟩,
    ⟨"CPC", "total_cost", some "clicks", none⟩, ⟨"ROAS", "total_conversion_value", some "total_cost", none⟩]

/-- Cells 14 and 21: the loaded design and the experiment data. -/
noncomputable def prepareStudy (R : Rounding ℝ) (dflt05 dflt08 : ℝ) (C : Checker ℝ) (form : AnalyserForm) (file : Dict (YVal ℝ)) (perf assign : Frame ℝ) :
    Py (Design ℝ × Frame ℝ) := do
  let d ← loadFromDict R dflt05 dflt08 file
  let data ← prepareExperiment C perf assign d form.startDate form.itemCol form.dateCol form.treatCol form.args
  return (d, data)

/-- A period that is a text. -/
def periodText {K : Type} : Cell K → Option String
  | .str s => some s
  | _ => none

/-- Cell 23: the number of dates per time period, with the periods sorted by their names.  `groupby` leaves out rows without a period and `count` missing
dates; periods that are not texts are outside the model. -/
def daysPerPeriod {K : Type} [DecidableEq K] (f : Frame K) : Py (List (String × ℕ)) := do
  raiseIf .keyError ("date" ∉ f.cols ∨ "time_period" ∉ f.cols)
  let pairs := dropDup (f.rows.map (fun r => (r "date", r "time_period")))
  raiseIf .outOfModel (∃ p ∈ pairs, p.2 ≠ .null ∧ periodText p.2 = none)
  let labels := (dropDup (pairs.filterMap (fun p => periodText p.2))).insertionSort (· ≤ ·)
  return labels.map (fun l => (l, pairs.countP (fun p => decide (p.2 = .str l ∧ p.1 ≠ .null))))

/-- Cell 27: `drop` needs the column "time_period". -/
noncomputable def analyseData (R : Rounding ℝ) (argsort : List ℝ → List ℕ) (D : TDist) (metrics : List Metric) (p : Design ℝ × Frame ℝ) :
    Py (List (String × TestResult)) := do
  raiseIf .keyError ("time_period" ∉ p.2.cols)
  (analyzeExperiment R argsort D p.1.toDesignParams metrics "week_id" "item_id" "treatment_assignment" (p.2.dropCol "time_period")).1

/-- Cell 28: the table of the results. -/
noncomputable def showResults (R : Rounding ℝ) (general : ℕ → Fl ℝ → String) (rows : List (String × TestResult)) : Py (List ShownRow) :=
  formatResults R general {} (rows.map ResultRow.ofTest)

/-- Cell 30: the projection of the results named to a year. -/
noncomputable def showProjection (R : Rounding ℝ) (general : ℕ → Fl ℝ → String) (names : List String) (rows : List (String × TestResult)) :
    Py (List ShownRow) :=
  formatResults R general { relative := false, absolute := false, yearly := true }
    ((rows.filter (fun r => decide (r.1 ∈ names))).map ResultRow.ofTest)

/-- `merics_for_projection` (cell 30). -/
def projectedNames : List String := ["Clicks", "Impressions", "Cost", "Conversions", "Conversion value"]

end Feedx
