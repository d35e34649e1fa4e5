import Verif.Model.TTest
import Verif.Model.TimePeriod

/-!
Model of the experiment analysis in feedx/experiment_analysis.py:463-836.
-/

set_option linter.unusedSectionVars false

namespace Feedx

open Fl

/-- `y[mask]` for a boolean mask of the same length. -/
def maskSelect {α : Type} (mask : List Bool) (y : List α) : List α :=
  ((mask.zip y).filter (fun p => p.1)).map Prod.snd

/-- The finite values of a float array.  Metric values that are nan or infinite are outside the model. -/
def finiteValues (l : List (Fl ℝ)) : Py (List ℝ) :=
  l.mapM (fun x => match x with
    | .fin v => (.ok v : Py ℝ)
    | _ => .error .outOfModel)

/-- Cell holding a float. -/
def flCell : Fl ℝ → Cell ℝ
  | .nan => .null
  | .pinf => .inf false
  | .ninf => .inf true
  | .fin x => .num x

/-- `data[metric_name].reset_index()` (experiment_analysis.py:704-708): one row per index tuple, with the index names and
the period labels as columns.  `KeyError` if the metric is not a column of the pivoted data, `ValueError` if a
period label is also an index name. -/
noncomputable def metricSubset (piv : Pivoted ℝ) (metrics indexNames : List String) (m : String) : Py (Frame ℝ) := do
  raiseIf .keyError (m ∉ metrics)
  raiseIf .valueError (indexNames.any (fun c => decide (Cell.str c ∈ piv.periods)) = true)
  return {
    cols := indexNames ++ piv.periods.map (fun c => match c with
      | .str s => s
      | _ => "")
    rows := piv.index.map (fun k c =>
      match (indexNames.zip k).lookup c with
      | some v => v
      | none => flCell (piv.value k m c)) }

/-- Is the cell equal to the number `b`? (`data[column].values == b`) -/
noncomputable def cellEq (b : ℝ) (c : Cell ℝ) : Bool := decide (c.toFl = .fin b)

/-- The default `alpha=0.05` of the two t-tests (statistics.py:788 and 969), which both analyses use. -/
noncomputable def defaultAlpha : ℝ := 1 / 20

/-- `_prepare_metrics_for_regular_experiment` (experiment_analysis.py:463-478): (treatment, control).  The adjustment may give nan. -/
noncomputable def prepareRegular (R : Rounding ℝ) (argsort : List ℝ → List ℕ) (f : Frame ℝ) (treatmentCol : String)
    (q : ℝ) : Py (List (Fl ℝ) × List (Fl ℝ)) := do
  let test ← finiteValues ((f.col "test").map Cell.toFl)
  let y ← (if "pretest" ∈ f.cols then do
      let pre ← finiteValues ((f.col "pretest").map Cell.toFl)
      cuped R argsort test pre q
    else pure (test.map .fin))
  return (maskSelect ((f.col treatmentCol).map (cellEq 1)) y,
    maskSelect ((f.col treatmentCol).map (cellEq 0)) y)

/-- There are values, and all of them are nan. -/
noncomputable def onlyNan (l : List (Fl ℝ)) : Bool := decide (l ≠ [] ∧ ∀ x ∈ l, x = .nan)

/-- `yuens_t_test_ind` (statistics.py:960-1150) as the regular analysis calls it, with arrays that may hold nan.  If the values of both samples, or
their denominators, are all nan, then so are both means (or ratios) and variances, and everything computed from them; this is modelled if nothing
is trimmed and each sample has two or more values.  Other arrays with nan are outside the model. -/
noncomputable def indTestFl (R : Rounding ℝ) (argsort : List ℝ → List ℕ) (D : TDist) (y : List (Fl ℝ) × List (Fl ℝ)) (q : ℝ)
    (denominators : Option (List (Fl ℝ) × List (Fl ℝ))) : Py TestResult :=
  match denominators with
  | none =>
    if onlyNan y.1 = true ∧ onlyNan y.2 = true then do
      raiseIf .outOfModel (y.1.length ≤ 1 ∨ y.2.length ≤ 1 ∨ nTrimOf R q y.1.length ≠ 0 ∨ nTrimOf R q y.2.length ≠ 0)
      resultsFrom D (indEstimates nan nan nan nan y.1.length y.2.length false) true "two-sided" defaultAlpha
    else do
      let v1 ← finiteValues y.1
      let v2 ← finiteValues y.2
      indTest R argsort D v1 v2 q none none false "two-sided" defaultAlpha
  | some z =>
    if (onlyNan y.1 = true ∧ onlyNan y.2 = true) ∨ (onlyNan z.1 = true ∧ onlyNan z.2 = true) then do
      raiseIf .outOfModel (y.1.length ≤ 1 ∨ y.2.length ≤ 1 ∨ y.1.length ≠ z.1.length ∨ y.2.length ≠ z.2.length ∨
        nTrimOf R q y.1.length ≠ 0 ∨ nTrimOf R q y.2.length ≠ 0)
      resultsFrom D (indEstimates nan nan nan nan y.1.length y.2.length false) false "two-sided" defaultAlpha
    else do
      let v1 ← finiteValues y.1
      let v2 ← finiteValues y.2
      let d1 ← finiteValues z.1
      let d2 ← finiteValues z.2
      indTest R argsort D v1 v2 q (some d1) (some d2) false "two-sided" defaultAlpha

/-- Value of an item in the treated period: first period if treated first (experiment_analysis.py:560-565). -/
def pickTreated {K : Type} (treatedFirst : Bool) (y1 y2 : K) : K := if treatedFirst then y1 else y2

/-- Value of an item in the untreated period (experiment_analysis.py:555-558). -/
def pickControl {K : Type} (treatedFirst : Bool) (y1 y2 : K) : K := if treatedFirst then y2 else y1

section
variable {K : Type} [Field K]

/-- `_prepare_metrics_for_crossover_experiment` (experiment_analysis.py:536-576) on the items' values in the two periods
and the flag "treated first": (treatment, control).  The values of the second period are written into a copy of the array of the first; `store` is
what becomes of a value written there.  After demeaning both arrays are floats, but the control array of line 570 is a copy of the original. -/
def prepareCrossover (store : K → K) (items : List (Bool × K × K)) (applyDemean : Bool) : List K × List K :=
  let y1 := items.map (fun i => i.2.1)
  let y2 := items.map (fun i => i.2.2)
  if applyDemean then
    let m1 := y1.sum / (y1.length : K)
    let m2 := y2.sum / (y2.length : K)
    let controlDemeaned := items.map (fun i => pickControl i.1 (i.2.1 - m1) (i.2.2 - m2))
    let treatmentDemeaned := items.map (fun i => pickTreated i.1 (i.2.1 - m1) (i.2.2 - m2))
    let control := items.map (fun i => pickControl i.1 i.2.1 (store i.2.2))
    let adjustment := control.sum / (control.length : K) - controlDemeaned.sum / (controlDemeaned.length : K)
    (treatmentDemeaned.map (fun x => x + adjustment), controlDemeaned.map (fun x => x + adjustment))
  else
    (items.map (fun i => pickTreated i.1 i.2.1 (store i.2.2)), items.map (fun i => pickControl i.1 i.2.1 (store i.2.2)))

end

/-- The items' flags and values read from the frame (experiment_analysis.py:540-542). -/
noncomputable def crossoverItems (f : Frame ℝ) (treatmentCol : String) : Py (List (Bool × ℝ × ℝ)) := do
  let y1 ← finiteValues ((f.col "test_1").map Cell.toFl)
  let y2 ← finiteValues ((f.col "test_2").map Cell.toFl)
  return ((f.col treatmentCol).map (cellEq 1)).zip (y1.zip y2)

/-- A float written into an integer array: numpy drops the fraction. -/
noncomputable def dropFraction (x : ℝ) : ℝ := if 0 ≤ x then (⌊x⌋ : ℝ) else (⌈x⌉ : ℝ)

open Classical in
/-- What becomes of a value written into a copy of the array of the first test period.  The division of an integer column by the number of
weeks (experiment_analysis.py:350-351, `pivoted_data.loc[...] /= test_period_weeks`) leaves the column of integer type if all results are
whole (pandas 2: a value set with `loc` is written in place if the column can hold it), and makes it a float column otherwise. -/
noncomputable def storeFirst (piv : Pivoted ℝ) (m : String) : ℝ → ℝ :=
  if piv.whole m = true ∧ ∀ k ∈ piv.index, ∃ n : ℤ, piv.value k m "test_1" = .fin (n : ℝ) then dropFraction else id

/-- `_analyze_regular_experiment_single_metric` (experiment_analysis.py:481-533). -/
noncomputable def analyzeRegular (R : Rounding ℝ) (argsort : List ℝ → List ℕ) (D : TDist) (f : Frame ℝ)
    (denominator : Option (Frame ℝ)) (treatmentCol : String) (q : ℝ) : Py TestResult := do
  let y ← prepareRegular R argsort f treatmentCol q
  match denominator with
  | some g =>
    let z ← prepareRegular R argsort g treatmentCol q
    indTestFl R argsort D y q (some z)
  | none => indTestFl R argsort D y q none

/-- `_analyze_crossover_experiment_single_metric` (experiment_analysis.py:579-639).  `store` and `store'` tell the types of the arrays of the first
test period, of the metric and of its denominator. -/
noncomputable def analyzeCrossover (R : Rounding ℝ) (argsort : List ℝ → List ℕ) (D : TDist) (store store' : ℝ → ℝ) (f : Frame ℝ)
    (denominator : Option (Frame ℝ)) (treatmentCol : String) (q : ℝ) : Py TestResult := do
  let items ← crossoverItems f treatmentCol
  let y := prepareCrossover store items (decide (q = 0))
  match denominator with
  | some g =>
    let items' ← crossoverItems g treatmentCol
    let z := prepareCrossover store' items' (decide (q = 0))
    pairedTest R argsort D y.1 y.2 q (some z.1) (some z.2) "two-sided" defaultAlpha
  | none => pairedTest R argsort D y.1 y.2 q none none "two-sided" defaultAlpha

/-- Columns required by `analyze_single_metric` (experiment_analysis.py:710-716). -/
def requiredColumns {K : Type} (d : DesignParams K) (treatmentName : String) : List String :=
  treatmentName :: (if d.isCrossover then ["test_1", "test_2"]
    else "test" :: (if 0 < d.pretest then ["pretest"] else []))

/-- `analyze_single_metric` (experiment_analysis.py:642-748).  The pivoted data is given with the names of its metrics
(top level of the columns) and of its index levels. -/
noncomputable def analyzeSingleMetric (R : Rounding ℝ) (argsort : List ℝ → List ℕ) (D : TDist) (piv : Pivoted ℝ)
    (metrics indexNames : List String) (d : DesignParams ℝ) (metric : String) (denominator : Option String)
    (treatmentName : String) (override : Option ℝ) : Py TestResult := do
  let f ← metricSubset piv metrics indexNames metric
  let g ← (match denominator with
    | some m => do
      let g ← metricSubset piv metrics indexNames m
      pure (some g)
    | none => pure none)
  raiseIf .valueError ((requiredColumns d treatmentName).any (fun c => decide (c ∉ f.cols) ||
    (match g with
     | some g => decide (c ∉ g.cols)
     | none => false)) = true)
  let q := override.getD d.postTrim.val
  if d.isCrossover then analyzeCrossover R argsort D (storeFirst piv metric) (denominator.elim id (storeFirst piv)) f g treatmentName q
  else analyzeRegular R argsort D f g treatmentName q

/-- `Metric` (experiment_analysis.py:751-771). -/
structure Metric where
  name : String
  column : String
  denominator : Option String
  override : Option ℝ

/-- The metric columns of a list of metrics (experiment_analysis.py:800-806).  The code removes duplicates through a
set, in arbitrary order; neither matters to the pivot model, which only looks metrics up by name. -/
def metricColumns (metrics : List Metric) : List String :=
  metrics.map (fun m => m.column) ++ metrics.filterMap (fun m => m.denominator)

/-- `analyze_experiment` (experiment_analysis.py:774-836): the rows of the result, with the metric name as label, together with the
caller's frame as it is left.  An empty list of metrics is outside the model (the code fails in pandas). -/
noncomputable def analyzeExperiment (R : Rounding ℝ) (argsort : List ℝ → List ℕ) (D : TDist) (d : DesignParams ℝ)
    (metrics : List Metric) (weekCol itemCol treatmentCol : String) (f : Frame ℝ) :
    Py (List (String × TestResult)) × Frame ℝ :=
  if metrics = [] then (.error .outOfModel, f)
  else
    let p := pivotTimeAssignment d 0 (metricColumns metrics) itemCol weekCol (some treatmentCol) "time_period" f
    match p.1 with
    | .error e => (.error e, p.2)
    | .ok piv =>
      (metrics.mapM (fun m => do
        let r ← analyzeSingleMetric R argsort D piv (metricColumns metrics) [itemCol, treatmentCol] d m.column
          m.denominator treatmentCol m.override
        pure (m.name, r)), p.2)

end Feedx
