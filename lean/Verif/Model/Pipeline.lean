import Verif.Model.Validate
import Verif.Model.TimePeriod

/-!
Model of `prepare_and_validate_historical_data` and `prepare_and_validate_experiment_data`
(feedx/data_preparation.py:1336-1624).
-/

set_option linter.unusedSectionVars false

namespace Feedx

variable {K : Type} [Field K] [LinearOrder K]

/-- `lambda x: x.astype(float)` (data_preparation.py:1399, 1531). -/
def floatParse (E : Ext K) (c : Cell K) : Py (Cell K) := (E.toFloat c).map Cell.ofFl

/-! ### Historical data -/

/-- `allowed_primary_metrics` (data_preparation.py:1376-1383). -/
def allowedPrimaryMetrics : List String := ["clicks", "impressions", "conversions", "total_conversion_value", "total_cost", "other"]

/-- The standard metric column given by its name (data_preparation.py:1403-1405). -/
def stdColsOf (primary column : String) : StdCols where
  clicks := if primary = "clicks" then some column else none
  impressions := if primary = "impressions" then some column else none
  totalCost := if primary = "total_cost" then some column else none
  conversions := if primary = "conversions" then some column else none
  totalConversionValue := if primary = "total_conversion_value" then some column else none

/-- The cleaning of the historical data (data_preparation.py:1376-1427): the name of the primary metric in the result and the
result. -/
def cleanHistorical [FloorRing K] (R : Rounding K) (rng : Sampler (Cell K)) (E : Ext K) (raw : Frame K)
    (itemCol dateCol primary primaryCol : String) (fraction : K) : Py (String × Frame K) := do
  raiseIf .valueError (primary ∉ allowedPrimaryMetrics)
  let custom := if primary = "other" then [(primaryCol, primaryCol)] else []
  let parse := if primary = "other" then [(primaryCol, floatParse E)] else []
  let name := if primary = "other" then primaryCol else primary
  let f1 ← standardize E raw itemCol dateCol (stdColsOf primary primaryCol) custom parse
  let f2 ← fillMissing f1 "item_id" "date"
  let f3 ← addWeeks E f2 "date" none "week_id" "week_start"
  let f4 ← groupWeeks f3 "date" "item_id" "week_id" "week_start" []
  let f5 ← downsample R rng f4 fraction "item_id"
  return (name, f5)

/-- `prepare_and_validate_historical_data` (data_preparation.py:1336-1438). -/
def prepareHistorical [FloorRing K] (R : Rounding K) (rng : Sampler (Cell K)) (E : Ext K) (S : DateSorter K) (raw : Frame K)
    (itemCol dateCol primary primaryCol : String) (fraction : K) (skip : List String) : Py (Frame K) := do
  let p ← cleanHistorical R rng E raw itemCol dateCol primary primaryCol fraction
  validateHistorical S p.2 "item_id" "week_start" "week_id" p.1 skip
  return p.2

/-! ### Experiment data -/

/-- The optional arguments (data_preparation.py:1450-1459). -/
structure ExperimentArgs where
  std : StdCols := {}
  other : List String := []
  canBeNegative : List String := []
  atLeastOne : List (String × String) := []
  concluded : Bool := true
  skip : List String := []

/-- `metric_columns` (data_preparation.py:1512-1533). -/
def preparedMetrics (a : ExperimentArgs) : List String :=
  [("clicks", a.std.clicks), ("impressions", a.std.impressions), ("total_cost", a.std.totalCost),
    ("conversions", a.std.conversions), ("total_conversion_value", a.std.totalConversionValue)].filterMap
      (fun p => p.2.map (fun _ => p.1)) ++ a.other

/-- New name of a column of the assignment table (data_preparation.py:1535-1540: a dict, so the second entry wins if both columns are the
same). -/
def renameCol (itemCol treatCol c : String) : String :=
  if c = treatCol then "treatment_assignment" else if c = itemCol then "item_id" else c

/-- The renamed and converted assignment table (data_preparation.py:1535-1546).  Renaming that yields two columns of the same name is
outside the model. -/
def cleanAssignment (E : Ext K) (a : Frame K) (itemCol treatCol : String) : Py (Frame K) := do
  let cols := a.cols.map (renameCol itemCol treatCol)
  raiseIf .outOfModel (¬ cols.Nodup)
  raiseIf .keyError ("item_id" ∉ cols)
  raiseIf .keyError ("treatment_assignment" ∉ cols)
  let old := fun c => (a.cols.find? (fun k => decide (renameCol itemCol treatCol k = c))).getD c
  let rows ← a.rows.mapM (fun r => do
    let t ← E.toInt (r (old "treatment_assignment"))
    pure ((fun c => if c = "item_id" then .str (E.toStr (r (old "item_id"))) else if c = "treatment_assignment" then .int t
      else r (old c)) : Row K))
  return ⟨cols, rows⟩

/-- The assigned items that are not in the performance data (data_preparation.py:1548-1553). -/
def missingItems (E : Ext K) (perf assign : Frame K) (itemCol : String) : List (Cell K) :=
  dropDup ((assign.col "item_id").filter (fun i => decide (i ∉ perf.rows.map (fun r => (.str (E.toStr (r itemCol)) : Cell K)))))

/-- The missing items with the first date of the data (data_preparation.py:1548-1578).  The warning is not modelled. -/
def missingRows (E : Ext K) (perf assign : Frame K) (itemCol dateCol : String) : Py (List (Row K)) := do
  raiseIf .keyError (itemCol ∉ perf.cols)
  raiseIf .zeroDivision (nunique (assign.col "item_id") = 0)
  raiseIf .keyError (dateCol ∉ perf.cols)
  match perf.rows with
  | [] => .error .indexError
  | r0 :: _ => (missingItems E perf assign itemCol).mapM (fun i => do
      let t ← E.toDate (r0 dateCol)
      pure (fun c => if c = "item_id" then i else if c = "date" then Cell.ofTime t else .null))

/-- `merge(missing_item_ids, on=["item_id", "date"], how="outer")` (data_preparation.py:1593): the missing items are not in the data, so no
rows match; the rows are sorted by item and date. -/
def mergeMissing (f : Frame K) (missing : List (Row K)) : Frame K where
  cols := f.cols
  rows := (f.rows ++ missing).insertionSort (fun r r' => keyLe (["item_id", "date"].map r) (["item_id", "date"].map r') = true)

/-- A row of the data with the assignment's columns. -/
def joinRow (cols : List String) (r a : Row K) : Row K := fun c => if c ∈ cols then r c else a c

/-- `merge(treatment_assignment_data, on="item_id")` (data_preparation.py:1607): an inner join that keeps the order of the data.  Other
columns that are in both tables get suffixes; this is outside the model. -/
def mergeAssignment (f assign : Frame K) : Py (Frame K) := do
  raiseIf .outOfModel (assign.cols.any (fun c => decide (c ≠ "item_id" ∧ c ∈ f.cols)) = true)
  return {
    cols := f.cols ++ assign.cols.filter (fun c => decide (c ≠ "item_id"))
    rows := f.rows.flatMap (fun r => (assign.rows.filter (fun a => decide (a "item_id" = r "item_id"))).map (joinRow f.cols r)) }

/-- The experiment data before validation (data_preparation.py:1509-1608). -/
def buildExperiment (E : Ext K) (perf assign : Frame K) (d : Design K) (startDate itemCol dateCol treatCol : String) (a : ExperimentArgs) :
    Py (Frame K) := do
  let assign' ← cleanAssignment E assign itemCol treatCol
  let missing ← missingRows E perf assign' itemCol dateCol
  let f1 ← standardize E perf itemCol dateCol a.std (a.other.map (fun c => (c, c))) (a.other.map (fun c => (c, floatParse E)))
  let f2 ← fillMissing (mergeMissing f1 missing) "item_id" "date"
  let f3 ← addWeeks E f2 "date" (some startDate) "week_id" "week_start"
  let f4 ← addTimePeriodColumn d.toDesignParams 0 "week_id" "time_period" f3
  let f5 ← addAtLeastOne a.atLeastOne f4
  mergeAssignment f5 assign'

/-- `prepare_and_validate_experiment_data` (data_preparation.py:1441-1624). -/
def prepareExperiment (C : Checker K) (perf assign : Frame K) (d : Design K) (startDate itemCol dateCol treatCol : String)
    (a : ExperimentArgs) : Py (Frame K) := do
  let f ← buildExperiment C.ext perf assign d startDate itemCol dateCol treatCol a
  validateExperiment C f d "item_id" "date" "week_id" "treatment_assignment" (preparedMetrics a) startDate a.concluded a.canBeNegative a.skip
  return f

end Feedx
