import Verif.Model.AnalyseStudy

/-!
Model of the last merge of `prepare_and_validate_experiment_data` for assignment tables with columns that the performance data has, too
(Model/Pipeline.lean leaves them out): pandas adds suffixes to the names of such columns.
-/

set_option linter.unusedSectionVars false

namespace Feedx

variable {K : Type} [Field K] [LinearOrder K] [FloorRing K]

/-- The columns other than "item_id" that both tables have (data_preparation.py:1607, `merge(..., on="item_id")`). -/
def overlapping (f assign : Frame K) : List String := assign.cols.filter (fun c => decide (c ≠ "item_id" ∧ c ∈ f.cols))

/-- The name after the merge: both tables' columns of the same name get a suffix, "_x" the left one and "_y" the right one (data_preparation.py:1607, the default
`suffixes=("_x", "_y")`). -/
def suffixed (overlap : List String) (suffix c : String) : String := if c ∈ overlap then c ++ suffix else c

/-- A row of the merged table (data_preparation.py:1607): the cell of a column is that of the column of the left or the right table which got its name. -/
def joinSuffixed (f assign : Frame K) (r a : Row K) : Row K := fun c =>
  match f.cols.find? (fun k => decide (suffixed (overlapping f assign) "_x" k = c)) with
  | some k => r k
  | none =>
    match (assign.cols.filter (fun k => decide (k ≠ "item_id"))).find? (fun k => decide (suffixed (overlapping f assign) "_y" k = c)) with
    | some k => a k
    | none => a c

/-- `merge(treatment_assignment_data, on="item_id")` (data_preparation.py:1607): an inner join that keeps the order of the data, with suffixes for columns that are
in both tables.  Suffixes that make two columns have the same name are outside the model (pandas raises `MergeError` or not, depending on its version). -/
def mergeSuffixed (f assign : Frame K) : Py (Frame K) := do
  let left := f.cols.map (suffixed (overlapping f assign) "_x")
  let right := (assign.cols.filter (fun c => decide (c ≠ "item_id"))).map (suffixed (overlapping f assign) "_y")
  raiseIf .outOfModel (overlapping f assign ≠ [] ∧ ¬ (left ++ right).Nodup)
  return {
    cols := left ++ right
    rows := f.rows.flatMap (fun r => (assign.rows.filter (fun a => decide (a "item_id" = r "item_id"))).map (joinSuffixed f assign r)) }

/-- The experiment data before validation (data_preparation.py:1509-1608): as `buildExperiment`, with suffixes. -/
def buildSuffixed (E : Ext K) (perf assign : Frame K) (d : Design K) (startDate itemCol dateCol treatCol : String) (a : ExperimentArgs) :
    Py (Frame K) := do
  let assign' ← cleanAssignment E assign itemCol treatCol
  let missing ← missingRows E perf assign' itemCol dateCol
  let f1 ← standardize E perf itemCol dateCol a.std (a.other.map (fun c => (c, c))) (a.other.map (fun c => (c, floatParse E)))
  let f2 ← fillMissing (mergeMissing f1 missing) "item_id" "date"
  let f3 ← addWeeks E f2 "date" (some startDate) "week_id" "week_start"
  let f4 ← addTimePeriodColumn d.toDesignParams 0 "week_id" "time_period" f3
  let f5 ← addAtLeastOne a.atLeastOne f4
  mergeSuffixed f5 assign'

/-- `prepare_and_validate_experiment_data` (data_preparation.py:1441-1624): as `prepareExperiment`, with suffixes. -/
def prepareSuffixed (C : Checker K) (perf assign : Frame K) (d : Design K) (startDate itemCol dateCol treatCol : String)
    (a : ExperimentArgs) : Py (Frame K) := do
  let f ← buildSuffixed C.ext perf assign d startDate itemCol dateCol treatCol a
  validateExperiment C f d "item_id" "date" "week_id" "treatment_assignment" (preparedMetrics a) startDate a.concluded a.canBeNegative a.skip
  return f

/-- Cells 14 and 21 of notebooks/02_experiment_analyzer.ipynb: as `prepareStudy`, with suffixes. -/
noncomputable def prepareStudySuffixed (R : Rounding ℝ) (dflt05 dflt08 : ℝ) (C : Checker ℝ) (form : AnalyserForm) (file : Dict (YVal ℝ))
    (perf assign : Frame ℝ) : Py (Design ℝ × Frame ℝ) := do
  let d ← loadFromDict R dflt05 dflt08 file
  let data ← prepareSuffixed C perf assign d form.startDate form.itemCol form.dateCol form.treatCol form.args
  return (d, data)

end Feedx
