import Verif.Base.Frame
import Verif.Model.Design

/-!
Model of the time-period labelling and pivoting in feedx/experiment_analysis.py:34-460.
-/

set_option linter.unusedSectionVars false

namespace Feedx

variable {K : Type} [Field K] [LinearOrder K]

/-- `get_weeks_between` (experiment_analysis.py:34-51) on one value; a missing week id compares
false. -/
def weekBetween (w : Fl K) (startId endId : ℤ) : Bool :=
  Fl.le (.fin (startId : K)) w && Fl.le w (.fin (endId : K))

/-- Effect on one row of a sequence of `data.loc[mask, column] = label` assignments: the last mask
that is true wins, `None` if none is. -/
def lastLabel (steps : List (Bool × String)) : Option String :=
  steps.foldl (fun acc s => if s.1 then some s.2 else acc) none

/-- Label of one row in a regular experiment
(`_add_time_period_column_for_regular_experiment`, experiment_analysis.py:64-76). -/
def regularLabel (start pretest runtime : ℤ) (w : Fl K) : Option String :=
  lastLabel
    [(weekBetween w (start - pretest) (start - 1), "pretest"),
     (weekBetween w start (start + runtime - 1), "test")]

/-- Weeks in each crossover test period (experiment_analysis.py:91 and :331). -/
def testPeriodWeeks (runtime washout : ℤ) : ℤ := (runtime - 2 * washout) / 2

/-- Label of one row in a crossover experiment
(`_add_time_period_column_for_crossover_experiment`, experiment_analysis.py:91-126). -/
def crossoverLabel (start pretest runtime washout : ℤ) (w : Fl K) : Option String :=
  let testWeeks := testPeriodWeeks runtime washout
  let pretestStart := start - pretest
  let period1Start := start + washout
  let period1End := period1Start + testWeeks - 1
  let period2Start := period1End + 1 + washout
  let period2End := period2Start + testWeeks - 1
  lastLabel
    [(weekBetween w pretestStart (start - 1), "pretest"),
     (weekBetween w start (period1Start - 1), "washout_1"),
     (weekBetween w period1Start period1End, "test_1"),
     (weekBetween w (period1End + 1) (period2Start - 1), "washout_2"),
     (weekBetween w period2Start period2End, "test_2")]

/-- Label of one row for a design (`add_time_period_column`, experiment_analysis.py:179-197).
A crossover design without washout weeks cannot be created; Python would raise `TypeError`. -/
def designLabel (d : DesignParams K) (start : ℤ) (w : Fl K) : Py (Option String) :=
  if d.isCrossover then
    match d.washout with
    | none => .error .typeError
    | some wo => .ok (crossoverLabel start d.pretest d.runtime wo w)
  else .ok (regularLabel start d.pretest d.runtime w)

/-- Cell written into the time period column. -/
def labelCell : Option String → Cell K
  | none => .null
  | some s => .str s

/-- The labelling of all rows, used by `add_time_period_column` and by the pivot functions:
`data[time_period_column] = None` and the masked assignments.  Raises `TypeError` when the week
column holds values that cannot be compared with an int (strings, timestamps). -/
def labelRows (d : DesignParams K) (start : ℤ) (weekCol periodCol : String) (f : Frame K) :
    Py (Frame K) := do
  raiseIf .typeError (d.isCrossover = true ∧ d.washout = none)
  raiseIf .typeError (f.rows.any (fun r => !(r weekCol).isNumeric) = true)
  return f.setCol periodCol (fun r =>
    match designLabel d start (r weekCol).toFl with
    | .ok l => labelCell l
    | .error _ => .null)

/-- `add_time_period_column` (experiment_analysis.py:131-197).  (The returned frame is the caller's
frame, updated in place.) -/
def addTimePeriodColumn (d : DesignParams K) (start : ℤ) (weekCol periodCol : String)
    (f : Frame K) : Py (Frame K) := do
  raiseIf .valueError (periodCol ∈ f.cols)
  raiseIf .valueError (weekCol ∉ f.cols)
  labelRows d start weekCol periodCol f

/-- A pivoted table: row index (tuples of item and possibly treatment), the period labels that occur,
and the value of each (row, metric, period).  `whole` tells the metrics that were summed in integer columns. -/
structure Pivoted (K : Type) where
  index : List (List (Cell K))
  periods : List (Cell K)
  value : List (Cell K) → String → String → Fl K
  whole : String → Bool := fun _ => false

/-- Number of weeks a period's sum is divided by (experiment_analysis.py:265-268 and 347-361). -/
def periodWeeks (d : DesignParams K) (period : String) : Option ℤ :=
  if d.isCrossover then
    match d.washout with
    | none => none
    | some wo =>
      if period = "pretest" then some d.pretest
      else if period = "test_1" ∨ period = "test_2" then some (testPeriodWeeks d.runtime wo)
      else if period = "washout_1" ∨ period = "washout_2" then some wo
      else none
  else
    if period = "pretest" then some d.pretest
    else if period = "test" then some d.runtime
    else none

/-- `pd.pivot_table(..., aggfunc="sum", fill_value=0)` on the labelled frame followed by the divisions
by the number of weeks (experiment_analysis.py:256-268 and 338-361).  Rows whose index or period is
missing are ignored (`groupby` drops missing keys); absent combinations are 0 (an empty sum).  A column is of integer type if all
its cells are integers. -/
def pivotTable (d : DesignParams K) (indexCols : List String) (periodCol : String)
    (rows : List (Row K)) : Pivoted K where
  index := groupKeys (rows.filter (fun r => !(r periodCol).isNull)) indexCols
  periods := dropDup ((rows.filter (fun r =>
    !(r periodCol).isNull && indexCols.all (fun c => !(r c).isNull))).map (fun r => r periodCol))
  value := fun k m p =>
    let s := sumCol (rows.filter (fun r => indexCols.map r = k ∧ r periodCol = .str p)) m
    match periodWeeks d p with
    | some n => s / .fin (n : K)
    | none => s
  whole := fun m => rows.all (fun r => match r m with | .int _ => true | _ => false)

/-- Index columns of the pivot (experiment_analysis.py:252-254, 334-336). -/
def indexColumns (itemCol : String) (treatmentCol : Option String) : List String :=
  itemCol :: treatmentCol.toList

/-- `pivot_time_assignment` (experiment_analysis.py:368-460) with its two helpers (200-365).  Returns
the result together with the caller's frame as the call leaves it (the helper adds the period
column in place and drops it just before returning).  A regular experiment with no row in the
test weeks fails with `KeyError` at line 268, after the column was added. -/
def pivotTimeAssignment (d : DesignParams K) (start : ℤ) (metrics : List String)
    (itemCol weekCol : String) (treatmentCol : Option String) (periodCol : String) (f : Frame K) :
    Py (Pivoted K) × Frame K :=
  if periodCol ∈ f.cols then (.error .valueError, f)
  else if (itemCol :: weekCol :: (metrics ++ treatmentCol.toList)).any (fun c => c ∉ f.cols) then
    (.error .valueError, f)
  else
    match labelRows d start weekCol periodCol f with
    | .error e => (.error e, f)
    | .ok g =>
      let piv := pivotTable d (indexColumns itemCol treatmentCol) periodCol g.rows
      if d.isCrossover = false ∧ .str "test" ∉ piv.periods then (.error .keyError, g)
      else (.ok piv, g.dropCol periodCol)

end Feedx
