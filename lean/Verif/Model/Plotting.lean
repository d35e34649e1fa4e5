import Verif.Model.Prepare
import Verif.Model.TimePeriod
import Verif.Model.Trimmed

/-!
Model of what the plots show (feedx/plotting.py): the numbers handed to matplotlib.  Colours, labels and layout are not modelled.
-/

set_option linter.unusedSectionVars false

namespace Feedx

variable {K : Type} [Field K] [LinearOrder K]

/-! ### Distribution plots -/

/-- The points of `_make_cumulative_distribution_plot` (plotting.py:93-96). -/
def cdfPoints (values : List K) : List (K × K) :=
  (values.insertionSort (· ≤ ·)).zipIdx.map (fun p => (p.1, ((values.length : K) - (p.2 : K)) / (values.length : K)))

/-- The points of `_make_lorenz_plot` (plotting.py:132-134). -/
def lorenzPoints (values : List K) : List (K × Fl K) :=
  let v := (values.insertionSort (· ≤ ·)).reverse
  (List.range v.length).map (fun i : ℕ => (((i : K) + 1) / (v.length : K), (.fin (v.take (i + 1)).sum : Fl K) / .fin v.sum))

/-- Average of a column over some rows, missing values left out (`groupby(...).mean()`). -/
def meanCol (rows : List (Row K)) (c : String) : Fl K :=
  sumCol rows c / .fin ((rows.countP (fun r => !(r c).toFl.isNan) : ℕ) : K)

/-- What `plot_metric_history` (plotting.py:147-209) draws: the total per week, and the two distribution plots of the averages of the items.
Averages that are not finite and a metric that is also the item or week column are outside the model. -/
def metricHistory (f : Frame K) (metric itemCol weekCol : String) :
    Py (List (List (Cell K) × Fl K) × List (K × K) × List (K × Fl K)) := do
  raiseIf .keyError (weekCol ∉ f.cols ∨ metric ∉ f.cols ∨ itemCol ∉ f.cols)
  raiseIf .outOfModel (metric = weekCol ∨ metric = itemCol)
  raiseIf .typeError (f.rows.any (fun r => !(r metric).isNumeric) = true)
  let totals := (groupKeys f.rows [weekCol]).map (fun k => (k, sumCol (groupRows f.rows [weekCol] k) metric))
  let averages ← (groupKeys f.rows [itemCol]).mapM (fun k =>
    match meanCol (groupRows f.rows [itemCol] k) metric with
    | .fin x => .ok x
    | _ => .error .outOfModel)
  return (totals, cdfPoints averages, lorenzPoints averages)

/-! ### CUPED per date -/

/-- The pretest total of an item (plotting.py:349-354): `none` (nan) for items without pretest rows. -/
def pretestTotal (f : Frame K) (metric itemCol periodCol : String) (item : Cell K) : Option K :=
  let rows := f.rows.filter (fun r => decide (r periodCol = .str "pretest" ∧ r itemCol = item ∧ r itemCol ≠ .null))
  if rows = [] then none
  else match sumCol rows metric with
    | .fin x => some x
    | _ => none

/-- A finite number. -/
def Fl.toOption : Fl K → Option K
  | .fin x => some x
  | _ => none

/-- The adjusted values of one date (plotting.py:359-365).  A missing or infinite value, or a single row, makes the covariance and with it all
values nan. -/
def cupedOfDate [FloorRing K] (R : Rounding K) (argsort : List K → List ℕ) (metric covariate : List (Option K)) : Py (List (Fl K)) :=
  match metric.mapM id, covariate.mapM id with
  | some m, some c => if m.length ≤ 1 then .ok (metric.map (fun _ => .nan)) else cuped R argsort m c 0
  | _, _ => .ok (metric.map (fun _ => .nan))

/-- `_add_cuped_adjusted_metric_per_date` (plotting.py:316-367).  Missing dates (`IndexError`) and overwriting the date column are outside the
model. -/
def cupedPerDate [FloorRing K] (R : Rounding K) (argsort : List K → List ℕ) (f : Frame K) (metric itemCol dateCol periodCol newCol : String) :
    Py (Frame K) := do
  raiseIf .keyError (periodCol ∉ f.cols)
  raiseIf .valueError (.str "pretest" ∉ f.col periodCol)
  raiseIf .keyError (itemCol ∉ f.cols ∨ metric ∉ f.cols)
  raiseIf .typeError (f.rows.any (fun r => !(r metric).isNumeric) = true)
  raiseIf .outOfModel (newCol = dateCol)
  raiseIf .keyError (dateCol ∉ f.cols)
  raiseIf .outOfModel (.null ∈ f.col dateCol)
  let adjusted ← (dropDup (f.col dateCol)).mapM (fun d => do
    let rows := f.rows.filter (fun r => decide (r dateCol = d))
    let v ← cupedOfDate R argsort (rows.map (fun r => (r metric).toFl.toOption))
      (rows.map (fun r => pretestTotal f metric itemCol periodCol (r itemCol)))
    return (d, v))
  let value (p : Row K × ℕ) : Fl K :=
    (((adjusted.lookup (p.1 dateCol)).getD [])[(f.rows.take p.2).countP (fun r => decide (r dateCol = p.1 dateCol))]?).getD .nan
  return { cols := if newCol ∈ f.cols then f.cols else f.cols ++ [newCol]
           rows := f.rows.zipIdx.map (fun p => Function.update p.1 newCol (Cell.ofFl (value p))) }

/-! ### Dates of the time plot -/

/-- The dates drawn by `plot_metric_over_time`, in nanoseconds. -/
structure PlotDates where
  pretestStart : ℤ
  start : ℤ
  stop : ℤ
  washouts : List (ℤ × ℤ)
  crossover : Option ℤ
  deriving DecidableEq

/-- `dt.timedelta(weeks=n)`. -/
def weeksNs (n : ℤ) : ℤ := n * 7 * dayNs

/-- The dates drawn by `plot_metric_over_time` (plotting.py:437-440, 447, 466-491).  The start is read from the columns `time_period` and
`date`, whatever column names are given.  No row in the experiment (`NaT`) and dates that are not timestamps are outside the model. -/
def plotDates (d : DesignParams K) (f : Frame K) : Py PlotDates := do
  raiseIf .keyError ("time_period" ∉ f.cols)
  raiseIf .keyError ("date" ∉ f.cols)
  let rows := f.rows.filter (fun r => decide (r "time_period" ∈ [Cell.str "test", Cell.str "test_1", Cell.str "washout_1"]))
  raiseIf .outOfModel (isTimeColumn (rows.map (fun r => r "date")) = false)
  match minTime (rows.map (fun r => r "date")) with
  | none => .error .outOfModel
  | some start =>
    if d.isCrossover then
      match d.washout with
      | none => .error .typeError
      | some washout =>
        let period1 := start + weeksNs washout
        let crossover := period1 + weeksNs (testPeriodWeeks d.runtime washout)
        let period2 := crossover + weeksNs washout
        return ⟨start - weeksNs d.pretest, start, start + weeksNs d.runtime, [(start, period1), (crossover, period2)], some crossover⟩
    else return ⟨start - weeksNs d.pretest, start, start + weeksNs d.runtime, [], none⟩

/-- The dates drawn by a call of `plot_metric_over_time` with the given period and date columns (plotting.py:370-380, 437-438).  The two names are
not used when the dates are read; sorting the rows by date (plotting.py:399) does not change the result and is left out. -/
def plotDatesOf (_timePeriodColumn _dateColumn : String) (d : DesignParams K) (f : Frame K) : Py PlotDates := plotDates d f

/-! ### Effects -/

/-- One result to draw: position, estimate and bounds. -/
structure BarRow (K : Type) where
  position : ℕ
  value : Fl K
  lower : Fl K
  upper : Fl K

/-- One drawn error bar: position, centre, and length to the left and right. -/
structure Bar (K : Type) where
  position : ℕ
  centre : K
  left : K
  right : K
  deriving DecidableEq

/-- What is drawn: the bars, and the bars ending with an arrow to the left and to the right. -/
structure Bars (K : Type) where
  plain : List (Bar K)
  leftArrows : List (Bar K)
  rightArrows : List (Bar K)

/-- The drawn centre: an estimate that is not finite is drawn at 0 (plotting.py:542-543). -/
def BarRow.centre (r : BarRow K) : K := r.value.toOption.getD 0

/-- `ax.errorbar`: matplotlib refuses negative lengths with `ValueError`. -/
def drawBars (l : List (Bar K)) : Py (List (Bar K)) := do
  raiseIf .valueError (l.any (fun b => decide (b.left < 0 ∨ b.right < 0)) = true)
  return l

/-- `_plot_horizontal_error_bar_with_infs` (plotting.py:531-582).  `np.min` and `np.max` of no values raise `ValueError` (552-553). -/
def errorBars (rows : List (BarRow K)) : Py (Bars K) :=
  if rows = [] then .ok ⟨[], [], []⟩
  else match (rows.filterMap (fun r => r.lower.toOption)).min?, (rows.filterMap (fun r => r.upper.toOption)).max? with
    | some least, some greatest => do
      let plain ← drawBars (rows.map (fun r =>
        ⟨r.position, r.centre, (r.lower.toOption.map (fun x => r.centre - x)).getD 0, (r.upper.toOption.map (fun x => x - r.centre)).getD 0⟩))
      let left ← drawBars ((rows.filter (fun r => !r.lower.isFinite)).map (fun r => ⟨r.position, r.centre, r.centre - least, 0⟩))
      let right ← drawBars ((rows.filter (fun r => !r.upper.isFinite)).map (fun r => ⟨r.position, r.centre, 0, greatest - r.centre⟩))
      return ⟨plain, left, right⟩
    | _, _ => .error .valueError

/-- A row of the results table. -/
structure EffectRow (K : Type) where
  metric : String
  value : Fl K
  lower : Fl K
  upper : Fl K
  significant : Bool

/-- Position of a metric among the (sorted) names: `astype("category").cat.codes` (plotting.py:631). -/
def categoryCode (names : List String) (name : String) : ℕ := ((dropDup names).filter (fun n => decide (n < name))).length

/-- The row as drawn. -/
def EffectRow.bar (position : ℕ) (r : EffectRow K) : BarRow K := ⟨position, r.value, r.lower, r.upper⟩

/-- `plot_effects` (plotting.py:585-737): the bars of the primary metric, of the significant and of the other secondary metrics.  `lower` is
`str.lower`. -/
def plotEffects (lower : String → String) (primary : String) (table : List (EffectRow K)) : Py (Bars K × Bars K × Bars K) := do
  let isPrimary (r : EffectRow K) : Bool := decide (lower r.metric = lower primary)
  raiseIf .valueError (table.countP isPrimary ≠ 1)
  let first := table.filter isPrimary
  let others := table.filter (fun r => !isPrimary r)
  let names := others.map (fun r => r.metric)
  let a ← errorBars (first.map (EffectRow.bar 0))
  let b ← errorBars ((others.filter (fun r => r.significant)).map (fun r => r.bar (categoryCode names r.metric)))
  let c ← errorBars ((others.filter (fun r => !r.significant)).map (fun r => r.bar (categoryCode names r.metric)))
  return (a, b, c)

end Feedx
