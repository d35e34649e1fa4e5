import Verif.Model.Plotting
import Verif.Model.Analysis

/-!
Model of the numbers drawn by `plot_metric_over_time` (feedx/plotting.py:370-505).
-/

set_option linter.unusedSectionVars false

namespace Feedx

/-- What is used of the normal distribution (`stats.norm.ppf` inside (0, 1)): it increases strictly and the median is 0. -/
structure NormalDist where
  ppf : ℝ → ℝ
  strictMono : StrictMonoOn ppf (Set.Ioo 0 1)
  median : ppf (1 / 2) = 0

/-- `stats.norm.ppf(q)`: infinite at the ends, nan outside. -/
noncomputable def NormalDist.quantile (N : NormalDist) (q : ℝ) : Fl ℝ :=
  if 0 < q ∧ q < 1 then .fin (N.ppf q) else if q = 1 then .pinf else if q = 0 then .ninf else .nan

/-- The rows of a date with a treatment assignment (one cell of the pivot tables, plotting.py:411-425). -/
noncomputable def armRows (rows : List (Row ℝ)) (dateCol treatmentCol : String) (date : Cell ℝ) (arm : ℝ) : List (Row ℝ) :=
  rows.filter (fun r => decide (r dateCol = date) && cellEq arm (r treatmentCol))

/-- `np.std(x) / np.sqrt(len(x))` (plotting.py:424): `np.std` of a pandas column leaves missing values out and divides by their number, `len`
counts them. -/
noncomputable def spread (rows : List (Row ℝ)) (metric : String) : Fl ℝ :=
  let values := (rows.map (fun r => (r metric).toFl)).filter (fun x => !x.isNan)
  let squares := (values.map (fun x => (x - meanCol rows metric).sq)).foldr (· + ·) (.fin 0)
  (squares / .fin (values.length : ℝ)).sqrt / .fin (Real.sqrt (rows.length : ℝ))

/-- What is drawn for one date: the averages of the two groups, their difference and its band. -/
structure TimePoint where
  date : Cell ℝ
  treatment : Fl ℝ
  control : Fl ℝ
  difference : Fl ℝ
  lower : Fl ℝ
  upper : Fl ℝ

/-- The numbers of one date (plotting.py:411-431). -/
noncomputable def timePoint (N : NormalDist) (alpha : ℝ) (rows : List (Row ℝ)) (metric dateCol treatmentCol : String) (date : Cell ℝ) : TimePoint :=
  let treated := armRows rows dateCol treatmentCol date 1
  let control := armRows rows dateCol treatmentCol date 0
  let delta := meanCol treated metric - meanCol control metric
  let width := N.quantile (1 - alpha / 2) * ((spread treated metric).sq + (spread control metric).sq).sqrt
  ⟨date, meanCol treated metric, meanCol control metric, delta, delta - width, delta + width⟩

/-- The points of the plot (plotting.py:411-431): one for every date on which one of the groups has an average.  `pivot_table` removes missing
values, so that a group without any average (or without any spread) is no column of its result: `KeyError`.  Outside the model are metrics that
are not numeric, assignments other than 0 and 1 (which would be further lines), and columns that are given twice. -/
noncomputable def timePoints (N : NormalDist) (alpha : ℝ) (f : Frame ℝ) (metric dateCol treatmentCol : String) : Py (List TimePoint) := do
  raiseIf .keyError (dateCol ∉ f.cols ∨ treatmentCol ∉ f.cols ∨ metric ∉ f.cols)
  raiseIf .outOfModel (metric = dateCol ∨ metric = treatmentCol ∨ dateCol = treatmentCol)
  raiseIf .outOfModel (f.rows.any (fun r => !(r metric).isNumeric) = true)
  raiseIf .outOfModel (f.rows.any (fun r => !((r treatmentCol).isNull || cellEq 1 (r treatmentCol) || cellEq 0 (r treatmentCol))) = true)
  let dates := (groupKeys f.rows [dateCol]).map (fun k => k.headD .null)
  let absent (g : List (Row ℝ) → Fl ℝ) (arm : ℝ) : Prop :=
    ∀ d ∈ dates, (g (armRows f.rows dateCol treatmentCol d arm)).isNan = true
  raiseIf .keyError (absent (fun rows => meanCol rows metric) 1 ∨ absent (fun rows => meanCol rows metric) 0)
  raiseIf .keyError (absent (fun rows => spread rows metric) 1 ∨ absent (fun rows => spread rows metric) 0)
  return (dates.map (timePoint N alpha f.rows metric dateCol treatmentCol)).filter (fun p => !p.treatment.isNan || !p.control.isNan)

/-- `plot_metric_over_time` (plotting.py:370-505): the points and the dates drawn.  Sorting the rows by date (399) only fixes the order in which
`_add_cuped_adjusted_metric_per_date` and the pivot tables see them, and is left out (`C99_row_order` shows that the order does not matter). -/
noncomputable def metricOverTime (R : Rounding ℝ) (argsort : List ℝ → List ℕ) (N : NormalDist) (d : Design ℝ) (applyCuped : Bool)
    (metric itemCol periodCol treatmentCol dateCol : String) (f : Frame ℝ) : Py (List TimePoint × PlotDates) := do
  raiseIf .keyError (dateCol ∉ f.cols)
  let g ← (if applyCuped then cupedPerDate R argsort f metric itemCol dateCol periodCol metric else .ok f)
  let points ← timePoints N d.alpha.val g metric dateCol treatmentCol
  let dates ← plotDates d.toDesignParams g
  return (points, dates)

end Feedx
