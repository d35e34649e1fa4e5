import Mathlib.Algebra.Order.Floor.Ring
import Verif.Base.Frame
import Verif.Base.Rounding

/-!
Model of the row-level data preparation in feedx/data_preparation.py: standardising columns (365-494), filling missing
rows (497-548), downsampling (551-605), week ids (608-641), weekly grouping (644-719), at-least-one metrics (1306-1333).
-/

set_option linter.unusedSectionVars false

namespace Feedx

variable {K : Type}

/-- Cell holding a float. -/
def Cell.ofFl : Fl K → Cell K
  | .nan => .null
  | .pinf => .inf false
  | .ninf => .inf true
  | .fin x => .num x

/-- Cell holding a timestamp or `NaT`. -/
def Cell.ofTime : Option ℤ → Cell K
  | none => .null
  | some t => .time t

/-- The pandas conversions, which are not modelled: each acts on one cell.  (pandas may infer a date format from the whole
column; that inference is not modelled.) -/
structure Ext (K : Type) where
  /-- `astype(str)`, and `str` of a single value -/
  toStr : Cell K → String
  /-- strings stay as they are -/
  toStr_str : ∀ s, toStr (.str s) = s
  /-- `pd.to_datetime` -/
  toDate : Cell K → Py (Option ℤ)
  /-- `pd.to_numeric(x).astype(float)` -/
  toNumeric : Cell K → Py (Fl K)
  /-- `x.astype(float)` -/
  toFloat : Cell K → Py (Fl K)
  /-- `x.astype(int)` -/
  toInt : Cell K → Py ℤ
  /-- integers stay as they are -/
  toInt_int : ∀ i, toInt (.int i) = .ok i
  /-- `dt.datetime.strptime(s, "%Y-%m-%d")`; `none` is its `ValueError` -/
  strptime : String → Option ℤ

/-! ### standardize_column_names_and_types -/

/-- The optional metric columns (data_preparation.py:370-374). -/
structure StdCols where
  clicks : Option String := none
  impressions : Option String := none
  totalCost : Option String := none
  conversions : Option String := none
  totalConversionValue : Option String := none

/-- The standard column names, in the order of `column_names` (data_preparation.py:434-442). -/
def standardNames : List String :=
  ["item_id", "date", "clicks", "impressions", "total_cost", "conversions", "total_conversion_value"]

/-- `column_names` without the columns that are `None`, then the custom columns
(data_preparation.py:434-442, 464-470). -/
def columnNames (itemCol dateCol : String) (s : StdCols) (custom : List (String × String)) : List (String × String) :=
  ([("item_id", some itemCol), ("date", some dateCol), ("clicks", s.clicks), ("impressions", s.impressions),
    ("total_cost", s.totalCost), ("conversions", s.conversions),
    ("total_conversion_value", s.totalConversionValue)].filterMap (fun p => p.2.map (fun c => (p.1, c)))) ++ custom

/-- The parse function of an output column (data_preparation.py:425-433, 463, 491): identity for a custom column without one. -/
def parseCell (E : Ext K) (customParse : List (String × (Cell K → Py (Cell K)))) (name : String) (c : Cell K) : Py (Cell K) :=
  match customParse.lookup name with
  | some p => p c
  | none =>
    if name = "item_id" then .ok (.str (E.toStr c))
    else if name = "date" then (E.toDate c).map Cell.ofTime
    else if name ∈ standardNames then (E.toNumeric c).map Cell.ofFl
    else .ok c

/-- Frame made of named columns of the same length. -/
def ofColumns (n : ℕ) (cols : List (String × List (Cell K))) : Frame K where
  cols := cols.map Prod.fst
  rows := (List.range n).map (fun i c => ((cols.lookup c).bind (fun l => l[i]?)).getD .null)

/-- `standardize_column_names_and_types` (data_preparation.py:365-494).  Two output columns read from the same input
column are outside the model (the renaming then yields duplicate names). -/
def standardize (E : Ext K) (f : Frame K) (itemCol dateCol : String) (s : StdCols) (custom : List (String × String))
    (customParse : List (String × (Cell K → Py (Cell K)))) : Py (Frame K) := do
  raiseIf .valueError (custom.any (fun p => decide (p.1 ∈ standardNames)) = true)
  raiseIf .valueError (customParse.any (fun p => decide (p.1 ∈ standardNames) || decide (p.1 ∉ custom.map Prod.fst)) = true)
  let names := columnNames itemCol dateCol s custom
  raiseIf .valueError (names.any (fun p => decide (p.2 ∉ f.cols)) = true)
  raiseIf .outOfModel (¬ (names.map Prod.snd).Nodup)
  let cols ← names.mapM (fun p => do
    let l ← (f.col p.2).mapM (parseCell E customParse p.1)
    pure (p.1, l))
  return ofColumns f.rows.length cols

/-! ### fill_missing_rows_with_zeros -/

/-- The zero written into a column by `fillna(0).astype(original_dtype)` (data_preparation.py:542-546): an int in an integer
column, a float in a float column, the epoch in a timestamp column, the int 0 in an object column. -/
def zeroCell [Zero K] (column : List (Cell K)) : Cell K :=
  if column.all (fun c => match c with | .int _ => true | _ => false) then .int 0
  else if column.any (fun c => match c with | .str _ => true | _ => false) then .int 0
  else if column.any (fun c => match c with | .time _ => true | _ => false) then
    if column.all (fun c => match c with | .time _ => true | .null => true | _ => false) then .time 0 else .int 0
  else .num 0

/-- Null metric cells of a merged row replaced by zero (data_preparation.py:537-546). -/
def fillRow [Zero K] (f : Frame K) (itemCol dateCol : String) (r : Row K) : Row K := fun c =>
  if c = itemCol ∨ c = dateCol then r c
  else if (r c).isNull then zeroCell (f.col c) else r c

/-- Rows of one item and date in the left merge (data_preparation.py:533-535): the matching rows in order, or one row with
missing metrics. -/
def mergeRows [DecidableEq K] (f : Frame K) (itemCol dateCol : String) (i d : Cell K) : List (Row K) :=
  let m := f.rows.filter (fun r => decide (r itemCol = i ∧ r dateCol = d))
  if m.isEmpty then [fun c => if c = itemCol then i else if c = dateCol then d else .null] else m

/-- `fill_missing_rows_with_zeros` (data_preparation.py:497-548).  The same name for item and date column is outside
the model (the cross merge then renames both). -/
def fillMissing [DecidableEq K] [Zero K] (f : Frame K) (itemCol dateCol : String) : Py (Frame K) := do
  raiseIf .valueError (itemCol ∉ f.cols ∨ dateCol ∉ f.cols)
  raiseIf .outOfModel (itemCol = dateCol)
  return {
    cols := itemCol :: dateCol :: f.cols.filter (fun c => decide (c ≠ itemCol ∧ c ≠ dateCol))
    rows := (dropDup (f.col itemCol)).flatMap (fun i => (dropDup (f.col dateCol)).flatMap (fun d =>
      (mergeRows f itemCol dateCol i d).map (fillRow f itemCol dateCol))) }

/-! ### downsample_items -/

/-- Python's `round` (half to even). -/
def roundHalfEven [Field K] [LinearOrder K] [FloorRing K] (x : K) : ℤ :=
  if x - ⌊x⌋ < 1 / 2 then ⌊x⌋
  else if 1 / 2 < x - ⌊x⌋ then ⌊x⌋ + 1
  else if Even ⌊x⌋ then ⌊x⌋ else ⌊x⌋ + 1

/-- A draw of `Series.sample(n)` without replacement: any `n` entries, each at most as often as it occurs. -/
structure Sampler (α : Type) where
  draw : List α → ℕ → List α
  subperm : ∀ l n, (draw l n).Subperm l
  length : ∀ l n, n ≤ l.length → (draw l n).length = n

/-- `downsample_items` (data_preparation.py:551-605); the printed messages are not modelled. -/
def downsample [Field K] [LinearOrder K] [FloorRing K] (R : Rounding K) (rng : Sampler (Cell K)) (f : Frame K) (fraction : K)
    (itemCol : String) : Py (Frame K) := do
  raiseIf .valueError (fraction ≤ 0 ∨ 1 < fraction)
  raiseIf .valueError (itemCol ∉ f.cols)
  if fraction = 1 then return f
  let items := dropDup (f.col itemCol)
  let sampled := rng.draw items (roundHalfEven (R.rnd (fraction * (items.length : ℤ)))).toNat
  return f.filterRows (fun r => decide (r itemCol ∈ sampled))

/-! ### add_week_id_and_week_start -/

/-- Nanoseconds in a day. -/
def dayNs : ℤ := 86400000000000

/-- `.dt.days` of a time difference: whole days, rounded down. -/
def daysOf (ns : ℤ) : ℤ := ns / dayNs

/-- The timestamps of a column, without `NaT`. -/
def times (l : List (Cell K)) : List ℤ :=
  l.filterMap (fun c => match c with
    | .time t => some t
    | _ => none)

/-- Every cell is a timestamp or `NaT`. -/
def isTimeColumn (l : List (Cell K)) : Bool :=
  l.all (fun c => match c with
    | .time _ => true
    | .null => true
    | _ => false)

/-- `column.min()` of a timestamp column (`none` is `NaT`). -/
def minTime (l : List (Cell K)) : Option ℤ := (times l).min?

/-- `column.max()` of a timestamp column (`none` is `NaT`). -/
def maxTime (l : List (Cell K)) : Option ℤ := (times l).max?

/-- Week id of a date (data_preparation.py:635-636). -/
def weekId (start t : ℤ) : ℤ := daysOf (t - start) / 7

/-- First moment of a week (data_preparation.py:637-640). -/
def weekStart (start w : ℤ) : ℤ := start + (w * 7) * dayNs

/-- The two assignments of week id and week start (data_preparation.py:635-640). -/
def withWeeks (f : Frame K) (dateCol weekCol startCol : String) (t0 : ℤ) : Frame K :=
  (f.setCol weekCol (fun r => match r dateCol with
    | .time t => .int (weekId t0 t)
    | _ => .null)).setCol startCol (fun r => match r weekCol with
    | .int w => .time (weekStart t0 w)
    | _ => .null)

/-- The date weeks are counted from (data_preparation.py:628-633): the first date of the data (`none` is `NaT`) or the parsed
experiment start date. -/
def weekOrigin (E : Ext K) (f : Frame K) (dateCol : String) : Option String → Py (Option ℤ)
  | none => .ok (minTime (f.col dateCol))
  | some s => match E.strptime s with
    | none => .error .valueError
    | some t => .ok (some t)

/-- `add_week_id_and_week_start` (data_preparation.py:608-641).  A `NaT` date makes `dt.timedelta(days=nan)` raise
`ValueError`; a date column that is not a timestamp column is outside the model.  (The returned frame is the caller's frame, updated
in place.) -/
def addWeeks (E : Ext K) (f : Frame K) (dateCol : String) (startDate : Option String) (weekCol startCol : String) :
    Py (Frame K) := do
  raiseIf .keyError (dateCol ∉ f.cols)
  raiseIf .outOfModel (isTimeColumn (f.col dateCol) = false)
  let start ← weekOrigin E f dateCol startDate
  raiseIf .valueError (f.rows.any (fun r => (r dateCol).isNull) = true)
  return withWeeks f dateCol weekCol startCol (start.getD 0)

/-! ### group_data_to_complete_weeks -/

/-- Whole days between each timestamp of a list and the next. -/
def gapDays : List ℤ → List ℤ
  | a :: b :: l => daysOf (b - a) :: gapDays (b :: l)
  | _ => []

/-- All entries of `frequency` equal `n` (data_preparation.py:677-682, 711): the differences in days of the sorted distinct
dates; `NaT`, sorted last, gives a difference that is not a number. -/
def spacedBy (n : ℤ) (l : List (Cell K)) : Bool :=
  let dates := (dropDup (times l)).insertionSort (· ≤ ·)
  (gapDays dates).all (fun g => decide (g = n)) && (dates.isEmpty || l.all (fun c => !c.isNull))

variable [Field K] [LinearOrder K]

/-- `sum` of a column over the rows of a group: an int for an integer column. -/
def sumCell (rows : List (Row K)) (c : String) : Cell K :=
  if rows.all (fun r => match r c with | .int _ => true | _ => false) then
    .int ((rows.map (fun r => match r c with | .int i => i | _ => 0)).sum)
  else Cell.ofFl (sumCol rows c)

/-- One aggregated row (data_preparation.py:690-704). -/
def weekRow (rows : List (Row K)) (keys : List String) (k : List (Cell K)) : Row K := fun c =>
  match (keys.zip k).lookup c with
  | some v => v
  | none => sumCell (groupRows rows keys k) c

/-- `nunique` of a column over the rows of a group. -/
def nunique (l : List (Cell K)) : ℕ := (dropDup (l.filter (fun c => !c.isNull))).length

/-- `group_data_to_complete_weeks` (data_preparation.py:644-719).  Outside the model: date columns that are not timestamps, metric
columns that are not numeric, repeated or clashing grouping columns.  A metric column called `days_in_week` is
overwritten by the count and dropped. -/
def groupWeeks (f : Frame K) (dateCol itemCol weekCol startCol : String) (extra : List String) : Py (Frame K) := do
  raiseIf .keyError (dateCol ∉ f.cols)
  raiseIf .outOfModel (isTimeColumn (f.col dateCol) = false)
  if spacedBy 1 (f.col dateCol) then do
    let keys := weekCol :: startCol :: itemCol :: extra
    raiseIf .keyError (keys.any (fun c => decide (c ∉ f.cols)) = true)
    raiseIf .outOfModel (¬ keys.Nodup ∨ dateCol ∈ keys ∨ "days_in_week" ∈ keys)
    let metrics := f.cols.filter (fun c => decide (c ∉ keys ∧ c ≠ dateCol))
    raiseIf .outOfModel (f.rows.any (fun r => metrics.any (fun c => !(r c).isNumeric)) = true)
    let groups := (groupKeys f.rows keys).filter
      (fun k => decide (nunique ((groupRows f.rows keys k).map (fun r => r dateCol)) = 7))
    return {
      cols := keys ++ metrics.filter (fun c => decide (c ≠ "days_in_week"))
      rows := groups.map (weekRow f.rows keys) }
  else if spacedBy 7 (f.col dateCol) then return f.dropCol dateCol
  else .error .valueError

/-! ### add_at_least_one_metrics -/

/-- `(data[metric] > 0).astype(int)`: 1 for positive values, 0 otherwise and for missing values. -/
def positiveCell (c : Cell K) : Cell K := .int (if Fl.lt (.fin 0) c.toFl then 1 else 0)

/-- `add_at_least_one_metrics` (data_preparation.py:1306-1333): the metrics in the order of the mapping; the warning is not modelled.
(The returned frame is the caller's frame, updated in place.) -/
def addAtLeastOne : List (String × String) → Frame K → Py (Frame K)
  | [], f => .ok f
  | (m, new) :: rest, f => do
    raiseIf .keyError (m ∉ f.cols)
    raiseIf .typeError (f.rows.any (fun r => !(r m).isNumeric) = true)
    addAtLeastOne rest (f.setCol new (fun r => positiveCell (r m)))

end Feedx
