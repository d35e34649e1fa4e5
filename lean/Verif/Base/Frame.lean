import Mathlib.Data.List.Sort
import Verif.Base.Err
import Verif.Base.Fl
import Verif.Base.ListUtil

/-!
pandas data frames.

A frame is a list of column names and a list of rows; a row maps column names to cells.  The row
index is not modelled.  Values of a row at names that are not columns are meaningless; the
observable content is `Frame.table`.
-/

set_option linter.unusedSectionVars false

namespace Feedx

/-- A cell: missing value (`None`/`NaN`/`NaT`), string, int, finite float, infinite float, or
timestamp (integer nanoseconds since an epoch). -/
inductive Cell (K : Type) where
  | null
  | str (s : String)
  | int (i : ℤ)
  | num (x : K)
  | inf (negative : Bool)
  | time (ns : ℤ)
  deriving DecidableEq

/-- A row: cell by column name. -/
abbrev Row (K : Type) := String → Cell K

/-- A data frame. -/
structure Frame (K : Type) where
  cols : List String
  rows : List (Row K)

namespace Cell
variable {K : Type} [Field K] [LinearOrder K]

/-- Numeric reading of a cell (missing is nan); strings and timestamps read as nan, callers check
`isNumeric` first where Python would raise. -/
def toFl : Cell K → Fl K
  | null => .nan
  | str _ => .nan
  | int i => .fin (i : K)
  | num x => .fin x
  | inf b => if b then .ninf else .pinf
  | time _ => .nan

/-- Is the cell usable in arithmetic and comparison with numbers? -/
def isNumeric : Cell K → Bool
  | str _ => false
  | time _ => false
  | _ => true

/-- `isnull()`. -/
def isNull : Cell K → Bool
  | null => true
  | _ => false

/-- Order used to sort group keys: by value within one type (columns are homogeneous in pandas);
different types are ordered arbitrarily by a rank. -/
def rank : Cell K → ℕ
  | null => 0
  | str _ => 1
  | int _ => 2
  | num _ => 3
  | inf _ => 4
  | time _ => 5

/-- Sort order of cells. -/
def le : Cell K → Cell K → Bool
  | str a, str b => decide (a ≤ b)
  | int a, int b => decide (a ≤ b)
  | num a, num b => decide (a ≤ b)
  | time a, time b => decide (a ≤ b)
  | inf a, inf b => a || !b
  | a, b => decide (a.rank ≤ b.rank)

end Cell

namespace Frame
variable {K : Type}

/-- The observable content: the cells of the columns, row by row. -/
def table (f : Frame K) : List (List (Cell K)) := f.rows.map (fun r => f.cols.map r)

/-- Two frames that no pandas operation can tell apart (up to the row index). -/
def Same (f g : Frame K) : Prop := f.cols = g.cols ∧ f.table = g.table

/-- `data[col] = values` computed row by row from the row: overwrites or appends the column. -/
def setCol (f : Frame K) (c : String) (v : Row K → Cell K) : Frame K where
  cols := if c ∈ f.cols then f.cols else f.cols ++ [c]
  rows := f.rows.map (fun r => Function.update r c (v r))

/-- `data.drop(columns=[col])`. -/
def dropCol (f : Frame K) (c : String) : Frame K where
  cols := f.cols.filter (fun k => k ≠ c)
  rows := f.rows

/-- `data.loc[mask]`. -/
def filterRows (f : Frame K) (p : Row K → Bool) : Frame K := { f with rows := f.rows.filter p }

/-- `data[col]` as a list of cells. -/
def col (f : Frame K) (c : String) : List (Cell K) := f.rows.map (fun r => r c)

end Frame

section group
variable {K : Type} [Field K] [LinearOrder K]

/-- Lexicographic order on key tuples. -/
def keyLe : List (Cell K) → List (Cell K) → Bool
  | [], _ => true
  | _ :: _, [] => false
  | a :: l, b :: l' => if a = b then keyLe l l' else a.le b

/-- Group keys of `data.groupby(columns)`: distinct key tuples without missing values, sorted. -/
def groupKeys (rows : List (Row K)) (by_ : List String) : List (List (Cell K)) :=
  (dropDup ((rows.map (fun r => by_.map r)).filter
    (fun k => k.all (fun c => !c.isNull)))).insertionSort (fun a b => keyLe a b = true)

/-- Rows of one group. -/
def groupRows (rows : List (Row K)) (by_ : List String) (k : List (Cell K)) : List (Row K) :=
  rows.filter (fun r => by_.map r = k)

/-- `sum` of a column over rows (missing values are skipped). -/
def sumCol (rows : List (Row K)) (c : String) : Fl K := Fl.sumSkip (rows.map (fun r => (r c).toFl))

theorem mem_groupKeys {rows : List (Row K)} {by_ : List String} {k : List (Cell K)} :
    k ∈ groupKeys rows by_ ↔ (∃ r ∈ rows, by_.map r = k) ∧ ∀ c ∈ k, c ≠ .null := by
  unfold groupKeys
  rw [List.mem_insertionSort, mem_dropDup, List.mem_filter, List.mem_map, List.all_eq_true]
  have : (∀ x ∈ k, (!x.isNull) = true) ↔ ∀ c ∈ k, c ≠ .null := by
    refine forall_congr' fun c => forall_congr' fun _ => ?_
    cases c <;> simp [Cell.isNull]
  rw [this]

theorem nodup_groupKeys (rows : List (Row K)) (by_ : List String) : (groupKeys rows by_).Nodup :=
  (List.perm_insertionSort _ _).nodup_iff.mpr (nodup_dropDup _)

end group
end Feedx
