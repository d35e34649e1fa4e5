import Verif.Model.Validate

/-!
Model of `trim_outliers` and `perform_treatment_assignment` (feedx/data_preparation.py:1627-1800).
-/

set_option linter.unusedSectionVars false

namespace Feedx

variable {K : Type} [Field K] [LinearOrder K]

/-- `data.sample(frac=1.0, random_state=rng)`: some arrangement of the row positions. -/
structure Shuffle where
  order : ℕ → List ℕ
  perm : ∀ n, (order n).Perm (List.range n)

/-- `rank(method="first", ascending=False)` of position `i` (data_preparation.py:1683-1685): one more than the number of positions
with a larger value, or an equal value earlier in the shuffled order. -/
def rankFirst (v : ℕ → Fl K) (order : List ℕ) (i : ℕ) : ℕ :=
  1 + order.countP (fun j => decide (Fl.lt (v i) (v j) = true ∨ (v j = v i ∧ order.idxOf j < order.idxOf i)))

/-- The value `order_by` of the row at a position. -/
def valueAt (f : Frame K) (c : String) (i : ℕ) : Fl K :=
  match f.rows[i]? with
  | some r => (r c).toFl
  | none => .nan

/-- `trim_outliers` (data_preparation.py:1627-1687).  Missing values have no rank, so their rows are removed.  The row index must be
unique (indices are not modelled); a value column that is not numeric and column tuples are outside the model. -/
def trimOutliers [FloorRing K] (R : Rounding K) (σ : Shuffle) (f : Frame K) (orderBy : String) (top bottom : K) : Py (Frame K) := do
  raiseIf .valueError (top < 0)
  raiseIf .valueError (bottom < 0)
  raiseIf .valueError (1 ≤ R.rnd (top + bottom))
  let n := f.rows.length
  let nTop := R.floorMul top n
  let nBottom := R.floorMul bottom n
  if nTop = 0 ∧ nBottom = 0 then return f
  raiseIf .keyError (orderBy ∉ f.cols)
  raiseIf .outOfModel (f.rows.any (fun r => !(r orderBy).isNumeric) = true)
  let rank := rankFirst (valueAt f orderBy) (σ.order n)
  return { f with rows := (f.rows.zipIdx.filter (fun p =>
    !(valueAt f orderBy p.2).isNan && decide (nTop < rank p.2 ∧ (rank p.2 : ℤ) ≤ n - nBottom))).map Prod.fst }

/-- The integers of a column. -/
def ints (l : List (Cell K)) : List ℤ :=
  l.filterMap (fun c => match c with
    | .int i => some i
    | _ => none)

/-- Rows of the last `pretest` weeks (data_preparation.py:1767-1771). -/
def pretestRows (f : Frame K) (weekCol : String) (pretest : ℤ) : List (Row K) :=
  match (ints (f.col weekCol)).max? with
  | none => []
  | some w => f.rows.filter (fun r => match r weekCol with
    | .int i => decide (w - pretest < i)
    | _ => false)

/-- Totals of the primary metric by item in the pretest weeks (data_preparation.py:1767-1776).  Week ids that are not integers, a metric
column that is not numeric, and a primary metric that is the item column are outside the model. -/
def pretestTotals (f : Frame K) (d : Design K) (itemCol weekCol : String) : Py (Frame K) := do
  raiseIf .outOfModel ((f.col weekCol).all (fun c => match c with | .int _ => true | _ => false) = false)
  let rows := pretestRows f weekCol d.pretest
  raiseIf .keyError (d.primaryMetric ∉ f.cols)
  raiseIf .outOfModel (d.primaryMetric = itemCol ∨ f.rows.any (fun r => !(r d.primaryMetric).isNumeric) = true)
  return ⟨[itemCol, d.primaryMetric], (groupKeys rows [itemCol]).map (weekRow rows [itemCol])⟩

/-- `design_has_pre_trimming` (data_preparation.py:1734-1737). -/
def Design.hasPreTrim (d : Design K) : Prop := 0 < d.preTop.val ∨ 0 < d.preBottom.val

instance (d : Design K) : Decidable d.hasPreTrim := by unfold Design.hasPreTrim; infer_instance

/-- The items of the experiment (data_preparation.py:1766-1788). -/
def eligibleItems [FloorRing K] (R : Rounding K) (σ : Shuffle) (f : Frame K) (d : Design K) (itemCol : String) (weekCol : Option String) :
    Py (List (Cell K)) :=
  if d.hasPreTrim then do
    let totals ← pretestTotals f d itemCol (weekCol.getD "")
    let trimmed ← trimOutliers R σ totals d.primaryMetric d.preTop.val d.preBottom.val
    return trimmed.col itemCol
  else .ok (dropDup (f.col itemCol))

/-- The items with their assignments (data_preparation.py:1790-1792). -/
def assignedFrame (E : Ext K) (coin : Coinflip) (itemCol treatCol : String) (items : List (Cell K)) : Frame K where
  cols := [itemCol, treatCol]
  rows := items.map (fun i c => if c = itemCol then i else if c = treatCol then .int (coin.flip (E.toStr i)) else .null)

/-- The coin used (data_preparation.py:1758-1764): the design's salt if there is a non-empty one, otherwise a random one
(`bytes` is what the random generator returned). -/
def chooseCoin (d : Design K) (bytes : List ℕ) : Py Coinflip :=
  if d.salt.getD "" ≠ "" then mkCoinflip (d.salt.getD "") else coinflipOfBytes bytes

/-- `perform_treatment_assignment` (data_preparation.py:1690-1800): the design as the call leaves it (its salt may have been set, also when
the call raises) and the result. -/
def performAssignment [FloorRing K] (R : Rounding K) (σ : Shuffle) (E : Ext K) (binom : ℕ → ℕ → Py K) (bytes : List ℕ) (f : Frame K)
    (d : Design K) (itemCol : String) (weekCol : Option String) (treatCol : String) : Design K × Py (Frame K) :=
  if d.hasPreTrim ∧ weekCol = none then (d, .error .valueError)
  else if itemCol ∉ f.cols ∨ (d.hasPreTrim ∧ weekCol.getD "" ∉ f.cols) then (d, .error .valueError)
  else if itemCol = treatCol then (d, .error .valueError)
  else match chooseCoin d bytes with
    | .error e => (d, .error e)
    | .ok coin => ({ d with salt := some coin.salt }, do
      let items ← eligibleItems R σ f d itemCol weekCol
      let out := assignedFrame E coin itemCol treatCol items
      runCheck [] "no_sample_ratio_mismatch" (checkRatio binom out itemCol treatCol)
      return out)

end Feedx
