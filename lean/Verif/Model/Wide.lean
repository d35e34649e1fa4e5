import Verif.Model.Assign

/-!
Tables with several index levels and column labels of several levels, and the building blocks of the simulations that work on them
(feedx/experiment_simulations.py:196-397).
-/

set_option linter.unusedSectionVars false

namespace Feedx

/-- A row: its index values, and its value by column label. -/
structure WideRow (K : Type) where
  key : List (Cell K)
  val : List String → Fl K

/-- A data frame with named index levels, whose column labels are tuples of strings (a label of length one is an ordinary column). -/
structure Wide (K : Type) where
  names : List String
  cols : List (List String)
  rows : List (WideRow K)

variable {K : Type} [Field K] [LinearOrder K]

/-- The index of row number `i` of a bootstrap sample (experiment_simulations.py:234-247): with several index levels only the one called
`itemName` is renumbered, otherwise the whole index is. -/
def bootKey (names : List String) (itemName : String) (i : ℕ) (k : List (Cell K)) : List (Cell K) :=
  if 2 ≤ names.length then List.zipWith (fun n c => if n = itemName then .int (i : ℤ) else c) names k else [.int (i : ℤ)]

/-- `_bootstrap_sample_data` (experiment_simulations.py:196-249).  `draws` are the row positions `data.sample(frac=1.0, replace=True)` picked. -/
def bootstrap (draws : List ℕ) (w : Wide K) (itemName : String) : Py (Wide K) := do
  raiseIf .valueError (["n_samples_"] ∈ w.cols ∨ ["dummy_list_"] ∈ w.cols)
  return {
    names := if 2 ≤ w.names.length then w.names else [itemName]
    cols := w.cols
    rows := draws.zipIdx.filterMap (fun p => (w.rows[p.1]?).map (fun r => ⟨bootKey w.names itemName p.2 r.key, r.val⟩)) }

/-- `s.strip("_")`. -/
def stripScores (s : List Char) : List Char :=
  ((s.dropWhile (fun c => c = '_')).reverse.dropWhile (fun c => c = '_')).reverse

/-- `s.split("__")`, with the characters of the current piece already read (in reverse). -/
def splitScores : List Char → List Char → List (List Char)
  | acc, [] => [acc.reverse]
  | acc, [c] => [(c :: acc).reverse]
  | acc, a :: b :: s => if a = '_' ∧ b = '_' then acc.reverse :: splitScores [] s else splitScores (a :: acc) (b :: s)

/-- `"__".join(col)`. -/
def joinScores (l : List String) : String := String.intercalate "__" l

/-- The flattened name of a column label (experiment_simulations.py:291-293). -/
def flatName (l : List String) : String := String.ofList (stripScores (joinScores l).toList)

/-- The label a flattened name is turned into (experiment_simulations.py:301-303). -/
def unflatName (s : String) : List String := (splitScores [] s.toList).map String.ofList

/-- `apply_random_treatment_assignment` (experiment_simulations.py:252-304) on a table with a single index level, whose index was turned
into a column by `reset_index()` just before (874): the index is the column `(name, "")`.  `coins` are the values of
`rng.choice(2, size=...)`, one per distinct item.  A metric column that, flattened, is called like the item column is outside the model, as
is a table whose index is not the item column. -/
def randomAssign (coins : List Bool) (w : Wide K) (itemCol treatCol : String) : Py (Wide K) := do
  let top := w.names ++ w.cols.map (fun l => l.headD "")
  raiseIf .valueError (treatCol ∈ top)
  raiseIf .valueError (itemCol ∉ top)
  raiseIf .outOfModel (w.names ≠ [itemCol])
  let flat := w.cols.map flatName
  raiseIf .outOfModel (itemCol ∈ flat ∨ flatName [itemCol, ""] ∈ flat ∨ ¬ flat.Nodup)
  raiseIf .keyError (flatName [itemCol, ""] ≠ itemCol)
  raiseIf .keyError (treatCol ∈ flat)
  let items := dropDup (w.rows.map (fun r => r.key.headD .null))
  return {
    names := [itemCol, treatCol]
    cols := flat.map unflatName
    rows := w.rows.map (fun r => {
      key := [r.key.headD .null, .int (if coins.getD (items.idxOf (r.key.headD .null)) false then 1 else 0)]
      val := fun l => match w.cols.find? (fun l' => unflatName (flatName l') = l) with
        | some l' => r.val l'
        | none => .nan }) }

/-- The value of an index level: `index.get_level_values(name)`. -/
def levelOf (names : List String) (name : String) (k : List (Cell K)) : Cell K := ((names.zip k).lookup name).getD .null

/-- `index.get_level_values(name) == 1` (experiment_simulations.py:313-315 and 326-328). -/
def isTreated (names : List String) (name : String) (k : List (Cell K)) : Bool := decide ((levelOf names name k).toFl = .fin 1)

/-- `pivoted_data.loc[mask, label] += effect`. -/
def addWhere (w : Wide K) (mask : List (Cell K) → Bool) (label : List String) (effect : Fl K) : Wide K :=
  { w with rows := w.rows.map (fun r =>
      ⟨r.key, fun l => if l = label ∧ mask r.key = true then r.val l + effect else r.val l⟩) }

/-- `apply_synthetic_treatment_effect` (experiment_simulations.py:307-397).  The table given is changed in place and returned; column
labels that occur more than once are outside the model. -/
def applyEffect (w : Wide K) (metric : String) (isCrossover : Bool) (effect : Fl K) (treatName : String) : Py (Wide K) := do
  raiseIf .valueError (treatName ∉ w.names)
  let required := if isCrossover then [[metric, "test_1"], [metric, "test_2"]] else [[metric, "test"]]
  raiseIf .valueError (required.any (fun l => decide (l ∉ w.cols)) = true)
  if isCrossover then
    return addWhere (addWhere w (isTreated w.names treatName) [metric, "test_1"] effect)
      (fun k => !isTreated w.names treatName k) [metric, "test_2"] effect
  else
    return addWhere w (isTreated w.names treatName) [metric, "test"] effect

end Feedx
