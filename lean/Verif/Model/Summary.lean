import Mathlib.Data.String.Basic
import Mathlib.Data.Prod.Lex
import Verif.Model.DesignId
import Verif.Model.Format
import Verif.Model.Simulate

/-!
Model of the summaries of simulation analyses (experiment_simulations.py:1117-1319): the summary of one analysis, the table of several, and its
formatting.  The coloured bars and the default texts of pandas are not modelled.
-/

set_option linter.unusedSectionVars false

namespace Feedx

/-- A value in a summary. -/
inductive SVal (K : Type) where
  | null
  | bool (b : Bool)
  | str (s : String)
  | num (x : PyNum K)
  | flt (x : Fl K)
  deriving DecidableEq

/-- An optional value. -/
def SVal.ofOption {α K : Type} (f : α → SVal K) : Option α → SVal K
  | none => .null
  | some x => f x

/-- The whole design as a dictionary: `dataclasses.asdict` without the salt (experiment_simulations.py:1142-1144, experiment_design.py:54-69). -/
def designDict {K : Type} (d : Design K) : List (String × SVal K) :=
  [("n_items_before_trimming", .num (.int d.nBefore)), ("runtime_weeks", .num (.int d.runtime)), ("primary_metric", .str d.primaryMetric),
   ("pretest_weeks", .num (.int d.pretest)), ("is_crossover", .bool d.isCrossover), ("pre_trim_top_percentile", .num d.preTop),
   ("pre_trim_bottom_percentile", .num d.preBottom), ("post_trim_percentile", .num d.postTrim),
   ("crossover_washout_weeks", .ofOption (fun w => .num (.int w)) d.washout), ("alpha", .num d.alpha), ("power", .num d.power),
   ("n_items_after_pre_trim", .num (.int d.nAfterPre)), ("n_items_after_post_trim", .num (.int d.nAfterPost))]

/-- `summary_dict` (experiment_simulations.py:1117-1162); the design id is given separately. -/
noncomputable def summaryDict (R : Rounding ℝ) (fr : ℝ → List Char) (printable : Char → Bool) (X : RobustnessTests) (c : SimConfig) (s : SimState) :
    Py (String × List (String × SVal ℝ)) := do
  let id ← designId R fr printable c.design
  let fpr ← falsePositiveRate c.design s
  let power ← simulatedPower c.design s
  let check1 ← aboveThreshold c (nullPValue X s)
  let check2 ← aboveThreshold c (powerPValue X c.design s)
  let check3 ← aboveThreshold c (falsePositivePValue X c.design s)
  let check4 ← aboveThreshold c (aaPointPValue X s)
  let check5 ← aboveThreshold c (abPointPValue X s)
  let all ← allChecksPass X c s
  return (String.ofList id, designDict c.design ++
    [("minimum_detectable_effect", .ofOption .flt s.mde), ("relative_minimum_detectable_effect", .ofOption .flt s.relativeMde),
     ("simulated_false_positive_rate", .ofOption (fun x => .flt (.fin x)) fpr),
     ("simulated_power_at_minimum_detectable_effect", .ofOption (fun x => .flt (.fin x)) power),
     ("null_p_value_robustness_check_pass", .ofOption .bool check1), ("power_robustness_check_pass", .ofOption .bool check2),
     ("false_positive_rate_robustness_check_pass", .ofOption .bool check3),
     ("aa_point_estimate_robustness_check_pass", .ofOption .bool check4),
     ("ab_point_estimate_robustness_check_pass", .ofOption .bool check5), ("all_robustness_checks_pass", .ofOption .bool all)])

/-- A table of summaries, indexed by design id.  `None` in a column with other values is the same as nan to pandas and is kept as `null`. -/
structure SummaryTable (K : Type) where
  cols : List String
  rows : List (String × (String → SVal K))

/-- Sort key of pandas: numbers by value, texts alphabetically, missing values last.  (The values of one column are of one kind.) -/
noncomputable def SVal.key : SVal ℝ → ℕ ×ₗ ℝ ×ₗ String
  | .bool b => toLex (0, toLex (if b then 1 else 0, ""))
  | .num x => toLex (2, toLex (x.val, ""))
  | .flt .ninf => toLex (1, toLex (0, ""))
  | .flt (.fin x) => toLex (2, toLex (x, ""))
  | .flt .pinf => toLex (3, toLex (0, ""))
  | .str s => toLex (4, toLex (0, s))
  | .null => toLex (5, toLex (0, ""))
  | .flt .nan => toLex (5, toLex (0, ""))

/-- `sort_values`: some permutation that sorts (the default algorithm is not stable). -/
structure SummarySorter where
  order : List (SVal ℝ) → List ℕ
  perm : ∀ l, (order l).Perm (List.range l.length)
  sorted : ∀ l, ((order l).map (fun i => (l.getD i .null).key)).Pairwise (· ≤ ·)

/-- `make_analysis_summary_dataframe` (experiment_simulations.py:1165-1182).  Without any analysis there is no column `design_id`: `KeyError`.  The
names of the columns are the same for all analyses and are taken from the first. -/
noncomputable def makeSummary (R : Rounding ℝ) (fr : ℝ → List Char) (printable : Char → Bool) (X : RobustnessTests) (S : SummarySorter)
    (analyses : List (SimConfig × SimState)) (sortBy : String) : Py (SummaryTable ℝ) := do
  let dicts ← analyses.mapM (fun a => summaryDict R fr printable X a.1 a.2)
  match dicts with
  | [] => .error .keyError
  | first :: _ =>
    let cols := first.2.map Prod.fst
    let rows : List (String × (String → SVal ℝ)) := dicts.map (fun d => (d.1, fun col => (d.2.lookup col).getD .null))
    raiseIf .keyError (sortBy ∉ cols ∧ sortBy ≠ "design_id")
    let keys := rows.map (fun r => if sortBy = "design_id" then .str r.1 else r.2 sortBy)
    return { cols := cols, rows := (S.order keys).filterMap (fun i => rows[i]?) }

/-! ### Formatting -/

section Format
variable {K : Type} [Field K] [LinearOrder K] [FloorRing K]

/-- `_format_check_column` (experiment_simulations.py:1185-1192). -/
def checkStyle : SVal K → String
  | .bool true => "background-color:lightgreen"
  | .bool false => "background-color:darkred;color:white"
  | _ => ""

/-- `_drop_validation_columns` (experiment_simulations.py:1195-1201). -/
def dropValidation (t : SummaryTable K) : SummaryTable K :=
  { t with cols := t.cols.filter (fun c => !("_pass".toList.isSuffixOf c.toList || "simulated_".toList.isPrefixOf c.toList)) }

/-- The listed design attributes (experiment_simulations.py:1220-1233). -/
def designAttributes : List String :=
  ["primary_metric", "alpha", "power", "n_items_before_trimming", "n_items_after_pre_trim", "n_items_after_post_trim", "runtime_weeks",
   "pretest_weeks", "pre_trim_top_percentile", "pre_trim_bottom_percentile", "post_trim_percentile", "is_crossover"]

/-- Equality of values as pandas counts them: numbers by value, missing values all alike. -/
def SVal.same : SVal K → SVal K → Bool
  | .null, .null => true
  | .null, .flt .nan => true
  | .flt .nan, .null => true
  | .num x, .num y => decide (x.val = y.val)
  | .num x, .flt (.fin y) => decide (x.val = y)
  | .flt (.fin x), .num y => decide (x = y.val)
  | .flt x, .flt y => decide (x = y)
  | .bool x, .bool y => decide (x = y)
  | .str x, .str y => decide (x = y)
  | _, _ => false

/-- `summary_data[column].nunique(dropna=False) == 1`. -/
def isConstant (t : SummaryTable K) (col : String) : Bool :=
  match t.rows with
  | [] => false
  | first :: rest => rest.all (fun r => (first.2 col).same (r.2 col))

/-- `_extract_constant_design_columns_for_caption` (experiment_simulations.py:1204-1246).  `text` prints a value. -/
def extractConstant (text : SVal K → String) (t : SummaryTable K) : Py (SummaryTable K × String) := do
  raiseIf .keyError (∃ c ∈ designAttributes, c ∉ t.cols)
  let constant := designAttributes.filter (isConstant t)
  let texts := constant.map (fun c => c ++ " = " ++ (match t.rows with
    | [] => ""
    | first :: _ => text (first.2 c)))
  return ({ t with cols := t.cols.filter (fun c => decide (c ∉ constant)) }, String.intercalate ", " texts)

/-- `str.title`, for ASCII text: a letter is upper case if the character before it is not a letter. -/
def titleChars : Bool → List Char → List Char
  | _, [] => []
  | afterLetter, c :: rest => (if afterLetter then c.toLower else c.toUpper) :: titleChars c.isAlpha rest

/-- `column.replace("_", " ").title()` (experiment_simulations.py:1249-1253). -/
def cleanName (c : String) : String := String.ofList (titleChars false (c.toList.map (fun x => if x = '_' then ' ' else x)))

/-- `f"{x:.2%}"`. -/
def plainPercent (R : Rounding K) : SVal K → Py String
  | .null => .error .typeError
  | .bool _ => .error .outOfModel
  | .str _ => .error .valueError
  | .num x => .ok (percentText (R.rnd (100 * x.val)))
  | .flt (.fin x) => .ok (percentText (R.rnd (100 * x)))
  | .flt .nan => .ok "nan%"
  | .flt .pinf => .ok "inf%"
  | .flt .ninf => .ok "-inf%"
where
  percentText (y : K) : String := String.ofList ((if y < 0 then '-' :: fixedChars false 2 (-y) else fixedChars false 2 y) ++ ['%'])

/-- The columns shown as percentages (experiment_simulations.py:1299-1306). -/
def percentColumns : List String :=
  ["Relative Minimum Detectable Effect", "Pre Trim Top Percentile", "Pre Trim Bottom Percentile", "Post Trim Percentile",
   "Simulated False Positive Rate", "Simulated Power At Minimum Detectable Effect"]

/-- A shown cell: the value, the text if it is not pandas's default, the style of a check and whether it is made invisible. -/
structure ShownCell (K : Type) where
  value : SVal K
  text : Option String
  style : String
  hidden : Bool
  deriving DecidableEq

/-- Missing values. -/
def SVal.isMissing : SVal K → Bool
  | .null => true
  | .flt .nan => true
  | _ => false

/-- A value as the column holds it: `None` stays `None` in a column of `None`s and becomes nan among numbers (pandas's conversion). -/
def columnValue (t : SummaryTable K) (col : String) (v : SVal K) : SVal K :=
  if v = .null ∧ t.rows.all (fun r => decide (r.2 col = .null)) = false then .flt .nan else v

/-- The text of a cell that is shown as a percentage. -/
def shownText (R : Rounding K) (t : SummaryTable K) (col : String) (v : SVal K) : Py (Option String) :=
  if cleanName col ∈ percentColumns then (plainPercent R (columnValue t col v)).map some else .ok none

/-- One cell. -/
def shownCell (R : Rounding K) (t : SummaryTable K) (col : String) (v : SVal K) : Py (ShownCell K) := do
  let text ← shownText R t col v
  return { value := v, text := text, style := if " Pass".toList.isSuffixOf (cleanName col).toList then checkStyle v else "", hidden := v.isMissing }

/-- The displayed table. -/
structure ShownSummary (K : Type) where
  caption : String
  cols : List String
  rows : List (String × List (ShownCell K))
  deriving DecidableEq

/-- Displaying the result of `format_analysis_summary_dataframe` (experiment_simulations.py:1256-1319).  The texts are made when the styled table is
displayed, so that a value that cannot be formatted raises then.  Before that the styles are computed, and pandas refuses to style a table with a
repeated index value (`KeyError`). -/
def formatSummary (R : Rounding K) (text : SVal K → String) (t : SummaryTable K) (withValidation : Bool) : Py (ShownSummary K) := do
  let t := if withValidation then t else dropValidation t
  let (t, constant) ← extractConstant text t
  raiseIf .keyError (¬ (t.rows.map Prod.fst).Nodup)
  let rows ← t.rows.mapM (fun r => do
    let cells ← t.cols.mapM (fun c => shownCell R t c (r.2 c))
    return (r.1, cells))
  return { caption := "Analysis results of experiment designs where the following design attributes are constant for all designs: " ++ constant
           cols := t.cols.map cleanName, rows := rows }

end Format

end Feedx
