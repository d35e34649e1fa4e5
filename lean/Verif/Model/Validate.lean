import Verif.Model.Design
import Verif.Model.Coinflip
import Verif.Model.Prepare

/-!
Model of the validation checks (feedx/data_preparation.py:35-88, 722-1303).

A check returns `true` if it failed; what a check raises itself is an error whatever is skipped.  Messages are not modelled.
-/

set_option linter.unusedSectionVars false

namespace Feedx

variable {K : Type}

/-- The registered check names (data_preparation.py:722-1064, the `add_check` decorators). -/
def checkNames : List String :=
  ["no_duplicate_items_per_date", "no_nulls", "dates_are_daily_or_weekly", "week_ids_are_consecutive_integers",
   "all_metrics_are_finite", "all_metrics_are_non_negative", "number_of_items_matches_design", "experiment_dates_match_design",
   "treatment_assignment_is_unique", "coinflip_salt_validation", "no_sample_ratio_mismatch", "primary_metric_in_metrics"]

/-- The wrapper around a check (data_preparation.py:57-77). -/
def runCheck (skip : List String) (name : String) (check : Py Bool) : Py Unit := do
  let failed ← check
  raiseIf .valueError (failed = true ∧ name ∉ skip)

/-- `list(map(ValidationChecks.assert_check_exists, skip))` (data_preparation.py:81-88, 1118, 1214). -/
def assertChecksExist (skip : List String) : Py Unit :=
  raiseIf .valueError (skip.any (fun s => decide (s ∉ checkNames)) = true)

section
variable [Field K] [LinearOrder K]

/-- Number of items with a row on a date, with repetitions (`groupby(date).count()[item]`, data_preparation.py:730-734). -/
def itemsOn (f : Frame K) (itemCol dateCol : String) (k : List (Cell K)) : List (Cell K) :=
  ((groupRows f.rows [dateCol] k).map (fun r => r itemCol)).filter (fun c => !c.isNull)

/-- `_validate_every_item_exists_exactly_once_for_every_date` (data_preparation.py:722-767).  The same name for both columns is
outside the model. -/
def checkDuplicates (f : Frame K) (itemCol dateCol : String) : Py Bool := do
  raiseIf .keyError (dateCol ∉ f.cols ∨ itemCol ∉ f.cols)
  raiseIf .outOfModel (itemCol = dateCol)
  let groups := (groupKeys f.rows [dateCol]).map (itemsOn f itemCol dateCol)
  if groups.any (fun l => decide (l.length ≠ nunique l)) then return true
  match groups with
  | [] => .error .indexError
  | g :: _ => return groups.any (fun l => decide (l.length ≠ g.length))

/-- `_validate_no_null_values` (data_preparation.py:770-780). -/
def checkNulls (f : Frame K) : Py Bool :=
  .ok (f.rows.any (fun r => f.cols.any (fun c => (r c).isNull)))

/-- `_validate_dates_are_either_daily_or_weekly` (data_preparation.py:783-811). -/
def checkSpacing (f : Frame K) (dateCol : String) : Py Bool := do
  raiseIf .keyError (dateCol ∉ f.cols)
  raiseIf .valueError (isTimeColumn (f.col dateCol) = false)
  return !(spacedBy 7 (f.col dateCol) || spacedBy 1 (f.col dateCol))

/-- Order of dates in `sort_values`: missing dates last. -/
def dateLe : Cell K → Cell K → Prop
  | .time a, .time b => a ≤ b
  | .time _, _ => True
  | _, .time _ => False
  | _, _ => True

/-- `sort_values(date)` on (week id, date) pairs: some sorted arrangement; the order of equal dates is not specified (quicksort). -/
structure DateSorter (K : Type) where
  sort : List (Cell K × Cell K) → List (Cell K × Cell K)
  perm : ∀ l, (sort l).Perm l
  sorted : ∀ l, (sort l).Pairwise (fun a b => dateLe a.2 b.2)

/-- Consecutive differences of integer cells are 0 or 1. -/
def stepsOk : List (Cell K) → Bool
  | .int a :: .int b :: l => decide (b - a = 0 ∨ b - a = 1) && stepsOk (.int b :: l)
  | _ => true

/-- `_validate_week_ids_are_consecutive_integers` (data_preparation.py:814-843).  A date column that is not a timestamp column is
outside the model. -/
def checkWeekIds (S : DateSorter K) (f : Frame K) (weekCol dateCol : String) : Py Bool := do
  raiseIf .keyError (weekCol ∉ f.cols)
  raiseIf .valueError ((f.col weekCol).all (fun c => match c with | .int _ => true | _ => false) = false)
  raiseIf .keyError (dateCol ∉ f.cols)
  raiseIf .outOfModel (weekCol = dateCol ∨ isTimeColumn (f.col dateCol) = false)
  let ids := (S.sort (dropDup (f.rows.map (fun r => (r weekCol, r dateCol))))).map Prod.fst
  return !stepsOk ids

/-- `_validate_all_metrics_are_finite` (data_preparation.py:846-865).  Timestamp columns are outside the model. -/
def checkFinite (f : Frame K) : List String → Py Bool
  | [] => .ok false
  | m :: rest => do
    raiseIf .keyError (m ∉ f.cols)
    raiseIf .typeError ((f.col m).any (fun c => match c with | .str _ => true | _ => false) = true)
    raiseIf .outOfModel ((f.col m).any (fun c => !c.isNumeric) = true)
    if (f.col m).any (fun c => !c.toFl.isFinite) then return true
    checkFinite f rest

/-- `_validate_all_metrics_are_non_negative` (data_preparation.py:868-890). -/
def checkNonNegative (f : Frame K) : List String → Py Bool
  | [] => .ok false
  | m :: rest => do
    raiseIf .keyError (m ∉ f.cols)
    raiseIf .typeError ((f.col m).any (fun c => !c.isNumeric) = true)
    if (f.col m).any (fun c => Fl.lt c.toFl (.fin 0)) then return true
    checkNonNegative f rest

/-- `_validate_number_of_items_matches_design` (data_preparation.py:893-911). -/
def checkItemCount (f : Frame K) (d : Design K) (itemCol : String) : Py Bool := do
  raiseIf .keyError (itemCol ∉ f.cols)
  return decide ((nunique (f.col itemCol) : ℤ) ≠ d.nAfterPre)

/-- `_validate_experiment_dates_match_design` (data_preparation.py:914-966).  Comparisons with a missing minimum or maximum are
false; a date column that is not a timestamp column is outside the model. -/
def checkDateRange (E : Ext K) (f : Frame K) (d : Design K) (dateCol startDate : String) (concluded : Bool) : Py Bool :=
  match E.strptime startDate with
  | none => .error .valueError
  | some start => do
    let expectedMin := start - d.pretest * 7 * dayNs
    let expectedMax := start + (d.runtime - 1) * 7 * dayNs
    raiseIf .keyError (dateCol ∉ f.cols)
    raiseIf .outOfModel (isTimeColumn (f.col dateCol) = false)
    if (minTime (f.col dateCol)).any (fun t => decide (t > expectedMin)) then return true
    if concluded then
      if (maxTime (f.col dateCol)).any (fun t => decide (t < expectedMax)) then return true
    return false

/-- `_validate_treatment_assignment_is_unique_for_each_item_id` (data_preparation.py:969-988). -/
def checkUnique (f : Frame K) (itemCol treatCol : String) : Py Bool := do
  raiseIf .keyError (itemCol ∉ f.cols ∨ treatCol ∉ f.cols)
  return (groupKeys f.rows [itemCol]).any (fun k =>
    decide (nunique ((groupRows f.rows [itemCol] k).map (fun r => r treatCol)) ≠ 1))

/-- `_validate_coinflip_matches_assignments` (data_preparation.py:991-1016). -/
def checkCoinflip (E : Ext K) (f : Frame K) (d : Design K) (treatCol itemCol : String) : Py Bool := do
  raiseIf .keyError (treatCol ∉ f.cols)
  let coin ← mkCoinflip (d.salt.getD "")
  raiseIf .keyError (itemCol ∉ f.cols)
  return !(f.rows.all (fun r => decide ((r treatCol).toFl = .fin ((coin.flip (E.toStr (r itemCol)) : ℕ) : K))))

/-- Number of distinct items with an assignment (data_preparation.py:1047-1049, 1051-1052: `counts.get(v, 0)`). -/
def armSize (f : Frame K) (itemCol treatCol : String) (v : K) : ℕ :=
  nunique ((f.rows.filter (fun r => decide ((r treatCol).toFl = .fin v))).map (fun r => r itemCol))

/-- `validate_no_sample_ratio_mismatch` (data_preparation.py:1019-1064); `binom k n` is the p-value of `stats.binomtest(k, n, 0.5)`.  (A column of
strings, where `counts.get` counts by position, is not modelled: it has no items in either group here.) -/
def checkRatio (binom : ℕ → ℕ → Py K) (f : Frame K) (itemCol treatCol : String) : Py Bool := do
  raiseIf .keyError (treatCol ∉ f.cols ∨ itemCol ∉ f.cols)
  let p ← binom (armSize f itemCol treatCol 1) (armSize f itemCol treatCol 1 + armSize f itemCol treatCol 0)
  return decide (p < 1 / 1000)

/-- `_validate_primary_metric_in_metrics` (data_preparation.py:1067-1081). -/
def checkPrimary (metrics : List String) (primary : String) : Py Bool := .ok (decide (primary ∉ metrics))

/-- `validate_historical_data` (data_preparation.py:1084-1150). -/
def validateHistorical (S : DateSorter K) (f : Frame K) (itemCol dateCol weekCol primary : String) (skip : List String) :
    Py Unit := do
  assertChecksExist skip
  runCheck skip "no_nulls" (checkNulls f)
  runCheck skip "no_duplicate_items_per_date" (checkDuplicates f itemCol dateCol)
  runCheck skip "dates_are_daily_or_weekly" (checkSpacing f dateCol)
  runCheck skip "week_ids_are_consecutive_integers" (checkWeekIds S f weekCol dateCol)
  runCheck skip "all_metrics_are_finite" (checkFinite f [primary])
  runCheck skip "all_metrics_are_non_negative" (checkNonNegative f [primary])

/-- The parts of the environment the experiment checks use. -/
structure Checker (K : Type) where
  ext : Ext K
  sorter : DateSorter K
  binom : ℕ → ℕ → Py K

/-- The non-negativity check of the metrics that may not be negative, if there are any (data_preparation.py:1253-1265). -/
def runNonNegative (f : Frame K) (metrics canBeNegative skip : List String) : Py Unit :=
  let nonNegative := metrics.filter (fun m => decide (m ∉ canBeNegative))
  if nonNegative.isEmpty then .ok ()
  else runCheck skip "all_metrics_are_non_negative" (checkNonNegative f nonNegative)

/-- `validate_experiment_data` (data_preparation.py:1153-1303). -/
def validateExperiment (C : Checker K) (f : Frame K) (d : Design K) (itemCol dateCol weekCol treatCol : String)
    (metrics : List String) (startDate : String) (concluded : Bool) (canBeNegative skip : List String) : Py Unit := do
  assertChecksExist skip
  runCheck skip "primary_metric_in_metrics" (checkPrimary metrics d.primaryMetric)
  runCheck skip "no_nulls" (checkNulls f)
  runCheck skip "no_duplicate_items_per_date" (checkDuplicates f itemCol dateCol)
  runCheck skip "dates_are_daily_or_weekly" (checkSpacing f dateCol)
  runCheck skip "week_ids_are_consecutive_integers" (checkWeekIds C.sorter f weekCol dateCol)
  runCheck skip "all_metrics_are_finite" (checkFinite f metrics)
  runNonNegative f metrics canBeNegative skip
  runCheck skip "number_of_items_matches_design" (checkItemCount f d itemCol)
  runCheck skip "experiment_dates_match_design" (checkDateRange C.ext f d dateCol startDate concluded)
  runCheck skip "treatment_assignment_is_unique" (checkUnique f itemCol treatCol)
  runCheck skip "coinflip_salt_validation" (checkCoinflip C.ext f d treatCol itemCol)
  runCheck skip "no_sample_ratio_mismatch" (checkRatio C.binom f itemCol treatCol)

end

end Feedx
