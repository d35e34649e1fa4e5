import Verif.Conformance.Basic
import Verif.Model.TimePeriod
import Verif.Props.Trimmed

/-!
Unit tests of feedx/experiment_analysis_test.py (weeks, time periods, pivot) and of feedx/statistics_test.py (trimming, covariates), run on the model (tests,
not proofs; see Verif/Conformance/Basic.lean).
-/

namespace Feedx.Conformance

/-! ### Weeks and time periods -/

/-- experiment_analysis_test.py:33-53. -/
example : ([1, 4, 5, 8, 10] : List ℚ).map (fun w => weekBetween (.fin w) 4 8) = [false, true, true, true, false] := by decide +kernel

/-- The designs of experiment_analysis_test.py:475-1090. -/
def testDesign (crossover : Bool) (runtime pretest : ℤ) (washout : Option ℤ) : DesignParams ℚ where
  nBefore := 1000
  runtime := runtime
  primaryMetric := "clicks"
  pretest := pretest
  isCrossover := crossover
  preTop := .float 0
  preBottom := .float 0
  postTrim := .float (1 / 10)
  washout := washout
  alpha := .float (5 / 100)
  power := .float (8 / 10)
  salt := none

/-- The time period column that is added to the weeks -2, ..., 4 (experiment_analysis_test.py:475-485); `none` for an exception. -/
def periods (d : DesignParams ℚ) (start : ℤ) : Option (List (Cell ℚ)) :=
  match addTimePeriodColumn d start "week_id" "time_period" (frame [("week_id", ints [-2, -1, 0, 1, 2, 3, 4])]) with
  | .ok f => if f.cols = ["week_id", "time_period"] ∧ f.col "week_id" = ints [-2, -1, 0, 1, 2, 3, 4] then some (f.col "time_period") else none
  | .error _ => none

/-- experiment_analysis_test.py:488-634. -/
example :
    periods (testDesign false 4 0 none) 0 = some ([.null, .null] ++ strs ["test", "test", "test", "test"] ++ [.null]) ∧
    periods (testDesign false 4 2 none) 0 = some (strs ["pretest", "pretest", "test", "test", "test", "test"] ++ [.null]) ∧
    periods (testDesign true 4 0 (some 1)) 0 = some ([.null, .null] ++ strs ["washout_1", "test_1", "washout_2", "test_2"] ++ [.null]) ∧
    periods (testDesign true 4 2 (some 1)) 0 = some (strs ["pretest", "pretest", "washout_1", "test_1", "washout_2", "test_2"] ++ [.null]) ∧
    periods (testDesign false 4 0 none) 1 = some ([.null, .null, .null] ++ strs ["test", "test", "test", "test"]) := by decide +kernel

/-! ### Pivot -/

/-- The weeks of the data of experiment_analysis_test.py:649-655. -/
def pivotWeeks : List ℤ := [-2, 0, 1, 2, 2, 3, 4, -1, 1, 1, 5, 7]

/-- The items of the data. -/
def pivotItems : List ℤ := [1, 1, 1, 1, 1, 1, 1, 2, 2, 2, 2, 2]

/-- The columns of the data. -/
def pivotCols : List (String × List (Cell ℚ)) :=
  [("item_id", ints pivotItems), ("treatment", ints [1, 1, 1, 1, 1, 1, 1, 0, 0, 0, 0, 0]), ("week_id", ints pivotWeeks),
   ("clicks", ints (List.replicate 12 2)), ("impressions", ints (List.replicate 12 3))]

/-- The call of the tests. -/
def pivoted (d : DesignParams ℚ) (treatment : Option String) (cols : List (String × List (Cell ℚ))) : Py (Pivoted ℚ) :=
  (pivotTimeAssignment d 0 ["clicks", "impressions"] "item_id" "week_id" treatment "time_period" (frame cols)).1

/-- `make_expected_pivot_data` (experiment_analysis_test.py:658-683): for every item, metric and period, the sum over the weeks of the period divided by the
number of these weeks; an item without rows in a period has 0. -/
def expectedPivot (weeks : List (String × List ℤ)) : List (List (List ℚ)) :=
  ([1, 2] : List ℤ).map (fun item => ([2, 3] : List ℚ).map (fun each => weeks.map (fun p =>
    (((pivotItems.zip pivotWeeks).filter (fun t => decide (t.1 = item ∧ t.2 ∈ p.2))).map (fun _ => each)).sum / (p.2.length : ℚ))))

/-- The table has the expected index, periods and values. -/
def pivotsTo (r : Py (Pivoted ℚ)) (weeks : List (String × List ℤ)) : Bool :=
  match r with
  | .ok t => decide (t.index = [[.int 1], [.int 2]]) && t.periods.isPerm (strs (weeks.map Prod.fst)) &&
      decide (([1, 2] : List ℤ).map (fun item => ["clicks", "impressions"].map (fun m => weeks.map (fun p => t.value [.int item] m p.1))) =
        (expectedPivot weeks).map (fun l => l.map (fun k => k.map .fin)))
  | .error _ => false

/-- experiment_analysis_test.py:685-822: the exceptions. -/
example : raisesValueError (pivoted (testDesign false 6 2 none) none (("time_period", strs (List.replicate 12 "already existing column")) :: pivotCols)) = true ∧
    ["clicks", "item_id", "week_id"].all (fun c =>
      raisesValueError (pivoted (testDesign true 6 2 (some 1)) none (pivotCols.filter (fun p => decide (p.1 ≠ c))))) = true ∧
    raisesValueError (pivoted (testDesign true 6 2 (some 1)) (some "treatment") (pivotCols.filter (fun p => decide (p.1 ≠ "treatment")))) = true := by
  decide +kernel

/-- experiment_analysis_test.py:824-917: regular experiments. -/
example : pivotsTo (pivoted (testDesign false 6 2 none) none pivotCols) [("pretest", [-2, -1]), ("test", [0, 1, 2, 3, 4, 5])] = true ∧
    pivotsTo (pivoted (testDesign false 6 0 none) none pivotCols) [("test", [0, 1, 2, 3, 4, 5])] = true ∧
    pivotsTo (pivoted (testDesign false 3 2 none) none pivotCols) [("pretest", [-2, -1]), ("test", [0, 1, 2])] = true := by decide +kernel

/-- experiment_analysis_test.py:919-1058: crossover experiments. -/
example :
    pivotsTo (pivoted (testDesign true 6 2 (some 1)) none pivotCols)
      [("pretest", [-2, -1]), ("washout_1", [0]), ("test_1", [1, 2]), ("washout_2", [3]), ("test_2", [4, 5])] = true ∧
    pivotsTo (pivoted (testDesign true 6 2 (some 2)) none pivotCols)
      [("pretest", [-2, -1]), ("washout_1", [0, 1]), ("test_1", [2]), ("washout_2", [3, 4]), ("test_2", [5])] = true ∧
    pivotsTo (pivoted (testDesign true 6 0 (some 1)) none pivotCols)
      [("washout_1", [0]), ("test_1", [1, 2]), ("washout_2", [3]), ("test_2", [4, 5])] = true ∧
    pivotsTo (pivoted (testDesign true 4 2 (some 1)) none pivotCols)
      [("pretest", [-2, -1]), ("washout_1", [0]), ("test_1", [1]), ("washout_2", [2]), ("test_2", [3])] = true := by decide +kernel

/-- experiment_analysis_test.py:1060-1092: the treatment assignment is kept. -/
example : [true, false].all (fun x => match pivoted (testDesign x 4 2 (some 1)) (some "treatment") pivotCols with
    | .ok t => t.index.isPerm [[.int 1, .int 1], [.int 2, .int 0]]
    | .error _ => false) = true := by decide +kernel

/-! ### Trimming -/

/-- The arrays of statistics_test.py:29-36. -/
def inputArray : List ℚ := [5, 7, 17 / 2, 1, 19 / 2, 12, 20, 1, 2, 3]
/-- ... -/
def inputArray2 : List ℚ := [3, 6, 1, 4 / 10, 2, 1, 9, 5 / 10, 2 / 10, 1]
/-- ... -/
def winsorizedArray : List ℚ := [2, 2, 2, 3, 5, 7, 17 / 2, 19 / 2, 19 / 2, 19 / 2]

/-- Whether the array can be created and has this property. -/
def trimmedHas {m : ℕ} (cols : List (Fin (m + 1) → ℚ)) (q : ℚ) (P : TrimmedArray ℚ m → Bool) : Bool :=
  match mkTrimmed (Rounding.exact ℚ) stableArgsort cols q with
  | .ok T => P T
  | .error _ => false

/-- `np.mean`, `np.var` and `np.cov` with `ddof`. -/
def npCov (ddof : ℕ) (x y : List ℚ) : ℚ :=
  (List.zipWith (fun a b => (a - x.sum / (x.length : ℚ)) * (b - y.sum / (y.length : ℚ))) x y).sum / ((x.length : ℚ) - (ddof : ℚ))

/-- statistics_test.py:38-41. -/
example : ([2, 5 / 10, -1 / 100] : List ℚ).all (fun q => raisesValueError (mkTrimmed (Rounding.exact ℚ) stableArgsort (asStack inputArray) q)) = true := by
  decide +kernel

/-- statistics_test.py:75-132: the number of trimmed elements, the trimmed values in their original order, the mean, the winsorized mean, the length and the
variances. -/
example : trimmedHas (asStack inputArray) (1 / 4) (fun T =>
    decide (T.nTrim = 2) && decide (rowOf T.trimmed 0 = [5, 7, 17 / 2, 19 / 2, 2, 3]) && decide (T.mean 0 = (5 + 7 + 17 / 2 + 19 / 2 + 2 + 3) / 6) &&
    decide (T.winsorizedMean 0 = winsorizedArray.sum / 10) && decide (T.len = 6) &&
    [0, 1].all (fun ddof => decide (T.var ddof 0 = npCov 0 winsorizedArray winsorizedArray * 10 / (6 - (ddof : ℚ))))) = true := by decide +kernel

/-- statistics_test.py:134-154: no trimming. -/
example : trimmedHas (asStack inputArray) (1 / 100) (fun T =>
    decide (T.nTrim = 0) && decide (T.mean 0 = inputArray.sum / 10) &&
    [0, 1].all (fun ddof => decide (T.var ddof 0 = npCov ddof inputArray inputArray))) = true := by decide +kernel

/-- statistics_test.py:168-239: two arrays, no trimming. -/
example : trimmedHas (List.zipWith (fun a b => ![a, b]) inputArray inputArray2) (1 / 100) (fun T =>
    decide (T.nTrim = 0) && decide (T.mean 0 = inputArray.sum / 10) && decide (T.mean 1 = inputArray2.sum / 10) &&
    [0, 1].all (fun ddof => decide (T.cov ddof 0 0 = npCov ddof inputArray inputArray) && decide (T.cov ddof 0 1 = npCov ddof inputArray inputArray2) &&
      decide (T.cov ddof 1 0 = npCov ddof inputArray2 inputArray) && decide (T.cov ddof 1 1 = npCov ddof inputArray2 inputArray2))) = true := by
  decide +kernel

/-- statistics_test.py:241-271: the variance of a difference. -/
example : ([0, 1 / 10, 2 / 10, 3 / 10] : List ℚ).all (fun q => trimmedHas (List.zipWith (fun a b => ![a - b, a, b]) inputArray inputArray2) q (fun T =>
    decide (T.cov 1 0 0 = T.cov 1 1 1 + T.cov 1 2 2 - 2 * T.cov 1 1 2))) = true := by decide +kernel

/-! ### Covariate adjustment -/

/-- The arrays of statistics_test.py:279-280. -/
def cupedMetric : List ℚ := [1, 1, 2, 3, 5, 7, 17 / 2, 19 / 2, 12, 20]
/-- ... -/
def cupedCovariate : List ℚ := [1, 3, 1, 4, 6, 4, 19 / 2, 21 / 2, 12, 15]

/-- The adjusted metric (empty for an exception; only its finite values). -/
def adjusted (q : ℚ) : List ℚ :=
  match cuped (Rounding.exact ℚ) stableArgsort cupedMetric cupedCovariate q with
  | .ok l => l.filterMap (fun x => match x with | .fin y => some y | _ => none)
  | .error _ => []

/-- statistics_test.py:282-290: the variance is multiplied by one minus the square of the correlation. -/
example : npCov 0 (adjusted 0) (adjusted 0) = npCov 0 cupedMetric cupedMetric *
    (1 - npCov 0 cupedMetric cupedCovariate ^ 2 / (npCov 0 cupedMetric cupedMetric * npCov 0 cupedCovariate cupedCovariate)) := by decide +kernel

/-- statistics_test.py:292-338: with quantiles 0 and 0.1 the variance is smaller and the mean is the same. -/
example : ([0, 1 / 10] : List ℚ).all (fun q => trimmedHas (asStack (adjusted q)) q (fun A => trimmedHas (asStack cupedMetric) q (fun B =>
    decide (A.size = 10) && decide (0 < q → 0 < B.nTrim) && decide (A.var 1 0 < B.var 1 0) && decide (A.mean 0 = B.mean 0)))) = true := by decide +kernel

end Feedx.Conformance
