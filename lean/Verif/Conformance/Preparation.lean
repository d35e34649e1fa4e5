import Verif.Conformance.Basic

/-!
Unit tests of feedx/data_preparation_test.py, run on the model (tests, not proofs; see Verif/Conformance/Basic.lean).
-/

namespace Feedx.Conformance

/-! ### Columns, missing rows, downsampling -/

/-- data_preparation_test.py:198-206. -/
def rawThree : Frame ℚ := frame [("Item ID", ints [1, 2, 3]), ("YYYY-MM-DD", strs ["2023-10-01", "2023-10-02", "2023-10-03"]),
  ("Clicks", strs ["1", "2", "3"]), ("Impr.", nums [20, 21, 22]), ("Conv.", strs ["2", "3", "5"]), ("Conv. Value", strs ["2.3", "4.2", "5.0"]),
  ("Cost", ints [1, 2, 3]), ("Some extra column", strs ["something", "something", "something"])]

/-- data_preparation_test.py:209-236. -/
example : same (standardize ext rawThree "Item ID" "YYYY-MM-DD" ⟨some "Clicks", some "Impr.", some "Cost", some "Conv.", some "Conv. Value"⟩ [] [])
    [("item_id", strs ["1", "2", "3"]), ("date", oct [1, 2, 3]), ("clicks", nums [1, 2, 3]), ("impressions", nums [20, 21, 22]),
     ("conversions", nums [2, 3, 5]), ("total_conversion_value", nums [23 / 10, 42 / 10, 5]), ("total_cost", nums [1, 2, 3])] = true := by
  decide +kernel

/-- data_preparation_test.py:243-248. -/
def incomplete : Frame ℚ := frame [("item_id", strs ["1", "1", "2", "3"]), ("date", strs ["2023-10-01", "2023-10-02", "2023-10-01", "2023-10-02"]),
  ("clicks", ints [1, 2, 3, 4]), ("total_conversion_value", nums [20, 21, 22, 22])]

/-- data_preparation_test.py:250-270. -/
example : same (fillMissing incomplete "item_id" "date")
    [("item_id", strs ["1", "1", "2", "2", "3", "3"]),
     ("date", strs ["2023-10-01", "2023-10-02", "2023-10-01", "2023-10-02", "2023-10-01", "2023-10-02"]),
     ("clicks", ints [1, 2, 3, 0, 0, 4]), ("total_conversion_value", nums [20, 21, 22, 0, 0, 22])] = true := by
  decide +kernel

/-- data_preparation_test.py:272-280. -/
example : ["item_id", "date"].all (fun c => raisesValueError (fillMissing (incomplete.dropCol c) "item_id" "date")) = true := by decide +kernel

/-- data_preparation_test.py:286-290. -/
def fourItems : Frame ℚ := frame [("item_id", strs ["1", "1", "2", "2", "3", "3", "4", "4"]), ("clicks", ints [1, 2, 3, 4, 5, 6, 7, 8])]

/-- data_preparation_test.py:292-321: half of the items, with all their rows. -/
example : same (downsample (Rounding.exact ℚ) firstOnes fourItems (1 / 2) "item_id")
    [("item_id", strs ["1", "1", "2", "2"]), ("clicks", ints [1, 2, 3, 4])] = true := by decide +kernel

/-- data_preparation_test.py:323-356. -/
example : (same (downsample (Rounding.exact ℚ) firstOnes fourItems 1 "item_id")
      [("item_id", strs ["1", "1", "2", "2", "3", "3", "4", "4"]), ("clicks", ints [1, 2, 3, 4, 5, 6, 7, 8])] &&
    raisesValueError (downsample (Rounding.exact ℚ) firstOnes (fourItems.dropCol "item_id") (1 / 2) "item_id") &&
    [-1 / 10, 0, 11 / 10].all (fun q => raisesValueError (downsample (Rounding.exact ℚ) firstOnes fourItems q "item_id"))) = true := by
  decide +kernel

/-! ### Weeks -/

/-- data_preparation_test.py:1812-1821. -/
def sixDates : Frame ℚ := frame [("date", oct [1, 2, 7, 8, 9, 17])]

/-- data_preparation_test.py:1823-1850. -/
example : same (addWeeks ext sixDates "date" none "week_id" "week_start")
    [("date", oct [1, 2, 7, 8, 9, 17]), ("week_id", ints [0, 0, 0, 1, 1, 2]), ("week_start", oct [1, 1, 1, 8, 8, 15])] = true := by
  decide +kernel

/-- data_preparation_test.py:1852-1879; September 25 is day -5. -/
example : same (addWeeks ext sixDates "date" (some "2023-10-02") "week_id" "week_start")
    [("date", oct [1, 2, 7, 8, 9, 17]), ("week_id", ints [-1, 0, 0, 0, 1, 2]), ("week_start", oct [-5, 2, 2, 2, 9, 16])] = true := by
  decide +kernel

/-- The week columns and the weekly totals, as in the three tests of grouping. -/
def weekly (days : List ℤ) (clicks impressions : List ℤ) : Py (Frame ℚ) := do
  let f ← addWeeks ext (frame [("item_id", strs (days.map (fun _ => "ABC123"))), ("date", oct days), ("clicks", ints clicks), ("impressions", ints impressions)])
    "date" none "week_id" "week_start"
  groupWeeks f "date" "item_id" "week_id" "week_start" []

/-- data_preparation_test.py:1883-1921. -/
example : same (weekly [1, 2, 3, 4, 5, 6, 7, 8] [1, 50, 100, 435, 123, 35, 25, 34] [10000, 500, 3245234, 353245, 3245, 2, 325, 354])
    [("week_id", ints [0]), ("week_start", oct [1]), ("item_id", strs ["ABC123"]), ("clicks", ints [769]), ("impressions", ints [3612551])] = true := by
  decide +kernel

/-- data_preparation_test.py:1923-1980. -/
example : same (weekly [1, 8, 15, 22] [1, 50, 100, 435] [10000, 500, 3245234, 353245])
    [("item_id", strs ["ABC123", "ABC123", "ABC123", "ABC123"]), ("week_start", oct [1, 8, 15, 22]), ("clicks", ints [1, 50, 100, 435]),
     ("impressions", ints [10000, 500, 3245234, 353245]), ("week_id", ints [0, 1, 2, 3])] = true := by
  decide +kernel

/-- data_preparation_test.py:1982-2013. -/
example : raisesValueError (weekly [1, 8, 15, 22, 2, 3, 4, 5, 6, 7] [1, 50, 100, 435, 50, 100, 435, 123, 35, 25]
    [10000, 500, 3245234, 353245, 500, 3245234, 353245, 3245, 2, 325]) = true := by
  decide +kernel

/-- data_preparation_test.py:2018-2037. -/
example : same (addAtLeastOne [("clicks", "at_least_one_click"), ("impressions", "at_least_one_impression")]
      (frame [("clicks", ints [0, 1, 0, 3]), ("impressions", ints [0, 3, 1, 5])]))
    [("clicks", ints [0, 1, 0, 3]), ("impressions", ints [0, 3, 1, 5]), ("at_least_one_click", ints [0, 1, 0, 1]),
     ("at_least_one_impression", ints [0, 1, 1, 1])] = true := by
  decide +kernel

/-! ### Validation of historical data -/

/-- The table and the call of the tests at data_preparation_test.py:359-760. -/
def history (days : List ℤ) (weeks : List (Cell ℚ)) (items : List String) (clicks : List (Cell ℚ)) (skip : List String) : Py Unit :=
  validateHistorical bySortedDate (frame [("date", oct days), ("week_id", weeks), ("item_id", strs items), ("clicks", clicks)]) "item_id" "date"
    "week_id" "clicks" skip

/-- The pair of assertions of a parameterized test: without the skip the call raises `ValueError`, with it the call returns. -/
def onlySkipped (run : List String → Py Unit) (skip : List String) : Bool := raisesValueError (run []) && returns (run skip)

/-- data_preparation_test.py:361-395. -/
example : (returns (history [1, 1, 2, 2] (ints [1, 1, 2, 2]) ["1", "2", "1", "2"] (ints [1, 2, 3, 4]) []) &&
    returns (history [1, 1, 8, 8] (ints [1, 1, 2, 2]) ["1", "2", "1", "2"] (ints [1, 2, 3, 4]) [])) = true := by decide +kernel

/-- data_preparation_test.py:397-417. -/
example : raisesValueError (history [1, 1, 8, 8] (ints [1, 1, 2, 2]) ["1", "2", "1", "2"] (ints [1, 2, 3, 4]) ["unknown_check"]) = true := by
  decide +kernel

/-- data_preparation_test.py:419-498. -/
example : (onlySkipped (history [1, 1, 2, 2, 2] (ints [1, 1, 2, 2, 2]) ["1", "2", "1", "2", "2"] (ints [1, 2, 3, 4, 5])) ["no_duplicate_items_per_date"] &&
    onlySkipped (history [1, 1, 2] (ints [1, 1, 2]) ["1", "2", "1"] (ints [1, 2, 3])) ["no_duplicate_items_per_date"]) = true := by decide +kernel

/-- data_preparation_test.py:500-543: a missing value turns the column into floats. -/
example : (raisesValueError (history [1, 1, 2, 2] (ints [1, 1, 2, 2]) ["1", "2", "1", "2"] [.num 1, .num 2, .num 3, .null]
      ["all_metrics_are_finite", "all_metrics_are_non_negative"]) &&
    returns (history [1, 1, 2, 2] (ints [1, 1, 2, 2]) ["1", "2", "1", "2"] [.num 1, .num 2, .num 3, .null]
      ["no_nulls", "all_metrics_are_finite", "all_metrics_are_non_negative"])) = true := by decide +kernel

/-- data_preparation_test.py:545-735. -/
example : (onlySkipped (history [1, 1, 3, 3] (ints [1, 1, 2, 2]) ["1", "2", "1", "2"] (ints [1, 2, 3, 4])) ["dates_are_daily_or_weekly"] &&
    onlySkipped (history [1, 1, 2, 2] (ints [2, 2, 1, 1]) ["1", "2", "1", "2"] (ints [1, 2, 3, 4])) ["week_ids_are_consecutive_integers"] &&
    onlySkipped (history [1, 1, 2, 2] (ints [1, 1, 2, 2]) ["1", "2", "1", "2"] [.num 1, .num 2, .num 3, .inf false]) ["all_metrics_are_finite"] &&
    onlySkipped (history [1, 1, 2, 2] (ints [1, 1, 2, 2]) ["1", "2", "1", "2"] (ints [1, 2, 3, -1])) ["all_metrics_are_non_negative"] &&
    onlySkipped (history [1, 1, 2, 2] (ints [1, 1, 3, 3]) ["1", "2", "1", "2"] (ints [1, 2, 3, 1])) ["week_ids_are_consecutive_integers"]) = true := by
  decide +kernel

/-- data_preparation_test.py:738-760, and the same with no check skipped that does not exist. -/
example : (raisesValueError (history [1, 1, 2, 2] (strs ["1", "1", "2", "2"]) ["1", "2", "1", "2"] (ints [1, 2, 3, -1]) ["positive_metrics"]) &&
    raisesValueError (history [1, 1, 2, 2] (strs ["1", "1", "2", "2"]) ["1", "2", "1", "2"] (ints [1, 2, 3, -1]) ["all_metrics_are_non_negative"])) = true := by
  decide +kernel

/-! ### Validation of experiment data -/

/-- The designs of the tests at data_preparation_test.py:771-1760 (`_validate_design` is replaced by a mock there, so the design is made without it). -/
def smallDesign (items runtime pretest : ℤ) (primary : String) : Design ℚ :=
  deriveCounts (Rounding.exact ℚ)
    { nBefore := items, runtime := runtime, primaryMetric := primary, pretest := pretest, isCrossover := false, preTop := .float 0, preBottom := .float 0,
      postTrim := .float 0, washout := none, alpha := .float (1 / 20), power := .float (4 / 5), salt := some "ab12" }

/-- The environment of the checks: the binomial test is the model's. -/
def checker : Checker ℚ := ⟨ext, bySortedDate, binomTest⟩

/-- The table and the call of the tests at data_preparation_test.py:771-1760. -/
def experiment (d : Design ℚ) (days : List ℤ) (weeks : List ℤ) (items : List String) (clicks : List (Cell ℚ)) (treated : List ℤ)
    (concluded : Bool := true) (canBeNegative : List String := []) (metrics : List String := ["clicks", "impressions"]) (skip : List String) : Py Unit :=
  validateExperiment checker (frame [("date", oct days), ("week_id", ints weeks), ("item_id", strs items), ("clicks", clicks),
    ("impressions", ints (days.map (fun _ => 10))), ("treatment_assignment", ints treated)]) d "item_id" "date" "week_id" "treatment_assignment"
    metrics "2023-10-01" concluded canBeNegative skip

/-- data_preparation_test.py:785-847.  The assignments are those of the coin with the salt of the design. -/
example : (returns (experiment (smallDesign 2 1 0 "clicks") [1, 1, 2, 2] [1, 1, 2, 2] ["1", "2", "1", "2"] (ints [1, 2, 3, 4]) [0, 1, 0, 1] (skip := [])) &&
    returns (experiment (smallDesign 2 2 0 "clicks") [1, 1, 8, 8] [1, 1, 2, 2] ["1", "2", "1", "2"] (ints [1, 2, 3, 4]) [0, 1, 0, 1] (skip := []))) = true := by
  decide +kernel

/-- data_preparation_test.py:850-905, 1185-1235. -/
example : (onlySkipped (fun s => experiment (smallDesign 2 2 0 "clicks") [1, 1, 8, 8, 8] [1, 1, 2, 2, 2] ["1", "2", "1", "2", "2"] (ints [1, 2, 3, 4, 5])
      [0, 1, 0, 1, 1] (skip := s)) ["no_duplicate_items_per_date"] &&
    onlySkipped (fun s => experiment (smallDesign 2 2 0 "clicks") [1, 1, 8, 8] [1, 1, 2, 2] ["1", "2", "1", "2"] (ints [1, 2, 3, -1]) [0, 1, 0, 1]
      (skip := s)) ["all_metrics_are_non_negative"]) = true := by
  decide +kernel

/-- data_preparation_test.py:1292-1323. -/
example : returns (experiment (smallDesign 2 2 0 "clicks") [1, 1, 8, 8] [1, 1, 2, 2] ["1", "2", "1", "2"] (ints [1, 2, 3, -1]) [0, 1, 0, 1]
    (canBeNegative := ["clicks"]) (skip := [])) = true := by
  decide +kernel

/-- data_preparation_test.py:1411-1550: the first and the last date. -/
example : (onlySkipped (fun s => experiment (smallDesign 2 2 1 "clicks") [1, 1, 8, 8] [1, 1, 2, 2] ["1", "2", "1", "2"] (ints [1, 2, 3, 4]) [0, 1, 0, 1]
      (skip := s)) ["experiment_dates_match_design"] &&
    onlySkipped (fun s => experiment (smallDesign 2 3 0 "clicks") [1, 1, 8, 8] [1, 1, 2, 2] ["1", "2", "1", "2"] (ints [1, 2, 3, 4]) [0, 1, 0, 1]
      (skip := s)) ["experiment_dates_match_design"] &&
    returns (experiment (smallDesign 2 3 0 "clicks") [1, 1, 8, 8] [1, 1, 2, 2] ["1", "2", "1", "2"] (ints [1, 2, 3, 4]) [0, 1, 0, 1]
      (concluded := false) (skip := []))) = true := by
  decide +kernel

/-- data_preparation_test.py:1606-1719: assignments that differ within an item, and assignments that are not the coin's. -/
example : (raisesValueError (experiment (smallDesign 2 2 0 "clicks") [1, 1, 8, 8] [1, 1, 2, 2] ["1", "2", "1", "2"] (ints [1, 2, 3, 4]) [0, 1, 1, 1]
      (skip := ["coinflip_salt_validation"])) &&
    returns (experiment (smallDesign 2 2 0 "clicks") [1, 1, 8, 8] [1, 1, 2, 2] ["1", "2", "1", "2"] (ints [1, 2, 3, 4]) [0, 1, 1, 1]
      (skip := ["treatment_assignment_is_unique", "coinflip_salt_validation"])) &&
    raisesValueError (experiment (smallDesign 2 2 0 "clicks") [1, 1, 8, 8] [1, 1, 2, 2] ["1", "2", "1", "2"] (ints [1, 2, 3, 4]) [1, 1, 1, 1]
      (skip := ["no_sample_ratio_mismatch"])) &&
    returns (experiment (smallDesign 2 2 0 "clicks") [1, 1, 8, 8] [1, 1, 2, 2] ["1", "2", "1", "2"] (ints [1, 2, 3, 4]) [1, 1, 1, 1]
      (skip := ["coinflip_salt_validation", "no_sample_ratio_mismatch"]))) = true := by
  decide +kernel

/-! ### The whole preparation -/

/-- data_preparation_test.py:2044-2054 and 2211-2221. -/
def rawMetrics : Frame ℚ := frame [("Item ID", ints [1, 1, 2]), ("YYYY-MM-DD", strs ["2023-10-01", "2023-10-08", "2023-10-01"]),
  ("Clicks", strs ["1", "2", "3"]), ("Impr.", nums [20, 21, 22]), ("Conv.", strs ["2", "3", "5"]), ("Conv. Value", strs ["2.3", "4.2", "5.0"]),
  ("Cost", ints [1, 2, 3]), ("other_metric", ints [5, 2, 1]), ("Some extra column", strs ["something", "something", "something"])]

/-- data_preparation_test.py:2056-2098. -/
example : (same (prepareHistorical (Rounding.exact ℚ) firstOnes ext bySortedDate rawMetrics "Item ID" "YYYY-MM-DD" "clicks" "Clicks" 1 [])
      [("item_id", strs ["1", "1", "2", "2"]), ("week_start", oct [1, 8, 1, 8]), ("week_id", ints [0, 1, 0, 1]), ("clicks", nums [1, 2, 3, 0])] &&
    same (prepareHistorical (Rounding.exact ℚ) firstOnes ext bySortedDate rawMetrics "Item ID" "YYYY-MM-DD" "other" "other_metric" 1 [])
      [("item_id", strs ["1", "1", "2", "2"]), ("week_start", oct [1, 8, 1, 8]), ("week_id", ints [0, 1, 0, 1]), ("other_metric", nums [5, 2, 1, 0])]) = true := by
  decide +kernel

/-- data_preparation_test.py:2190-2203. -/
example : raisesValueError (prepareHistorical (Rounding.exact ℚ) firstOnes ext bySortedDate rawMetrics "Item ID" "YYYY-MM-DD" "unknown_metric" "Clicks" 1 []) = true := by
  decide +kernel

/-- The arguments of the calls at data_preparation_test.py:2237-2330. -/
def allMetrics : ExperimentArgs := { std := ⟨some "Clicks", some "Impr.", some "Cost", some "Conv.", some "Conv. Value"⟩, other := ["other_metric"] }

/-- data_preparation_test.py:2237-2274. -/
example : same (prepareExperiment checker rawMetrics (frame [("Item ID", ints [1, 2]), ("Assignment", ints [0, 1])]) (smallDesign 2 2 0 "clicks") "2023-10-01"
      "Item ID" "YYYY-MM-DD" "Assignment" allMetrics)
    [("item_id", strs ["1", "1", "2", "2"]), ("date", oct [1, 8, 1, 8]), ("week_id", ints [0, 1, 0, 1]), ("week_start", oct [1, 8, 1, 8]),
     ("time_period", strs ["test", "test", "test", "test"]), ("treatment_assignment", ints [0, 0, 1, 1]), ("clicks", nums [1, 2, 3, 0]),
     ("impressions", nums [20, 21, 22, 0]), ("conversions", nums [2, 3, 5, 0]), ("total_conversion_value", nums [23 / 10, 42 / 10, 5, 0]),
     ("total_cost", nums [1, 2, 3, 0]), ("other_metric", nums [5, 2, 1, 0])] = true := by
  decide +kernel

/-- data_preparation_test.py:2276-2327: an assigned item that is not in the data is filled with zeros. -/
example : same (prepareExperiment checker rawMetrics (frame [("Item ID", ints [1, 2, 3]), ("Assignment", ints [0, 1, 1])]) (smallDesign 3 2 0 "clicks") "2023-10-01"
      "Item ID" "YYYY-MM-DD" "Assignment" allMetrics)
    [("item_id", strs ["1", "1", "2", "2", "3", "3"]), ("date", oct [1, 8, 1, 8, 1, 8]), ("week_id", ints [0, 1, 0, 1, 0, 1]),
     ("week_start", oct [1, 8, 1, 8, 1, 8]), ("time_period", strs ["test", "test", "test", "test", "test", "test"]),
     ("treatment_assignment", ints [0, 0, 1, 1, 1, 1]), ("clicks", nums [1, 2, 3, 0, 0, 0]), ("impressions", nums [20, 21, 22, 0, 0, 0]),
     ("conversions", nums [2, 3, 5, 0, 0, 0]), ("total_conversion_value", nums [23 / 10, 42 / 10, 5, 0, 0, 0]),
     ("total_cost", nums [1, 2, 3, 0, 0, 0]), ("other_metric", nums [5, 2, 1, 0, 0, 0])] = true := by
  decide +kernel

/-! ### Trimming -/

/-- data_preparation_test.py:2497-2500; `a_rank` is the rank of `a`, the earlier first among equal values. -/
def ranked : List (String × List (Cell ℚ)) := [("a", ints [10, 4, 1, 6, 3, 4, 2, 2, 5, 7]), ("b", strs (List.replicate 10 "something")),
  ("a_rank", nums [10, 5, 1, 8, 4, 6, 2, 3, 7, 9])]

/-- data_preparation_test.py:2503-2523. -/
example : (same (trimOutliers (Rounding.exact ℚ) inOrder (frame ranked) "a" 0 0) ranked &&
    same (trimOutliers (Rounding.exact ℚ) inOrder (frame ranked) "a" (1 / 1000) (1 / 1000)) ranked) = true := by decide +kernel

/-- data_preparation_test.py:2525-2537: the rows with ranks 2 to 8. -/
example : same (trimOutliers (Rounding.exact ℚ) inOrder (frame ranked) "a" (2 / 10) (1 / 10))
    [("a", ints [4, 6, 3, 4, 2, 2, 5]), ("b", strs (List.replicate 7 "something")), ("a_rank", nums [5, 8, 4, 6, 2, 3, 7])] = true := by
  decide +kernel

end Feedx.Conformance
