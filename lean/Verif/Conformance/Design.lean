import Verif.Conformance.Basic
import Verif.Model.Describe
import Verif.Model.Generate
import Verif.Model.Wide

/-!
Unit tests of feedx/experiment_design_test.py and of the building blocks in feedx/experiment_simulations_test.py, run on the model (tests, not
proofs; see Verif/Conformance/Basic.lean).
-/

namespace Feedx.Conformance

/-! ### Designs -/

/-- The design of the tests at experiment_design_test.py:32-296. -/
def crossoverParams : DesignParams ℚ where
  nBefore := 1000
  runtime := 6
  primaryMetric := "clicks"
  pretest := 4
  isCrossover := true
  preTop := .float (1 / 10)
  preBottom := .float (3 / 10)
  postTrim := .float (2 / 10)
  washout := some 2
  alpha := .float (5 / 100)
  power := .float (8 / 10)
  salt := none

/-- The result of the constructor with exact arithmetic. -/
def design (p : DesignParams ℚ) : Py (Design ℚ) := mkDesign (Rounding.exact ℚ) p

/-- experiment_design_test.py:32-81. -/
example : (design crossoverParams).map (fun d => (d.salt, d.nAfterPre, d.nAfterPost)) = .ok (none, 600, 360) := by decide +kernel

/-- The arguments that the tests at experiment_design_test.py:158-175 change. -/
def validParams : DesignParams ℚ :=
  { crossoverParams with nBefore := 100, preTop := .float 0, preBottom := .float 0, postTrim := .float 0, washout := some 1 }

/-- experiment_design_test.py:84-175: the fourteen invalid sets of arguments, and the unchanged arguments. -/
example : (returns (design validParams) && [
    { validParams with nBefore := 49 },
    { validParams with preTop := .float (95 / 100) },
    { validParams with runtime := 0 },
    { validParams with pretest := -1 },
    { validParams with postTrim := .float (-1 / 10) },
    { validParams with postTrim := .float (5 / 10) },
    { validParams with preTop := .float (-1 / 10) },
    { validParams with preBottom := .float (-1 / 10) },
    { validParams with preTop := .float (4 / 10), preBottom := .float (6 / 10) },
    { validParams with washout := none },
    { validParams with washout := some (-1) },
    { validParams with washout := some 3, runtime := 4 },
    { validParams with runtime := 3 },
    { validParams with pretest := 0, preTop := .float (1 / 10) }].all (fun p => raisesValueError (design p))) = true := by
  decide +kernel

/-- `repr` of the floats of the tests. -/
def floatText (x : ℚ) : List Char :=
  (([(0, "0.0"), (1 / 10, "0.1"), (3 / 10, "0.3"), (2 / 10, "0.2"), (1 / 100, "0.01"), (2 / 100, "0.02"), (5 / 100, "0.05"), (8 / 10, "0.8")] :
    List (ℚ × String)).lookup x).elim [] String.toList

/-- The id of a design. -/
def idOf (p : DesignParams ℚ) : Py (List Char) := design p >>= designId (Rounding.exact ℚ) floatText (fun c => c.isAlphanum)

/-- experiment_design_test.py:177-240. -/
example : (idOf crossoverParams ≠ idOf { crossoverParams with runtime := 10 }) ∧
    (idOf crossoverParams = idOf { crossoverParams with salt := some "different_coinflip_salt" }) := by decide +kernel

/-- The file of experiment_design_test.py:261-276, in the order of the file (the dictionary is written with sorted keys). -/
def yamlFile (afterPost afterPre : ℤ) : Dict (YVal ℚ) :=
  [("alpha", .float (5 / 100)), ("coinflip_salt", .null), ("crossover_washout_weeks", .int 2), ("is_crossover", .bool true),
   ("n_items_after_post_trim", .int afterPost), ("n_items_after_pre_trim", .int afterPre), ("n_items_before_trimming", .int 1000),
   ("post_trim_percentile", .float (2 / 10)), ("power", .float (8 / 10)), ("pre_trim_bottom_percentile", .float (3 / 10)),
   ("pre_trim_top_percentile", .float (1 / 10)), ("pretest_weeks", .int 4), ("primary_metric", .str "clicks"), ("runtime_weeks", .int 6)]

/-- experiment_design_test.py:242-276: the same entries are written. -/
example : (design crossoverParams).map (fun d => d.asDict.isPerm (yamlFile 360 600)) = .ok true := by decide +kernel

/-- experiment_design_test.py:278-345: the file is read back, and files with wrong counts are refused. -/
example : (loadFromDict (Rounding.exact ℚ) (5 / 100) (8 / 10) (yamlFile 360 600) = design crossoverParams) ∧
    raisesValueError (loadFromDict (Rounding.exact ℚ) (5 / 100) (8 / 10) (yamlFile 200 600)) = true ∧
    raisesValueError (loadFromDict (Rounding.exact ℚ) (5 / 100) (8 / 10) (yamlFile 360 500)) = true := by decide +kernel

/-! ### The description of a design, including its id -/

/-- The designs of the tests at experiment_design_test.py:347-629. -/
def described (crossover : Bool) (weeks : ℤ) (top bottom post : ℚ) : Py (List (List Char)) :=
  design {
    crossoverParams with
    runtime := 8, pretest := weeks, isCrossover := crossover, preTop := .float top, preBottom := .float bottom, postTrim := .float post } >>= describeLines (Rounding.exact ℚ) floatText (fun c => c.isAlphanum)

/-- The lines have these texts. -/
def reads (r : Py (List (List Char))) (lines : List String) : Bool :=
  match r with
  | .ok l => decide (l = lines.map String.toList)
  | .error _ => false

/-- experiment_design_test.py:347-399. -/
example : reads (described true 4 0 0 0) [
    "Design 1107a82030639088175ba76cab781121",
    "",
    "\tExperiment type: crossover experiment",
    "\tPrimary metric: clicks",
    "\tNumber of weeks of data before start of experiment used for analysis: 4",
    "\tTotal experiment runtime weeks: 8",
    "",
    "Crossover Details:",
    "",
    "\tControl and treatment to be swapped 4 weeks after starting the experiment",
    "\tNumber of crossover washout weeks to ignore at start of each period: 2",
    "\tWeeks [1, 2, 5, 6] are the washout weeks to be excluded from the analysis",
    "",
    "Number of items for testing:",
    "",
    "\tNumber of items: 1000",
    "\tNo hero / outlier trimming used",
    "",
    "Extra details:",
    "",
    "\tAlpha threshold: 0.05",
    "\tPower: 0.8",
    "\tCoinflip salt: None"] = true := by decide +kernel

/-- experiment_design_test.py:401-438. -/
example : reads (described false 4 0 0 0) [
    "Design 0e4192ad17f4685470ad26e49ee5c45d",
    "",
    "\tExperiment type: regular experiment (CUPED adjusted)",
    "\tPrimary metric: clicks",
    "\tNumber of weeks of data before start of experiment used for analysis: 4",
    "\tTotal experiment runtime weeks: 8",
    "",
    "Number of items for testing:",
    "",
    "\tNumber of items: 1000",
    "\tNo hero / outlier trimming used",
    "",
    "Extra details:",
    "",
    "\tAlpha threshold: 0.05",
    "\tPower: 0.8",
    "\tCoinflip salt: None"] = true := by decide +kernel

/-- experiment_design_test.py:440-477. -/
example : reads (described false 0 0 0 0) [
    "Design 516f3ecd3bf14622f9962912aefbe791",
    "",
    "\tExperiment type: regular experiment",
    "\tPrimary metric: clicks",
    "\tNumber of weeks of data before start of experiment used for analysis: 0",
    "\tTotal experiment runtime weeks: 8",
    "",
    "Number of items for testing:",
    "",
    "\tNumber of items: 1000",
    "\tNo hero / outlier trimming used",
    "",
    "Extra details:",
    "",
    "\tAlpha threshold: 0.05",
    "\tPower: 0.8",
    "\tCoinflip salt: None"] = true := by decide +kernel

/-- experiment_design_test.py:479-528. -/
example : reads (described false 4 (1 / 100) (2 / 100) 0) [
    "Design f4258976a05e23a2153208f76cbf0920",
    "",
    "\tExperiment type: regular experiment (CUPED adjusted)",
    "\tPrimary metric: clicks",
    "\tNumber of weeks of data before start of experiment used for analysis: 4",
    "\tTotal experiment runtime weeks: 8",
    "",
    "Number of items for testing:",
    "",
    "\tNumber of items eligible for experimentation (before trimming): 1000",
    "",
    "\tTop 1.00% of items with highest clicks in pre-test period will not be included in experiment",
    "\tBottom 2.00% items with lowest clicks in pre-test period will not be included in experiment",
    "\tNumber of items remaining after trimming for the experiment: 970",
    "",
    "Extra details:",
    "",
    "\tAlpha threshold: 0.05",
    "\tPower: 0.8",
    "\tCoinflip salt: None"] = true := by decide +kernel

/-- experiment_design_test.py:530-575. -/
example : reads (described false 4 0 0 (1 / 100)) [
    "Design 0f6ec75f1385ca9b7172daba623471ba",
    "",
    "\tExperiment type: regular experiment (CUPED adjusted)",
    "\tPrimary metric: clicks",
    "\tNumber of weeks of data before start of experiment used for analysis: 4",
    "\tTotal experiment runtime weeks: 8",
    "",
    "Number of items for testing:",
    "",
    "\tNumber of items eligible for experimentation (before trimming): 1000",
    "",
    "\tTop and bottom 1.00% of items with highest / lowest clicks during experiment runtime will be excluded from the analysis",
    "\tNumber of items remaining after trimming for the analysis: 980",
    "",
    "Extra details:",
    "",
    "\tAlpha threshold: 0.05",
    "\tPower: 0.8",
    "\tCoinflip salt: None"] = true := by decide +kernel

/-- experiment_design_test.py:577-630. -/
example : reads (described false 4 (1 / 100) (2 / 100) (1 / 100)) [
    "Design b9095ff233d9cccc342d62b2aef06ecb",
    "",
    "\tExperiment type: regular experiment (CUPED adjusted)",
    "\tPrimary metric: clicks",
    "\tNumber of weeks of data before start of experiment used for analysis: 4",
    "\tTotal experiment runtime weeks: 8",
    "",
    "Number of items for testing:",
    "",
    "\tNumber of items eligible for experimentation (before trimming): 1000",
    "",
    "\tTop 1.00% of items with highest clicks in pre-test period will not be included in experiment",
    "\tBottom 2.00% items with lowest clicks in pre-test period will not be included in experiment",
    "\tNumber of items remaining after trimming for the experiment: 970",
    "",
    "\tTop and bottom 1.00% of items with highest / lowest clicks during experiment runtime will be excluded from the analysis",
    "\tNumber of items remaining after trimming for the analysis: 952",
    "",
    "Extra details:",
    "",
    "\tAlpha threshold: 0.05",
    "\tPower: 0.8",
    "\tCoinflip salt: None"] = true := by decide +kernel

/-- experiment_design_test.py:695-697. -/
example : raisesValueError (mkCoinflip "") = true := by decide +kernel

/-! ### Candidate designs and start weeks -/

/-- The arguments of the calls at experiment_simulations_test.py:33-44 and 97-108. -/
def candidates (pretests : List ℤ) (bottoms : List ℚ) : Candidates ℚ where
  nBefore := 500
  crossoverAllowed := true
  traditionalAllowed := false
  runtimes := [6, 8]
  pretests := pretests
  preTops := [.float 0, .float (1 / 10)]
  preBottoms := bottoms.map .float
  postTrims := [.float (25 / 1000)]
  primaryMetric := "clicks"
  washout := some 1

/-- A design of experiment_simulations_test.py:46-91. -/
def expected (runtime : ℤ) (top : ℚ) : Py (Design ℚ) :=
  design {
    crossoverParams with
    nBefore := 500, runtime := runtime, pretest := 1, preTop := .float top, preBottom := .float 0, postTrim := .float (25 / 1000), washout := some 1 }

/-- experiment_simulations_test.py:32-92. -/
example : generateDesigns (Rounding.exact ℚ) (candidates [1] [0]) =
    [expected 6 0, expected 6 (1 / 10), expected 8 0, expected 8 (1 / 10)].mapM id := by decide +kernel

/-- experiment_simulations_test.py:94-119: ten of the sixteen combinations are left, none of them with pre-trimming and without pretest weeks. -/
example : (generateDesigns (Rounding.exact ℚ) (candidates [0, 1] [0, 1 / 10])).map (fun l => (l.length,
    l.any (fun d => decide (d.pretest = 0 ∧ (0 < d.preTop.val ∨ 0 < d.preBottom.val))))) = .ok (10, false) := by decide +kernel

/-- experiment_simulations_test.py:238-254. -/
example : (minStartWeek [4, 6] [0, 2, 4] (weekRange (-6) 4) = .ok (-2)) ∧ raisesValueError (minStartWeek [4, 6] [0, 2, 4] (weekRange (-6) 3)) = true := by
  decide +kernel

/-! ### Bootstrap, assignment and effects in simulated experiments -/

/-- A table: index levels, column labels and, for each row, its index and its values. -/
def wide (names : List String) (cols : List (List String)) (rows : List (List (Cell ℚ) × List ℚ)) : Wide ℚ :=
  ⟨names, cols, rows.map (fun r => ⟨r.1, fun l => ((cols.zip r.2).lookup l).elim .nan .fin⟩)⟩

/-- The result is this table: the same index levels and columns, and in each row the same index and the same values. -/
def isTable (r : Py (Wide ℚ)) (w : Wide ℚ) : Bool :=
  match r with
  | .ok v => decide (v.names = w.names) && decide (v.cols = w.cols) && decide (v.rows.map (·.key) = w.rows.map (·.key)) &&
      decide (v.rows.map (fun t => v.cols.map t.val) = w.rows.map (fun t => w.cols.map t.val))
  | .error _ => false

/-- experiment_simulations_test.py:201-233: new item ids, for a sample with repeated rows; only the item level is renumbered. -/
example : isTable (bootstrap [0, 3, 3, 5, 1, 0] (wide ["item_id"] [["a"], ["b"]] [([.int 6], [1, 7]), ([.int 7], [2, 8]), ([.int 8], [3, 9]),
      ([.int 9], [4, 10]), ([.int 10], [5, 11]), ([.int 11], [6, 12])]) "item_id")
    (wide ["item_id"] [["a"], ["b"]] [([.int 0], [1, 7]), ([.int 1], [4, 10]), ([.int 2], [4, 10]), ([.int 3], [6, 12]),
      ([.int 4], [2, 8]), ([.int 5], [1, 7])]) = true ∧
    isTable (bootstrap [1, 1] (wide ["item_id", "treatment"] [["a"]] [([.int 6, .int 0], [1]), ([.int 9, .int 1], [4])]) "item_id")
    (wide ["item_id", "treatment"] [["a"]] [([.int 0, .int 1], [4]), ([.int 1, .int 1], [4])]) = true := by
  decide +kernel

/-- experiment_simulations_test.py:160-199, with the names that the function uses by default. -/
example : ["n_samples_", "dummy_list_"].all (fun c => raisesValueError (bootstrap [0] (wide ["item_id"] [[c], ["b"]] [([.int 1], [1, 7])]) "item_id")) = true := by
  decide +kernel

/-- experiment_simulations_test.py:260-307. -/
example : isTable (randomAssign [false, true, true, false] (wide ["item_id"] [["clicks", "pretest"], ["clicks", "runtime"]]
      [([.str "product_1"], [100, 200]), ([.str "product_2"], [300, 400]), ([.str "product_3"], [500, 600]), ([.str "product_4"], [700, 800])])
      "item_id" "treatment_assignment")
    (wide ["item_id", "treatment_assignment"] [["clicks", "pretest"], ["clicks", "runtime"]]
      [([.str "product_1", .int 0], [100, 200]), ([.str "product_2", .int 1], [300, 400]), ([.str "product_3", .int 1], [500, 600]),
       ([.str "product_4", .int 0], [700, 800])]) = true := by
  decide +kernel

/-- experiment_simulations_test.py:309-342. -/
example : raisesValueError (randomAssign [false, true, false] (wide ["item_id"] [["treatment_assignment"]] [([.int 1], [0]), ([.int 2], [1]), ([.int 3], [0])])
      "item_id" "treatment_assignment") = true ∧
    raisesValueError (randomAssign [false, true, false] (wide ["item_id"] [] [([.int 1], []), ([.int 2], []), ([.int 3], [])])
      "something_else" "treatment_assignment") = true := by
  decide +kernel

/-- experiment_simulations_test.py:361-421. -/
example : isTable (applyEffect (wide ["item_id", "treatment"] [["clicks", "test"]]
      [([.int 1, .int 0], [0]), ([.int 2, .int 1], [1 / 10]), ([.int 3, .int 0], [5 / 10]), ([.int 4, .int 1], [2 / 10])]) "clicks" false (.fin (5 / 10))
      "treatment")
    (wide ["item_id", "treatment"] [["clicks", "test"]]
      [([.int 1, .int 0], [0]), ([.int 2, .int 1], [6 / 10]), ([.int 3, .int 0], [5 / 10]), ([.int 4, .int 1], [7 / 10])]) = true ∧
    isTable (applyEffect (wide ["item_id", "treatment"] [["clicks", "test_1"], ["clicks", "test_2"]]
      [([.int 1, .int 0], [0, 3 / 10]), ([.int 2, .int 1], [1 / 10, 2 / 10]), ([.int 3, .int 0], [5 / 10, 9 / 10]), ([.int 4, .int 1], [2 / 10, 8 / 10])])
      "clicks" true (.fin (5 / 10)) "treatment")
    (wide ["item_id", "treatment"] [["clicks", "test_1"], ["clicks", "test_2"]]
      [([.int 1, .int 0], [0, 8 / 10]), ([.int 2, .int 1], [6 / 10, 2 / 10]), ([.int 3, .int 0], [5 / 10, 14 / 10]), ([.int 4, .int 1], [7 / 10, 8 / 10])]) = true := by
  decide +kernel

/-- experiment_simulations_test.py:423-512: a missing test column, and a missing assignment. -/
example : raisesValueError (applyEffect (wide ["item_id", "treatment"] [["clicks", "test_wrong_name"]] [([.int 1, .int 0], [0])]) "clicks" false (.fin (5 / 10)) "treatment") = true ∧
    ["test_1", "test_2"].all (fun c => raisesValueError (applyEffect (wide ["item_id", "treatment"] [["clicks", c]] [([.int 1, .int 0], [0])]) "clicks" true
      (.fin (5 / 10)) "treatment")) = true ∧
    [true, false].all (fun x => raisesValueError (applyEffect (wide ["item_id"] [["clicks", "test_1"], ["clicks", "test_2"]] [([.int 1], [0, 3 / 10])]) "clicks" x
      (.fin (5 / 10)) "treatment")) = true := by
  decide +kernel

end Feedx.Conformance
