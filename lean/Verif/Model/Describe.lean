import Verif.Model.DesignId
import Verif.Model.Format

/-!
Model of the description of a design, `ExperimentDesign.__str__` (feedx/experiment_design.py:208-308).
-/

set_option linter.unusedSectionVars false

namespace Feedx

/-- `str(list)` of whole numbers. -/
def reprInts (l : List ℤ) : List Char := '[' :: (List.intercalate ", ".toList (l.map reprInt) ++ [']'])

/-- `str(value)` of an optional text. -/
def optText : Option String → List Char
  | none => "None".toList
  | some s => s.toList

variable {K : Type} [Field K] [LinearOrder K] [FloorRing K]

/-- `f"{x:.2%}"` of a fraction that is not negative. -/
def fractionText (R : Rounding K) (x : PyNum K) : List Char := fixedChars false 2 (R.rnd (100 * x.val)) ++ ['%']

/-- The type of the experiment (experiment_design.py:209-214). -/
def experimentType (d : Design K) : List Char :=
  if d.isCrossover then "crossover experiment".toList
  else if 0 < d.pretest then "regular experiment (CUPED adjusted)".toList
  else "regular experiment".toList

/-- The part on the crossover (experiment_design.py:227-251); `TypeError` without washout weeks. -/
def crossoverLines (d : Design K) : Py (List (List Char)) :=
  if d.isCrossover then
    match d.washout with
    | none => .error .typeError
    | some w => .ok [[], "Crossover Details:".toList, [],
        "\tControl and treatment to be swapped ".toList ++ reprInt (d.runtime / 2) ++ " weeks after starting the experiment".toList,
        "\tNumber of crossover washout weeks to ignore at start of each period: ".toList ++ reprInt w,
        "\tWeeks ".toList ++ reprInts (printedWashoutWeeks d.runtime w) ++ " are the washout weeks to be excluded from the analysis".toList]
  else .ok []

/-- The part on the trimming before the experiment (experiment_design.py:268-285). -/
def preTrimLines (R : Rounding K) (d : Design K) : List (List Char) :=
  if d.nAfterPre < d.nBefore then
    [[]] ++
    (if 0 < d.preTop.val then ["\tTop ".toList ++ fractionText R d.preTop ++ " of items with highest ".toList ++ d.primaryMetric.toList ++
      " in pre-test period will not be included in experiment".toList] else []) ++
    (if 0 < d.preBottom.val then ["\tBottom ".toList ++ fractionText R d.preBottom ++ " items with lowest ".toList ++ d.primaryMetric.toList ++
      " in pre-test period will not be included in experiment".toList] else []) ++
    ["\tNumber of items remaining after trimming for the experiment: ".toList ++ reprInt d.nAfterPre]
  else []

/-- The part on the trimming in the analysis (experiment_design.py:286-298). -/
def postTrimLines (R : Rounding K) (d : Design K) : List (List Char) :=
  if d.nAfterPost < d.nAfterPre then
    [[], "\tTop and bottom ".toList ++ fractionText R d.postTrim ++ " of items with highest / lowest ".toList ++ d.primaryMetric.toList ++
      " during experiment runtime will be excluded from the analysis".toList,
     "\tNumber of items remaining after trimming for the analysis: ".toList ++ reprInt d.nAfterPost]
  else []

/-- The part on the items (experiment_design.py:253-298). -/
def itemLines (R : Rounding K) (d : Design K) : List (List Char) :=
  [[], "Number of items for testing:".toList, []] ++
  if d.nBefore = d.nAfterPost then
    ["\tNumber of items: ".toList ++ reprInt d.nBefore, "\tNo hero / outlier trimming used".toList]
  else
    ["\tNumber of items eligible for experimentation (before trimming): ".toList ++ reprInt d.nBefore] ++ preTrimLines R d ++ postTrimLines R d

/-- The lines of `str(design)` (experiment_design.py:208-308). -/
def describeLines (R : Rounding K) (fr : K → List Char) (printable : Char → Bool) (d : Design K) : Py (List (List Char)) := do
  let id ← designId R fr printable d
  let crossover ← crossoverLines d
  return ["Design ".toList ++ id, [], "\tExperiment type: ".toList ++ experimentType d,
      "\tPrimary metric: ".toList ++ d.primaryMetric.toList,
      "\tNumber of weeks of data before start of experiment used for analysis: ".toList ++ reprInt d.pretest,
      "\tTotal experiment runtime weeks: ".toList ++ reprInt d.runtime] ++ crossover ++ itemLines R d ++
    [[], "Extra details:".toList, [], "\tAlpha threshold: ".toList ++ reprNum fr d.alpha, "\tPower: ".toList ++ reprNum fr d.power,
      "\tCoinflip salt: ".toList ++ optText d.salt]

/-- `str(design)`. -/
def describe (R : Rounding K) (fr : K → List Char) (printable : Char → Bool) (d : Design K) : Py String := do
  let lines ← describeLines R fr printable d
  return String.ofList (List.intercalate ['\n'] lines)

end Feedx
