import Verif.Model.Pipeline
import Verif.Model.Assign
import Verif.Model.Summary

/-!
Model of the workflow of the experiment designer (notebooks/01_experiment_designer.ipynb, numbering all cells from 0): prepare the historical data (cell
20), generate the candidate designs (25), estimate their minimum detectable effects (27), validate some of them (31), show the summaries (29, 33) and
assign the items for the selected one (35, 39, 41).  Loading the raw data, splitting the texts of the form into lists, and the plots are left out.
-/

set_option linter.unusedSectionVars false

namespace Feedx

/-- What the user enters (cells 16, 18, 20, 25), with the lists already split. -/
structure StudyForm where
  itemCol : String
  dateCol : String
  primary : String
  primaryCol : String
  fraction : ℝ
  skip : List String
  runtimes : List ℤ
  pretests : List ℤ
  preTops : List ℝ
  preBottoms : List ℝ
  postTrims : List ℝ
  crossoverAllowed : Bool
  traditionalAllowed : Bool
  washout : ℤ

/-- The environment of the notebook: arithmetic, external functions, and what the random generator gives.  `shuffle i start` is used for the `i`-th
design and a start week. -/
structure StudyEnv where
  R : Rounding ℝ
  rng : Sampler (Cell ℝ)
  ext : Ext ℝ
  sorter : DateSorter ℝ
  argsort : List ℝ → List ℕ
  tdist : TDist
  fr : ℝ → List Char
  printable : Char → Bool
  tests : RobustnessTests
  shuffle : ℕ → ℤ → Shuffle

/-- `primary_metric` after cell 20: the column's name for another metric. -/
def StudyForm.metric (form : StudyForm) : String := if form.primary = "other" then form.primaryCol else form.primary

/-- The arguments of `generate_all_valid_designs` in cell 25. -/
noncomputable def StudyForm.candidates (form : StudyForm) (data : Frame ℝ) : Candidates ℝ where
  nBefore := nunique (data.col "item_id")
  crossoverAllowed := form.crossoverAllowed
  traditionalAllowed := form.traditionalAllowed
  runtimes := form.runtimes
  pretests := form.pretests
  preTops := form.preTops.map .float
  preBottoms := form.preBottoms.map .float
  postTrims := form.postTrims.map .float
  primaryMetric := form.metric
  washout := some form.washout

/-- `make_analysis_and_estimate_minimum_detectable_effect` (cell 27); the names of the time period and treatment columns and the threshold are the defaults
(experiment_simulations.py:486-488). -/
noncomputable def analyseDesign (V : StudyEnv) (data : Frame ℝ) (minStart : ℤ) (σ : ℤ → Shuffle) (d : Design ℝ) : Py (SimConfig × SimState) := do
  let a ← mkSimulation d data "item_id" "week_id" "time_period" "treatment" minStart (1 / 10000)
  let r := estimateMde V.R V.argsort V.tdist σ a.1 a.2
  r.1
  return (a.1, r.2)

/-- `d[k] = v` for a Python dict: the place of a key that exists already is kept. -/
def dictSet {α β : Type} [DecidableEq α] (k : α) (v : β) : List (α × β) → List (α × β)
  | [] => [(k, v)]
  | (k', v') :: rest => if k = k' then (k, v) :: rest else (k', v') :: dictSet k v rest

/-- A dict comprehension. -/
def dictOf {α β : Type} [DecidableEq α] (l : List (α × β)) : List (α × β) := l.foldl (fun acc p => dictSet p.1 p.2 acc) []

/-- `experiment_analyses`: the analyses by design id. -/
abbrev Study := List (List Char × (SimConfig × SimState))

/-- The estimates of all designs (cell 27).  A generated design is never changed by the analyses. -/
noncomputable def estimateDesigns (V : StudyEnv) (data : Frame ℝ) (minStart : ℤ) (designs : List (Design ℝ)) : Py Study := do
  let l ← designs.zipIdx.mapM (fun p => do
    let a ← analyseDesign V data minStart (V.shuffle p.2) p.1
    let id ← designId V.R V.fr V.printable a.1.design
    return (id, a))
  return dictOf l

/-- Cells 20, 25 and 27: the historical data and the analyses.  `historical_data.copy()` (27) keeps the prepared data as it is. -/
noncomputable def openStudy (V : StudyEnv) (form : StudyForm) (raw : Frame ℝ) : Py (Frame ℝ × Study) := do
  let data ← prepareHistorical V.R V.rng V.ext V.sorter raw form.itemCol form.dateCol form.primary form.primaryCol form.fraction form.skip
  raiseIf .valueError (form.crossoverAllowed = true ∧ form.washout < 1)
  let designs ← generateDesigns V.R (form.candidates data)
  let minStart ← minStartWeek form.runtimes form.pretests (ints (dropDup (data.col "week_id")))
  let study ← estimateDesigns V data minStart designs
  return (data, study)

/-- `experiment_analyses[design_id]`. -/
def Study.get (s : Study) (id : List Char) : Py (SimConfig × SimState) := match s.lookup id with
  | none => .error .keyError
  | some a => .ok a

/-- One round of the loop in cell 31: the outcome and the analyses afterwards. -/
noncomputable def validateOne (V : StudyEnv) (force : Bool) (draws : List SimDraw) (id : List Char) (s : Study) : Py Unit × Study :=
  match s.get id with
  | .error e => (.error e, s)
  | .ok a =>
    match falsePositiveRate a.1.design a.2 with
    | .error e => (.error e, s)
    | .ok rate =>
      if force = false ∧ rate ≠ none then (.ok (), s)
      else
        let r := validateSim V.R V.argsort V.tdist a.1 draws a.2
        (r.1, dictSet id (a.1, r.2) s)

/-- Cell 31; every design comes with the random values of its simulations. -/
noncomputable def validateStudy (V : StudyEnv) (force : Bool) : List (List Char × List SimDraw) → Study → Py Unit × Study
  | [], s => (.ok (), s)
  | (id, draws) :: rest, s =>
    match validateOne V force draws id s with
    | (.error e, s') => (.error e, s')
    | (.ok (), s') => validateStudy V force rest s'

/-- Cells 29 and 33: the table of all analyses as it is displayed. -/
noncomputable def showStudy (V : StudyEnv) (S : SummarySorter) (text : SVal ℝ → String) (withValidation : Bool) (s : Study) : Py (ShownSummary ℝ) := do
  let t ← makeSummary V.R V.fr V.printable V.tests S (s.map Prod.snd) "relative_minimum_detectable_effect"
  formatSummary V.R text t withValidation

/-- Cells 35, 39 and 41: the assignment table and the contents of the design file, and the analyses afterwards.  The assignment sets the salt of the
design, which is the one of the analysis. -/
noncomputable def exportStudy (V : StudyEnv) (binom : ℕ → ℕ → Py ℝ) (σ : Shuffle) (bytes : List ℕ) (data : Frame ℝ) (id : List Char) (fileName : String)
    (s : Study) : Py (Frame ℝ × Dict (YVal ℝ)) × Study :=
  match s.get id with
  | .error e => (.error e, s)
  | .ok a =>
    match (do
      let rate ← falsePositiveRate a.1.design a.2
      raiseIf .valueError (rate = none)
      let pass ← allChecksPass V.tests a.1 a.2
      raiseIf .valueError (pass ≠ some true)) with
    | .error e => (.error e, s)
    | .ok () =>
      let r := performAssignment V.R σ V.ext binom bytes data a.1.design "item_id" (some "week_id") "treatment_assignment"
      (do
        let items ← r.2
        raiseIf .valueError (".yaml".toList.isSuffixOf fileName.toList = false)
        return (items, r.1.asDict), dictSet id ({ a.1 with design := r.1 }, a.2) s)

/-- The user running one of the cells that change the analyses, with the random values it gets. -/
inductive StudyCell where
  | validate (force : Bool) (targets : List (List Char × List SimDraw))
  | assign (binom : ℕ → ℕ → Py ℝ) (σ : Shuffle) (bytes : List ℕ) (id : List Char) (fileName : String)

/-- The analyses after a cell, whether it raises or not (cells 31, 39 and 41). -/
noncomputable def runCell (V : StudyEnv) (data : Frame ℝ) (s : Study) : StudyCell → Study
  | .validate force targets => (validateStudy V force targets s).2
  | .assign binom σ bytes id fileName => (exportStudy V binom σ bytes data id fileName s).2

/-- The analyses after the user ran any cells in any order (cells 31, 39 and 41). -/
noncomputable def runCells (V : StudyEnv) (data : Frame ℝ) (s : Study) (cells : List StudyCell) : Study := cells.foldl (runCell V data) s

end Feedx
