import Verif.Model.Design

/-!
Model of the generation of candidate designs and of the start weeks (feedx/experiment_simulations.py:40-193, 523-529).
-/

set_option linter.unusedSectionVars false

namespace Feedx

variable {K : Type} [Field K] [LinearOrder K]

/-- The arguments of `generate_all_valid_designs` (experiment_simulations.py:40-51). -/
structure Candidates (K : Type) where
  nBefore : ℤ
  crossoverAllowed : Bool
  traditionalAllowed : Bool
  runtimes : List ℤ
  pretests : List ℤ
  preTops : List (PyNum K)
  preBottoms : List (PyNum K)
  postTrims : List (PyNum K)
  primaryMetric : String
  washout : Option ℤ := none

/-- One combination of the candidates. -/
structure Combo (K : Type) where
  runtime : ℤ
  pretest : ℤ
  preTop : PyNum K
  preBottom : PyNum K
  postTrim : PyNum K

/-- `itertools.product(...)` of the candidates (experiment_simulations.py:97-103): the last one varies fastest. -/
def combos (c : Candidates K) : List (Combo K) :=
  c.runtimes.flatMap (fun r => c.pretests.flatMap (fun p => c.preTops.flatMap (fun t => c.preBottoms.flatMap (fun b =>
    c.postTrims.map (fun q => ⟨r, p, t, b, q⟩)))))

/-- The constructor arguments of a generated design (experiment_simulations.py:119-127, 138-147); `alpha` and `power` have their default
values (experiment_design.py:64-65). -/
def comboParams (c : Candidates K) (k : Combo K) (crossover : Bool) (washout : Option ℤ) : DesignParams K where
  nBefore := c.nBefore
  runtime := k.runtime
  primaryMetric := c.primaryMetric
  pretest := k.pretest
  isCrossover := crossover
  preTop := k.preTop
  preBottom := k.preBottom
  postTrim := k.postTrim
  washout := washout
  alpha := .float (1 / 20)
  power := .float (4 / 5)
  salt := none

/-- The designs of one combination (experiment_simulations.py:105-148): first the traditional one, then the crossover one.  The condition
for the latter multiplies the washout weeks also if crossovers are not allowed (`&` does not stop at `False`), so it raises `TypeError`
if they are `None`. -/
def comboDesigns [FloorRing K] (R : Rounding K) (c : Candidates K) (k : Combo K) : Py (List (Design K)) :=
  if 0 < R.rnd (k.preTop.val + k.preBottom.val) ∧ k.pretest = 0 then .ok []
  else do
    let traditional ← (if c.traditionalAllowed then (mkDesign R (comboParams c k false none)).map (fun d => [d]) else .ok [])
    match c.washout with
    | none => .error .typeError
    | some w =>
      let crossover ← (if c.crossoverAllowed = true ∧ 2 * w < k.runtime ∧ k.runtime % 2 = 0
        then (mkDesign R (comboParams c k true (some w))).map (fun d => [d]) else .ok [])
      return traditional ++ crossover

/-- `generate_all_valid_designs` (experiment_simulations.py:40-150). -/
def generateDesigns [FloorRing K] (R : Rounding K) (c : Candidates K) : Py (List (Design K)) := do
  raiseIf .valueError (c.crossoverAllowed = true ∧ c.washout = none)
  let l ← (combos c).mapM (comboDesigns R c)
  return l.flatten

/-- `max(l)`; `ValueError` if it is empty. -/
def pyMax (l : List ℤ) : Py ℤ := match l.max? with
  | some x => .ok x
  | none => .error .valueError

/-- `min(l)`; `ValueError` if it is empty. -/
def pyMin (l : List ℤ) : Py ℤ := match l.min? with
  | some x => .ok x
  | none => .error .valueError

/-- `calculate_minimum_start_week_id` (experiment_simulations.py:153-193). -/
def minStartWeek (runtimes pretests weeks : List ℤ) : Py ℤ := do
  let maxRuntime ← pyMax runtimes
  let maxPretest ← pyMax pretests
  let first ← pyMin weeks
  let last ← pyMax weeks
  raiseIf .valueError (last - first + 1 < maxRuntime + maxPretest)
  return first + maxPretest

/-- `range(a, b)`. -/
def weekRange (a b : ℤ) : List ℤ := (List.range (b - a).toNat).map (fun i : ℕ => a + (i : ℤ))

/-- `valid_start_week_ids` (experiment_simulations.py:523-529), given the last week of the historical data. -/
def validStarts (minStart last runtime : ℤ) : List ℤ := weekRange minStart (last - runtime + 1 + 1)

end Feedx
