import Verif.Model.Wide
import Verif.Model.Analysis
import Verif.Model.Generate

/-!
Model of `SimulationAnalysis` (feedx/experiment_simulations.py:400-1115).
-/

set_option linter.unusedSectionVars false

namespace Feedx

open Fl

/-- The constructor arguments of a `SimulationAnalysis` that never change (experiment_simulations.py:490-501), and the maximum start week
(495), which is computed once when the object is created. -/
structure SimConfig where
  design : Design ℝ
  itemCol : String
  weekCol : String
  periodCol : String
  treatCol : String
  minStart : ℤ
  maxStart : ℤ
  threshold : ℝ

/-- `valid_start_week_ids` (experiment_simulations.py:527-529). -/
def SimConfig.starts (c : SimConfig) : List ℤ := weekRange c.minStart (c.maxStart + 1)

/-- The attributes that the methods change (experiment_simulations.py:491 and 503-521). -/
structure SimState where
  data : Frame ℝ
  mde : Option (Fl ℝ)
  relativeMde : Option (Fl ℝ)
  average : Option (Fl ℝ)
  sd : Option (Fl ℝ)
  aa : Option (List TestResult)
  ab : Option (List TestResult)

/-- The constructor with `__post_init__` (experiment_simulations.py:523-526).  Week ids that are not integers, and an empty frame, are outside
the model. -/
def mkSimulation (design : Design ℝ) (data : Frame ℝ) (itemCol weekCol periodCol treatCol : String) (minStart : ℤ) (threshold : ℝ) :
    Py (SimConfig × SimState) := do
  raiseIf .keyError (weekCol ∉ data.cols)
  raiseIf .outOfModel ((data.col weekCol).all (fun c => match c with | .int _ => true | _ => false) = false)
  match (ints (data.col weekCol)).max? with
  | none => .error .outOfModel
  | some last =>
    return (⟨design, itemCol, weekCol, periodCol, treatCol, minStart, last - design.runtime + 1, threshold⟩,
      ⟨data, none, none, none, none, none, none⟩)

/-- The text of a period label. -/
def cellText {K : Type} (c : Cell K) : String := match c with
  | .str s => s
  | _ => ""

/-- Pivoted data as a table (the layout of the result of `pivot_time_assignment`). -/
def Pivoted.wide {K : Type} (piv : Pivoted K) (metrics : List String) (itemCol : String) : Wide K where
  names := [itemCol]
  cols := metrics.flatMap (fun m => piv.periods.map (fun p => [m, cellText p]))
  rows := piv.index.map (fun k => ⟨k, fun l => match l with
    | [m, p] => piv.value k m p
    | _ => .nan⟩)

/-- `trim_outliers` on such a table, ordering by the column with the given label: the rows at the positions that `trimOutliers` keeps of
the column's values. -/
noncomputable def trimWide (R : Rounding ℝ) (σ : Shuffle) (w : Wide ℝ) (label : List String) (top bottom : ℝ) : Py (Wide ℝ) := do
  let g ← trimOutliers R σ ⟨if label ∈ w.cols then ["position", "order"] else ["position"],
    w.rows.zipIdx.map (fun p c => if c = "position" then .int (p.2 : ℤ) else flCell (p.1.val label))⟩ "order" top bottom
  return { w with rows := (ints (g.col "position")).filterMap (fun i => w.rows[i.toNat]?) }

/-- The part of `_get_pivoted_and_trimmed_historical_data` after the pivot (experiment_simulations.py:564-596); `boot` are the positions of
the bootstrap sample, if one is taken. -/
noncomputable def trimHistorical (R : Rounding ℝ) (σ : Shuffle) (c : SimConfig) (boot : Option (List ℕ)) (w : Wide ℝ) : Py (Wide ℝ) := do
  let w1 ← (match boot with
    | some draws => bootstrap draws w c.itemCol
    | none => .ok w)
  raiseIf .runtimeError (boot = none ∧ (w1.rows.length : ℤ) ≠ c.design.nBefore)
  let w2 ← (if 0 < c.design.pretest then
      trimWide R σ w1 [c.design.primaryMetric, "pretest"] c.design.preTop.val c.design.preBottom.val
    else .ok w1)
  raiseIf .runtimeError (boot = none ∧ (w2.rows.length : ℤ) ≠ c.design.nAfterPre)
  return w2

/-- `_get_pivoted_and_trimmed_historical_data` (experiment_simulations.py:531-596): the result, and the historical data as the call leaves
it (see `pivotTimeAssignment`). -/
noncomputable def historicalTable (R : Rounding ℝ) (σ : Shuffle) (c : SimConfig) (boot : Option (List ℕ)) (start : ℤ) (data : Frame ℝ) :
    Py (Wide ℝ) × Frame ℝ :=
  match pivotTimeAssignment c.design.toDesignParams start [c.design.primaryMetric] c.itemCol c.weekCol none c.periodCol data with
  | (.error e, data') => (.error e, data')
  | (.ok piv, data') => (trimHistorical R σ c boot (piv.wide [c.design.primaryMetric] c.itemCol), data')

/-- Average, variance and sample size of the primary metric for one start week. -/
structure MetricStats where
  average : Fl ℝ
  variance : Fl ℝ
  size : ℕ

/-- The values of a column.  Values that are not finite are outside the model. -/
def wideValues (w : Wide ℝ) (label : List String) : Py (List ℝ) := do
  raiseIf .keyError (label ∉ w.cols)
  finiteValues (w.rows.map (fun r => r.val label))

/-- The statistics from the trimmed table (experiment_simulations.py:622-675).  Fewer than two values left after trimming are outside the
model (the variance would be nan).  If the adjusted values are all nan, which only happens if nothing is trimmed, then so are average and variance. -/
noncomputable def primaryStats (R : Rounding ℝ) (argsort : List ℝ → List ℕ) (d : Design ℝ) (w : Wide ℝ) : Py MetricStats := do
  let stats ← (if d.isCrossover then do
      let y1 ← wideValues w [d.primaryMetric, "test_1"]
      let y2 ← wideValues w [d.primaryMetric, "test_2"]
      let T ← mkTrimmed R argsort (stack3 y1 y2) d.postTrim.val
      raiseIf .outOfModel (T.len ≤ 1)
      return (⟨.fin ((T.mean 1 + T.mean 2) / 2),
        .fin (if 0 < d.postTrim.val then T.var 1 0 + (T.mean 1 - T.mean 2) ^ 2 / 4 else T.var 1 0), T.len⟩ : MetricStats)
    else do
      let y ← wideValues w [d.primaryMetric, "test"]
      let z ← (if [d.primaryMetric, "pretest"] ∈ w.cols then do
          let x ← wideValues w [d.primaryMetric, "pretest"]
          cuped R argsort y x d.postTrim.val
        else .ok (y.map .fin))
      if onlyNan z = true then return ⟨.nan, .nan, z.length⟩
      else do
        let v ← finiteValues z
        let T ← mkTrimmed R argsort (asStack v) d.postTrim.val
        raiseIf .outOfModel (T.len ≤ 1)
        return ⟨.fin (T.mean 0), .fin (T.var 1 0), T.len⟩)
  raiseIf .runtimeError ((stats.size : ℤ) ≠ d.nAfterPost)
  return stats

/-- `list(map(self._estimate_primary_metric_stats, ...))` (experiment_simulations.py:692-694): stops at the first week that raises.  `σ` is
the shuffle used for the week. -/
noncomputable def statsOfWeeks (R : Rounding ℝ) (argsort : List ℝ → List ℕ) (σ : ℤ → Shuffle) (c : SimConfig) :
    List ℤ → Frame ℝ → Py (List MetricStats) × Frame ℝ
  | [], data => (.ok [], data)
  | start :: rest, data =>
    match historicalTable R (σ start) c none start data with
    | (.error e, data') => (.error e, data')
    | (.ok w, data') =>
      match primaryStats R argsort c.design w with
      | .error e => (.error e, data')
      | .ok s =>
        match statsOfWeeks R argsort σ c rest data' with
        | (.error e, data'') => (.error e, data'')
        | (.ok l, data'') => (.ok (s :: l), data'')

/-- Averages over the start weeks (experiment_simulations.py:695-716): average, standard deviation, sample size.  Without start weeks the
unpacking at 695 raises `ValueError`. -/
noncomputable def averageStats (l : List MetricStats) : Py (Fl ℝ × Fl ℝ × ℕ) :=
  match l with
  | [] => .error .valueError
  | s :: _ => do
    raiseIf .runtimeError (l.any (fun s' => decide (s'.size ≠ s.size)) = true)
    return (flMean (l.map MetricStats.average), (flMean (l.map MetricStats.variance)).sqrt, s.size)

/-- `_estimate_minimum_detectable_effect_from_stats` (experiment_simulations.py:718-769): absolute and relative. -/
noncomputable def mdeOf (D : TDist) (d : Design ℝ) (average sd : Fl ℝ) (size : ℕ) : Py (Fl ℝ × Fl ℝ) := do
  let m ← (if d.isCrossover then pairedMde D sd size "two-sided" d.power.val d.alpha.val
    else indMde D sd size "two-sided" d.power.val d.alpha.val)
  return (m, m / average)

/-- `estimate_minimum_detectable_effect` (experiment_simulations.py:771-803): outcome and new state. -/
noncomputable def estimateMde (R : Rounding ℝ) (argsort : List ℝ → List ℕ) (D : TDist) (σ : ℤ → Shuffle) (c : SimConfig) (s : SimState) :
    Py Unit × SimState :=
  match statsOfWeeks R argsort σ c c.starts s.data with
  | (.error e, data) => (.error e, { s with data := data })
  | (.ok l, data) =>
    match averageStats l with
    | .error e => (.error e, { s with data := data })
    | .ok a =>
      match mdeOf D c.design a.1 a.2.1 a.2.2 with
      | .error e => (.error e, { s with data := data })
      | .ok m => (.ok (), { s with data := data, mde := some m.1, relativeMde := some m.2, average := some a.1, sd := some a.2.1 })

/-- The pivoted data that `analyze_single_metric` sees when it selects one metric of the table.  The values of the table are floats: the metric of the
historical data is converted to float when that data is prepared (data_preparation.py:425-433, 1399). -/
noncomputable def Wide.pivoted (w : Wide ℝ) (metric : String) : Pivoted ℝ where
  index := w.rows.map WideRow.key
  periods := w.cols.filterMap (fun l => match l with
    | [m, p] => if m = metric then some (.str p) else none
    | _ => none)
  value := fun k m p => match w.rows.find? (fun r => decide (r.key = k)) with
    | some r => r.val [m, p]
    | none => .nan

/-- `analyze_single_metric` on a table.  Tables with repeated index values, and labels that start with the metric but do not have two
levels, are outside the model. -/
noncomputable def analyzeWide (R : Rounding ℝ) (argsort : List ℝ → List ℕ) (D : TDist) (w : Wide ℝ) (d : DesignParams ℝ) (metric treatName : String) :
    Py TestResult := do
  raiseIf .outOfModel (¬ (w.rows.map WideRow.key).Nodup ∨ w.cols.any (fun l => decide (l.head? = some metric ∧ l.length ≠ 2)) = true)
  analyzeSingleMetric R argsort D (w.pivoted metric) (w.cols.map (fun l => l.headD "")) w.names d metric none treatName none

/-- What the random generator gives to one simulated experiment: start week (869), bootstrap positions, shuffle for the trimming, coins. -/
structure SimDraw where
  start : ℤ
  boot : List ℕ
  shuffle : Shuffle
  coins : List Bool

/-- `analyze_single_metric` on a table in which the test values of the treated items are nan.  The covariance of test and pretest values is then nan, so
if nothing is trimmed the adjusted values of all items are nan (statistics.py:301-314), of the treated and of the other ones.  A metric without pretest
values, a crossover, and items that are trimmed are outside the model. -/
noncomputable def analyzeNan (R : Rounding ℝ) (argsort : List ℝ → List ℕ) (D : TDist) (w : Wide ℝ) (d : DesignParams ℝ) (treatName : String) :
    Py TestResult := do
  raiseIf .outOfModel (d.isCrossover = true ∨ d.pretest ≤ 0 ∨ nTrimOf R d.postTrim.val w.rows.length ≠ 0)
  indTestFl R argsort D (List.replicate (w.rows.countP (fun r => isTreated w.names treatName r.key)) .nan,
    List.replicate (w.rows.countP (fun r => !isTreated w.names treatName r.key)) .nan) d.postTrim.val none

/-- One simulated experiment (experiment_simulations.py:868-907): the A/A and the A/B result.  The
synthetic effect is added to the A/A table in place (892-898), after its analysis. -/
noncomputable def simulateOnce (R : Rounding ℝ) (argsort : List ℝ → List ℕ) (D : TDist) (c : SimConfig) (effect : Fl ℝ) (r : SimDraw)
    (data : Frame ℝ) : Py (TestResult × TestResult) × Frame ℝ :=
  match historicalTable R r.shuffle c (some r.boot) r.start data with
  | (.error e, data') => (.error e, data')
  | (.ok w, data') => (do
      let aa ← randomAssign r.coins w c.itemCol c.treatCol
      let r1 ← analyzeWide R argsort D aa c.design.toDesignParams c.design.primaryMetric c.treatCol
      let ab ← applyEffect aa c.design.primaryMetric c.design.isCrossover effect c.treatCol
      let r2 ← (if effect = .nan then analyzeNan R argsort D ab c.design.toDesignParams c.treatCol
        else analyzeWide R argsort D ab c.design.toDesignParams c.design.primaryMetric c.treatCol)
      return (r1, r2), data')

/-- The loop over the simulations (experiment_simulations.py:868-907).  `rng.choice` raises `ValueError` without start weeks. -/
noncomputable def simulateAll (R : Rounding ℝ) (argsort : List ℝ → List ℕ) (D : TDist) (c : SimConfig) (effect : Fl ℝ) :
    List SimDraw → Frame ℝ → Py (List (TestResult × TestResult)) × Frame ℝ
  | [], data => (.ok [], data)
  | r :: rest, data =>
    if c.starts = [] then (.error .valueError, data)
    else match simulateOnce R argsort D c effect r data with
      | (.error e, data') => (.error e, data')
      | (.ok x, data') =>
        match simulateAll R argsort D c effect rest data' with
        | (.error e, data'') => (.error e, data'')
        | (.ok l, data'') => (.ok (x :: l), data'')

/-- `validate_design` (experiment_simulations.py:805-914) with `n_simulations` the number of draws: outcome and new state. -/
noncomputable def validateSim (R : Rounding ℝ) (argsort : List ℝ → List ℕ) (D : TDist) (c : SimConfig) (draws : List SimDraw) (s : SimState) :
    Py Unit × SimState :=
  match s.mde with
  | none => (.error .runtimeError, s)
  | some effect =>
    match simulateAll R argsort D c effect draws s.data with
    | (.error e, data) => (.error e, { s with data := data })
    | (.ok l, data) => (.ok (), { s with data := data, aa := some (l.map Prod.fst), ab := some (l.map Prod.snd) })

/-- A call of one of the two methods, with the random values it gets. -/
inductive SimCall where
  | estimate (σ : ℤ → Shuffle)
  | validate (draws : List SimDraw)

/-- One call. -/
noncomputable def runCall (R : Rounding ℝ) (argsort : List ℝ → List ℕ) (D : TDist) (c : SimConfig) (s : SimState) : SimCall → Py Unit × SimState
  | .estimate σ => estimateMde R argsort D σ c s
  | .validate draws => validateSim R argsort D c draws s

/-- The state after a sequence of calls (the caller goes on after exceptions). -/
noncomputable def runSim (R : Rounding ℝ) (argsort : List ℝ → List ℕ) (D : TDist) (c : SimConfig) (s : SimState) : List SimCall → SimState
  | [] => s
  | call :: rest => runSim R argsort D c (runCall R argsort D c s call).2 rest

/-- The external tests of the robustness checks: `scipy.stats.kstest(values, uniform.cdf)`, `binomtest(k, n, p, alternative)` and
`ttest_1samp(values, mean)`; their p-values. -/
structure RobustnessTests where
  ks : List (Fl ℝ) → Fl ℝ
  binom : ℕ → ℕ → ℝ → String → Fl ℝ
  t1 : List (Fl ℝ) → Fl ℝ → Fl ℝ

/-- A column of the simulation results.  Without any simulation the results have no columns: `KeyError`. -/
def resultColumn {α : Type} (l : List TestResult) (f : TestResult → α) : Py (List α) := do
  raiseIf .keyError (l = [])
  return l.map f

/-- `null_p_value_robustness_p_value` (experiment_simulations.py:916-930). -/
def nullPValue (X : RobustnessTests) (s : SimState) : Py (Option (Fl ℝ)) :=
  match s.aa with
  | none => .ok none
  | some aa => do
    let p ← resultColumn aa TestResult.pValue
    return some (X.ks p)

/-- The number of significant results, and of all (experiment_simulations.py:932-939, 975-982 and the sums). -/
noncomputable def significant (l : List TestResult) (alpha : ℝ) : Py (ℕ × ℕ) := do
  let p ← resultColumn l TestResult.pValue
  return (p.countP (fun x => Fl.lt x (.fin alpha)), p.length)

/-- `simulated_false_positive_rate` (experiment_simulations.py:941-954). -/
noncomputable def falsePositiveRate (d : Design ℝ) (s : SimState) : Py (Option ℝ) :=
  match s.aa with
  | none => .ok none
  | some aa => do
    let k ← significant aa d.alpha.val
    return some ((k.1 : ℝ) / (k.2 : ℝ))

/-- `false_positive_rate_robustness_p_value` (experiment_simulations.py:956-973). -/
noncomputable def falsePositivePValue (X : RobustnessTests) (d : Design ℝ) (s : SimState) : Py (Option (Fl ℝ)) :=
  match s.aa with
  | none => .ok none
  | some aa => do
    let k ← significant aa d.alpha.val
    return some (X.binom k.1 k.2 d.alpha.val "greater")

/-- The A/B results, read when the A/A results are present (`TypeError` if they were absent, which no sequence of calls reaches). -/
def abResults (s : SimState) : Py (List TestResult) := match s.ab with
  | none => .error .typeError
  | some ab => .ok ab

/-- `simulated_power_at_minimum_detectable_effect` (experiment_simulations.py:984-999). -/
noncomputable def simulatedPower (d : Design ℝ) (s : SimState) : Py (Option ℝ) :=
  match s.aa with
  | none => .ok none
  | some _ => do
    let ab ← abResults s
    let k ← significant ab d.alpha.val
    return some ((k.1 : ℝ) / (k.2 : ℝ))

/-- `power_robustness_p_value` (experiment_simulations.py:1001-1020). -/
noncomputable def powerPValue (X : RobustnessTests) (d : Design ℝ) (s : SimState) : Py (Option (Fl ℝ)) :=
  match s.aa with
  | none => .ok none
  | some _ => do
    let ab ← abResults s
    let k ← significant ab d.alpha.val
    return some (X.binom k.1 k.2 d.power.val "less")

/-- `aa_point_estimate_robustness_p_value` (experiment_simulations.py:1022-1037). -/
def aaPointPValue (X : RobustnessTests) (s : SimState) : Py (Option (Fl ℝ)) :=
  match s.aa with
  | none => .ok none
  | some aa => do
    let x ← resultColumn aa TestResult.absoluteDifference
    return some (X.t1 x (.fin 0))

/-- `ab_point_estimate_robustness_p_value` (experiment_simulations.py:1039-1055); a missing minimum detectable effect (not reachable) would
be a `TypeError`. -/
def abPointPValue (X : RobustnessTests) (s : SimState) : Py (Option (Fl ℝ)) :=
  match s.aa with
  | none => .ok none
  | some _ => do
    let ab ← abResults s
    let x ← resultColumn ab TestResult.absoluteDifference
    match s.mde with
    | none => .error .typeError
    | some m => return some (X.t1 x m)

/-- `_is_above_p_value_threshold` (experiment_simulations.py:1057-1067). -/
noncomputable def aboveThreshold (c : SimConfig) (p : Py (Option (Fl ℝ))) : Py (Option Bool) := do
  let p ← p
  return p.map (fun p => Fl.le (.fin c.threshold) p)

/-- The five checks, in the order of experiment_simulations.py:1105-1111. -/
noncomputable def robustnessChecks (X : RobustnessTests) (c : SimConfig) (s : SimState) : List (Py (Option Bool)) :=
  [aboveThreshold c (nullPValue X s), aboveThreshold c (powerPValue X c.design s), aboveThreshold c (falsePositivePValue X c.design s),
    aboveThreshold c (aaPointPValue X s), aboveThreshold c (abPointPValue X s)]

/-- `all_robustness_checks_pass` (experiment_simulations.py:1102-1115). -/
noncomputable def allChecksPass (X : RobustnessTests) (c : SimConfig) (s : SimState) : Py (Option Bool) := do
  let l ← (robustnessChecks X c s).mapM id
  if l.any (fun x => decide (x = none)) then return none
  else return some (l.all (fun x => x.getD false))

end Feedx
