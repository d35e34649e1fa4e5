import Verif.Base.Frame
import Mathlib.Analysis.SpecialFunctions.Log.Basic
import Mathlib.Analysis.SpecialFunctions.Sqrt

/-!
Model of the synthetic data for the demo notebooks (feedx/data_preparation.py:91-362).  Arithmetic is real arithmetic.
-/

set_option linter.unusedSectionVars false

namespace Feedx

/-- The checks and the parameters of `_sample_from_lognormal` (data_preparation.py:91-109) for one mean and standard deviation: the `mean` and
`sigma` given to `rng.lognormal`. -/
noncomputable def lognormalParams (mean sd : ℝ) : Py (ℝ × ℝ) := do
  raiseIf .valueError (¬ 0 < mean)
  raiseIf .valueError (¬ 0 < sd)
  return (Real.log mean - 1 / 2 * Real.log (sd ^ 2 / mean ^ 2 + 1), Real.sqrt (Real.log (sd ^ 2 / mean ^ 2 + 1)))

/-- The checks and the parameters of `_sample_from_beta` (data_preparation.py:112-131): the `a` and `b` given to `rng.beta`. -/
noncomputable def betaParams (mean sd : ℝ) : Py (ℝ × ℝ) := do
  raiseIf .valueError (¬ (0 < mean ∧ mean < 1))
  raiseIf .valueError (¬ (0 < sd ∧ sd < 1))
  return (mean * (Real.sqrt (mean * (1 - mean)) / sd), (1 - mean) * (Real.sqrt (mean * (1 - mean)) / sd))

/-- The numpy generator: the value at a row and a column of the arrays it returns.  The first argument numbers the calls of `lognormal`,
`beta` and `binomial`.  `poisson` raises `ValueError` for rates above `maxRate`. -/
structure SynthRng where
  lognormal : ℕ → ℝ → ℝ → ℕ → ℕ → ℝ
  beta : ℕ → ℝ → ℝ → ℕ → ℝ
  poisson : ℝ → ℕ → ℕ → ℕ
  binomial : ℕ → ℕ → ℝ → ℕ → ℕ → ℕ
  maxRate : ℝ

/-- What numpy documents: lognormal values are positive, beta values are probabilities, a binomial value is at most the number of trials.
(A lognormal value that underflows to zero is left out.) -/
structure SynthRng.Ok (G : SynthRng) : Prop where
  lognormal_pos : ∀ call mu sigma i j, 0 < G.lognormal call mu sigma i j
  beta_prob : ∀ call a b i, 0 ≤ G.beta call a b i ∧ G.beta call a b i ≤ 1
  binomial_le : ∀ call n p i j, G.binomial call n p i j ≤ n

/-- Dates in the format `%Y-%m-%d`: `parse` is `strptime` (the number of the day), `format` is `strftime`; days outside the range of the
datetime module are refused (with `OverflowError`, here `outOfModel`). -/
structure Calendar where
  parse : String → Option ℤ
  format : ℤ → String
  first : ℤ
  last : ℤ

/-- Different days have different texts. -/
def Calendar.Ok (X : Calendar) : Prop := Set.InjOn X.format (Set.Icc X.first X.last)

/-- The arguments of `generate_synthetic_data` (data_preparation.py:134-152). -/
structure SynthParams where
  nItems : ℤ
  impressions : ℝ × ℝ
  ctr : ℝ × ℝ
  cpc : ℝ × ℝ
  cpcDaily : ℝ
  conversionRate : ℝ × ℝ
  conversionValue : ℝ × ℝ
  conversionValueDaily : ℝ
  weeksBefore : ℤ
  weeksAfter : ℤ
  startDate : String

/-- The days (data_preparation.py:200-208): first those after, then those before the start date. -/
def syntheticDays (start weeksBefore weeksAfter : ℤ) : List ℤ :=
  (List.range (weeksAfter * 7).toNat).map (fun i : ℕ => start + (i : ℤ)) ++ (List.range (weeksBefore * 7).toNat).map (fun i : ℕ => start - ((i : ℤ) + 1))

/-- The columns of the result (data_preparation.py:276-284). -/
def syntheticColumns : List String := ["date", "item_id", "impressions", "clicks", "conversions", "total_cost", "total_conversion_value"]

/-- One row of the result. -/
noncomputable def syntheticRow (date item : String) (impressions clicks conversions : ℕ) (cpc value : ℝ) : Row ℝ := fun c =>
  if c = "date" then .str date
  else if c = "item_id" then .str item
  else if c = "impressions" then .int impressions
  else if c = "clicks" then .int clicks
  else if c = "conversions" then .int conversions
  else if c = "total_cost" then .num (cpc * clicks)
  else if c = "total_conversion_value" then .num (value * conversions)
  else .null

/-- What is drawn for one item and day (data_preparation.py:258-274), from the rates and averages of the item. -/
noncomputable def drawRow (G : SynthRng) (date item : String) (rate ctr cpcMu cpcSigma conv valueMu valueSigma : ℝ) (i j : ℕ) : Row ℝ :=
  let impressions := G.poisson rate i j
  let clicks := G.binomial 0 impressions ctr i j
  let conversions := G.binomial 1 clicks conv i j
  syntheticRow date item impressions clicks conversions (G.lognormal 3 cpcMu cpcSigma i j) (G.lognormal 4 valueMu valueSigma i j)

/-- The rows of one item; the rates of the item are those drawn at 216-253, the daily averages are centred on them (260-265, 267-272). -/
noncomputable def itemRows (G : SynthRng) (X : Calendar) (p : SynthParams) (days : List ℤ) (rate ctr cpc conv value : ℝ) (i : ℕ) :
    Py (List (Row ℝ)) := do
  raiseIf .valueError (G.maxRate < rate)
  let cpcDaily ← lognormalParams cpc p.cpcDaily
  let valueDaily ← lognormalParams value p.conversionValueDaily
  return days.zipIdx.map (fun d => drawRow G (X.format d.1) ("item_" ++ toString i) rate ctr cpcDaily.1 cpcDaily.2 conv valueDaily.1 valueDaily.2 i d.2)

/-- `generate_synthetic_data` (data_preparation.py:134-286).  All parameter errors are `ValueError`s; the daily standard deviations
are checked even without items. -/
noncomputable def generateSynthetic (G : SynthRng) (X : Calendar) (p : SynthParams) : Py (Frame ℝ) :=
  match X.parse p.startDate with
  | none => .error .valueError
  | some start => do
    let days := syntheticDays start p.weeksBefore p.weeksAfter
    raiseIf .outOfModel (days.any (fun d => decide (d < X.first ∨ X.last < d)) = true)
    raiseIf .valueError (p.nItems < 0)
    let a ← lognormalParams p.impressions.1 p.impressions.2
    let b ← betaParams p.ctr.1 p.ctr.2
    let c ← lognormalParams p.cpc.1 p.cpc.2
    let d ← betaParams p.conversionRate.1 p.conversionRate.2
    let e ← lognormalParams p.conversionValue.1 p.conversionValue.2
    raiseIf .valueError (¬ 0 < p.cpcDaily)
    raiseIf .valueError (¬ 0 < p.conversionValueDaily)
    let rows ← (List.range p.nItems.toNat).mapM (fun i =>
      itemRows G X p days (G.lognormal 0 a.1 a.2 i 0) (G.beta 0 b.1 b.2 i) (G.lognormal 1 c.1 c.2 i 0) (G.beta 1 d.1 d.2 i)
        (G.lognormal 2 e.1 e.2 i 0) i)
    return ⟨syntheticColumns, rows.flatten⟩

/-- `data.loc[mask, column] *= factor` on one cell. -/
noncomputable def scaleCell (factor : ℝ) : Cell ℝ → Cell ℝ
  | .int i => .num ((i : ℝ) * factor)
  | .num x => .num (x * factor)
  | .inf b => if 0 < factor then .inf b else if factor < 0 then .inf (!b) else .null
  | x => x

/-- The value equals a number: `column == 1`. -/
def cellIs (n : ℝ) (c : Cell ℝ) : Prop := c.toFl = .fin n

open Classical in
/-- `treated_mask` (data_preparation.py:333-346) on one row. -/
noncomputable def demoTreated (isCrossover : Bool) (periodCol treatCol : String) (r : Row ℝ) : Bool :=
  if isCrossover then
    (decide (r periodCol = .str "test_1" ∨ r periodCol = .str "washout_1") && decide (cellIs 1 (r treatCol))) ||
      (decide (r periodCol = .str "test_2" ∨ r periodCol = .str "washout_2") && decide (cellIs 0 (r treatCol)))
  else decide (r periodCol = .str "test") && decide (cellIs 1 (r treatCol))

/-- The relative effects. -/
structure DemoEffects where
  impressions : ℝ
  clicks : ℝ
  conversions : ℝ
  value : ℝ
  cost : ℝ

/-- The scaled columns in order, with their effect (data_preparation.py:348-360). -/
def DemoEffects.columns (e : DemoEffects) : List (String × ℝ) :=
  [("impressions", e.impressions), ("clicks", e.clicks), ("conversions", e.conversions), ("total_conversion_value", e.value),
    ("total_cost", e.cost)]

/-- One `data.loc[mask, column] *= 1.0 + effect`: `KeyError` without the column, `TypeError` for values that are not numbers. -/
noncomputable def scaleColumn (mask : List Bool) (c : String × ℝ) (f : Frame ℝ) : Py (Frame ℝ) := do
  raiseIf .keyError (c.1 ∉ f.cols)
  raiseIf .typeError ((f.rows.zip mask).any (fun q => q.2 && !(q.1 c.1).isNumeric) = true)
  return { f with rows := List.zipWith (fun r b => if b then Function.update r c.1 (scaleCell (1 + c.2) (r c.1)) else r) f.rows mask }

/-- `add_relative_effects_to_synthetic_data_for_demo` (data_preparation.py:289-362).  The mask is computed once, before any column changes.
(The data given is copied, 326.) -/
noncomputable def addDemoEffects (f : Frame ℝ) (periodCol treatCol : String) (e : DemoEffects) : Py (Frame ℝ) := do
  raiseIf .keyError (periodCol ∉ f.cols)
  raiseIf .keyError (treatCol ∉ f.cols)
  let isCrossover := (f.col periodCol).any (fun x => decide (x = .str "test_1"))
  let mask := f.rows.map (demoTreated isCrossover periodCol treatCol)
  e.columns.foldlM (fun g c => scaleColumn mask c g) f

end Feedx
