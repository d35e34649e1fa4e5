import Mathlib.Analysis.Real.Sqrt
import Mathlib.Algebra.Order.Archimedean.Real.Basic
import Verif.Model.Trimmed

/-!
Model of the t-tests, confidence intervals and power calculations (feedx/statistics.py:338-1326).

Numbers are exact reals with explicit nan and infinities (`Fl ℝ`), following numpy scalar arithmetic
(division by zero does not raise).  Where the code divides two Python floats the division can raise
`ZeroDivisionError`; the only such place is marked below.
-/

set_option linter.unusedSectionVars false

namespace Feedx

/-- Student's t distribution as provided by `scipy.stats.t`, as far as the code relies on it: for every
positive number of degrees of freedom a strictly increasing symmetric distribution function with values
in (0, 1), and its inverse on (0, 1). -/
structure TDist where
  /-- `stats.t.cdf(x, df)` as `cdf df x` -/
  cdf : ℝ → ℝ → ℝ
  /-- `stats.t.ppf(q, df)` as `ppf df q` -/
  ppf : ℝ → ℝ → ℝ
  strictMono : ∀ df, 0 < df → StrictMono (cdf df)
  symm : ∀ df, 0 < df → ∀ x, cdf df (-x) = 1 - cdf df x
  pos : ∀ df, 0 < df → ∀ x, 0 < cdf df x
  cdf_ppf : ∀ df, 0 < df → ∀ q, 0 < q → q < 1 → cdf df (ppf df q) = q

namespace Fl

/-- `np.sqrt`: nan for negative numbers. -/
noncomputable def sqrt : Fl ℝ → Fl ℝ
  | nan => nan
  | ninf => nan
  | pinf => pinf
  | fin x => if x < 0 then nan else fin (Real.sqrt x)

/-- `np.abs`. -/
def abs : Fl ℝ → Fl ℝ
  | nan => nan
  | ninf => pinf
  | pinf => pinf
  | fin x => fin |x|

/-- `x ** 2`. -/
noncomputable def sq (x : Fl ℝ) : Fl ℝ := x * x

/-- `np.clip(x, a_min=0.0, a_max=None)`. -/
noncomputable def clip0 : Fl ℝ → Fl ℝ
  | nan => nan
  | ninf => fin 0
  | pinf => pinf
  | fin x => fin (max 0 x)

/-- `np.isclose(x, 0.0)`: within the default absolute tolerance `1e-8` (the relative tolerance is
multiplied by `|0.0|`). -/
noncomputable def closeToZero : Fl ℝ → Bool
  | fin x => decide (|x| ≤ 1 / 10 ^ 8)
  | _ => false

end Fl

open Fl

/-- Sum of an array of floats (`np.sum`, as used by `np.mean` and `np.var` at experiment_simulations.py:699-702, 1034-1037, 1052-1055). -/
noncomputable def flTotal (l : List (Fl ℝ)) : Fl ℝ := l.foldr (· + ·) (fin 0)

/-- `np.mean` of an array of floats (experiment_simulations.py:699-702, and in SciPy for the calls at 1034-1037, 1052-1055). -/
noncomputable def flMean (l : List (Fl ℝ)) : Fl ℝ := flTotal l / fin (l.length : ℝ)

/-- `stats.t.cdf(x, df=df)`: nan unless `df` is a positive number (`df = inf` does not occur). -/
noncomputable def TDist.cdfFl (D : TDist) (df : Fl ℝ) : Fl ℝ → Fl ℝ
  | .nan => nan
  | .ninf => match df with
    | fin d => if 0 < d then fin 0 else nan
    | _ => nan
  | .pinf => match df with
    | fin d => if 0 < d then fin 1 else nan
    | _ => nan
  | .fin x => match df with
    | fin d => if 0 < d then fin (D.cdf d x) else nan
    | _ => nan

/-- `stats.t.ppf(q, df=df)`: nan unless `df` is a positive number and `0 <= q <= 1`. -/
noncomputable def TDist.ppfFl (D : TDist) (df : Fl ℝ) (q : ℝ) : Fl ℝ :=
  match df with
  | fin d =>
    if 0 < d then
      if q < 0 then nan else if q = 0 then ninf
      else if q < 1 then fin (D.ppf d q) else if q = 1 then pinf else nan
    else nan
  | _ => nan

/-- `ttest_from_stats` (statistics.py:388-428), for numpy scalars: test statistic and p-value. -/
noncomputable def ttestFromStats (D : TDist) (pointEstimate standardError df : Fl ℝ)
    (alternative : String) : Py (Fl ℝ × Fl ℝ) :=
  let statistic := pointEstimate / standardError
  if alternative = "two-sided" then .ok (statistic, fin 2 * D.cdfFl df (fin (-1) * statistic.abs))
  else if alternative = "greater" then .ok (statistic, D.cdfFl df (fin (-1) * statistic))
  else if alternative = "less" then .ok (statistic, D.cdfFl df statistic)
  else .error .valueError

/-- `absolute_difference_confidence_interval` (statistics.py:431-505). -/
noncomputable def absoluteCI (D : TDist) (mean1 mean2 se1 se2 corr df : Fl ℝ) (alternative : String)
    (alpha : ℝ) : Py (Fl ℝ × Fl ℝ) :=
  let var1 := se1.sq
  let var2 := se2.sq
  let var12 := se1 * se2 * corr
  let diff := mean1 - mean2
  let diffSE := (var1 + var2 - fin 2 * var12).sqrt
  if alternative = "two-sided" then
    let t := D.ppfFl df (1 - alpha / 2)
    .ok (diff - t * diffSE, diff + t * diffSE)
  else if alternative = "greater" then
    let t := D.ppfFl df (1 - alpha)
    .ok (diff - t * diffSE, pinf)
  else if alternative = "less" then
    let t := D.ppfFl df (1 - alpha)
    .ok (ninf, diff + t * diffSE)
  else .error .valueError

/-- The critical t value for an alternative (statistics.py:588-597); `none` for an unknown one. -/
noncomputable def criticalT (D : TDist) (df : Fl ℝ) (alternative : String) (alpha : ℝ) : Py (Fl ℝ) :=
  if alternative = "two-sided" then .ok (D.ppfFl df (1 - alpha / 2))
  else if alternative = "greater" then .ok (D.ppfFl df (1 - alpha))
  else if alternative = "less" then .ok (D.ppfFl df (1 - alpha))
  else .error .valueError

/-- The lower and upper bound of the ratio (statistics.py:572-627), given the critical value. -/
noncomputable def ratioBounds (mean1 mean2 se1 se2 corr t : Fl ℝ) : Fl ℝ × Fl ℝ :=
  let var1 := se1.sq
  let var2 := se2.sq
  let var12 := se1 * se2 * corr
  let tExclusiveSq := if var2.closeToZero then pinf else mean2.sq / var2
  let tCompleteSq :=
    if var1.closeToZero || var2.closeToZero then pinf
    else (mean1.sq * var2 - fin 2 * mean2 * mean1 * var12 + mean2.sq * var1) /
      (var1 * var2 - var12.sq)
  let adjusted12 := mean1 * mean2 - t.sq * var12
  let adjusted1 := mean1.sq - t.sq * var1
  let adjusted2 := mean2.sq - t.sq * var2
  if Fl.le tCompleteSq t.sq then (fin 0, pinf)
  else
    let root := (adjusted12.sq - adjusted1 * adjusted2).sqrt
    (((adjusted12 - root) / adjusted2).clip0,
      if Fl.le tExclusiveSq t.sq then pinf else (adjusted12 + root) / adjusted2)

/-- `relative_difference_confidence_interval` (statistics.py:508-634). -/
noncomputable def relativeCI (D : TDist) (mean1 mean2 se1 se2 corr df : Fl ℝ) (alternative : String)
    (alpha : ℝ) : Py (Fl ℝ × Fl ℝ) := do
  raiseIf .valueError (Fl.lt mean1 (fin 0) = true ∨ Fl.lt mean2 (fin 0) = true)
  let t ← criticalT D df alternative alpha
  let b := ratioBounds mean1 mean2 se1 se2 corr t
  let lower := b.1 - fin 1
  let upper := b.2 - fin 1
  if alternative = "greater" then return (lower, pinf)
  else if alternative = "less" then return (fin (-1), upper)
  else return (lower, upper)

/-- `_one_sample_standard_error` (statistics.py:637-646). -/
noncomputable def oneSampleSE (sd n : Fl ℝ) : Fl ℝ := sd / n.sqrt

/-- `_one_sample_degrees_of_freedom` (statistics.py:649-655). -/
noncomputable def oneSampleDf (n : Fl ℝ) : Fl ℝ := n - fin 1

/-- `_two_sample_standard_errors` (statistics.py:658-701), for numpy scalars: standard error of the
difference, of mean 1 and of mean 2. -/
noncomputable def twoSampleSE (sd1 sd2 n1 n2 : Fl ℝ) (equalVar : Bool) : Fl ℝ × Fl ℝ × Fl ℝ :=
  if equalVar then
    let pooled := ((n1 - fin 1) * sd1.sq + (n2 - fin 1) * sd2.sq) / (n1 + n2 - fin 2)
    ((pooled / n1 + pooled / n2).sqrt, (pooled / n1).sqrt, (pooled / n2).sqrt)
  else
    ((sd1.sq / n1 + sd2.sq / n2).sqrt, (sd1.sq / n1).sqrt, (sd2.sq / n2).sqrt)

/-- `_two_sample_degrees_of_freedom` (statistics.py:704-732), for numpy scalars. -/
noncomputable def twoSampleDf (sd1 sd2 n1 n2 : Fl ℝ) (equalVar : Bool) : Fl ℝ :=
  if equalVar then n1 + n2 - fin 2
  else (sd1.sq / n1 + sd2.sq / n2).sq /
    ((sd1.sq / n1).sq / (n1 - fin 1) + (sd2.sq / n2).sq / (n2 - fin 1))

/-- `_ratio_mean_and_variance` (statistics.py:735-744), for numpy scalars. -/
noncomputable def ratioMeanVar (mean1 mean2 var1 var2 cov12 : Fl ℝ) : Fl ℝ × Fl ℝ :=
  let ratio := mean1 / mean2
  (ratio, ratio.sq * (var1 / mean1.sq + var2 / mean2.sq - fin 2 * cov12 / (mean1 * mean2)))

/-- The tuple returned by `_difference_of_ratios_mean_and_variance`. -/
structure RatioDiff where
  differenceMean : Fl ℝ
  differenceVar : Fl ℝ
  mean1 : Fl ℝ
  mean2 : Fl ℝ
  var1 : Fl ℝ
  var2 : Fl ℝ
  corr12 : Fl ℝ

/-- Sum of four floats. -/
noncomputable def sum4 (f : Fin 4 → Fl ℝ) : Fl ℝ := f 0 + f 1 + f 2 + f 3

/-- `_difference_of_ratios_mean_and_variance` (statistics.py:747-777). -/
noncomputable def diffOfRatios (m : Fin 4 → ℝ) (cov : Fin 4 → Fin 4 → ℝ) : RatioDiff :=
  let r1 := ratioMeanVar (fin (m 0)) (fin (m 1)) (fin (cov 0 0)) (fin (cov 1 1)) (fin (cov 0 1))
  let r2 := ratioMeanVar (fin (m 2)) (fin (m 3)) (fin (cov 2 2)) (fin (cov 3 3)) (fin (cov 2 3))
  let grad : Fin 4 → Fl ℝ := ![fin 1 / fin (m 1), -fin (m 0) / (fin (m 1)).sq, fin (-1) / fin (m 3),
    fin (m 2) / (fin (m 3)).sq]
  let differenceVar := sum4 (fun i => sum4 (fun j => grad j * fin (cov j i)) * grad i)
  { differenceMean := r1.1 - r2.1
    differenceVar := differenceVar
    mean1 := r1.1
    mean2 := r2.1
    var1 := r1.2
    var2 := r2.2
    corr12 := (r1.2 + r2.2 - differenceVar) / (fin 2 * (r1.2 * r2.2).sqrt) }

/-- `StatisticalTestResults` (statistics.py:338-385). -/
structure TestResult where
  isSignificant : Bool
  alpha : ℝ
  pValue : Fl ℝ
  statistic : Fl ℝ
  absoluteDifference : Fl ℝ
  absoluteLower : Fl ℝ
  absoluteUpper : Fl ℝ
  relativeDifference : Option (Fl ℝ)
  relativeLower : Option (Fl ℝ)
  relativeUpper : Option (Fl ℝ)
  standardError : Fl ℝ
  sampleSize : ℕ
  degreesOfFreedom : Fl ℝ
  controlAverage : Fl ℝ

/-- The estimates from which both tests build their results. -/
structure Estimates where
  difference : Fl ℝ
  differenceSE : Fl ℝ
  mean1 : Fl ℝ
  mean2 : Fl ℝ
  se1 : Fl ℝ
  se2 : Fl ℝ
  corr : Fl ℝ
  df : Fl ℝ
  sampleSize : ℕ

/-- The common end of `yuens_t_test_paired` (statistics.py:900-957) and `yuens_t_test_ind`
(1091-1150).  `pythonFloats` says that the two means are Python floats, so that `mean_1 / mean_2`
raises `ZeroDivisionError` for a zero divisor (numpy scalars give nan or inf). -/
noncomputable def resultsFrom (D : TDist) (e : Estimates) (pythonFloats : Bool) (alternative : String)
    (alpha : ℝ) : Py TestResult := do
  let sp ← ttestFromStats D e.difference e.differenceSE e.df alternative
  let ci ← absoluteCI D e.mean1 e.mean2 e.se1 e.se2 e.corr e.df alternative alpha
  let base : TestResult :=
    { isSignificant := Fl.lt sp.2 (fin alpha)
      alpha := alpha
      pValue := sp.2
      statistic := sp.1
      absoluteDifference := e.difference
      absoluteLower := ci.1
      absoluteUpper := ci.2
      relativeDifference := none
      relativeLower := none
      relativeUpper := none
      standardError := e.differenceSE
      sampleSize := e.sampleSize
      degreesOfFreedom := e.df
      controlAverage := e.mean2 }
  if Fl.le (fin 0) e.mean1 && Fl.le (fin 0) e.mean2 then
    raiseIf .zeroDivision (pythonFloats = true ∧ e.mean2 = fin 0)
    let rel ← relativeCI D e.mean1 e.mean2 e.se1 e.se2 e.corr e.df alternative alpha
    return { base with
      relativeDifference := some (e.mean1 / e.mean2 - fin 1)
      relativeLower := some rel.1
      relativeUpper := some rel.2 }
  else return base

/-- The stack `[values1, denom_values1]` (statistics.py:1039). -/
def stack2 (a b : List ℝ) : List (Fin 2 → ℝ) := List.zipWith (fun x y => ![x, y]) a b

/-- The stack `[values1 - values2, values1, values2]` (statistics.py:880-884). -/
def stack3 (a b : List ℝ) : List (Fin 3 → ℝ) := List.zipWith (fun x y => ![x - y, x, y]) a b

/-- The stack `[values1 - values2, values1, denom_values1, values2, denom_values2]`
(statistics.py:849-851). -/
def stack5 (a da b db : List ℝ) : List (Fin 5 → ℝ) :=
  List.zipWith (fun (p q : ℝ × ℝ) => ![p.1 - q.1, p.1, p.2, q.1, q.2]) (a.zip da) (b.zip db)

/-- Estimates of the paired test for a plain metric (statistics.py:880-898). -/
noncomputable def pairedPlain (T : TrimmedArray ℝ 2) : Estimates :=
  let se (i : Fin 3) : Fl ℝ := oneSampleSE (fin (T.var 1 i)).sqrt (fin T.len)
  { difference := fin (T.mean 0)
    differenceSE := se 0
    mean1 := fin (T.mean 1)
    mean2 := fin (T.mean 2)
    se1 := se 1
    se2 := se 2
    corr := fin (T.cov 1 1 2) / (fin (T.cov 1 1 1) * fin (T.cov 1 2 2)).sqrt
    df := oneSampleDf (fin T.len)
    sampleSize := T.len }

/-- Estimates of the paired test for a ratio metric (statistics.py:849-878). -/
noncomputable def pairedRatio (T : TrimmedArray ℝ 4) : Estimates :=
  let r := diffOfRatios (fun i => T.mean i.succ) (fun i j => T.cov 1 i.succ j.succ)
  { difference := r.differenceMean
    differenceSE := oneSampleSE r.differenceVar.sqrt (fin T.len)
    mean1 := r.mean1
    mean2 := r.mean2
    se1 := oneSampleSE r.var1.sqrt (fin T.len)
    se2 := oneSampleSE r.var2.sqrt (fin T.len)
    corr := r.corr12
    df := oneSampleDf (fin T.len)
    sampleSize := T.len }

/-- `yuens_t_test_paired` (statistics.py:780-957).  Fewer than two values left after trimming is
`outOfModel` (the code then works with nan or raises). -/
noncomputable def pairedTest (R : Rounding ℝ) (argsort : List ℝ → List ℕ) (D : TDist)
    (values1 values2 : List ℝ) (q : ℝ) (denom1 denom2 : Option (List ℝ)) (alternative : String)
    (alpha : ℝ) : Py TestResult := do
  raiseIf .valueError (values1.length ≠ values2.length)
  match denom1, denom2 with
  | some d1, some d2 =>
    raiseIf .valueError (values1.length ≠ d1.length ∨ values1.length ≠ d2.length)
    let T ← mkTrimmed R argsort (stack5 values1 d1 values2 d2) q
    raiseIf .outOfModel (T.len ≤ 1)
    resultsFrom D (pairedRatio T) false alternative alpha
  | none, none =>
    let T ← mkTrimmed R argsort (stack3 values1 values2) q
    raiseIf .outOfModel (T.len ≤ 1)
    resultsFrom D (pairedPlain T) false alternative alpha
  | _, _ => .error .valueError

/-- Estimates of the independent test from means and variances of the two samples
(statistics.py:1075-1091). -/
noncomputable def indEstimates (mean1 mean2 var1 var2 : Fl ℝ) (n1 n2 : ℕ) (equalVar : Bool) : Estimates :=
  let se := twoSampleSE var1.sqrt var2.sqrt (fin n1) (fin n2) equalVar
  { difference := mean1 - mean2
    differenceSE := se.1
    mean1 := mean1
    mean2 := mean2
    se1 := se.2.1
    se2 := se.2.2
    corr := fin 0
    df := twoSampleDf var1.sqrt var2.sqrt (fin n1) (fin n2) equalVar
    sampleSize := n1 + n2 }

/-- Mean and variance of the ratio of the two rows of a stack (statistics.py:1048-1054). -/
noncomputable def ratioOf (T : TrimmedArray ℝ 1) : Fl ℝ × Fl ℝ :=
  ratioMeanVar (fin (T.mean 0)) (fin (T.mean 1)) (fin (T.cov 1 0 0)) (fin (T.cov 1 1 1))
    (fin (T.cov 1 0 1))

/-- `yuens_t_test_ind` (statistics.py:960-1150).  Fewer than two values left in a sample after
trimming is `outOfModel`. -/
noncomputable def indTest (R : Rounding ℝ) (argsort : List ℝ → List ℕ) (D : TDist)
    (values1 values2 : List ℝ) (q : ℝ) (denom1 denom2 : Option (List ℝ)) (equalVar : Bool)
    (alternative : String) (alpha : ℝ) : Py TestResult := do
  match denom1, denom2 with
  | some d1, some d2 =>
    raiseIf .valueError (values1.length ≠ d1.length ∨ values2.length ≠ d2.length)
    let T1 ← mkTrimmed R argsort (stack2 values1 d1) q
    let T2 ← mkTrimmed R argsort (stack2 values2 d2) q
    raiseIf .outOfModel (T1.len ≤ 1 ∨ T2.len ≤ 1)
    resultsFrom D (indEstimates (ratioOf T1).1 (ratioOf T2).1 (ratioOf T1).2 (ratioOf T2).2 T1.len T2.len
      equalVar) false alternative alpha
  | none, none =>
    let T1 ← mkTrimmed R argsort (asStack values1) q
    let T2 ← mkTrimmed R argsort (asStack values2) q
    raiseIf .outOfModel (T1.len ≤ 1 ∨ T2.len ≤ 1)
    resultsFrom D (indEstimates (fin (T1.mean 0)) (fin (T2.mean 0)) (fin (T1.var 1 0))
      (fin (T2.var 1 0)) T1.len T2.len equalVar) true alternative alpha
  | _, _ => .error .valueError

/-- `calculate_minimum_detectable_effect_from_stats` (statistics.py:1153-1196). -/
noncomputable def mdeFromStats (D : TDist) (standardError df : Fl ℝ) (alternative : String)
    (power alpha : ℝ) : Py (Fl ℝ) := do
  let tAlpha ← criticalT D df alternative alpha
  return standardError * (tAlpha + D.ppfFl df power)

/-- `yuens_t_test_ind_minimum_detectable_effect` (statistics.py:1199-1268), for numpy scalars. -/
noncomputable def indMde (D : TDist) (sd : Fl ℝ) (sampleSize : ℝ) (alternative : String) (power alpha : ℝ) :
    Py (Fl ℝ) :=
  let n : Fl ℝ := fin (1 / 2) * fin sampleSize
  mdeFromStats D (twoSampleSE sd sd n n true).1 (twoSampleDf sd sd n n true)
    alternative power alpha

/-- `yuens_t_test_paired_minimum_detectable_effect` (statistics.py:1271-1326), for numpy scalars. -/
noncomputable def pairedMde (D : TDist) (sd : Fl ℝ) (sampleSize : ℝ) (alternative : String)
    (power alpha : ℝ) : Py (Fl ℝ) :=
  mdeFromStats D (oneSampleSE sd (fin sampleSize)) (oneSampleDf (fin sampleSize)) alternative
    power alpha

end Feedx
