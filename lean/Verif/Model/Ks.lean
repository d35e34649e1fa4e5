import Verif.Model.OneSample
import Mathlib.Data.List.Sort
import Mathlib.MeasureTheory.Constructions.Pi
import Mathlib.MeasureTheory.Constructions.UnitInterval

/-!
Model of `scipy.stats.kstest(values, uniform.cdf).pvalue`, which the robustness check of the A/A p-values calls
(feedx/experiment_simulations.py:928-930).  Arithmetic is exact, with the special values of floats.
-/

namespace Feedx

open Fl

/-- `scipy.stats.uniform.cdf` (passed at experiment_simulations.py:929).  It is never applied to nan here, see `ksTest`. -/
noncomputable def uniformCdf : Fl ℝ → ℝ
  | .fin x => max 0 (min x 1)
  | .pinf => 1
  | _ => 0

/-- The Kolmogorov–Smirnov statistic of the values of the distribution function at the observations, as SciPy computes it for the call at
experiment_simulations.py:928-930: the largest of `i/n - cdf(x_i)` and `cdf(x_i) - (i-1)/n` for the sorted observations `x_1, ..., x_n`.
SciPy sorts the observations; here their images are sorted, which is the same because the distribution function is monotone. -/
noncomputable def ksStatistic (l : List ℝ) : ℝ :=
  let s := (l.insertionSort (· ≤ ·)).zipIdx
  let n : ℝ := l.length
  let plus := s.map (fun x => ((x.2 : ℝ) + 1) / n - x.1)
  let minus := s.map (fun x => x.1 - (x.2 : ℝ) / n)
  max (plus.max?.getD 0) (minus.max?.getD 0)

/-- `scipy.stats.kstwo.sf(d, n)` (used for the call at experiment_simulations.py:928-930): the probability that the statistic of `n`
independent uniform observations is at least `d`.  SciPy's numerical evaluation of this probability is taken to be exact. -/
noncomputable def ksSurvival (n : ℕ) (d : ℝ) : ℝ :=
  (MeasureTheory.volume {u : Fin n → unitInterval | d ≤ ksStatistic (List.ofFn (fun i => (u i : ℝ)))}).toReal

open Classical in
/-- `kstest(values, uniform.cdf).pvalue` (experiment_simulations.py:928-930): two-sided, exact; nan propagates. -/
noncomputable def ksTest (l : List (Fl ℝ)) : Fl ℝ :=
  if nan ∈ l then nan else fin (ksSurvival l.length (ksStatistic (l.map uniformCdf)))

/-- `null_p_value_robustness_check_pass` (experiment_simulations.py:1069-1074). -/
noncomputable def nullCheck (X : RobustnessTests) (c : SimConfig) (s : SimState) : Py (Option Bool) := aboveThreshold c (nullPValue X s)

end Feedx
