import Verif.Model.BinomTail

/-!
Model of `scipy.stats.ttest_1samp(values, mean).pvalue`, which the robustness checks of the point estimates call
(feedx/experiment_simulations.py:1034-1037, 1052-1055).  Arithmetic is exact, with the special values of floats.
-/

namespace Feedx

open Fl

/-- `np.var(ddof=1)`, as used by SciPy for the calls at experiment_simulations.py:1034-1037, 1052-1055. -/
noncomputable def flVar (l : List (Fl ℝ)) : Fl ℝ := flTotal (l.map (fun x => (x - flMean l).sq)) / (fin (l.length : ℝ) - fin 1)

/-- `ttest_1samp(values, mean).pvalue` (experiment_simulations.py:1034-1037, 1052-1055): two-sided, nan propagates. -/
noncomputable def oneSampleT (D : TDist) (l : List (Fl ℝ)) (mean : Fl ℝ) : Fl ℝ :=
  let t := (flMean l - mean) / (flVar l / fin (l.length : ℝ)).sqrt
  fin 2 * D.cdfFl (fin (l.length : ℝ) - fin 1) (fin (-1) * t.abs)

/-- `aa_point_estimate_robustness_check_pass` (experiment_simulations.py:1081-1086). -/
noncomputable def aaPointCheck (X : RobustnessTests) (c : SimConfig) (s : SimState) : Py (Option Bool) := aboveThreshold c (aaPointPValue X s)

/-- `ab_point_estimate_robustness_check_pass` (experiment_simulations.py:1088-1093). -/
noncomputable def abPointCheck (X : RobustnessTests) (c : SimConfig) (s : SimState) : Py (Option Bool) := aboveThreshold c (abPointPValue X s)

end Feedx
