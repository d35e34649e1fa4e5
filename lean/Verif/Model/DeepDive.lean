import Verif.Model.Simulate

/-!
Model of what `plot_deep_dive` shows (feedx/plotting.py:212-313): the numbers handed to matplotlib.  Colours, labels, bins and layout are not
modelled, nor are errors that matplotlib raises by itself when it cannot bin the values it is given (for example infinite ones).
-/

namespace Feedx

/-- The values of the four histograms and the positions of the two dashed lines (plotting.py:243-306). -/
structure DeepDive where
  aaEffects : List (Fl ℝ)
  zeroLine : Fl ℝ
  abEffects : List (Fl ℝ)
  effectLine : Fl ℝ
  aaPValues : List (Fl ℝ)
  abPValues : List (Fl ℝ)

/-- `plot_deep_dive` (plotting.py:232-313).  The check at 232 reads the simulated false positive rate; missing A/A or A/B results at that point
(`TypeError`) and a missing effect (drawn nowhere) are not reachable. -/
noncomputable def deepDive (c : SimConfig) (s : SimState) : Py DeepDive := do
  let rate ← falsePositiveRate c.design s
  raiseIf .valueError (rate = none)
  let aa ← (match s.aa with
    | none => .error .typeError
    | some aa => .ok aa)
  let aaEffects ← resultColumn aa TestResult.absoluteDifference
  let ab ← abResults s
  let abEffects ← resultColumn ab TestResult.absoluteDifference
  let effect ← (match s.mde with
    | none => .error .typeError
    | some m => .ok m)
  let aaPValues ← resultColumn aa TestResult.pValue
  let abPValues ← resultColumn ab TestResult.pValue
  return ⟨aaEffects, .fin 0, abEffects, effect, aaPValues, abPValues⟩

end Feedx
