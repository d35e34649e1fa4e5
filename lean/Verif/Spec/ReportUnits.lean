import Verif.Model.Analysis

/-!
Specification for C128: the same data with a metric in other units.
-/

namespace Feedx.Spec

/-- Both calls return, with results related by `P`, or both raise the same error. -/
def SameOutcome {α β : Type} (P : α → β → Prop) : Py α → Py β → Prop
  | .ok a, .ok b => P a b
  | .error e, .error e' => e = e'
  | _, _ => False

/-- The rows of the two tables are the same except in the column `col`, whose values in the second table are those of the first one times `c`. -/
def ColumnTimes (c : ℝ) (col : String) (f f' : Frame ℝ) : Prop :=
  f'.cols = f.cols ∧ List.Forall₂ (fun r r' => (∀ x, x ≠ col → r' x = r x) ∧ (r' col).toFl = .fin c * (r col).toFl) f.rows f'.rows

/-- The sorting function only looks at how the numbers compare: it gives the same order for numbers in other units. -/
def SortsInUnits (argsort : List ℝ → List ℕ) (c : ℝ) : Prop := ∀ l : List ℝ, argsort (l.map (fun x => c * x)) = argsort l

/-- What a metric is multiplied by if the column `col` is multiplied by `c`. -/
noncomputable def factorOf (c : ℝ) (col : String) (m : Metric) : ℝ :=
  (if m.column = col then c else 1) / (if m.denominator = some col then c else 1)

/-- The two results are the same, in units that differ by the factor `k`: average, difference, its standard error and its interval are multiplied by `k`,
and the rest is the same.  (The bounds of the relative difference are not compared here.) -/
structure ReportTimes (k : ℝ) (r r' : TestResult) : Prop where
  isSignificant : r'.isSignificant = r.isSignificant
  alpha : r'.alpha = r.alpha
  pValue : r'.pValue = r.pValue
  statistic : r'.statistic = r.statistic
  absoluteDifference : r'.absoluteDifference = .fin k * r.absoluteDifference
  absoluteLower : r'.absoluteLower = .fin k * r.absoluteLower
  absoluteUpper : r'.absoluteUpper = .fin k * r.absoluteUpper
  relativeDifference : r'.relativeDifference = r.relativeDifference
  standardError : r'.standardError = .fin k * r.standardError
  sampleSize : r'.sampleSize = r.sampleSize
  degreesOfFreedom : r'.degreesOfFreedom = r.degreesOfFreedom
  controlAverage : r'.controlAverage = .fin k * r.controlAverage

/-- The interval of the difference is shorter, to either side, than the average of the control group. -/
def Precise (r : TestResult) : Prop := ∃ x h : ℝ, r.controlAverage = .fin x ∧ r.absoluteUpper - r.absoluteDifference = .fin h ∧ h < x

/-- The bounds of the relative difference are the same. -/
def SameRelativeBounds (r r' : TestResult) : Prop := r'.relativeLower = r.relativeLower ∧ r'.relativeUpper = r.relativeUpper

end Feedx.Spec
