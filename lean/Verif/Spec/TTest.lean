import Mathlib.Data.Real.Basic
import Verif.Base.Fl

/-!
Specification vocabulary for test results.
-/

namespace Feedx.Spec

/-- Zero lies strictly outside the interval `[lo, hi]` (false when the relevant bounds are nan). -/
def ExcludesZero (lo hi : Fl ℝ) : Prop := Fl.lt (.fin 0) lo = true ∨ Fl.lt hi (.fin 0) = true

/-- The interval `[lo, hi]` contains the number `x`. -/
def Contains (lo hi : Fl ℝ) (x : ℝ) : Prop := Fl.le lo (.fin x) = true ∧ Fl.le (.fin x) hi = true

end Feedx.Spec

namespace Feedx.Spec

/-- The alternative that says the same about the difference with the two samples exchanged. -/
def mirror (alternative : String) : String :=
  if alternative = "greater" then "less" else if alternative = "less" then "greater" else alternative

end Feedx.Spec
