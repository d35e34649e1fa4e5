import Verif.Model.Simulate
import Verif.Spec.ReportUnits

/-!
Specification for C129: a study of a design, with the primary metric in other units.
-/

namespace Feedx.Spec

/-- The second study is the first one with the metric in units that differ by the factor `c`: the history, the average, the standard deviation, the minimum
detectable effect and the results of the simulated experiments are multiplied by `c`, and the relative minimum detectable effect is the same.  What is
missing in one is missing in the other. -/
structure StudyTimes (c : ℝ) (metric : String) (s s' : SimState) : Prop where
  data : ColumnTimes c metric s.data s'.data
  mde : s'.mde = s.mde.map (fun x => .fin c * x)
  relativeMde : s'.relativeMde = s.relativeMde
  average : s'.average = s.average.map (fun x => .fin c * x)
  sd : s'.sd = s.sd.map (fun x => .fin c * x)
  aa : Option.Rel (List.Forall₂ (ReportTimes c)) s.aa s'.aa
  ab : Option.Rel (List.Forall₂ (ReportTimes c)) s.ab s'.ab

/-- The external test of means only compares: it gives the same p-value for numbers in other units. -/
def MeansInUnits (t1 : List (Fl ℝ) → Fl ℝ → Fl ℝ) (c : ℝ) : Prop := ∀ l m, t1 (l.map (fun x => .fin c * x)) (.fin c * m) = t1 l m

end Feedx.Spec
