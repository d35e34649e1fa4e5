import Verif.Spec.FurtherColumns

/-!
Specification for C135: names that pandas could mix up.
-/

namespace Feedx.Spec

/-- No column of the prepared data is called like another one with a suffix "_x" or "_y". -/
def NoSuffixedNames (a : ExperimentArgs) : Prop :=
  ∀ n ∈ preparedNames a, ∀ k ∈ preparedNames a, n ≠ k ++ "_x" ∧ n ≠ k ++ "_y"

end Feedx.Spec
