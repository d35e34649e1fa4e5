import Verif.Spec.Analysis
import Verif.Spec.Assignments

/-!
What is observed in an experiment, by the set of treated items (C113, C114).
-/

namespace Feedx.Spec

/-- The pivoted data of a regular experiment on `n` items if exactly the items in `S` are treated: the metric of item `i` in the test period is `y1 i`
if it is treated and `y0 i` if it is not. -/
def Observed (piv : Pivoted ℝ) (metric : String) {n : ℕ} (y1 y0 : Fin n → ℝ) (S : Finset (Fin n)) : Prop :=
  List.Forall₂ (fun k i => (i ∈ S → AssignedTo 1 k ∧ piv.value k metric "test" = .fin (y1 i)) ∧
    (i ∉ S → AssignedTo 0 k ∧ piv.value k metric "test" = .fin (y0 i))) piv.index (List.finRange n)

/-- The pivoted data of a crossover experiment on `n` items if exactly the items in `S` are treated first: the metric of item `i` in a period is
`a1 i` (`a2 i`) if it is treated in the first (second) period and `b1 i` (`b2 i`) if it is not. -/
def ObservedCrossover (piv : Pivoted ℝ) (metric : String) {n : ℕ} (a1 b1 a2 b2 : Fin n → ℝ) (S : Finset (Fin n)) : Prop :=
  List.Forall₂ (fun k i =>
    (i ∈ S → AssignedTo 1 k ∧ piv.value k metric "test_1" = .fin (a1 i) ∧ piv.value k metric "test_2" = .fin (b2 i)) ∧
    (i ∉ S → AssignedTo 0 k ∧ piv.value k metric "test_1" = .fin (b1 i) ∧ piv.value k metric "test_2" = .fin (a2 i))) piv.index (List.finRange n)

end Feedx.Spec
