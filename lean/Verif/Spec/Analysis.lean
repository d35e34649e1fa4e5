import Verif.Model.TTest
import Verif.Model.TimePeriod
import Verif.Model.Trimmed
import Verif.Spec.Trimmed
import Mathlib.Algebra.Order.Archimedean.Real.Basic

/-!
Specification of what the analysis of one metric works with, in terms of the pivoted data: one entry per index tuple
`(item, assignment)`.
-/

namespace Feedx.Spec

/-- The index tuple `k = (item, assignment)` has assignment number `b`. -/
def AssignedTo (b : ℝ) (k : List (Cell ℝ)) : Prop := ∃ i t, k = [i, t] ∧ t.toFl = .fin b

/-- `v` lists the values of metric `m` in period `p`, one per index tuple, all finite. -/
def ValuesOf (piv : Pivoted ℝ) (m p : String) (v : List ℝ) : Prop :=
  List.Forall₂ (fun k x => piv.value k m p = .fin x) piv.index v

open Classical in
/-- The values (one per index tuple) of the tuples with assignment `b`, in order. -/
noncomputable def groupOf (piv : Pivoted ℝ) (b : ℝ) (y : List ℝ) : List ℝ :=
  ((piv.index.zip y).filter (fun e => decide (AssignedTo b e.1))).map Prod.snd

/-- An item in a crossover experiment: is it treated first, and its values in the two test periods. -/
structure CrossoverItem where
  treatedFirst : Prop
  first : ℝ
  second : ℝ

/-- `items` describes the index tuples of the pivoted data in order: treated first iff the assignment is 1. -/
def CrossoverItems (piv : Pivoted ℝ) (m : String) (items : List CrossoverItem) : Prop :=
  List.Forall₂ (fun k i => (i.treatedFirst ↔ AssignedTo 1 k) ∧ piv.value k m "test_1" = .fin i.first ∧
    piv.value k m "test_2" = .fin i.second) piv.index items

/-- The fractions of the metric's values in the second test period are not lost: the metric is not held as integers, or not all its (average) values in the
first period are whole, or all its values in the second period are whole as well. -/
def KeepsFractions (piv : Pivoted ℝ) (m : String) : Prop :=
  piv.whole m = true → (∀ k ∈ piv.index, ∃ n : ℤ, piv.value k m "test_1" = .fin (n : ℝ)) →
    ∀ k ∈ piv.index, ∃ n : ℤ, piv.value k m "test_2" = .fin (n : ℝ)

/-- `s x` is what is left of a value `x` written into an array: if it is an array of integers the fraction is dropped, otherwise nothing changes. -/
def DropsFractions (integers : Prop) (s : ℝ → ℝ) : Prop :=
  (integers → ∀ x, ∃ n : ℤ, s x = n ∧ |s x| ≤ |x| ∧ |x| < |s x| + 1 ∧ 0 ≤ s x * x) ∧ (¬ integers → ∀ x, s x = x)

/-- `s x` is what is left of a value `x` of the second test period: the fraction is dropped if the metric is held as integers and all its (average) values in the
first period are whole. -/
def Stores (piv : Pivoted ℝ) (m : String) (s : ℝ → ℝ) : Prop :=
  DropsFractions (piv.whole m = true ∧ ∀ k ∈ piv.index, ∃ n : ℤ, piv.value k m "test_1" = .fin (n : ℝ)) s

/-- The item with what is left of its value in the second period. -/
def CrossoverItem.stored (s : ℝ → ℝ) (i : CrossoverItem) : CrossoverItem := { i with second := s i.second }

open Classical in
/-- The item's value while treated, after subtracting `a` from the first and `b` from the second period. -/
noncomputable def CrossoverItem.treated (i : CrossoverItem) (a b : ℝ) : ℝ :=
  if i.treatedFirst then i.first - a else i.second - b

open Classical in
/-- The item's value while not treated, after subtracting `a` from the first and `b` from the second period. -/
noncomputable def CrossoverItem.untreated (i : CrossoverItem) (a b : ℝ) : ℝ :=
  if i.treatedFirst then i.second - b else i.first - a

/-- Names the analysis reserves for periods. -/
def Reserved (c : String) : Prop := c = "pretest" ∨ c = "test" ∨ c = "test_1" ∨ c = "test_2"

/-- What the regular analysis prepares for one metric: `y` lists one value per index tuple, the (CUPED adjusted) test value. -/
def AdjustedValues (R : Rounding ℝ) (argsort : List ℝ → List ℕ) (piv : Pivoted ℝ) (m : String) (q : ℝ) (y : List ℝ) : Prop :=
  ∃ test, ValuesOf piv m "test" test ∧
    ((Cell.str "pretest" ∉ piv.periods ∧ y = test) ∨
     (Cell.str "pretest" ∈ piv.periods ∧ ∃ pre, ValuesOf piv m "pretest" pre ∧
       cuped R argsort test pre q = .ok (y.map .fin)))

/-- All index tuples have the same pretest value of the metric, and none of them is trimmed: the adjustment has nothing to work with. -/
def ConstantPretest (R : Rounding ℝ) (piv : Pivoted ℝ) (m : String) (q : ℝ) : Prop :=
  Cell.str "pretest" ∈ piv.periods ∧ (∃ c : ℝ, ∀ k ∈ piv.index, piv.value k m "pretest" = .fin c) ∧ ⌊R.rnd (q * (piv.index.length : ℝ))⌋ ≤ 0

/-- A result that says nothing but the sample size: all numbers are nan, there are no relative effects, and it is not significant. -/
structure NoEstimate (r : TestResult) (n : ℕ) : Prop where
  numbers : ∀ x ∈ [r.pValue, r.statistic, r.absoluteDifference, r.absoluteLower, r.absoluteUpper, r.standardError, r.degreesOfFreedom,
    r.controlAverage], x = .nan
  relative : r.relativeDifference = none ∧ r.relativeLower = none ∧ r.relativeUpper = none
  significance : r.isSignificant = false ∧ r.alpha = 1 / 20
  size : r.sampleSize = n

end Feedx.Spec
