import Verif.Spec.Assignments
import Mathlib.Data.Fintype.Powerset
import Mathlib.Data.Fintype.BigOperators
import Mathlib.Data.Nat.Choose.Basic
import Mathlib.Algebra.BigOperators.Ring.Finset
import Mathlib.Algebra.BigOperators.Field
import Mathlib.Algebra.Order.BigOperators.Group.Finset
import Mathlib.Tactic.LinearCombination
import Mathlib.Tactic.FieldSimp
import Mathlib.Tactic.Ring
import Mathlib.Tactic.Linarith

/-!
Sampling without replacement: moments of sums over a uniformly drawn set of `k` of `n` items.
-/

namespace Feedx
open Finset

section Average
variable {β : Type} {A : Finset β}

theorem average_add (f g : β → ℝ) : Spec.averageOver A (fun a => f a + g a) = Spec.averageOver A f + Spec.averageOver A g := by
  unfold Spec.averageOver
  rw [sum_add_distrib, add_div]

theorem average_sub (f g : β → ℝ) : Spec.averageOver A (fun a => f a - g a) = Spec.averageOver A f - Spec.averageOver A g := by
  unfold Spec.averageOver
  rw [sum_sub_distrib, sub_div]

theorem average_mul_left (c : ℝ) (f : β → ℝ) : Spec.averageOver A (fun a => c * f a) = c * Spec.averageOver A f := by
  unfold Spec.averageOver
  rw [← mul_sum, mul_div_assoc]

theorem average_div (c : ℝ) (f : β → ℝ) : Spec.averageOver A (fun a => f a / c) = Spec.averageOver A f / c := by
  unfold Spec.averageOver
  rw [← sum_div, div_right_comm]

theorem average_const (hA : A.Nonempty) (c : ℝ) : Spec.averageOver A (fun _ => c) = c := by
  unfold Spec.averageOver
  have : (A.card : ℝ) ≠ 0 := by exact_mod_cast hA.card_pos.ne'
  rw [sum_const, nsmul_eq_mul, mul_div_assoc, mul_comm, div_mul_cancel₀ _ this]

theorem average_sum {γ : Type} (s : Finset γ) (f : γ → β → ℝ) :
    Spec.averageOver A (fun a => ∑ c ∈ s, f c a) = ∑ c ∈ s, Spec.averageOver A (f c) := by
  unfold Spec.averageOver
  rw [sum_comm, sum_div]

theorem average_congr {f g : β → ℝ} (h : ∀ a ∈ A, f a = g a) : Spec.averageOver A f = Spec.averageOver A g := by
  unfold Spec.averageOver
  rw [sum_congr rfl h]

theorem average_nonneg {f : β → ℝ} (h : ∀ a ∈ A, 0 ≤ f a) : 0 ≤ Spec.averageOver A f :=
  div_nonneg (sum_nonneg h) (Nat.cast_nonneg _)

end Average

variable {n k : ℕ}

theorem assignments_nonempty (hk : k ≤ n) : (Spec.assignments n k).Nonempty := by
  unfold Spec.assignments
  rw [powersetCard_nonempty]
  simpa using hk

theorem mem_assignments {S : Finset (Fin n)} : S ∈ Spec.assignments n k ↔ S.card = k := by
  unfold Spec.assignments
  rw [mem_powersetCard_univ]

theorem card_assignments : (Spec.assignments n k).card = n.choose k := by
  unfold Spec.assignments
  rw [card_powersetCard, card_univ, Fintype.card_fin]

/-- The share of assignments that treat all of `T`. -/
theorem average_subset (T : Finset (Fin n)) (hT : T.card ≤ k) :
    Spec.averageOver (Spec.assignments n k) (fun S => if T ⊆ S then 1 else 0) = ((n - T.card).choose (k - T.card) : ℝ) / (n.choose k : ℝ) := by
  unfold Spec.averageOver
  rw [card_assignments, sum_boole]
  unfold Spec.assignments
  rw [card_filter_powersetCard_subset T univ k (subset_univ _) hT, card_univ, Fintype.card_fin]

theorem average_mem (hk : 1 ≤ k) (hn : k ≤ n) (i : Fin n) :
    Spec.averageOver (Spec.assignments n k) (fun S => if i ∈ S then 1 else 0) = (k : ℝ) / n := by
  have h := average_subset (k := k) {i} (by simpa using hk)
  simp only [singleton_subset_iff, card_singleton] at h
  rw [h]
  obtain ⟨n, rfl⟩ : ∃ a, n = a + 1 := ⟨n - 1, by omega⟩
  obtain ⟨k, rfl⟩ : ∃ a, k = a + 1 := ⟨k - 1, by omega⟩
  have hc := Nat.add_one_mul_choose_eq n k
  have hp : 0 < (n + 1).choose (k + 1) := Nat.choose_pos hn
  have hp' : ((n + 1).choose (k + 1) : ℝ) ≠ 0 := by exact_mod_cast hp.ne'
  have hc' : ((n : ℝ) + 1) * (n.choose k : ℝ) = ((n + 1).choose (k + 1) : ℝ) * ((k : ℝ) + 1) := by exact_mod_cast hc
  have hn' : ((n : ℝ) + 1) ≠ 0 := by positivity
  simp only [Nat.add_sub_cancel, Nat.cast_add, Nat.cast_one]
  rw [div_eq_div_iff hp' hn']
  linarith

theorem average_pair (hk : 1 ≤ k) (hn : k ≤ n) {i j : Fin n} (hij : i ≠ j) :
    Spec.averageOver (Spec.assignments n k) (fun S => if i ∈ S ∧ j ∈ S then 1 else 0) = ((k : ℝ) * (k - 1)) / (n * (n - 1)) := by
  have h2n : 2 ≤ n := by
    have := i.2
    have := j.2
    have : i.1 ≠ j.1 := fun h => hij (Fin.ext h)
    omega
  rcases Nat.lt_or_ge k 2 with h2 | h2
  · have hk1 : k = 1 := by omega
    subst hk1
    rw [average_congr (g := fun _ => 0)]
    · rw [average_const (assignments_nonempty hn)]
      simp
    · intro S hS
      rw [if_neg]
      rintro ⟨h1, h2⟩
      have := mem_assignments.mp hS
      rw [card_eq_one] at this
      obtain ⟨a, rfl⟩ := this
      rw [mem_singleton] at h1 h2
      exact hij (h1.trans h2.symm)
  have h := average_subset (k := k) {i, j} (by rw [card_pair hij]; exact h2)
  rw [card_pair hij] at h
  simp only [insert_subset_iff, singleton_subset_iff] at h
  rw [h]
  obtain ⟨n, rfl⟩ : ∃ a, n = a + 2 := ⟨n - 2, by omega⟩
  obtain ⟨k, rfl⟩ : ∃ a, k = a + 2 := ⟨k - 2, by omega⟩
  have hc1 := Nat.add_one_mul_choose_eq (n + 1) (k + 1)
  have hc2 := Nat.add_one_mul_choose_eq n k
  have hp : 0 < (n + 2).choose (k + 2) := Nat.choose_pos hn
  have hp' : ((n + 2).choose (k + 2) : ℝ) ≠ 0 := by exact_mod_cast hp.ne'
  have e1 : ((n : ℝ) + 2) * ((n + 1).choose (k + 1) : ℝ) = ((n + 2).choose (k + 2) : ℝ) * ((k : ℝ) + 2) := by exact_mod_cast hc1
  have e2 : ((n : ℝ) + 1) * (n.choose k : ℝ) = ((n + 1).choose (k + 1) : ℝ) * ((k : ℝ) + 1) := by exact_mod_cast hc2
  have hn1 : ((n : ℝ) + 2) * ((n : ℝ) + 2 - 1) ≠ 0 := by
    have : (0 : ℝ) ≤ n := Nat.cast_nonneg n
    have : 0 < ((n : ℝ) + 2) * ((n : ℝ) + 2 - 1) := by nlinarith
    exact this.ne'
  simp only [Nat.add_sub_cancel, Nat.cast_add, Nat.cast_ofNat]
  rw [div_eq_div_iff hp' hn1]
  linear_combination ((n : ℝ) + 2) * e2 + ((k : ℝ) + 1) * e1

theorem sum_mem_eq (S : Finset (Fin n)) (f : Fin n → ℝ) : ∑ i ∈ S, f i = ∑ i, f i * (if i ∈ S then 1 else 0) := by
  simp [sum_ite_mem]

/-- The average of the sum over the treated items. -/
theorem average_treated (hk : 1 ≤ k) (hn : k ≤ n) (f : Fin n → ℝ) :
    Spec.averageOver (Spec.assignments n k) (fun S => ∑ i ∈ S, f i) = (k : ℝ) / n * ∑ i, f i := by
  rw [average_congr (fun S _ => sum_mem_eq S f), average_sum, mul_sum]
  refine sum_congr rfl fun i _ => ?_
  rw [average_mul_left, average_mem hk hn, mul_comm]

/-- The average product of two sums over the treated items. -/
theorem average_treated_mul (hk : 1 ≤ k) (hn : k ≤ n) (f g : Fin n → ℝ) :
    Spec.averageOver (Spec.assignments n k) (fun S => (∑ i ∈ S, f i) * ∑ i ∈ S, g i) =
      (k : ℝ) / n * ∑ i, f i * g i + (k : ℝ) * (k - 1) / (n * (n - 1)) * ((∑ i, f i) * (∑ i, g i) - ∑ i, f i * g i) := by
  have key : ∀ i j, Spec.averageOver (Spec.assignments n k) (fun S => (f i * if i ∈ S then 1 else 0) * (g j * if j ∈ S then 1 else 0)) =
      (if i = j then ((k : ℝ) / n - (k : ℝ) * (k - 1) / (n * (n - 1))) * (f i * g j) else 0) + (k : ℝ) * (k - 1) / (n * (n - 1)) * (f i * g j) := by
    intro i j
    have e : (fun S : Finset (Fin n) => (f i * if i ∈ S then (1 : ℝ) else 0) * (g j * if j ∈ S then 1 else 0)) =
        fun S => (f i * g j) * (if i ∈ S ∧ j ∈ S then 1 else 0) := by
      funext S
      by_cases h1 : i ∈ S <;> by_cases h2 : j ∈ S <;> simp [h1, h2]
    rw [e, average_mul_left]
    by_cases hij : i = j
    · subst hij
      simp only [and_self, if_true]
      rw [average_mem hk hn]
      ring
    · rw [average_pair hk hn hij, if_neg hij]
      ring
  rw [average_congr (fun S _ => by rw [sum_mem_eq S f, sum_mem_eq S g, sum_mul_sum]), average_sum]
  simp only [average_sum, key, sum_add_distrib, sum_ite_eq, mem_univ, if_true]
  simp only [← mul_sum]
  rw [← sum_mul]
  ring

/-- The average product, if the second sums to zero. -/
theorem average_treated_centred (hk : 1 ≤ k) (hn : k ≤ n) (h2 : 2 ≤ n) (f g : Fin n → ℝ) (hg : ∑ i, g i = 0) :
    Spec.averageOver (Spec.assignments n k) (fun S => (∑ i ∈ S, f i) * ∑ i ∈ S, g i) =
      (k : ℝ) * (n - k) / (n * (n - 1)) * ∑ i, f i * g i := by
  rw [average_treated_mul hk hn, hg]
  have h2' : (2 : ℝ) ≤ n := by exact_mod_cast h2
  have e1 : (n : ℝ) ≠ 0 := by linarith
  have e2 : (n : ℝ) - 1 ≠ 0 := by linarith
  field_simp
  ring

end Feedx
