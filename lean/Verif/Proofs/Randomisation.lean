import Verif.Spec.Randomisation
import Verif.Proofs.Assignments
import Verif.Props.EstimateAnalysis

/-!
The groups, estimates and standard errors of an experiment in terms of the set of treated items.
-/

set_option linter.unusedSectionVars false

namespace Feedx
open Fl

variable {n : ℕ}

theorem sum_filter_range (S : Finset (Fin n)) (f : Fin n → ℝ) :
    (((List.finRange n).filter (fun i => decide (i ∈ S))).map f).sum = ∑ i ∈ S, f i ∧
    ((List.finRange n).filter (fun i => decide (i ∈ S))).length = S.card := by
  have hd : ((List.finRange n).filter (fun i => decide (i ∈ S))).Nodup := (List.nodup_finRange n).filter _
  have hS : ((List.finRange n).filter (fun i => decide (i ∈ S))).toFinset = S := by
    ext i
    simp
  constructor
  · rw [← List.sum_toFinset f hd, hS]
  · rw [← List.toFinset_card_of_nodup hd, hS]

theorem sum_range (f : Fin n → ℝ) : ((List.finRange n).map f).sum = ∑ i, f i := by
  have := (sum_filter_range Finset.univ f).1
  simpa using this

theorem sum_compl (S : Finset (Fin n)) (f : Fin n → ℝ) : ∑ i ∈ Sᶜ, f i = ∑ i, f i - ∑ i ∈ S, f i := by
  rw [← Finset.sum_add_sum_compl S f]
  ring

theorem observed_groups {piv : Pivoted ℝ} {S : Finset (Fin n)} (l : List (Fin n))
    (h : List.Forall₂ (fun k i => (i ∈ S → Spec.AssignedTo 1 k) ∧ (i ∉ S → Spec.AssignedTo 0 k)) piv.index l) (z : Fin n → ℝ) :
    Spec.groupOf piv 1 (l.map z) = (l.filter (fun i => decide (i ∈ S))).map z ∧
    Spec.groupOf piv 0 (l.map z) = (l.filter (fun i => decide (i ∈ Sᶜ))).map z := by
  classical
  unfold Spec.groupOf
  generalize piv.index = idx at h
  induction h with
  | nil => simp
  | @cons k i idx l hk _ ih =>
    obtain ⟨ih1, ih2⟩ := ih
    simp only [List.map_cons, List.zip_cons_cons, List.filter_cons]
    by_cases hi : i ∈ S
    · have h1 := hk.1 hi
      have h0 : ¬ Spec.AssignedTo 0 k := fun h0 => by
        have := assigned_unique h0 h1
        norm_num at this
      simp only [h1, h0, decide_true, decide_false, hi, Finset.mem_compl, not_true_eq_false, if_true, Bool.false_eq_true, if_false, List.map_cons]
      simp only [Finset.mem_compl] at ih2
      exact ⟨congrArg _ ih1, ih2⟩
    · have h0 := hk.2 hi
      have h1 : ¬ Spec.AssignedTo 1 k := fun h1 => by
        have := assigned_unique h0 h1
        norm_num at this
      simp only [h1, h0, decide_true, decide_false, hi, Finset.mem_compl, not_false_eq_true, if_true, Bool.false_eq_true, if_false, List.map_cons]
      simp only [Finset.mem_compl] at ih2
      exact ⟨ih1, congrArg _ ih2⟩

/-- The observed values. -/
noncomputable def seen (y1 y0 : Fin n → ℝ) (S : Finset (Fin n)) (i : Fin n) : ℝ := if i ∈ S then y1 i else y0 i

theorem observed_values {piv : Pivoted ℝ} {metric : String} {y1 y0 : Fin n → ℝ} {S : Finset (Fin n)} (h : Spec.Observed piv metric y1 y0 S)
    {v : List ℝ} (hv : Spec.ValuesOf piv metric "test" v) : v = (List.finRange n).map (seen y1 y0 S) := by
  unfold Spec.Observed at h
  unfold Spec.ValuesOf at hv
  generalize List.finRange n = l at h
  generalize piv.index = idx at h hv
  induction h generalizing v with
  | nil => cases hv; rfl
  | @cons k i idx l hk _ ih =>
    rcases hv with _ | ⟨hx, hv⟩
    rw [ih hv, List.map_cons]
    congr 1
    unfold seen
    by_cases hi : i ∈ S
    · rw [if_pos hi]
      rw [(hk.1 hi).2] at hx
      exact (Fl.fin.inj hx).symm
    · rw [if_neg hi]
      rw [(hk.2 hi).2] at hx
      exact (Fl.fin.inj hx).symm

theorem observed_index {piv : Pivoted ℝ} {metric : String} {y1 y0 : Fin n → ℝ} {S : Finset (Fin n)} (h : Spec.Observed piv metric y1 y0 S) :
    List.Forall₂ (fun k i => (i ∈ S → Spec.AssignedTo 1 k) ∧ (i ∉ S → Spec.AssignedTo 0 k)) piv.index (List.finRange n) ∧
      ∀ k ∈ piv.index, k.length = 2 := by
  unfold Spec.Observed at h
  have h1 : List.Forall₂ (fun k i => (i ∈ S → Spec.AssignedTo 1 k) ∧ (i ∉ S → Spec.AssignedTo 0 k)) piv.index (List.finRange n) :=
    h.imp (fun _ _ h => ⟨fun hi => (h.1 hi).1, fun hi => (h.2 hi).1⟩)
  refine ⟨h1, ?_⟩
  generalize List.finRange n = l at h1
  generalize piv.index = idx at h1
  induction h1 with
  | nil => simp
  | @cons k i idx l hk _ ih =>
    intro k' hk'
    rcases List.mem_cons.mp hk' with rfl | hk'
    · by_cases hi : i ∈ S
      · obtain ⟨a, b, e, -⟩ := hk.1 hi
        rw [e]; rfl
      · obtain ⟨a, b, e, -⟩ := hk.2 hi
        rw [e]; rfl
    · exact ih _ hk'

/-- Estimate and standard error of an untrimmed regular analysis of adjusted values `z`. -/
theorem regular_reports {R : Rounding ℝ} {argsort : List ℝ → List ℕ} (ha : ArgsortOk argsort) {D : TDist} {S : Finset (Fin n)} {z : Fin n → ℝ} {r : TestResult}
    (h : indTest R argsort D (((List.finRange n).filter (fun i => decide (i ∈ S))).map z) (((List.finRange n).filter (fun i => decide (i ∈ Sᶜ))).map z)
      0 none none false "two-sided" (1 / 20) = .ok r) :
    r.absoluteDifference = fin ((∑ i ∈ S, z i) / S.card - (∑ i ∈ Sᶜ, z i) / Sᶜ.card) ∧
    r.standardError = fin (Real.sqrt (((∑ i ∈ S, z i ^ 2) - (∑ i ∈ S, z i) ^ 2 / S.card) / (S.card * (S.card - 1)) +
      ((∑ i ∈ Sᶜ, z i ^ 2) - (∑ i ∈ Sᶜ, z i) ^ 2 / Sᶜ.card) / (Sᶜ.card * (Sᶜ.card - 1)))) ∧ 2 ≤ S.card ∧ 2 ≤ Sᶜ.card := by
  have ss : ∀ T : Finset (Fin n), T.card ≠ 0 → Spec.sumSqDev (((List.finRange n).filter (fun i => decide (i ∈ T))).map z) =
      (∑ i ∈ T, z i ^ 2) - (∑ i ∈ T, z i) ^ 2 / T.card := by
    intro T hT
    have hT' : (T.card : ℝ) ≠ 0 := by exact_mod_cast hT
    rw [sumSqDev_eq_sq]
    unfold Spec.mean
    rw [List.map_map, List.length_map, (sum_filter_range T z).2, (sum_filter_range T z).1,
      show ((fun x : ℝ => x ^ 2) ∘ z) = fun i => z i ^ 2 from rfl, (sum_filter_range T _).1]
    field_simp
  have hlen : 2 ≤ S.card ∧ 2 ≤ Sᶜ.card := by
    rcases indTest_ok h with ⟨x1, -, h0, -⟩ | ⟨-, -, T1, T2, h1, h2, l1, l2, -⟩
    · cases h0
    rw [mkTrimmed_zero] at h1 h2
    cases h1
    cases h2
    unfold TrimmedArray.len at l1 l2
    dsimp only at l1 l2
    rw [length_asStack, List.length_map, (sum_filter_range _ z).2] at l1 l2
    omega
  obtain ⟨g1, g2, h1, h2, mu1, mu2, ss1, ss2, e1, e2, s1, s2, a1, -, -, -, -, -, a2, -⟩ := C83_independent_test_reports R argsort ha D _ _ _ _ _ _ _ h
  have hz : ⌊R.rnd (0 : ℝ)⌋ = 0 := by
    have := R.intFix 0 (by norm_num)
    rw [show (0 : ℝ) = ((0 : ℤ) : ℝ) by simp, this]
    simp
  rw [zero_mul, hz] at e1 e2
  obtain rfl : g1 = 0 := by exact_mod_cast e1
  obtain rfl : g2 = 0 := by exact_mod_cast e2
  obtain ⟨rfl, rfl, rfl, -⟩ := yuenSummary_zero s1
  obtain ⟨rfl, rfl, rfl, -⟩ := yuenSummary_zero s2
  refine ⟨?_, ?_, hlen⟩
  · rw [a1]
    unfold Spec.mean
    simp only [List.length_map, (sum_filter_range _ z).2, (sum_filter_range _ z).1]
  · rw [(a2 rfl).1, ss S (by omega), ss Sᶜ (by omega)]
    unfold Spec.yuenVar
    simp only [List.length_map, (sum_filter_range _ z).2]

end Feedx
