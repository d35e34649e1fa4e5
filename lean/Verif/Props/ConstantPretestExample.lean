import Verif.Props.ConstantPretest
import Verif.Props.RandomisationCuped

/-!
C124 is not vacuous: experiments with the same pretest value for all items are analysed, whatever the values in the test.
-/

set_option linter.unusedSectionVars false
set_option linter.unusedSimpArgs false

namespace Feedx

open Fl

theorem cuped_of_constant (R : Rounding ℝ) (argsort : List ℝ → List ℕ) {n : ℕ} (hn : 2 ≤ n) (y : Fin n → ℝ) (c : ℝ) :
    cuped R argsort ((List.finRange n).map y) ((List.finRange n).map (fun _ => c)) 0 = .ok (((List.finRange n).map y).map (fun _ => .nan)) := by
  unfold cuped
  refine raiseIf_bind_ok.mpr ⟨by simp, raiseIf_bind_ok.mpr ⟨by simp; omega, raiseIf_bind_ok.mpr ⟨by norm_num, ?_⟩⟩⟩
  have h0 : sampleCov ((List.finRange n).map (fun _ => c)) ((List.finRange n).map (fun _ => c)) = 0 :=
    (sampleCov_zero_iff (by simp; omega)).mpr ⟨c, fun x hx => by obtain ⟨_, -, rfl⟩ := List.mem_map.mp hx; rfl⟩
  have h1 : ∀ k, nTrimOf R 0 k = 0 := by
    intro k
    unfold nTrimOf Rounding.floorMul
    rw [zero_mul, show (0 : ℝ) = ((0 : ℤ) : ℝ) by simp, R.intFix 0 (by norm_num)]
    simp
  simp only [h0, h1, if_true]
  rfl

/-- Any values in the test, the pretest value `c` for all items, two or more items per group, and a regular design without trimming: the analysis returns,
and says nothing. -/
theorem constant_returns (R : Rounding ℝ) (argsort : List ℝ → List ℕ) (D : TDist) (n : ℕ) (S : Finset (Fin n)) (y : Fin n → ℝ) (c : ℝ)
    (h1 : 2 ≤ S.card) (h0 : 2 ≤ Sᶜ.card) :
    ∃ piv r, Spec.ValuesOf piv "clicks" "test" ((List.finRange n).map y) ∧ Spec.ConstantPretest R piv "clicks" 0 ∧
      analyzeSingleMetric R argsort D piv ["clicks"] ["item_id", "treatment_assignment"] tenPercentParams "clicks" none "treatment_assignment" none = .ok r ∧
      Spec.NoEstimate r n := by
  obtain ⟨val, hval⟩ : ∃ val : String → Fin n → ℝ, val = (fun p => if p = "pretest" then fun _ => c else y) := ⟨_, rfl⟩
  have v1 : val "test" = y := by rw [hval]; rfl
  have v2 : val "pretest" = fun _ => c := by rw [hval]; rfl
  have hobs := trialTable_observed n S ["test", "pretest"] val "clicks" y y (by rw [v1]; funext i; unfold seen; rw [ite_self])
  have ht := trialTable_values n S ["test", "pretest"] val "clicks" "test"
  have hp := trialTable_values n S ["test", "pretest"] val "clicks" "pretest"
  rw [v1] at ht
  rw [v2] at hp
  have hkeys := trialTable_keys n S ["test", "pretest"] val
  have hper : Cell.str "test" ∈ (trialTable n S ["test", "pretest"] val).periods ∧ Cell.str "pretest" ∈ (trialTable n S ["test", "pretest"] val).periods ∧
      Cell.str "item_id" ∉ (trialTable n S ["test", "pretest"] val).periods ∧ Cell.str "treatment_assignment" ∉ (trialTable n S ["test", "pretest"] val).periods := by
    simp [trialTable]
  have hix := (observed_index hobs).1
  have hgrp := observed_groups _ hix
  obtain ⟨piv, hpiv⟩ : ∃ piv, piv = trialTable n S ["test", "pretest"] val := ⟨_, rfl⟩
  rw [← hpiv] at hobs ht hp hkeys hper hgrp hix
  have hn : 2 ≤ n := by
    have := Finset.card_le_univ S
    rw [Fintype.card_fin] at this
    omega
  have hl : piv.index.length = n := by
    have := ht.length_eq
    simpa using this
  have hr0 : ∀ k : ℝ, ⌊R.rnd (0 * k)⌋ = 0 := fun k => by
    rw [zero_mul, show (0 : ℝ) = ((0 : ℤ) : ℝ) by simp, R.intFix 0 (by norm_num)]
    simp
  have hc : Spec.ConstantPretest R piv "clicks" 0 := by
    refine ⟨hper.2.1, ⟨c, fun k hk => ?_⟩, (hr0 _).le⟩
    obtain ⟨x, hx, e⟩ := valuesOf_of_mem hp hk
    obtain ⟨_, -, rfl⟩ := List.mem_map.mp hx
    exact e
  obtain ⟨f, hf⟩ := metricSubset_returns (metrics := ["clicks"]) (m := "clicks") (by simp) hper.2.2.1 hper.2.2.2
  have hi : ¬ Spec.Reserved "item_id" := by unfold Spec.Reserved; decide
  have htr : ¬ Spec.Reserved "treatment_assignment" := by unfold Spec.Reserved; decide
  have hret : ∃ r, analyzeSingleMetric R argsort D piv ["clicks"] ["item_id", "treatment_assignment"] tenPercentParams "clicks" none "treatment_assignment" none
      = .ok r := by
    unfold analyzeSingleMetric
    rw [hf]
    have hp' : "pretest" ∈ f.cols := by
      rw [mem_period_cols hf (by decide) (by decide) (by decide)]; exact hper.2.1
    have hreq : ¬ ((requiredColumns tenPercentParams "treatment_assignment").any (fun c => decide (c ∉ f.cols) || false) = true) := by
      have e1 : "treatment_assignment" ∈ f.cols := by rw [(metricSubset_ok hf).1]; simp
      have e2 : "test" ∈ f.cols := (mem_period_cols hf (by decide) (by decide) (by decide)).mpr hper.1
      simp only [requiredColumns, tenPercentParams]
      simp [e1, e2, hp']
    simp only [bind, Except.bind, pure, Except.pure]
    unfold raiseIf
    rw [if_neg hreq]
    simp only [tenPercentParams, Bool.false_eq_true, if_false, Option.getD_none]
    unfold analyzeRegular prepareRegular
    rw [subset_values_eq hf (by decide) (by decide) ht, subset_values_eq hf (by decide) (by decide) hp, subset_mask hf (by decide) hkeys 1,
      subset_mask hf (by decide) hkeys 0]
    simp only [if_pos hp', bind, Except.bind, PyNum.val, cuped_of_constant R argsort hn, 
      maskSelect_nan (piv := piv) 1 (show ((List.finRange n).map y).length = _ by simp [hl]), maskSelect_nan (piv := piv) 0 (show ((List.finRange n).map y).length = _ by simp [hl])]
    have g1 : groupSize piv 1 = S.card := by
      rw [← groupOf_size (piv := piv) 1 (v := (List.finRange n).map y) (by simp [hl]), (hgrp y).1, List.length_map, (sum_filter_range S y).2]
    have g0 : groupSize piv 0 = Sᶜ.card := by
      rw [← groupOf_size (piv := piv) 0 (v := (List.finRange n).map y) (by simp [hl]), (hgrp y).2, List.length_map, (sum_filter_range Sᶜ y).2]
    rw [g1, g0]
    unfold indTestFl
    have hz : ∀ k, nTrimOf R 0 k = 0 := by
      intro k
      unfold nTrimOf Rounding.floorMul
      rw [hr0]
      rfl
    simp only [pure, Except.pure, onlyNan_replicate, List.length_replicate, hz]
    rw [if_pos ⟨by omega, by omega⟩]
    obtain ⟨r, hr, -⟩ := nan_results D S.card Sᶜ.card true
    exact ⟨r, raiseIf_bind_ok.mpr ⟨by simp; omega, hr⟩⟩
  obtain ⟨r, hr⟩ := hret
  refine ⟨piv, r, ht, hc, hr, ?_⟩
  rw [← hl]
  refine C124_constant_pretest R argsort D piv ["clicks"] "item_id" "treatment_assignment" (by decide) hi htr hkeys ?_ tenPercentParams rfl "clicks" none r hc hr
  intro k hk
  obtain ⟨j, hj, rfl⟩ := List.mem_iff_getElem.mp hk
  have := hix.get hj (by rw [← hix.length_eq]; exact hj)
  by_cases hS : (List.finRange n).get ⟨j, by rw [← hix.length_eq]; exact hj⟩ ∈ S
  · exact Or.inr (this.1 hS)
  · exact Or.inl (this.2 hS)

/-- The same for the ratio of the metric to itself: any values in the test, the pretest value `c` for all items, two or more items per group, and a regular design without trimming: the analysis returns,
and says nothing. -/
theorem constant_returns_ratio (R : Rounding ℝ) (argsort : List ℝ → List ℕ) (D : TDist) (n : ℕ) (S : Finset (Fin n)) (y : Fin n → ℝ) (c : ℝ)
    (h1 : 2 ≤ S.card) (h0 : 2 ≤ Sᶜ.card) :
    ∃ piv r, Spec.ValuesOf piv "clicks" "test" ((List.finRange n).map y) ∧ Spec.ConstantPretest R piv "clicks" 0 ∧
      analyzeSingleMetric R argsort D piv ["clicks"] ["item_id", "treatment_assignment"] tenPercentParams "clicks" (some "clicks") "treatment_assignment" none = .ok r ∧
      Spec.NoEstimate r n := by
  obtain ⟨val, hval⟩ : ∃ val : String → Fin n → ℝ, val = (fun p => if p = "pretest" then fun _ => c else y) := ⟨_, rfl⟩
  have v1 : val "test" = y := by rw [hval]; rfl
  have v2 : val "pretest" = fun _ => c := by rw [hval]; rfl
  have hobs := trialTable_observed n S ["test", "pretest"] val "clicks" y y (by rw [v1]; funext i; unfold seen; rw [ite_self])
  have ht := trialTable_values n S ["test", "pretest"] val "clicks" "test"
  have hp := trialTable_values n S ["test", "pretest"] val "clicks" "pretest"
  rw [v1] at ht
  rw [v2] at hp
  have hkeys := trialTable_keys n S ["test", "pretest"] val
  have hper : Cell.str "test" ∈ (trialTable n S ["test", "pretest"] val).periods ∧ Cell.str "pretest" ∈ (trialTable n S ["test", "pretest"] val).periods ∧
      Cell.str "item_id" ∉ (trialTable n S ["test", "pretest"] val).periods ∧ Cell.str "treatment_assignment" ∉ (trialTable n S ["test", "pretest"] val).periods := by
    simp [trialTable]
  have hix := (observed_index hobs).1
  have hgrp := observed_groups _ hix
  obtain ⟨piv, hpiv⟩ : ∃ piv, piv = trialTable n S ["test", "pretest"] val := ⟨_, rfl⟩
  rw [← hpiv] at hobs ht hp hkeys hper hgrp hix
  have hn : 2 ≤ n := by
    have := Finset.card_le_univ S
    rw [Fintype.card_fin] at this
    omega
  have hl : piv.index.length = n := by
    have := ht.length_eq
    simpa using this
  have hr0 : ∀ k : ℝ, ⌊R.rnd (0 * k)⌋ = 0 := fun k => by
    rw [zero_mul, show (0 : ℝ) = ((0 : ℤ) : ℝ) by simp, R.intFix 0 (by norm_num)]
    simp
  have hc : Spec.ConstantPretest R piv "clicks" 0 := by
    refine ⟨hper.2.1, ⟨c, fun k hk => ?_⟩, (hr0 _).le⟩
    obtain ⟨x, hx, e⟩ := valuesOf_of_mem hp hk
    obtain ⟨_, -, rfl⟩ := List.mem_map.mp hx
    exact e
  obtain ⟨f, hf⟩ := metricSubset_returns (metrics := ["clicks"]) (m := "clicks") (by simp) hper.2.2.1 hper.2.2.2
  have hi : ¬ Spec.Reserved "item_id" := by unfold Spec.Reserved; decide
  have htr : ¬ Spec.Reserved "treatment_assignment" := by unfold Spec.Reserved; decide
  have hret : ∃ r, analyzeSingleMetric R argsort D piv ["clicks"] ["item_id", "treatment_assignment"] tenPercentParams "clicks" (some "clicks") "treatment_assignment" none
      = .ok r := by
    unfold analyzeSingleMetric
    simp only [bind, Except.bind, pure, Except.pure, hf]
    have hp' : "pretest" ∈ f.cols := by
      rw [mem_period_cols hf (by decide) (by decide) (by decide)]; exact hper.2.1
    have hreq : ¬ ((requiredColumns tenPercentParams "treatment_assignment").any (fun c => decide (c ∉ f.cols) || decide (c ∉ f.cols)) = true) := by
      have e1 : "treatment_assignment" ∈ f.cols := by rw [(metricSubset_ok hf).1]; simp
      have e2 : "test" ∈ f.cols := (mem_period_cols hf (by decide) (by decide) (by decide)).mpr hper.1
      simp only [requiredColumns, tenPercentParams]
      simp [e1, e2, hp']
    unfold raiseIf
    rw [if_neg hreq]
    simp only [tenPercentParams, Bool.false_eq_true, if_false, Option.getD_none]
    have g1 : groupSize piv 1 = S.card := by
      rw [← groupOf_size (piv := piv) 1 (v := (List.finRange n).map y) (by simp [hl]), (hgrp y).1, List.length_map, (sum_filter_range S y).2]
    have g0 : groupSize piv 0 = Sᶜ.card := by
      rw [← groupOf_size (piv := piv) 0 (v := (List.finRange n).map y) (by simp [hl]), (hgrp y).2, List.length_map, (sum_filter_range Sᶜ y).2]
    have hprep : prepareRegular R argsort f "treatment_assignment" 0 = .ok (List.replicate S.card .nan, List.replicate Sᶜ.card .nan) := by
      unfold prepareRegular
      rw [subset_values_eq hf (by decide) (by decide) ht, subset_values_eq hf (by decide) (by decide) hp, subset_mask hf (by decide) hkeys 1,
        subset_mask hf (by decide) hkeys 0]
      simp only [if_pos hp', bind, Except.bind, pure, Except.pure, cuped_of_constant R argsort hn,
        maskSelect_nan (piv := piv) 1 (show ((List.finRange n).map y).length = _ by simp [hl]),
        maskSelect_nan (piv := piv) 0 (show ((List.finRange n).map y).length = _ by simp [hl]), g1, g0]
    unfold analyzeRegular
    simp only [PyNum.val, hprep, bind, Except.bind]
    unfold indTestFl
    have hz : ∀ k, nTrimOf R 0 k = 0 := by
      intro k
      unfold nTrimOf Rounding.floorMul
      rw [hr0]
      rfl
    simp only [pure, Except.pure, onlyNan_replicate, List.length_replicate, hz]
    rw [if_pos (Or.inl ⟨by omega, by omega⟩)]
    obtain ⟨r, hr, -⟩ := nan_results D S.card Sᶜ.card false
    exact ⟨r, raiseIf_bind_ok.mpr ⟨by simp; omega, hr⟩⟩
  obtain ⟨r, hr⟩ := hret
  refine ⟨piv, r, ht, hc, hr, ?_⟩
  rw [← hl]
  refine C124_constant_pretest_ratio R argsort D piv ["clicks"] "item_id" "treatment_assignment" (by decide) hi htr hkeys ?_ tenPercentParams rfl "clicks" "clicks" none r (Or.inl hc) hr
  intro k hk
  obtain ⟨j, hj, rfl⟩ := List.mem_iff_getElem.mp hk
  have := hix.get hj (by rw [← hix.length_eq]; exact hj)
  by_cases hS : (List.finRange n).get ⟨j, by rw [← hix.length_eq]; exact hj⟩ ∈ S
  · exact Or.inr (this.1 hS)
  · exact Or.inl (this.2 hS)

end Feedx
