import Verif.Props.Randomisation

/-!
Property C113 with pretest values: averaged over all assignments, the adjusted estimate misses the average effect by a fraction of order `1 / n`.
-/

set_option linter.unusedSectionVars false

namespace Feedx
open Fl

variable {n k : ℕ}

theorem mean_items (f : Fin n → ℝ) : Spec.mean ((List.finRange n).map f) = Spec.itemMean f := by
  unfold Spec.mean Spec.itemMean
  rw [sum_range, List.length_map, List.length_finRange]

theorem sumSqDev_items (f : Fin n → ℝ) : Spec.sumSqDev ((List.finRange n).map f) = Spec.itemSumSq f := by
  unfold Spec.sumSqDev Spec.itemSumSq
  rw [mean_items, List.map_map, show ((fun x => (x - Spec.itemMean f) ^ 2) ∘ f) = fun i => (f i - Spec.itemMean f) ^ 2 from rfl, sum_range]

theorem crossDev_items (f x : Fin n → ℝ) : Spec.crossDev ((List.finRange n).map f) ((List.finRange n).map x) = ∑ i, f i * (x i - Spec.itemMean x) := by
  unfold Spec.crossDev
  rw [mean_items, mean_items, List.zipWith_map_left, List.zipWith_map_right, List.zipWith_self, sum_range]
  simp only [sub_mul]
  rw [Finset.sum_sub_distrib, ← Finset.mul_sum]
  by_cases hn : n = 0
  · subst hn
    simp
  rw [itemSum_dev _ (by exact_mod_cast hn), mul_zero, sub_zero]

/-- The observed values as untreated values plus the effects of the treated items. -/
theorem sum_seen_mul (y1 y0 u : Fin n → ℝ) (S : Finset (Fin n)) :
    ∑ i, seen y1 y0 S i * u i = ∑ i, y0 i * u i + ∑ i ∈ S, (y1 i - y0 i) * u i := by
  rw [← Finset.sum_add_sum_compl S (fun i => seen y1 y0 S i * u i), ← Finset.sum_add_sum_compl S (fun i => y0 i * u i)]
  have h1 : ∑ i ∈ S, seen y1 y0 S i * u i = ∑ i ∈ S, y0 i * u i + ∑ i ∈ S, (y1 i - y0 i) * u i := by
    rw [← Finset.sum_add_distrib]
    refine Finset.sum_congr rfl fun i hi => ?_
    rw [seen, if_pos hi]
    ring
  have h2 : ∑ i ∈ Sᶜ, seen y1 y0 S i * u i = ∑ i ∈ Sᶜ, y0 i * u i := by
    refine Finset.sum_congr rfl fun i hi => ?_
    rw [seen, if_neg (Finset.mem_compl.mp hi)]
  rw [h1, h2]
  ring

/-- Two lists of values of the same metric and period are equal. -/
theorem valuesOf_unique {piv : Pivoted ℝ} {m p : String} {v w : List ℝ} (hv : Spec.ValuesOf piv m p v) (hw : Spec.ValuesOf piv m p w) : v = w := by
  unfold Spec.ValuesOf at hv hw
  generalize piv.index = idx at hv hw
  induction hv generalizing w with
  | nil => cases hw; rfl
  | cons hx _ ih =>
    rcases hw with _ | ⟨hy, hw⟩
    rw [ih hw]
    rw [hx] at hy
    rw [Fl.fin.inj hy]

/-- Pretest values that differ. -/
theorem not_constantPretest {R : Rounding ℝ} {piv : Pivoted ℝ} {m : String} {q : ℝ} {x : Fin n → ℝ} (hv : ∃ i j, x i ≠ x j)
    (hx : Spec.ValuesOf piv m "pretest" ((List.finRange n).map x)) : ¬ Spec.ConstantPretest R piv m q := by
  rintro ⟨-, ⟨c, hall⟩, -⟩
  obtain ⟨i, j, hij⟩ := hv
  have e : ∀ i, x i = c := by
    intro i
    obtain ⟨k, hk, e⟩ := valuesOf_mem hx (List.mem_map_of_mem (List.mem_finRange i))
    rw [hall k hk] at e
    exact (Fl.fin.inj e).symm
  exact hij (by rw [e, e])

/-- Estimate of one assignment, with pretest values `x` and without trimming. -/
theorem cuped_trial {R : Rounding ℝ} {argsort : List ℝ → List ℕ} (ha : ArgsortOk argsort) {D : TDist} {piv : Pivoted ℝ}
    {metrics : List String} {itemCol treatmentCol : String} (hne : itemCol ≠ treatmentCol) (hi : ¬ Spec.Reserved itemCol) (ht : ¬ Spec.Reserved treatmentCol)
    {d : DesignParams ℝ} (hd : d.isCrossover = false) {metric : String} {override : Option ℝ} (hq : override.getD d.postTrim.val = 0)
    {y1 y0 x : Fin n → ℝ} {S : Finset (Fin n)} (hobs : Spec.Observed piv metric y1 y0 S) (hpre : Cell.str "pretest" ∈ piv.periods)
    (hx : Spec.ValuesOf piv metric "pretest" ((List.finRange n).map x)) (hvar : ∃ i j, x i ≠ x j) {r : TestResult}
    (h : analyzeSingleMetric R argsort D piv metrics [itemCol, treatmentCol] d metric none treatmentCol override = .ok r) :
    Spec.itemSumSq x ≠ 0 ∧
    r.absoluteDifference = fin ((∑ i ∈ S, y1 i) / S.card - (∑ i ∈ Sᶜ, y0 i) / Sᶜ.card -
      (∑ i, y0 i * (x i - Spec.itemMean x) + ∑ i ∈ S, (y1 i - y0 i) * (x i - Spec.itemMean x)) / Spec.itemSumSq x *
        ((∑ i ∈ S, x i) / S.card - (∑ i ∈ Sᶜ, x i) / Sᶜ.card)) ∧ 2 ≤ S.card ∧ 2 ≤ Sᶜ.card := by
  obtain ⟨hix, hidx⟩ := observed_index hobs
  obtain ⟨y, ⟨test, hv, hy⟩, -, hr, -⟩ := C39_regular_split R argsort D piv metrics itemCol treatmentCol hne hi ht hidx d hd metric override r
    (not_constantPretest hvar hx) h
  rcases hy with ⟨hp, -⟩ | ⟨-, pre, hpre', hc⟩
  · exact absurd hpre hp
  rw [observed_values hobs hv, valuesOf_unique hpre' hx, hq] at hc
  obtain ⟨hss, hy⟩ := cuped_zero_triples hc
  rw [sumSqDev_items] at hss
  rw [sumSqDev_items, crossDev_items, mean_items, sum_seen_mul] at hy
  rw [hy, (observed_groups _ hix _).1, (observed_groups _ hix _).2, hq] at hr
  obtain ⟨h1, -, c1, c2⟩ := regular_reports ha hr
  refine ⟨hss, ?_, c1, c2⟩
  rw [h1]
  have n1 : (S.card : ℝ) ≠ 0 := by exact_mod_cast (by omega : S.card ≠ 0)
  have n2 : (Sᶜ.card : ℝ) ≠ 0 := by exact_mod_cast (by omega : Sᶜ.card ≠ 0)
  have s1 := sum_seen y1 y0 S (fun x => x)
  obtain ⟨θ, hθ⟩ : ∃ θ, θ = (∑ i, y0 i * (x i - Spec.itemMean x) + ∑ i ∈ S, (y1 i - y0 i) * (x i - Spec.itemMean x)) / Spec.itemSumSq x := ⟨_, rfl⟩
  rw [← hθ]
  simp only [Finset.sum_sub_distrib, ← Finset.mul_sum, s1.1, s1.2, Finset.sum_const, nsmul_eq_mul]
  congr 1
  field_simp
  ring

/-- **C113, regular experiments with pretest values, without trimming**: averaged over all ways to treat `k` of the `n` items, the reported difference is
the average effect less `1 / (n - 1)` of the average of the effects weighted with the squared deviations of the pretest values; the bias is at most
`1 / (n - 1)` of the largest effect. -/
theorem C113_cuped_partial (R : Rounding ℝ) (argsort : List ℝ → List ℕ) (ha : ArgsortOk argsort) (D : TDist)
    (metrics : List String) (itemCol treatmentCol : String) (hne : itemCol ≠ treatmentCol) (hi : ¬ Spec.Reserved itemCol) (ht : ¬ Spec.Reserved treatmentCol)
    (d : DesignParams ℝ) (hd : d.isCrossover = false) (metric : String) (override : Option ℝ) (hq : override.getD d.postTrim.val = 0)
    (n k : ℕ) (hk : k ≤ n) (y1 y0 x : Fin n → ℝ) (piv : Finset (Fin n) → Pivoted ℝ)
    (hobs : ∀ S ∈ Spec.assignments n k, Spec.Observed (piv S) metric y1 y0 S)
    (hpre : ∀ S ∈ Spec.assignments n k, Cell.str "pretest" ∈ (piv S).periods ∧ Spec.ValuesOf (piv S) metric "pretest" ((List.finRange n).map x))
    (hvar : ∃ i j, x i ≠ x j) (r : Finset (Fin n) → TestResult)
    (h : ∀ S ∈ Spec.assignments n k,
      analyzeSingleMetric R argsort D (piv S) metrics [itemCol, treatmentCol] d metric none treatmentCol override = .ok (r S)) :
    ∃ est : Finset (Fin n) → ℝ, (∀ S ∈ Spec.assignments n k, (r S).absoluteDifference = fin (est S)) ∧
      Spec.averageOver (Spec.assignments n k) est = Spec.itemMean (fun i => y1 i - y0 i) -
        (∑ i, (y1 i - y0 i) * (x i - Spec.itemMean x) ^ 2) / (∑ i, (x i - Spec.itemMean x) ^ 2) / (n - 1) ∧
      ∀ M, (∀ i, |y1 i - y0 i| ≤ M) →
        |Spec.averageOver (Spec.assignments n k) est - Spec.itemMean (fun i => y1 i - y0 i)| ≤ M / (n - 1) := by
  have key := fun S hS => cuped_trial ha hne hi ht hd hq (hobs S hS) (hpre S hS).1 (hpre S hS).2 hvar (h S hS)
  obtain ⟨S₀, hS₀⟩ := assignments_nonempty hk
  obtain ⟨hss, -, c1, c2⟩ := key S₀ hS₀
  obtain ⟨k2, n2⟩ := two_le_of_trial hS₀ c1 c2
  have hm := average_adjusted (k := k) (by omega) (by omega) y1 y0 x hss
  refine ⟨_, fun S hS => (key S hS).2.1, hm, fun M hM => ?_⟩
  have hn : (0 : ℝ) < n - 1 := by
    have : (4 : ℝ) ≤ n := by exact_mod_cast (by omega : 4 ≤ n)
    linarith
  have hpos : 0 < Spec.itemSumSq x := lt_of_le_of_ne (Finset.sum_nonneg fun i _ => sq_nonneg _) (Ne.symm hss)
  rw [hm, sub_sub_cancel_left, abs_neg, abs_div, abs_of_pos hn]
  refine div_le_div_of_nonneg_right ?_ hn.le
  rw [abs_div, abs_of_pos hpos, div_le_iff₀ hpos]
  refine (Finset.abs_sum_le_sum_abs _ _).trans ?_
  unfold Spec.itemSumSq
  rw [Finset.mul_sum]
  refine Finset.sum_le_sum fun i _ => ?_
  rw [abs_mul, abs_of_nonneg (sq_nonneg (x i - Spec.itemMean x))]
  exact mul_le_mul_of_nonneg_right (hM i) (sq_nonneg _)

/-- **C114 with pretest values, without effect and trimming**: if the treatment has no effect on any item, the reported difference is 0 on average over all
ways to treat `k` of the `n` items, and the squared standard error reported is on average exactly the squared difference. -/
theorem C114_cuped_no_effect_partial (R : Rounding ℝ) (argsort : List ℝ → List ℕ) (ha : ArgsortOk argsort) (D : TDist)
    (metrics : List String) (itemCol treatmentCol : String) (hne : itemCol ≠ treatmentCol) (hi : ¬ Spec.Reserved itemCol) (ht : ¬ Spec.Reserved treatmentCol)
    (d : DesignParams ℝ) (hd : d.isCrossover = false) (metric : String) (override : Option ℝ) (hq : override.getD d.postTrim.val = 0)
    (n k : ℕ) (hk : k ≤ n) (y x : Fin n → ℝ) (piv : Finset (Fin n) → Pivoted ℝ)
    (hobs : ∀ S ∈ Spec.assignments n k, Spec.Observed (piv S) metric y y S)
    (hpre : ∀ S ∈ Spec.assignments n k, Cell.str "pretest" ∈ (piv S).periods ∧ Spec.ValuesOf (piv S) metric "pretest" ((List.finRange n).map x))
    (hvar : ∃ i j, x i ≠ x j) (r : Finset (Fin n) → TestResult)
    (h : ∀ S ∈ Spec.assignments n k,
      analyzeSingleMetric R argsort D (piv S) metrics [itemCol, treatmentCol] d metric none treatmentCol override = .ok (r S)) :
    ∃ est se : Finset (Fin n) → ℝ,
      (∀ S ∈ Spec.assignments n k, (r S).absoluteDifference = fin (est S) ∧ (r S).standardError = fin (se S)) ∧
      Spec.averageOver (Spec.assignments n k) est = 0 ∧
      Spec.averageOver (Spec.assignments n k) (fun S => se S ^ 2) = Spec.averageOver (Spec.assignments n k) (fun S => est S ^ 2) := by
  have hseen : ∀ S : Finset (Fin n), seen y y S = y := by
    intro S
    funext i
    unfold seen
    rw [ite_self]
  have key : ∃ z : Fin n → ℝ, ∀ S ∈ Spec.assignments n k,
      (r S).absoluteDifference = fin ((∑ i ∈ S, z i) / S.card - (∑ i ∈ Sᶜ, z i) / Sᶜ.card) ∧
      (r S).standardError = fin (Real.sqrt (((∑ i ∈ S, z i ^ 2) - (∑ i ∈ S, z i) ^ 2 / S.card) / (S.card * (S.card - 1)) +
        ((∑ i ∈ Sᶜ, z i ^ 2) - (∑ i ∈ Sᶜ, z i) ^ 2 / Sᶜ.card) / (Sᶜ.card * (Sᶜ.card - 1)))) ∧ 2 ≤ S.card ∧ 2 ≤ Sᶜ.card := by
    refine ⟨fun i => y i - Spec.crossDev ((List.finRange n).map y) ((List.finRange n).map x) / Spec.sumSqDev ((List.finRange n).map x) *
      (x i - Spec.mean ((List.finRange n).map x)), fun S hS => ?_⟩
    obtain ⟨hix, hidx⟩ := observed_index (hobs S hS)
    obtain ⟨y', ⟨test, hv, hy⟩, -, hr, -⟩ :=
      C39_regular_split R argsort D (piv S) metrics itemCol treatmentCol hne hi ht hidx d hd metric override (r S) (not_constantPretest hvar (hpre S hS).2)
        (h S hS)
    rcases hy with ⟨hp, -⟩ | ⟨-, pre, hpre', hc⟩
    · exact absurd (hpre S hS).1 hp
    rw [observed_values (hobs S hS) hv, hseen, valuesOf_unique hpre' (hpre S hS).2, hq] at hc
    obtain ⟨-, hy⟩ := cuped_zero_triples hc
    rw [hy, (observed_groups _ hix _).1, (observed_groups _ hix _).2, hq] at hr
    exact regular_reports ha hr
  obtain ⟨z, key⟩ := key
  obtain ⟨S₀, hS₀⟩ := assignments_nonempty hk
  obtain ⟨-, -, c1, c2⟩ := key S₀ hS₀
  obtain ⟨k2, n2⟩ := two_le_of_trial hS₀ c1 c2
  have hmean : Spec.itemMean (fun _ : Fin n => (0 : ℝ)) = 0 := by simp [Spec.itemMean]
  have hss : Spec.itemSumSq (fun _ : Fin n => (0 : ℝ)) = 0 := by simp [Spec.itemSumSq, hmean]
  refine ⟨_, _, fun S hS => ⟨(key S hS).1, (key S hS).2.1⟩, ?_, ?_⟩
  · rw [average_difference (by omega) (by omega) z z]
    simp only [sub_self, hmean]
  · rw [average_congr (fun S hS => Real.sq_sqrt (by
      obtain ⟨-, -, c1, c2⟩ := key S hS
      exact add_nonneg (sampleVar_nonneg S z c1) (sampleVar_nonneg Sᶜ z c2))), neyman k2 n2 z z]
    simp only [sub_self, hmean, hss, sub_zero, zero_div, add_zero]

/-! ### Concrete experiments -/

theorem cuped_zero_returns (R : Rounding ℝ) (argsort : List ℝ → List ℕ) {f x : Fin n → ℝ} (hn : 2 ≤ n) (hx : Spec.itemSumSq x ≠ 0) :
    ∃ y : List ℝ, cuped R argsort ((List.finRange n).map f) ((List.finRange n).map x) 0 = .ok (y.map .fin) := by
  have hn' : (2 : ℝ) ≤ n := by exact_mod_cast hn
  unfold cuped
  refine ⟨List.zipWith (fun a b => a - sampleCov ((List.finRange n).map f) ((List.finRange n).map x) / sampleCov ((List.finRange n).map x) ((List.finRange n).map x) *
      (b - meanOf ((List.finRange n).map x))) ((List.finRange n).map f) ((List.finRange n).map x),
    raiseIf_bind_ok.mpr ⟨by simp, raiseIf_bind_ok.mpr ⟨by simp; omega, raiseIf_bind_ok.mpr ⟨by norm_num, ?_⟩⟩⟩⟩
  rw [if_neg]
  · refine Py.bind_eq_ok.mpr ⟨_, mkTrimmed_zero _ _ _, ?_⟩
    rw [if_pos rfl]
    rfl
  · rw [sampleCov_eq, crossDev_self, sumSqDev_items, List.length_map, List.length_finRange]
    exact div_ne_zero hx (by linarith)

/-- Untreated value `c` and effect `e` for all items, pretest values `x`: the analysis with pretest values returns. -/
theorem cuped_trial_returns (R : Rounding ℝ) (argsort : List ℝ → List ℕ) (D : TDist) (n : ℕ) (S : Finset (Fin n)) (c e : ℝ) (hc : 0 < c) (he : 0 ≤ e)
    (x : Fin n → ℝ) (hx : Spec.itemSumSq x ≠ 0) (h1 : 2 ≤ S.card) (h0 : 2 ≤ Sᶜ.card) :
    ∃ r, analyzeSingleMetric R argsort D (trialTable n S ["test", "pretest"] (fun p => if p = "pretest" then x else seen (fun _ => c + e) (fun _ => c) S))
      ["clicks"] ["item_id", "treatment_assignment"] tenPercentParams "clicks" none "treatment_assignment" none = .ok r := by
  obtain ⟨val, hval⟩ : ∃ val : String → Fin n → ℝ, val = (fun p => if p = "pretest" then x else seen (fun _ => c + e) (fun _ => c) S) := ⟨_, rfl⟩
  rw [← hval]
  have v1 : val "test" = seen (fun _ => c + e) (fun _ => c) S := by rw [hval]; rfl
  have v2 : val "pretest" = x := by rw [hval]; rfl
  have hobs := trialTable_observed n S ["test", "pretest"] val "clicks" _ _ v1
  have ht := trialTable_values n S ["test", "pretest"] val "clicks" "test"
  have hp := trialTable_values n S ["test", "pretest"] val "clicks" "pretest"
  have hn : 2 ≤ n := by
    have := Finset.card_le_univ S
    rw [Fintype.card_fin] at this
    omega
  rw [v1] at ht
  rw [v2] at hp
  obtain ⟨y, hy⟩ := cuped_zero_returns R argsort (f := seen (fun _ => c + e) (fun _ => c) S) hn hx
  rw [analyze_cuped_eq (by decide) (by unfold Spec.Reserved; decide) (by unfold Spec.Reserved; decide)
    (trialTable_keys _ _ _ _) (by simp [trialTable]) (by simp [trialTable]) rfl (by simp) (by simp [trialTable]) (by simp [trialTable]) ht hp hy]
  obtain ⟨-, hy'⟩ := cuped_zero_triples hy
  rw [sumSqDev_items, crossDev_items, mean_items, sum_seen_mul] at hy'
  rw [hy', (observed_groups _ (observed_index hobs).1 _).1, (observed_groups _ (observed_index hobs).1 _).2]
  refine indTest_zero_returns R argsort D ?_ ?_ ?_
  · rw [List.length_map, (sum_filter_range S x).2]; omega
  · rw [List.length_map, (sum_filter_range Sᶜ x).2]; omega
  · unfold Spec.mean
    rw [List.length_map, (sum_filter_range Sᶜ x).2, (sum_filter_range Sᶜ _).1]
    have hm : (0 : ℝ) < Sᶜ.card := by exact_mod_cast (by omega : 0 < Sᶜ.card)
    have hpos : 0 < Spec.itemSumSq x := lt_of_le_of_ne (Finset.sum_nonneg fun i _ => sq_nonneg _) (Ne.symm hx)
    have hdev : ∑ i, (x i - Spec.itemMean x) = 0 := itemSum_dev x (by exact_mod_cast (by omega : n ≠ 0))
    have s2 : ∑ i ∈ Sᶜ, seen (fun _ => c + e) (fun _ => c) S i = Sᶜ.card * c := by
      rw [(sum_seen (fun _ => c + e) (fun _ => c) S (fun x => x)).2, Finset.sum_const, nsmul_eq_mul]
    rw [Finset.sum_sub_distrib, s2, ← Finset.mul_sum, ← Finset.mul_sum, hdev, mul_zero, zero_add, sum_compl, hdev]
    simp only [add_sub_cancel_left]
    rw [← Finset.mul_sum]
    refine (div_pos ?_ hm).ne'
    have : 0 ≤ e * (∑ i ∈ S, (x i - Spec.itemMean x)) / Spec.itemSumSq x * (∑ i ∈ S, (x i - Spec.itemMean x)) := by
      rw [div_mul_eq_mul_div, mul_assoc]
      exact div_nonneg (mul_nonneg he (mul_self_nonneg _)) hpos.le
    nlinarith [mul_pos hm hc]

/-- The hypotheses of `C114_cuped_no_effect_partial` hold for all positive values that are uncorrelated with the pretest values: the analysis returns for every assignment. -/
theorem cuped_null_returns (R : Rounding ℝ) (argsort : List ℝ → List ℕ) (D : TDist) (n : ℕ) (S : Finset (Fin n)) (y x : Fin n → ℝ)
    (hy : ∀ i, 0 < y i) (hx : Spec.itemSumSq x ≠ 0) (hxy : ∑ i, y i * (x i - Spec.itemMean x) = 0) (h1 : 2 ≤ S.card) (h0 : 2 ≤ Sᶜ.card) :
    ∃ r, analyzeSingleMetric R argsort D (trialTable n S ["test", "pretest"] (fun p => if p = "pretest" then x else y))
      ["clicks"] ["item_id", "treatment_assignment"] tenPercentParams "clicks" none "treatment_assignment" none = .ok r := by
  obtain ⟨val, hval⟩ : ∃ val : String → Fin n → ℝ, val = (fun p => if p = "pretest" then x else y) := ⟨_, rfl⟩
  rw [← hval]
  have v1 : val "test" = y := by rw [hval]; rfl
  have v2 : val "pretest" = x := by rw [hval]; rfl
  have hobs := trialTable_observed n S ["test", "pretest"] val "clicks" y y (by rw [v1]; funext i; unfold seen; rw [ite_self])
  have ht := trialTable_values n S ["test", "pretest"] val "clicks" "test"
  have hp := trialTable_values n S ["test", "pretest"] val "clicks" "pretest"
  have hn : 2 ≤ n := by
    have := Finset.card_le_univ S
    rw [Fintype.card_fin] at this
    omega
  rw [v1] at ht
  rw [v2] at hp
  obtain ⟨z, hz⟩ := cuped_zero_returns R argsort (f := y) hn hx
  rw [analyze_cuped_eq (by decide) (by unfold Spec.Reserved; decide) (by unfold Spec.Reserved; decide)
    (trialTable_keys _ _ _ _) (by simp [trialTable]) (by simp [trialTable]) rfl (by simp) (by simp [trialTable]) (by simp [trialTable]) ht hp hz]
  obtain ⟨-, hz'⟩ := cuped_zero_triples hz
  rw [sumSqDev_items, crossDev_items, mean_items, hxy] at hz'
  simp only [zero_div, zero_mul, sub_zero] at hz'
  rw [hz', (observed_groups _ (observed_index hobs).1 _).1, (observed_groups _ (observed_index hobs).1 _).2]
  refine indTest_zero_returns R argsort D ?_ ?_ ?_
  · rw [List.length_map, (sum_filter_range S x).2]; omega
  · rw [List.length_map, (sum_filter_range Sᶜ x).2]; omega
  · unfold Spec.mean
    rw [List.length_map, (sum_filter_range Sᶜ x).2, (sum_filter_range Sᶜ _).1]
    have hc : (0 : ℝ) < Sᶜ.card := by exact_mod_cast (by omega : 0 < Sᶜ.card)
    exact (div_pos (Finset.sum_pos (fun i _ => hy i) (Finset.card_pos.mp (by omega))) hc).ne'

/-- Values meeting the hypotheses of `cuped_null_returns`. -/
example : (∀ i, 0 < (![1, 2, 1, 2] : Fin 4 → ℝ) i) ∧ Spec.itemSumSq (![0, 0, 1, 1] : Fin 4 → ℝ) ≠ 0 ∧
    ∑ i, (![1, 2, 1, 2] : Fin 4 → ℝ) i * ((![0, 0, 1, 1] : Fin 4 → ℝ) i - Spec.itemMean (![0, 0, 1, 1] : Fin 4 → ℝ)) = 0 := by
  refine ⟨?_, ?_, ?_⟩
  · intro i
    fin_cases i <;> norm_num
  · norm_num [Spec.itemSumSq, Spec.itemMean, Fin.sum_univ_succ]
  · norm_num [Spec.itemMean, Fin.sum_univ_succ]

/-- **C113 is false with pretest values**: if all items have the same effect `e`, the average of the reported differences over all assignments is
`e (n - 2) / (n - 1)`, whatever the pretest values; all analyses return. -/
theorem C113_cuped_false (R : Rounding ℝ) (argsort : List ℝ → List ℕ) (ha : ArgsortOk argsort) (D : TDist) (n k : ℕ) (hk : 2 ≤ k) (hn : k + 2 ≤ n)
    (c e : ℝ) (hc : 0 < c) (he : 0 < e) (x : Fin n → ℝ) (hx : ∃ i j, x i ≠ x j) :
    ∃ (piv : Finset (Fin n) → Pivoted ℝ) (r : Finset (Fin n) → TestResult) (est : Finset (Fin n) → ℝ),
      (∀ S ∈ Spec.assignments n k, Spec.Observed (piv S) "clicks" (fun _ => c + e) (fun _ => c) S ∧ Cell.str "pretest" ∈ (piv S).periods ∧
        Spec.ValuesOf (piv S) "clicks" "pretest" ((List.finRange n).map x) ∧
        analyzeSingleMetric R argsort D (piv S) ["clicks"] ["item_id", "treatment_assignment"] tenPercentParams "clicks" none
          "treatment_assignment" none = .ok (r S) ∧ (r S).absoluteDifference = fin (est S)) ∧
      Spec.averageOver (Spec.assignments n k) est = e * ((n - 2) / (n - 1)) ∧ Spec.averageOver (Spec.assignments n k) est < e := by
  have hss : Spec.itemSumSq x ≠ 0 := by
    intro h0
    obtain ⟨i, j, hij⟩ := hx
    have hz := (Finset.sum_eq_zero_iff_of_nonneg (fun i _ => sq_nonneg _)).mp h0
    have hi := pow_eq_zero_iff (two_ne_zero) |>.mp (hz i (Finset.mem_univ i))
    have hj := pow_eq_zero_iff (two_ne_zero) |>.mp (hz j (Finset.mem_univ j))
    exact hij (by linarith)
  obtain ⟨piv, hpiv⟩ : ∃ piv : Finset (Fin n) → Pivoted ℝ,
      piv = fun S => trialTable n S ["test", "pretest"] (fun p => if p = "pretest" then x else seen (fun _ => c + e) (fun _ => c) S) := ⟨_, rfl⟩
  have hret : ∀ S ∈ Spec.assignments n k, ∃ r, analyzeSingleMetric R argsort D (piv S) ["clicks"] ["item_id", "treatment_assignment"]
      tenPercentParams "clicks" none "treatment_assignment" none = .ok r := by
    intro S hS
    have hc' := mem_assignments.mp hS
    rw [hpiv]
    exact cuped_trial_returns R argsort D n S c e hc he.le x hss (by omega) (by rw [Finset.card_compl, Fintype.card_fin]; omega)
  obtain ⟨S₀, hS₀⟩ := assignments_nonempty (show k ≤ n by omega)
  have hr : ∀ S : Finset (Fin n), ∃ r, S ∈ Spec.assignments n k → analyzeSingleMetric R argsort D (piv S) ["clicks"] ["item_id", "treatment_assignment"]
      tenPercentParams "clicks" none "treatment_assignment" none = .ok r := by
    intro S
    by_cases hS : S ∈ Spec.assignments n k
    · obtain ⟨r, hr⟩ := hret S hS
      exact ⟨r, fun _ => hr⟩
    · obtain ⟨r, -⟩ := hret S₀ hS₀
      exact ⟨r, fun h => absurd h hS⟩
  choose r hr using hr
  have hobs : ∀ S ∈ Spec.assignments n k, Spec.Observed (piv S) "clicks" (fun _ => c + e) (fun _ => c) S := by
    intro S _
    rw [hpiv]
    exact trialTable_observed _ _ _ _ _ _ _ rfl
  have hpre : ∀ S ∈ Spec.assignments n k, Cell.str "pretest" ∈ (piv S).periods ∧
      Spec.ValuesOf (piv S) "clicks" "pretest" ((List.finRange n).map x) := by
    intro S _
    rw [hpiv]
    exact ⟨by simp [trialTable], trialTable_values n S ["test", "pretest"] _ "clicks" "pretest"⟩
  obtain ⟨est, h1, h2, -⟩ := C113_cuped_partial R argsort ha D ["clicks"] "item_id" "treatment_assignment" (by decide)
    (by unfold Spec.Reserved; decide) (by unfold Spec.Reserved; decide) tenPercentParams rfl "clicks" none rfl n k (by omega) _ _ x piv hobs hpre hx r hr
  have hn' : (4 : ℝ) ≤ n := by exact_mod_cast (by omega : 4 ≤ n)
  have hav : Spec.averageOver (Spec.assignments n k) est = e * ((n - 2) / (n - 1)) := by
    rw [h2]
    simp only [add_sub_cancel_left]
    rw [← Finset.mul_sum, mul_div_assoc, show (∑ i, (x i - Spec.itemMean x) ^ 2) = Spec.itemSumSq x from rfl, div_self hss]
    unfold Spec.itemMean
    rw [Finset.sum_const, Finset.card_univ, Fintype.card_fin, nsmul_eq_mul]
    have : (n : ℝ) ≠ 0 := by linarith
    have : (n : ℝ) - 1 ≠ 0 := by linarith
    field_simp
    ring
  refine ⟨piv, r, est, fun S hS => ⟨hobs S hS, (hpre S hS).1, (hpre S hS).2, hr S hS, h1 S hS⟩, hav, ?_⟩
  rw [hav]
  have : ((n : ℝ) - 2) / (n - 1) < 1 := by
    rw [div_lt_one (by linarith)]
    linarith
  nlinarith

end Feedx
