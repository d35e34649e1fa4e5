import Verif.Props.RandomisationCuped

/-!
Properties C113 and C114 for crossover experiments.
-/

set_option linter.unusedSectionVars false

namespace Feedx
open Fl

variable {n k : ℕ}

theorem observed_items {piv : Pivoted ℝ} {metric : String} {a1 b1 a2 b2 : Fin n → ℝ} {S : Finset (Fin n)}
    (h : Spec.ObservedCrossover piv metric a1 b1 a2 b2 S) {items : List Spec.CrossoverItem} (hi : Spec.CrossoverItems piv metric items) :
    items = (List.finRange n).map (fun i => (⟨i ∈ S, seen a1 b1 S i, seen b2 a2 S i⟩ : Spec.CrossoverItem)) := by
  unfold Spec.ObservedCrossover at h
  unfold Spec.CrossoverItems at hi
  generalize List.finRange n = l at h
  generalize piv.index = idx at h hi
  induction h generalizing items with
  | nil => cases hi; rfl
  | @cons k i idx l hk _ ih =>
    rcases hi with _ | ⟨hx, hi⟩
    rename_i it items
    rw [ih hi, List.map_cons]
    congr 1
    obtain ⟨t, f, s⟩ := it
    obtain ⟨x1, x2, x3⟩ := hx
    dsimp only at x1 x2 x3
    unfold seen
    by_cases h : i ∈ S
    · obtain ⟨k1, k2, k3⟩ := hk.1 h
      rw [k2] at x2
      rw [k3] at x3
      rw [if_pos h, if_pos h, Fl.fin.inj x2, Fl.fin.inj x3, show t = (i ∈ S) from propext ⟨fun _ => h, fun _ => x1.mpr k1⟩]
    · obtain ⟨k1, k2, k3⟩ := hk.2 h
      rw [k2] at x2
      rw [k3] at x3
      have : ¬ t := fun ht => by
        have := assigned_unique (x1.mp ht) k1
        norm_num at this
      rw [if_neg h, if_neg h, Fl.fin.inj x2, Fl.fin.inj x3, show t = (i ∈ S) from propext ⟨fun ht => absurd ht this, fun hi => absurd hi h⟩]

theorem observed_crossover_keys {piv : Pivoted ℝ} {metric : String} {a1 b1 a2 b2 : Fin n → ℝ} {S : Finset (Fin n)}
    (h : Spec.ObservedCrossover piv metric a1 b1 a2 b2 S) : ∀ k ∈ piv.index, k.length = 2 := by
  unfold Spec.ObservedCrossover at h
  generalize List.finRange n = l at h
  generalize piv.index = idx at h
  induction h with
  | nil => simp
  | @cons k i idx l hk _ ih =>
    intro k' hk'
    rcases List.mem_cons.mp hk' with rfl | hk'
    · by_cases hi : i ∈ S
      · obtain ⟨a, b, e, -⟩ := (hk.1 hi).1
        rw [e]; rfl
      · obtain ⟨a, b, e, -⟩ := (hk.2 hi).1
        rw [e]; rfl
    · exact ih _ hk'

/-- A sum over the items with a sign by group. -/
theorem sum_signed (S : Finset (Fin n)) (f g : Fin n → ℝ) : ∑ i, (if i ∈ S then f i else g i) = ∑ i ∈ S, f i + ∑ i ∈ Sᶜ, g i := by
  rw [← Finset.sum_add_sum_compl S]
  congr 1
  · exact Finset.sum_congr rfl fun i hi => if_pos hi
  · exact Finset.sum_congr rfl fun i hi => if_neg (Finset.mem_compl.mp hi)

/-- Estimate and standard error of one assignment of a crossover, without trimming; `p` and `q` are the differences of the treated and the untreated
values of the items treated first and second. -/
theorem crossover_trial {R : Rounding ℝ} {argsort : List ℝ → List ℕ} (ha : ArgsortOk argsort) {D : TDist} {piv : Pivoted ℝ}
    {metrics : List String} {itemCol treatmentCol : String} (hne : itemCol ≠ treatmentCol) (hi : ¬ Spec.Reserved itemCol) (ht : ¬ Spec.Reserved treatmentCol)
    {d : DesignParams ℝ} (hd : d.isCrossover = true) {metric : String} {override : Option ℝ} (hq : override.getD d.postTrim.val = 0)
    {a1 b1 a2 b2 : Fin n → ℝ} {S : Finset (Fin n)} (hobs : Spec.ObservedCrossover piv metric a1 b1 a2 b2 S) {r : TestResult}
    (h : analyzeSingleMetric R argsort D piv metrics [itemCol, treatmentCol] d metric none treatmentCol override = .ok r) :
    ∃ δ est : ℝ, δ = (∑ i ∈ S, (a1 i - b2 i) - ∑ i ∈ Sᶜ, (a2 i - b1 i)) / n ∧
      est = (∑ i ∈ S, (a1 i - b2 i) + ∑ i ∈ Sᶜ, (a2 i - b1 i) - (2 * (S.card : ℝ) - n) * δ) / n ∧
      r.absoluteDifference = fin est ∧
      r.standardError = fin (Real.sqrt ((∑ i ∈ S, (a1 i - b2 i) ^ 2 + ∑ i ∈ Sᶜ, (a2 i - b1 i) ^ 2 - n * δ ^ 2 - n * est ^ 2) / (n * (n - 1)))) ∧
      2 ≤ n := by
  obtain ⟨items, v1, v2, _s, hit, -, harr, hr⟩ := C38_crossover_pairs_stored R argsort D piv metrics itemCol treatmentCol hne hi ht (observed_crossover_keys hobs)
    d hd metric override r h
  obtain ⟨m1, m2, c, hm1, hm2, rfl, rfl, -⟩ := harr.2 hq
  rw [hq] at hr
  have hitems := observed_items hobs hit
  have hlen : items.length = n := by rw [hitems]; simp
  have hn2 : 2 ≤ n := by
    rcases pairedTest_ok hr with ⟨x1, -, h0, -⟩ | ⟨-, -, T, h1, l1, -⟩
    · cases h0
    rw [mkTrimmed_zero] at h1
    cases h1
    unfold TrimmedArray.len at l1
    simp [stack3, hlen] at l1
    omega
  obtain ⟨g, kept, ss, hg, -, hY, had, -, -, hse, -⟩ := C83_paired_test_reports R argsort ha D _ _ _ _ _ _ hr
  have hz : ⌊R.rnd (0 : ℝ)⌋ = 0 := by
    have := R.intFix 0 (by norm_num)
    rw [show (0 : ℝ) = ((0 : ℤ) : ℝ) by simp, this]
    simp
  rw [zero_mul, hz] at hg
  obtain rfl : g = 0 := by exact_mod_cast hg
  obtain ⟨e1, e2, e3, -⟩ := yuenSummary_zero hY
  have hzip : List.zipWith (· - ·) (items.map (fun i => i.treated m1 m2 + c)) (items.map (fun i => i.untreated m1 m2 + c)) =
      (List.finRange n).map (fun i => if i ∈ S then a1 i - b2 i - (m1 - m2) else a2 i - b1 i + (m1 - m2)) := by
    rw [hitems, List.zipWith_map_left, List.zipWith_map_right, List.zipWith_self, List.map_map]
    refine List.map_congr_left fun i _ => ?_
    unfold Spec.CrossoverItem.treated Spec.CrossoverItem.untreated seen
    by_cases hi : i ∈ S <;> simp [hi] <;> ring
  have hn0 : (n : ℝ) ≠ 0 := by exact_mod_cast (by omega : n ≠ 0)
  have hδ : m1 - m2 = (∑ i ∈ S, (a1 i - b2 i) - ∑ i ∈ Sᶜ, (a2 i - b1 i)) / n := by
    rw [hm1, hm2, hitems, List.map_map, List.map_map]
    show Spec.mean ((List.finRange n).map (seen a1 b1 S)) - Spec.mean ((List.finRange n).map (seen b2 a2 S)) = _
    rw [mean_items, mean_items]
    unfold Spec.itemMean
    rw [div_sub_div_same, ← Finset.sum_sub_distrib]
    congr 1
    rw [show (fun i => seen a1 b1 S i - seen b2 a2 S i) = fun i => if i ∈ S then a1 i - b2 i else -(a2 i - b1 i) from ?_, sum_signed,
      Finset.sum_neg_distrib, ← sub_eq_add_neg]
    funext i
    unfold seen
    by_cases hi : i ∈ S <;> simp [hi]
  obtain ⟨δ, hδ'⟩ : ∃ δ, δ = m1 - m2 := ⟨_, rfl⟩
  rw [← hδ'] at hzip hδ
  have hcc : (Sᶜ.card : ℝ) = n - S.card := by
    have h1 := Finset.card_compl S
    have h2 := Finset.card_le_univ S
    rw [Fintype.card_fin] at h1 h2
    rw [h1, Nat.cast_sub h2]
  rw [hzip] at e1 e2 e3
  rw [mean_items] at e2
  rw [sumSqDev_eq_sq, mean_items, List.map_map, List.length_map, List.length_finRange] at e3
  rw [List.length_map, List.length_finRange] at e1
  have hest : Spec.itemMean (fun i => if i ∈ S then a1 i - b2 i - δ else a2 i - b1 i + δ) =
      (∑ i ∈ S, (a1 i - b2 i) + ∑ i ∈ Sᶜ, (a2 i - b1 i) - (2 * (S.card : ℝ) - n) * δ) / n := by
    unfold Spec.itemMean
    rw [sum_signed, Finset.sum_sub_distrib, Finset.sum_add_distrib, Finset.sum_const, Finset.sum_const, nsmul_eq_mul, nsmul_eq_mul, hcc]
    congr 1
    ring
  rw [e2] at had
  refine ⟨δ, _, hδ, hest, had, ?_, hn2⟩
  rw [hse, e1]
  unfold Spec.yuenVar
  congr 3
  rw [e3]
  congr 1
  show ((List.finRange n).map (fun i => (if i ∈ S then a1 i - b2 i - δ else a2 i - b1 i + δ) ^ 2)).sum = _
  rw [sum_range, show (fun i => (if i ∈ S then a1 i - b2 i - δ else a2 i - b1 i + δ) ^ 2) =
    fun i => if i ∈ S then (a1 i - b2 i) ^ 2 - 2 * δ * (a1 i - b2 i) + δ ^ 2 else (a2 i - b1 i) ^ 2 + 2 * δ * (a2 i - b1 i) + δ ^ 2 from ?_, sum_signed]
  · simp only [Finset.sum_add_distrib, Finset.sum_sub_distrib, ← Finset.mul_sum, Finset.sum_const, nsmul_eq_mul, hcc]
    have : ∑ i ∈ S, a1 i - ∑ i ∈ S, b2 i - (∑ i ∈ Sᶜ, a2 i - ∑ i ∈ Sᶜ, b1 i) = n * δ := by
      rw [hδ]
      simp only [Finset.sum_sub_distrib]
      field_simp
    linear_combination (-2 * δ) * this
  · funext i
    by_cases hi : i ∈ S <;> simp [hi] <;> ring

/-- **C113, crossover experiments without trimming**: averaged over all ways to treat `k` of the `n` items first, the reported difference is the average effect
(of both periods) times `4 k (n - k) / n²`: the average effect if and only if the groups have the same size or there is no effect on average. -/
theorem C113_crossover_partial (R : Rounding ℝ) (argsort : List ℝ → List ℕ) (ha : ArgsortOk argsort) (D : TDist)
    (metrics : List String) (itemCol treatmentCol : String) (hne : itemCol ≠ treatmentCol) (hi : ¬ Spec.Reserved itemCol) (ht : ¬ Spec.Reserved treatmentCol)
    (d : DesignParams ℝ) (hd : d.isCrossover = true) (metric : String) (override : Option ℝ) (hq : override.getD d.postTrim.val = 0)
    (n k : ℕ) (hk : k ≤ n) (a1 b1 a2 b2 : Fin n → ℝ) (piv : Finset (Fin n) → Pivoted ℝ)
    (hobs : ∀ S ∈ Spec.assignments n k, Spec.ObservedCrossover (piv S) metric a1 b1 a2 b2 S) (r : Finset (Fin n) → TestResult)
    (h : ∀ S ∈ Spec.assignments n k,
      analyzeSingleMetric R argsort D (piv S) metrics [itemCol, treatmentCol] d metric none treatmentCol override = .ok (r S)) :
    ∃ est : Finset (Fin n) → ℝ, (∀ S ∈ Spec.assignments n k, (r S).absoluteDifference = fin (est S)) ∧
      Spec.averageOver (Spec.assignments n k) est =
        4 * k * (n - k) / (n : ℝ) ^ 2 * Spec.itemMean (fun i => ((a1 i - b1 i) + (a2 i - b2 i)) / 2) ∧
      (Spec.averageOver (Spec.assignments n k) est = Spec.itemMean (fun i => ((a1 i - b1 i) + (a2 i - b2 i)) / 2) ↔
        n = 2 * k ∨ Spec.itemMean (fun i => ((a1 i - b1 i) + (a2 i - b2 i)) / 2) = 0) := by
  have key := fun S hS => crossover_trial ha hne hi ht hd hq (hobs S hS) (h S hS)
  obtain ⟨S₀, hS₀⟩ := assignments_nonempty hk
  obtain ⟨-, -, -, -, -, -, n2⟩ := key S₀ hS₀
  have hn0 : (n : ℝ) ≠ 0 := by exact_mod_cast (by omega : n ≠ 0)
  have hav : Spec.averageOver (Spec.assignments n k) (fun S =>
      (∑ i ∈ S, (a1 i - b2 i) + ∑ i ∈ Sᶜ, (a2 i - b1 i) - (2 * (S.card : ℝ) - n) * ((∑ i ∈ S, (a1 i - b2 i) - ∑ i ∈ Sᶜ, (a2 i - b1 i)) / n)) / n) =
      4 * k * (n - k) / (n : ℝ) ^ 2 * Spec.itemMean (fun i => ((a1 i - b1 i) + (a2 i - b2 i)) / 2) := by
    by_cases hk1 : 1 ≤ k
    · rw [average_crossover hk1 hk]
      congr 2
      funext i
      ring
    · obtain rfl : k = 0 := by omega
      rw [average_congr (g := fun _ => (0 : ℝ)), average_const (assignments_nonempty hk)]
      · simp
      · intro S hS
        have : S = ∅ := Finset.card_eq_zero.mp (mem_assignments.mp hS)
        subst this
        simp only [Finset.sum_empty, Finset.compl_empty, Finset.card_empty, Nat.cast_zero, mul_zero, zero_sub, zero_add]
        field_simp
        ring
  refine ⟨_, fun S hS => ?_, hav, ?_⟩
  · obtain ⟨δ, est, h1, h2, h3, -⟩ := key S hS
    rw [h3, h2, h1]
  · rw [hav, mul_left_eq_self₀]
    refine or_congr_left ?_
    rw [div_eq_one_iff_eq (pow_ne_zero _ hn0)]
    constructor
    · intro h
      have h' : ((n : ℝ) - 2 * k) ^ 2 = 0 := by linear_combination -h
      have := pow_eq_zero_iff (two_ne_zero) |>.mp h'
      exact_mod_cast (by linarith : (n : ℝ) = 2 * k)
    · intro h
      have : (n : ℝ) = 2 * k := by exact_mod_cast h
      rw [this]
      ring

/-- **C114, crossover experiments with equal groups, without trimming**: averaged over all ways to treat half of the items first, the squared standard
error reported is `(n - 2) / (n - 1)` of the mean squared error of the reported difference plus the spread of the effects. -/
theorem C114_crossover_partial (R : Rounding ℝ) (argsort : List ℝ → List ℕ) (ha : ArgsortOk argsort) (D : TDist)
    (metrics : List String) (itemCol treatmentCol : String) (hne : itemCol ≠ treatmentCol) (hi : ¬ Spec.Reserved itemCol) (ht : ¬ Spec.Reserved treatmentCol)
    (d : DesignParams ℝ) (hd : d.isCrossover = true) (metric : String) (override : Option ℝ) (hq : override.getD d.postTrim.val = 0)
    (n k : ℕ) (hk : 2 ≤ k) (hn : n = 2 * k) (a1 b1 a2 b2 : Fin n → ℝ) (piv : Finset (Fin n) → Pivoted ℝ)
    (hobs : ∀ S ∈ Spec.assignments n k, Spec.ObservedCrossover (piv S) metric a1 b1 a2 b2 S) (r : Finset (Fin n) → TestResult)
    (h : ∀ S ∈ Spec.assignments n k,
      analyzeSingleMetric R argsort D (piv S) metrics [itemCol, treatmentCol] d metric none treatmentCol override = .ok (r S)) :
    ∃ est se : Finset (Fin n) → ℝ,
      (∀ S ∈ Spec.assignments n k, (r S).absoluteDifference = fin (est S) ∧ (r S).standardError = fin (se S)) ∧
      Spec.averageOver (Spec.assignments n k) (fun S => se S ^ 2) =
        ((n : ℝ) - 2) / (n - 1) *
          (Spec.averageOver (Spec.assignments n k) (fun S => (est S - Spec.itemMean (fun i => ((a1 i - b1 i) + (a2 i - b2 i)) / 2)) ^ 2) +
            Spec.itemSumSq (fun i => ((a1 i - b1 i) + (a2 i - b2 i)) / 2) / (n * (n - 1))) := by
  have key := fun S hS => crossover_trial ha hne hi ht hd hq (hobs S hS) (h S hS)
  have hk' : (2 : ℝ) ≤ k := by exact_mod_cast hk
  have hn' : (n : ℝ) = 2 * k := by exact_mod_cast hn
  have hn0 : (n : ℝ) ≠ 0 := by linarith
  have hn1 : (n : ℝ) - 1 ≠ 0 := by linarith
  have hk0 : (k : ℝ) ≠ 0 := by linarith
  have hm := neyman_crossover hk hn (fun i => a1 i - b2 i) (fun i => a2 i - b1 i)
  have hmean : (fun i => ((a1 i - b2 i) + (a2 i - b1 i)) / 2) = fun i => ((a1 i - b1 i) + (a2 i - b2 i)) / 2 := by
    funext i
    ring
  rw [hmean] at hm
  refine ⟨fun S => (∑ i ∈ S, (a1 i - b2 i) + ∑ i ∈ Sᶜ, (a2 i - b1 i)) / n, fun S => Real.sqrt (((∑ i ∈ S, (a1 i - b2 i) ^ 2) - (∑ i ∈ S, (a1 i - b2 i)) ^ 2 / S.card +
    ((∑ i ∈ Sᶜ, (a2 i - b1 i) ^ 2) - (∑ i ∈ Sᶜ, (a2 i - b1 i)) ^ 2 / Sᶜ.card)) / (n * (n - 1))), fun S hS => ?_, ?_⟩
  · obtain ⟨δ, est, h1, h2, h3, h4, -⟩ := key S hS
    have hc := mem_assignments.mp hS
    have hcc : Sᶜ.card = k := by
      rw [Finset.card_compl, Fintype.card_fin, hc]
      omega
    rw [hc, ← hn', sub_self, zero_mul, sub_zero] at h2
    refine ⟨by rw [h3, h2], ?_⟩
    rw [h4]
    congr 3
    rw [hcc, hc, h1, h2, hn']
    field_simp
    ring
  · rw [← hm]
    refine average_congr fun S hS => Real.sq_sqrt ?_
    have hc := mem_assignments.mp hS
    have hcc : Sᶜ.card = k := by
      rw [Finset.card_compl, Fintype.card_fin, hc]
      omega
    have nn : ∀ (T : Finset (Fin n)) (f : Fin n → ℝ), T.card = k → 0 ≤ (∑ i ∈ T, f i ^ 2) - (∑ i ∈ T, f i) ^ 2 / T.card := by
      intro T f hT
      have h0 : (T.card : ℝ) ≠ 0 := by rw [hT]; exact hk0
      rw [sum_sq_dev_on T h0 f ((∑ i ∈ T, f i) / T.card)]
      have : ∑ i ∈ T, (f i - (∑ i ∈ T, f i) / T.card) = 0 := by
        rw [Finset.sum_sub_distrib, Finset.sum_const, nsmul_eq_mul]
        field_simp
        ring
      rw [this]
      simp only [ne_eq, OfNat.ofNat_ne_zero, not_false_eq_true, zero_pow, zero_div, sub_zero]
      exact Finset.sum_nonneg fun i _ => sq_nonneg _
    exact div_nonneg (add_nonneg (nn S _ hc) (nn Sᶜ _ hcc)) (by nlinarith)

/-! ### Concrete experiments -/

/-- The table of a crossover experiment with `S` treated first. -/
noncomputable def crossoverTrial (n : ℕ) (a1 b1 a2 b2 : Fin n → ℝ) (S : Finset (Fin n)) : Pivoted ℝ :=
  trialTable n S ["test_1", "test_2"] (fun p => if p = "test_1" then seen a1 b1 S else seen b2 a2 S)

theorem crossoverTrial_observed (n : ℕ) (a1 b1 a2 b2 : Fin n → ℝ) (S : Finset (Fin n)) (m : String) :
    Spec.ObservedCrossover (crossoverTrial n a1 b1 a2 b2 S) m a1 b1 a2 b2 S := by
  refine trialTable_forall _ _ _ _ _ fun i => ?_
  have h1 := trialTable_value n S ["test_1", "test_2"] (fun p => if p = "test_1" then seen a1 b1 S else seen b2 a2 S) m "test_1" i
  have h2 := trialTable_value n S ["test_1", "test_2"] (fun p => if p = "test_1" then seen a1 b1 S else seen b2 a2 S) m "test_2" i
  simp only [if_true, show ("test_2" = "test_1") ↔ False by decide, if_false] at h1 h2
  unfold crossoverTrial
  constructor <;> intro h
  · exact ⟨(trialTable_assigned n S i).1 h, by rw [h1, seen, if_pos h], by rw [h2, seen, if_pos h]⟩
  · exact ⟨(trialTable_assigned n S i).2 h, by rw [h1, seen, if_neg h], by rw [h2, seen, if_neg h]⟩

theorem crossoverTrial_returns (R : Rounding ℝ) (argsort : List ℝ → List ℕ) (ha : ArgsortOk argsort) (D : TDist) (n : ℕ) (hn : 2 ≤ n) (a1 b1 a2 b2 : Fin n → ℝ) :
    ∃ r : Finset (Fin n) → TestResult, ∀ S, analyzeSingleMetric R argsort D (crossoverTrial n a1 b1 a2 b2 S) ["clicks"] ["item_id", "treatment_assignment"]
      (untrimmedParams true) "clicks" none "treatment_assignment" none = .ok (r S) := by
  have hr : ∀ S : Finset (Fin n), ∃ r, analyzeSingleMetric R argsort D (crossoverTrial n a1 b1 a2 b2 S) ["clicks"] ["item_id", "treatment_assignment"]
      (untrimmedParams true) "clicks" none "treatment_assignment" none = .ok r := by
    intro S
    have hz : nTrimOf R (untrimmedParams true).postTrim.val (crossoverTrial n a1 b1 a2 b2 S).index.length = 0 := by
      have := R.intFix 0 (by norm_num)
      show nTrimOf R (0 : ℝ) _ = 0
      unfold nTrimOf Rounding.floorMul
      simp only [zero_mul]
      rw [show (0 : ℝ) = ((0 : ℤ) : ℝ) by simp, this]; simp
    exact analyze_crossover_returns ha (by decide) (by unfold Spec.Reserved; decide) (by unfold Spec.Reserved; decide)
      (trialTable_keys n S ["test_1", "test_2"] _) (by simp [trialTable]) (by simp [trialTable]) rfl (by simp)
      (by simp [trialTable]) (by simp [trialTable])
      (trialTable_values n S _ _ "clicks" "test_1") (trialTable_values n S _ _ "clicks" "test_2")
      (by simp [trialTable]; omega) (le_refl (0 : ℝ)) (show (0 : ℝ) < 1 / 2 by norm_num) hz
  choose r hr using hr
  exact ⟨r, hr⟩

/-- **C113 is false for crossovers with groups of different sizes**, for all values of the items with an effect on average: all analyses return and the
average of the reported differences is closer to 0 than the average effect. -/
theorem C113_crossover_false (R : Rounding ℝ) (argsort : List ℝ → List ℕ) (ha : ArgsortOk argsort) (D : TDist) (n k : ℕ) (hn : 2 ≤ n) (hk : k ≤ n) (hne : n ≠ 2 * k)
    (a1 b1 a2 b2 : Fin n → ℝ) (he : Spec.itemMean (fun i => ((a1 i - b1 i) + (a2 i - b2 i)) / 2) ≠ 0) :
    ∃ (piv : Finset (Fin n) → Pivoted ℝ) (r : Finset (Fin n) → TestResult) (est : Finset (Fin n) → ℝ),
      (∀ S ∈ Spec.assignments n k, Spec.ObservedCrossover (piv S) "clicks" a1 b1 a2 b2 S ∧
        analyzeSingleMetric R argsort D (piv S) ["clicks"] ["item_id", "treatment_assignment"] (untrimmedParams true) "clicks" none
          "treatment_assignment" none = .ok (r S) ∧ (r S).absoluteDifference = fin (est S)) ∧
      |Spec.averageOver (Spec.assignments n k) est| < |Spec.itemMean (fun i => ((a1 i - b1 i) + (a2 i - b2 i)) / 2)| := by
  obtain ⟨r, hr⟩ := crossoverTrial_returns R argsort ha D n hn a1 b1 a2 b2
  obtain ⟨est, h1, h2, h3⟩ := C113_crossover_partial R argsort ha D ["clicks"] "item_id" "treatment_assignment" (by decide)
    (by unfold Spec.Reserved; decide) (by unfold Spec.Reserved; decide) (untrimmedParams true) rfl "clicks" none rfl n k hk a1 b1 a2 b2
    (crossoverTrial n a1 b1 a2 b2) (fun S _ => crossoverTrial_observed n a1 b1 a2 b2 S "clicks") r (fun S _ => hr S)
  refine ⟨_, r, est, fun S hS => ⟨crossoverTrial_observed n a1 b1 a2 b2 S "clicks", hr S, h1 S hS⟩, ?_⟩
  have hn' : (2 : ℝ) ≤ n := by exact_mod_cast hn
  have hk' : (k : ℝ) ≤ n := by exact_mod_cast hk
  have hk0 : (0 : ℝ) ≤ k := by positivity
  have hne' : (n : ℝ) - 2 * k ≠ 0 := by
    intro h0
    exact hne (by exact_mod_cast (by linarith : (n : ℝ) = 2 * k))
  have hsq : 0 < ((n : ℝ) - 2 * k) ^ 2 := by positivity
  rw [h2, abs_mul]
  have hf : |4 * (k : ℝ) * (n - k) / (n : ℝ) ^ 2| < 1 := by
    rw [abs_of_nonneg (div_nonneg (mul_nonneg (by linarith) (by linarith)) (by positivity)), div_lt_one (by positivity)]
    nlinarith
  exact mul_lt_of_lt_one_left (abs_pos.mpr he) hf

/-- The mean squared error of the reported difference of a crossover with equal groups. -/
theorem crossover_mse (hk : 1 ≤ k) (hn : n = 2 * k) (p q : Fin n → ℝ) :
    Spec.averageOver (Spec.assignments n k) (fun S => ((∑ i ∈ S, p i + ∑ i ∈ Sᶜ, q i) / n - Spec.itemMean (fun i => (p i + q i) / 2)) ^ 2) =
      1 / 4 * ((k : ℝ) * (n - k) / (n * (n - 1)) * Spec.itemSumSq (fun i => 1 / (k : ℝ) * p i + 1 / ((n : ℝ) - k) * -q i)) := by
  have hk' : (1 : ℝ) ≤ k := by exact_mod_cast hk
  have hn' : (n : ℝ) = 2 * k := by exact_mod_cast hn
  have e1 : (k : ℝ) ≠ 0 := by linarith
  have hm : Spec.itemMean (fun i => (p i + q i) / 2) = Spec.itemMean (fun i => p i - -q i) / 2 := by
    rw [show (fun i => (p i + q i) / 2) = fun i => 1 / 2 * (p i - -q i) by funext i; ring, itemMean_mul]
    ring
  rw [← average_difference_sq hk (by omega) p (fun i => -q i), ← average_mul_left]
  refine average_congr fun S hS => ?_
  obtain ⟨c1, c2⟩ := card_of_assigned hS
  rw [c1, c2, hm, Finset.sum_neg_distrib, hn']
  rw [show (2 * (k : ℝ) - k) = k by ring]
  field_simp
  ring

/-- **C114 is false for crossovers**: with equal groups and the same effect `e` for all items in both periods, the reported standard error is on average too small
(all analyses return), whenever the items change differently from the first to the second period. -/
theorem C114_crossover_false (R : Rounding ℝ) (argsort : List ℝ → List ℕ) (ha : ArgsortOk argsort) (D : TDist) (n k : ℕ) (hk : 2 ≤ k) (hn : n = 2 * k)
    (b1 b2 : Fin n → ℝ) (e : ℝ) (hb : ∃ i j, b1 i - b2 i ≠ b1 j - b2 j) :
    ∃ (piv : Finset (Fin n) → Pivoted ℝ) (r : Finset (Fin n) → TestResult) (est se : Finset (Fin n) → ℝ),
      (∀ S ∈ Spec.assignments n k, Spec.ObservedCrossover (piv S) "clicks" (fun i => b1 i + e) b1 (fun i => b2 i + e) b2 S ∧
        analyzeSingleMetric R argsort D (piv S) ["clicks"] ["item_id", "treatment_assignment"] (untrimmedParams true) "clicks" none
          "treatment_assignment" none = .ok (r S) ∧ (r S).absoluteDifference = fin (est S) ∧ (r S).standardError = fin (se S)) ∧
      Spec.averageOver (Spec.assignments n k) (fun S => se S ^ 2) < Spec.averageOver (Spec.assignments n k) (fun S => (est S - e) ^ 2) := by
  obtain ⟨r, hr⟩ := crossoverTrial_returns R argsort ha D n (by omega) (fun i => b1 i + e) b1 (fun i => b2 i + e) b2
  have hobs := fun S => crossoverTrial_observed n (fun i => b1 i + e) b1 (fun i => b2 i + e) b2 S "clicks"
  obtain ⟨est, se, h1, h2⟩ := C114_crossover_partial R argsort ha D ["clicks"] "item_id" "treatment_assignment" (by decide)
    (by unfold Spec.Reserved; decide) (by unfold Spec.Reserved; decide) (untrimmedParams true) rfl "clicks" none rfl n k hk hn
    (fun i => b1 i + e) b1 (fun i => b2 i + e) b2 _ (fun S _ => hobs S) r (fun S _ => hr S)
  refine ⟨_, r, est, se, fun S hS => ⟨hobs S, hr S, h1 S hS⟩, ?_⟩
  have hk' : (2 : ℝ) ≤ k := by exact_mod_cast hk
  have hn' : (n : ℝ) = 2 * k := by exact_mod_cast hn
  have hn0 : (n : ℝ) ≠ 0 := by linarith
  have hk0 : (k : ℝ) ≠ 0 := by linarith
  have hconst : (fun i : Fin n => ((b1 i + e - b1 i) + (b2 i + e - b2 i)) / 2) = fun _ => e := by
    funext i
    ring
  have hmean : Spec.itemMean (fun _ : Fin n => e) = e := by
    unfold Spec.itemMean
    rw [Finset.sum_const, Finset.card_univ, Fintype.card_fin, nsmul_eq_mul]
    field_simp
  have hss : Spec.itemSumSq (fun _ : Fin n => e) = 0 := by
    unfold Spec.itemSumSq
    rw [hmean]
    simp
  rw [hconst, hmean, hss, zero_div, add_zero] at h2
  have hpos : 0 < Spec.averageOver (Spec.assignments n k) (fun S => (est S - e) ^ 2) := by
    have hest : ∀ S ∈ Spec.assignments n k, est S = (∑ i ∈ S, (b1 i + e - b2 i) + ∑ i ∈ Sᶜ, (b2 i + e - b1 i)) / n := by
      intro S hS
      obtain ⟨δ, est', -, g2, g3, -⟩ := crossover_trial ha (by decide) (by unfold Spec.Reserved; decide) (by unfold Spec.Reserved; decide) rfl rfl (hobs S) (hr S)
      rw [(h1 S hS).1] at g3
      rw [Fl.fin.inj g3, g2, mem_assignments.mp hS, ← hn', sub_self, zero_mul, sub_zero]
    have := crossover_mse (show 1 ≤ k by omega) hn (fun i => b1 i + e - b2 i) (fun i => b2 i + e - b1 i)
    rw [show (fun i : Fin n => (b1 i + e - b2 i + (b2 i + e - b1 i)) / 2) = fun _ => e by funext i; ring, hmean] at this
    rw [average_congr (g := fun S => ((∑ i ∈ S, (b1 i + e - b2 i) + ∑ i ∈ Sᶜ, (b2 i + e - b1 i)) / n - e) ^ 2) (fun S hS => by rw [hest S hS]), this]
    have hnk : (0 : ℝ) < n - k := by linarith
    refine mul_pos (by norm_num) (mul_pos (div_pos (mul_pos (by linarith) hnk) (by nlinarith)) ?_)
    refine lt_of_le_of_ne (Finset.sum_nonneg fun i _ => sq_nonneg _) fun h0 => ?_
    obtain ⟨i, j, hij⟩ := hb
    have hz := (Finset.sum_eq_zero_iff_of_nonneg (fun i _ => sq_nonneg _)).mp h0.symm
    have hi := pow_eq_zero_iff (two_ne_zero) |>.mp (hz i (Finset.mem_univ i))
    have hj := pow_eq_zero_iff (two_ne_zero) |>.mp (hz j (Finset.mem_univ j))
    have hd : 1 / (k : ℝ) * (b1 i + e - b2 i) + 1 / ((n : ℝ) - k) * -(b2 i + e - b1 i) =
        1 / (k : ℝ) * (b1 j + e - b2 j) + 1 / ((n : ℝ) - k) * -(b2 j + e - b1 j) := by linarith
    rw [show (n : ℝ) - k = k by rw [hn']; ring] at hd
    apply hij
    field_simp at hd
    linarith
  rw [h2]
  refine mul_lt_of_lt_one_left hpos ?_
  rw [div_lt_one (by linarith)]
  linarith

/-- The hypotheses of `C113_crossover_partial` hold for all values of the items: the analysis of `crossoverTrial` returns for every assignment; with equal groups
the average of the reported differences is the average effect. -/
example (R : Rounding ℝ) (argsort : List ℝ → List ℕ) (ha : ArgsortOk argsort) (D : TDist) (k : ℕ) (hk : 1 ≤ k) (a1 b1 a2 b2 : Fin (2 * k) → ℝ) :
    ∃ (r : Finset (Fin (2 * k)) → TestResult) (est : Finset (Fin (2 * k)) → ℝ),
      (∀ S ∈ Spec.assignments (2 * k) k, analyzeSingleMetric R argsort D (crossoverTrial (2 * k) a1 b1 a2 b2 S) ["clicks"] ["item_id", "treatment_assignment"]
        (untrimmedParams true) "clicks" none "treatment_assignment" none = .ok (r S) ∧ (r S).absoluteDifference = fin (est S)) ∧
      Spec.averageOver (Spec.assignments (2 * k) k) est = Spec.itemMean (fun i => ((a1 i - b1 i) + (a2 i - b2 i)) / 2) := by
  obtain ⟨r, hr⟩ := crossoverTrial_returns R argsort ha D (2 * k) (by omega) a1 b1 a2 b2
  obtain ⟨est, h1, -, h3⟩ := C113_crossover_partial R argsort ha D ["clicks"] "item_id" "treatment_assignment" (by decide)
    (by unfold Spec.Reserved; decide) (by unfold Spec.Reserved; decide) (untrimmedParams true) rfl "clicks" none rfl (2 * k) k (by omega) a1 b1 a2 b2
    (crossoverTrial (2 * k) a1 b1 a2 b2) (fun S _ => crossoverTrial_observed (2 * k) a1 b1 a2 b2 S "clicks") r (fun S _ => hr S)
  exact ⟨r, est, fun S hS => ⟨hr S, h1 S hS⟩, h3.mpr (Or.inl rfl)⟩

end Feedx
