import Verif.Proofs.Randomisation
import Verif.Proofs.Moments

/-!
Properties C113 and C114: what the analysis reports, averaged over all ways to assign the items.
-/

set_option linter.unusedSectionVars false

namespace Feedx
open Fl

variable {n k : ℕ}

theorem sum_seen (y1 y0 : Fin n → ℝ) (S : Finset (Fin n)) (g : ℝ → ℝ) :
    ∑ i ∈ S, g (seen y1 y0 S i) = ∑ i ∈ S, g (y1 i) ∧ ∑ i ∈ Sᶜ, g (seen y1 y0 S i) = ∑ i ∈ Sᶜ, g (y0 i) := by
  constructor
  · refine Finset.sum_congr rfl fun i hi => ?_
    rw [seen, if_pos hi]
  · refine Finset.sum_congr rfl fun i hi => ?_
    rw [seen, if_neg (Finset.mem_compl.mp hi)]

/-- Estimate and standard error of one assignment, without pretest values and trimming. -/
theorem regular_trial {R : Rounding ℝ} {argsort : List ℝ → List ℕ} (ha : ArgsortOk argsort) {D : TDist} {piv : Pivoted ℝ}
    {metrics : List String} {itemCol treatmentCol : String} (hne : itemCol ≠ treatmentCol) (hi : ¬ Spec.Reserved itemCol) (ht : ¬ Spec.Reserved treatmentCol)
    {d : DesignParams ℝ} (hd : d.isCrossover = false) {metric : String} {override : Option ℝ} (hq : override.getD d.postTrim.val = 0)
    {y1 y0 : Fin n → ℝ} {S : Finset (Fin n)} (hobs : Spec.Observed piv metric y1 y0 S) (hpre : Cell.str "pretest" ∉ piv.periods) {r : TestResult}
    (h : analyzeSingleMetric R argsort D piv metrics [itemCol, treatmentCol] d metric none treatmentCol override = .ok r) :
    r.absoluteDifference = fin ((∑ i ∈ S, y1 i) / S.card - (∑ i ∈ Sᶜ, y0 i) / Sᶜ.card) ∧
    r.standardError = fin (Real.sqrt (((∑ i ∈ S, y1 i ^ 2) - (∑ i ∈ S, y1 i) ^ 2 / S.card) / (S.card * (S.card - 1)) +
      ((∑ i ∈ Sᶜ, y0 i ^ 2) - (∑ i ∈ Sᶜ, y0 i) ^ 2 / Sᶜ.card) / (Sᶜ.card * (Sᶜ.card - 1)))) ∧ 2 ≤ S.card ∧ 2 ≤ Sᶜ.card := by
  obtain ⟨hix, hidx⟩ := observed_index hobs
  obtain ⟨y, ⟨test, hv, hy⟩, -, hr, -⟩ := C39_regular_split R argsort D piv metrics itemCol treatmentCol hne hi ht hidx d hd metric override r
    (fun hc => hpre hc.1) h
  rcases hy with ⟨-, rfl⟩ | ⟨hp, -⟩
  swap
  · exact absurd hp hpre
  rw [observed_values hobs hv, (observed_groups _ hix _).1, (observed_groups _ hix _).2, hq] at hr
  have key := regular_reports ha hr
  have s1 := sum_seen y1 y0 S (fun x => x)
  have s2 := sum_seen y1 y0 S (fun x => x ^ 2)
  rw [s1.1, s1.2, s2.1, s2.2] at key
  exact key

theorem two_le_of_trial {S : Finset (Fin n)} (hS : S ∈ Spec.assignments n k) (h1 : 2 ≤ S.card) (h2 : 2 ≤ Sᶜ.card) : 2 ≤ k ∧ k + 2 ≤ n := by
  have h := mem_assignments.mp hS
  rw [Finset.card_compl, Fintype.card_fin, h] at h2
  rw [h] at h1
  omega

theorem sampleVar_nonneg (T : Finset (Fin n)) (f : Fin n → ℝ) (hT : 2 ≤ T.card) :
    0 ≤ ((∑ i ∈ T, f i ^ 2) - (∑ i ∈ T, f i) ^ 2 / T.card) / (T.card * ((T.card : ℝ) - 1)) := by
  have hT' : (2 : ℝ) ≤ T.card := by exact_mod_cast hT
  have h0 : (T.card : ℝ) ≠ 0 := by linarith
  refine div_nonneg ?_ (by nlinarith)
  rw [sum_sq_dev_on T h0 f ((∑ i ∈ T, f i) / T.card)]
  have : ∑ i ∈ T, (f i - (∑ i ∈ T, f i) / T.card) = 0 := by
    rw [Finset.sum_sub_distrib, Finset.sum_const, nsmul_eq_mul]
    field_simp
    ring
  rw [this]
  simp only [ne_eq, OfNat.ofNat_ne_zero, not_false_eq_true, zero_pow, zero_div, sub_zero]
  exact Finset.sum_nonneg fun i _ => sq_nonneg _

/-- **C113, regular experiments without pretest values and trimming**: averaged over all ways to treat `k` of the `n` items, the reported difference is
the average effect. -/
theorem C113_regular_partial (R : Rounding ℝ) (argsort : List ℝ → List ℕ) (ha : ArgsortOk argsort) (D : TDist)
    (metrics : List String) (itemCol treatmentCol : String) (hne : itemCol ≠ treatmentCol) (hi : ¬ Spec.Reserved itemCol) (ht : ¬ Spec.Reserved treatmentCol)
    (d : DesignParams ℝ) (hd : d.isCrossover = false) (metric : String) (override : Option ℝ) (hq : override.getD d.postTrim.val = 0)
    (n k : ℕ) (hk : k ≤ n) (y1 y0 : Fin n → ℝ) (piv : Finset (Fin n) → Pivoted ℝ)
    (hobs : ∀ S ∈ Spec.assignments n k, Spec.Observed (piv S) metric y1 y0 S)
    (hpre : ∀ S ∈ Spec.assignments n k, Cell.str "pretest" ∉ (piv S).periods) (r : Finset (Fin n) → TestResult)
    (h : ∀ S ∈ Spec.assignments n k,
      analyzeSingleMetric R argsort D (piv S) metrics [itemCol, treatmentCol] d metric none treatmentCol override = .ok (r S)) :
    ∃ est : Finset (Fin n) → ℝ, (∀ S ∈ Spec.assignments n k, (r S).absoluteDifference = fin (est S)) ∧
      Spec.averageOver (Spec.assignments n k) est = Spec.itemMean (fun i => y1 i - y0 i) := by
  have key := fun S hS => regular_trial ha hne hi ht hd hq (hobs S hS) (hpre S hS) (h S hS)
  obtain ⟨S₀, hS₀⟩ := assignments_nonempty hk
  obtain ⟨-, -, c1, c2⟩ := key S₀ hS₀
  obtain ⟨k2, n2⟩ := two_le_of_trial hS₀ c1 c2
  exact ⟨_, fun S hS => (key S hS).1, average_difference (by omega) (by omega) y1 y0⟩

/-- **C113, coin flips**: the same, averaged over all assignments whose number of treated items is in `K` (each of the `2 ^ n` assignments
counts once, as when every item is assigned by its own coin). -/
theorem C113_coin_flips_partial (R : Rounding ℝ) (argsort : List ℝ → List ℕ) (ha : ArgsortOk argsort) (D : TDist)
    (metrics : List String) (itemCol treatmentCol : String) (hne : itemCol ≠ treatmentCol) (hi : ¬ Spec.Reserved itemCol) (ht : ¬ Spec.Reserved treatmentCol)
    (d : DesignParams ℝ) (hd : d.isCrossover = false) (metric : String) (override : Option ℝ) (hq : override.getD d.postTrim.val = 0)
    (n : ℕ) (K : Finset ℕ) (A : Finset (Finset (Fin n))) (hA : ∀ S, S ∈ A ↔ S.card ∈ K) (hne' : A.Nonempty) (y1 y0 : Fin n → ℝ) (piv : Finset (Fin n) → Pivoted ℝ)
    (hobs : ∀ S ∈ A, Spec.Observed (piv S) metric y1 y0 S) (hpre : ∀ S ∈ A, Cell.str "pretest" ∉ (piv S).periods) (r : Finset (Fin n) → TestResult)
    (h : ∀ S ∈ A, analyzeSingleMetric R argsort D (piv S) metrics [itemCol, treatmentCol] d metric none treatmentCol override = .ok (r S)) :
    ∃ est : Finset (Fin n) → ℝ, (∀ S ∈ A, (r S).absoluteDifference = fin (est S)) ∧ Spec.averageOver A est = Spec.itemMean (fun i => y1 i - y0 i) := by
  have key := fun S hS => regular_trial ha hne hi ht hd hq (hobs S hS) (hpre S hS) (h S hS)
  refine ⟨_, fun S hS => (key S hS).1, ?_⟩
  unfold Spec.averageOver
  rw [← Finset.sum_fiberwise_of_maps_to (g := Finset.card) (t := K) (fun S hS => (hA S).mp hS)]
  have hcard : A.card = ∑ k ∈ K, (A.filter (fun S => S.card = k)).card := Finset.card_eq_sum_card_fiberwise (fun S hS => (hA S).mp hS)
  have hsum : ∀ k ∈ K, ∑ S ∈ A with S.card = k, ((∑ i ∈ S, y1 i) / (S.card : ℝ) - (∑ i ∈ Sᶜ, y0 i) / (Sᶜ.card : ℝ)) =
      ((A.filter (fun S => S.card = k)).card : ℝ) * Spec.itemMean (fun i => y1 i - y0 i) := by
    intro k hk
    have e : A.filter (fun S => S.card = k) = Spec.assignments n k := by
      ext S
      rw [Finset.mem_filter, mem_assignments, hA]
      constructor
      · exact fun h => h.2
      · exact fun h => ⟨h ▸ hk, h⟩
    rw [e]
    by_cases hkn : k ≤ n
    · have hAk : ∀ S ∈ Spec.assignments n k, S ∈ A := fun S hS => (hA S).mpr (mem_assignments.mp hS ▸ hk)
      obtain ⟨S₀, hS₀⟩ := assignments_nonempty hkn
      obtain ⟨-, -, c1, c2⟩ := key S₀ (hAk S₀ hS₀)
      obtain ⟨k2, n2⟩ := two_le_of_trial hS₀ c1 c2
      have := average_difference (k := k) (by omega) (by omega) y1 y0
      unfold Spec.averageOver at this
      have hpos : ((Spec.assignments n k).card : ℝ) ≠ 0 := by
        exact_mod_cast (Finset.card_pos.mpr (assignments_nonempty hkn)).ne'
      rw [div_eq_iff hpos] at this
      rw [this, mul_comm]
    · have : Spec.assignments n k = ∅ := by
        unfold Spec.assignments
        rw [Finset.powersetCard_eq_empty]
        simpa using hkn
      rw [this]
      simp
  rw [Finset.sum_congr rfl hsum, ← Finset.sum_mul, hcard]
  push_cast
  have hpos : (∑ k ∈ K, ((A.filter (fun S => S.card = k)).card : ℝ)) ≠ 0 := by
    rw [← Nat.cast_sum, ← hcard]
    exact_mod_cast (Finset.card_pos.mpr hne').ne'
  rw [mul_comm, mul_div_assoc, div_self hpos, mul_one]

/-- **C114, regular experiments without pretest values and trimming** (Neyman): averaged over all ways to treat `k` of the `n` items, the squared standard error
reported exceeds the mean squared error of the reported difference by the spread of the effects; it is never too small, and it is exact if and only if
all items have the same effect. -/
theorem C114_regular_partial (R : Rounding ℝ) (argsort : List ℝ → List ℕ) (ha : ArgsortOk argsort) (D : TDist)
    (metrics : List String) (itemCol treatmentCol : String) (hne : itemCol ≠ treatmentCol) (hi : ¬ Spec.Reserved itemCol) (ht : ¬ Spec.Reserved treatmentCol)
    (d : DesignParams ℝ) (hd : d.isCrossover = false) (metric : String) (override : Option ℝ) (hq : override.getD d.postTrim.val = 0)
    (n k : ℕ) (hk : k ≤ n) (y1 y0 : Fin n → ℝ) (piv : Finset (Fin n) → Pivoted ℝ)
    (hobs : ∀ S ∈ Spec.assignments n k, Spec.Observed (piv S) metric y1 y0 S)
    (hpre : ∀ S ∈ Spec.assignments n k, Cell.str "pretest" ∉ (piv S).periods) (r : Finset (Fin n) → TestResult)
    (h : ∀ S ∈ Spec.assignments n k,
      analyzeSingleMetric R argsort D (piv S) metrics [itemCol, treatmentCol] d metric none treatmentCol override = .ok (r S)) :
    ∃ est se : Finset (Fin n) → ℝ,
      (∀ S ∈ Spec.assignments n k, (r S).absoluteDifference = fin (est S) ∧ (r S).standardError = fin (se S)) ∧
      Spec.averageOver (Spec.assignments n k) (fun S => se S ^ 2) =
        Spec.averageOver (Spec.assignments n k) (fun S => (est S - Spec.itemMean (fun i => y1 i - y0 i)) ^ 2) +
          Spec.itemSumSq (fun i => y1 i - y0 i) / (n * (n - 1)) ∧
      Spec.averageOver (Spec.assignments n k) (fun S => (est S - Spec.itemMean (fun i => y1 i - y0 i)) ^ 2) ≤
        Spec.averageOver (Spec.assignments n k) (fun S => se S ^ 2) ∧
      (Spec.averageOver (Spec.assignments n k) (fun S => se S ^ 2) =
        Spec.averageOver (Spec.assignments n k) (fun S => (est S - Spec.itemMean (fun i => y1 i - y0 i)) ^ 2) ↔
          ∀ i j, y1 i - y0 i = y1 j - y0 j) := by
  have key := fun S hS => regular_trial ha hne hi ht hd hq (hobs S hS) (hpre S hS) (h S hS)
  obtain ⟨S₀, hS₀⟩ := assignments_nonempty hk
  obtain ⟨-, -, c1, c2⟩ := key S₀ hS₀
  obtain ⟨k2, n2⟩ := two_le_of_trial hS₀ c1 c2
  have hm := neyman k2 n2 y1 y0
  have hn : (0 : ℝ) < n * (n - 1) := by
    have : (4 : ℝ) ≤ n := by exact_mod_cast (by omega : 4 ≤ n)
    nlinarith
  have hss : 0 ≤ Spec.itemSumSq (fun i => y1 i - y0 i) := Finset.sum_nonneg fun i _ => sq_nonneg _
  refine ⟨_, _, fun S hS => ⟨(key S hS).1, (key S hS).2.1⟩, ?_⟩
  have hsq : Spec.averageOver (Spec.assignments n k) (fun S => Real.sqrt (((∑ i ∈ S, y1 i ^ 2) - (∑ i ∈ S, y1 i) ^ 2 / S.card) / (S.card * (S.card - 1)) +
      ((∑ i ∈ Sᶜ, y0 i ^ 2) - (∑ i ∈ Sᶜ, y0 i) ^ 2 / Sᶜ.card) / (Sᶜ.card * (Sᶜ.card - 1))) ^ 2) =
      Spec.averageOver (Spec.assignments n k) (fun S => ((∑ i ∈ S, y1 i ^ 2) - (∑ i ∈ S, y1 i) ^ 2 / S.card) / (S.card * (S.card - 1)) +
      ((∑ i ∈ Sᶜ, y0 i ^ 2) - (∑ i ∈ Sᶜ, y0 i) ^ 2 / Sᶜ.card) / (Sᶜ.card * (Sᶜ.card - 1))) := by
    refine average_congr fun S hS => Real.sq_sqrt ?_
    obtain ⟨-, -, c1, c2⟩ := key S hS
    exact add_nonneg (sampleVar_nonneg S y1 c1) (sampleVar_nonneg Sᶜ y0 c2)
  rw [hsq, hm]
  refine ⟨rfl, le_add_of_nonneg_right (div_nonneg hss hn.le), ?_⟩
  rw [add_eq_left, div_eq_zero_iff, or_iff_left hn.ne']
  constructor
  · intro h0 i j
    have hz := (Finset.sum_eq_zero_iff_of_nonneg (fun i _ => sq_nonneg _)).mp h0
    have hi := pow_eq_zero_iff (two_ne_zero) |>.mp (hz i (Finset.mem_univ i))
    have hj := pow_eq_zero_iff (two_ne_zero) |>.mp (hz j (Finset.mem_univ j))
    linarith
  · intro heq
    have hn0 : (n : ℝ) ≠ 0 := by
      intro h0
      rw [h0] at hn
      linarith
    refine Finset.sum_eq_zero fun i _ => ?_
    have : Spec.itemMean (fun i => y1 i - y0 i) = y1 i - y0 i := by
      unfold Spec.itemMean
      rw [Finset.sum_congr rfl (fun j _ => heq j i), Finset.sum_const, Finset.card_univ, Fintype.card_fin, nsmul_eq_mul]
      field_simp
    rw [this, sub_self]
    norm_num

/-! ### Concrete experiments -/

/-- A table with one row per item, the items in `S` being assigned to the treated group, and the value `val p i` of every metric of item `i` in period `p`. -/
noncomputable def trialTable (n : ℕ) (S : Finset (Fin n)) (periods : List String) (val : String → Fin n → ℝ) : Pivoted ℝ where
  index := (List.finRange n).map (fun i : Fin n => [Cell.num ((i : ℕ) : ℝ), Cell.num (if i ∈ S then 1 else 0)])
  periods := periods.map Cell.str
  value := fun k _ p => if h : ∃ i : Fin n, k.head? = some (Cell.num ((i : ℕ) : ℝ)) then .fin (val p h.choose) else .nan

theorem trialTable_value (n : ℕ) (S : Finset (Fin n)) (periods : List String) (val : String → Fin n → ℝ) (m p : String) (i : Fin n) :
    (trialTable n S periods val).value [Cell.num ((i : ℕ) : ℝ), Cell.num (if i ∈ S then 1 else 0)] m p = .fin (val p i) := by
  have h : ∃ j : Fin n, [Cell.num ((i : ℕ) : ℝ), Cell.num (if i ∈ S then (1 : ℝ) else 0)].head? = some (Cell.num ((j : ℕ) : ℝ)) := ⟨i, rfl⟩
  unfold trialTable
  dsimp only
  rw [dif_pos h]
  have := h.choose_spec
  generalize h.choose = j at this ⊢
  simp only [List.head?_cons, Option.some.injEq, Cell.num.injEq, Nat.cast_inj, Fin.val_inj] at this
  rw [this]

theorem trialTable_forall (n : ℕ) (S : Finset (Fin n)) (periods : List String) (val : String → Fin n → ℝ) (P : List (Cell ℝ) → Fin n → Prop)
    (h : ∀ i : Fin n, P [Cell.num ((i : ℕ) : ℝ), Cell.num (if i ∈ S then 1 else 0)] i) :
    List.Forall₂ P (trialTable n S periods val).index (List.finRange n) := by
  unfold trialTable
  dsimp only
  rw [List.forall₂_map_left_iff, List.forall₂_same]
  exact fun i _ => h i

theorem trialTable_values (n : ℕ) (S : Finset (Fin n)) (periods : List String) (val : String → Fin n → ℝ) (m p : String) :
    Spec.ValuesOf (trialTable n S periods val) m p ((List.finRange n).map (val p)) := by
  unfold Spec.ValuesOf
  rw [List.forall₂_map_right_iff]
  exact trialTable_forall _ _ _ _ _ fun i => trialTable_value n S periods val m p i

theorem trialTable_assigned (n : ℕ) (S : Finset (Fin n)) (i : Fin n) :
    (i ∈ S → Spec.AssignedTo 1 [Cell.num ((i : ℕ) : ℝ), Cell.num (if i ∈ S then (1 : ℝ) else 0)]) ∧
    (i ∉ S → Spec.AssignedTo 0 [Cell.num ((i : ℕ) : ℝ), Cell.num (if i ∈ S then (1 : ℝ) else 0)]) := by
  constructor <;> intro h
  · exact ⟨_, _, rfl, by simp [h, Cell.toFl]⟩
  · exact ⟨_, _, rfl, by simp [h, Cell.toFl]⟩

theorem trialTable_observed (n : ℕ) (S : Finset (Fin n)) (periods : List String) (val : String → Fin n → ℝ) (m : String) (y1 y0 : Fin n → ℝ)
    (hv : val "test" = seen y1 y0 S) : Spec.Observed (trialTable n S periods val) m y1 y0 S := by
  refine trialTable_forall _ _ _ _ _ fun i => ?_
  have := trialTable_value n S periods val m "test" i
  rw [hv] at this
  constructor <;> intro h
  · exact ⟨(trialTable_assigned n S i).1 h, by rw [this, seen, if_pos h]⟩
  · exact ⟨(trialTable_assigned n S i).2 h, by rw [this, seen, if_neg h]⟩

theorem trialTable_keys (n : ℕ) (S : Finset (Fin n)) (periods : List String) (val : String → Fin n → ℝ) :
    ∀ k ∈ (trialTable n S periods val).index, k.length = 2 := by
  unfold trialTable
  simp

/-- The analysis of such an experiment returns if both groups have two items and the untreated values are positive. -/
theorem trialTable_returns (R : Rounding ℝ) (argsort : List ℝ → List ℕ) (D : TDist) (n : ℕ) (S : Finset (Fin n)) (y1 y0 : Fin n → ℝ)
    (hy : ∀ i, 0 < y0 i) (h1 : 2 ≤ S.card) (h0 : 2 ≤ Sᶜ.card) :
    ∃ r, analyzeSingleMetric R argsort D (trialTable n S ["test"] (fun _ => seen y1 y0 S)) ["clicks"] ["item_id", "treatment_assignment"]
      tenPercentParams "clicks" none "treatment_assignment" none = .ok r := by
  have hobs := trialTable_observed n S ["test"] (fun _ => seen y1 y0 S) "clicks" y1 y0 rfl
  have hv := trialTable_values n S ["test"] (fun _ => seen y1 y0 S) "clicks" "test"
  rw [analyze_regular_eq (by decide) (by unfold Spec.Reserved; decide) (by unfold Spec.Reserved; decide)
    (trialTable_keys _ _ _ _) (by simp [trialTable]) (by simp [trialTable]) rfl (by simp [tenPercentParams]) (by simp)
    (by simp [trialTable]) (by simp [trialTable]) hv,
    (observed_groups _ (observed_index hobs).1 _).1, (observed_groups _ (observed_index hobs).1 _).2]
  refine indTest_zero_returns R argsort D ?_ ?_ ?_
  · rw [List.length_map, (sum_filter_range S y1).2]; omega
  · rw [List.length_map, (sum_filter_range Sᶜ y1).2]; omega
  · unfold Spec.mean
    rw [List.length_map, (sum_filter_range Sᶜ y1).2, (sum_filter_range Sᶜ _).1]
    have hc : (0 : ℝ) < Sᶜ.card := by exact_mod_cast (by omega : 0 < Sᶜ.card)
    have hs := (sum_seen y1 y0 S (fun x => x)).2
    rw [hs]
    exact (div_pos (Finset.sum_pos (fun i _ => hy i) (Finset.card_pos.mp (by omega))) hc).ne'

theorem trialTable_all_return (R : Rounding ℝ) (argsort : List ℝ → List ℕ) (D : TDist) (n : ℕ) (hn : 4 ≤ n) (y1 y0 : Fin n → ℝ) (hy : ∀ i, 0 < y0 i) :
    ∃ r : Finset (Fin n) → TestResult, ∀ S, 2 ≤ S.card → 2 ≤ Sᶜ.card →
      analyzeSingleMetric R argsort D (trialTable n S ["test"] (fun _ => seen y1 y0 S)) ["clicks"] ["item_id", "treatment_assignment"]
        tenPercentParams "clicks" none "treatment_assignment" none = .ok (r S) := by
  have hr : ∀ S : Finset (Fin n), ∃ r : TestResult, 2 ≤ S.card → 2 ≤ Sᶜ.card →
      analyzeSingleMetric R argsort D (trialTable n S ["test"] (fun _ => seen y1 y0 S)) ["clicks"] ["item_id", "treatment_assignment"]
        tenPercentParams "clicks" none "treatment_assignment" none = .ok r := by
    intro S
    by_cases hS : 2 ≤ S.card ∧ 2 ≤ Sᶜ.card
    · obtain ⟨r, hr⟩ := trialTable_returns R argsort D n S y1 y0 hy hS.1 hS.2
      exact ⟨r, fun _ _ => hr⟩
    · obtain ⟨S₀, hS₀⟩ := assignments_nonempty (show 2 ≤ n by omega)
      have hc := mem_assignments.mp hS₀
      obtain ⟨r, -⟩ := trialTable_returns R argsort D n S₀ y1 y0 hy (by omega) (by rw [Finset.card_compl, Fintype.card_fin]; omega)
      exact ⟨r, fun a b => absurd ⟨a, b⟩ hS⟩
  choose r hr using hr
  exact ⟨r, hr⟩

/-- The hypotheses of `C113_regular_partial` and `C114_regular_partial` hold for every number of items, all group sizes of at least two, all positive
untreated values and all effects; the analysis returns for every assignment. -/
example (R : Rounding ℝ) (argsort : List ℝ → List ℕ) (ha : ArgsortOk argsort) (D : TDist) (n k : ℕ) (hk : 2 ≤ k) (hn : k + 2 ≤ n) (y1 y0 : Fin n → ℝ)
    (hy : ∀ i, 0 < y0 i) :
    ∃ (r : Finset (Fin n) → TestResult) (est : Finset (Fin n) → ℝ),
      (∀ S ∈ Spec.assignments n k, analyzeSingleMetric R argsort D (trialTable n S ["test"] (fun _ => seen y1 y0 S)) ["clicks"]
        ["item_id", "treatment_assignment"] tenPercentParams "clicks" none "treatment_assignment" none = .ok (r S) ∧ (r S).absoluteDifference = fin (est S)) ∧
      Spec.averageOver (Spec.assignments n k) est = Spec.itemMean (fun i => y1 i - y0 i) := by
  obtain ⟨r, hr⟩ := trialTable_all_return R argsort D n (by omega) y1 y0 hy
  have hr' : ∀ S ∈ Spec.assignments n k, analyzeSingleMetric R argsort D (trialTable n S ["test"] (fun _ => seen y1 y0 S)) ["clicks"]
        ["item_id", "treatment_assignment"] tenPercentParams "clicks" none "treatment_assignment" none = .ok (r S) := by
    intro S hS
    have hc := mem_assignments.mp hS
    exact hr S (by omega) (by rw [Finset.card_compl, Fintype.card_fin]; omega)
  obtain ⟨est, h1, h2⟩ := C113_regular_partial R argsort ha D ["clicks"] "item_id" "treatment_assignment" (by decide)
    (by unfold Spec.Reserved; decide) (by unfold Spec.Reserved; decide) tenPercentParams rfl "clicks" none rfl n k (by omega) y1 y0 _
    (fun S _ => trialTable_observed n S ["test"] (fun _ => seen y1 y0 S) "clicks" y1 y0 rfl) (fun S _ => by simp [trialTable]) r hr'
  exact ⟨r, est, fun S hS => ⟨hr' S hS, h1 S hS⟩, h2⟩

/-- The same for `C113_coin_flips_partial`: all assignments with at least two items in both groups. -/
example (R : Rounding ℝ) (argsort : List ℝ → List ℕ) (ha : ArgsortOk argsort) (D : TDist) (n : ℕ) (hn : 4 ≤ n) (y1 y0 : Fin n → ℝ) (hy : ∀ i, 0 < y0 i) :
    ∃ (r : Finset (Fin n) → TestResult) (est : Finset (Fin n) → ℝ) (A : Finset (Finset (Fin n))), (∀ S, S ∈ A ↔ 2 ≤ S.card ∧ S.card + 2 ≤ n) ∧
      (∀ S ∈ A, analyzeSingleMetric R argsort D (trialTable n S ["test"] (fun _ => seen y1 y0 S)) ["clicks"]
        ["item_id", "treatment_assignment"] tenPercentParams "clicks" none "treatment_assignment" none = .ok (r S) ∧ (r S).absoluteDifference = fin (est S)) ∧
      Spec.averageOver A est = Spec.itemMean (fun i => y1 i - y0 i) := by
  obtain ⟨r, hr⟩ := trialTable_all_return R argsort D n hn y1 y0 hy
  have hA : ∀ S : Finset (Fin n), S ∈ Finset.univ.filter (fun S : Finset (Fin n) => S.card ∈ Finset.Icc 2 (n - 2)) ↔ 2 ≤ S.card ∧ S.card + 2 ≤ n := by
    intro S
    rw [Finset.mem_filter, Finset.mem_Icc]
    constructor
    · rintro ⟨-, h1, h2⟩
      exact ⟨h1, by omega⟩
    · rintro ⟨h1, h2⟩
      exact ⟨Finset.mem_univ _, h1, by omega⟩
  have hr' : ∀ S ∈ Finset.univ.filter (fun S : Finset (Fin n) => S.card ∈ Finset.Icc 2 (n - 2)),
      analyzeSingleMetric R argsort D (trialTable n S ["test"] (fun _ => seen y1 y0 S)) ["clicks"]
        ["item_id", "treatment_assignment"] tenPercentParams "clicks" none "treatment_assignment" none = .ok (r S) := by
    intro S hS
    obtain ⟨c1, c2⟩ := (hA S).mp hS
    exact hr S c1 (by rw [Finset.card_compl, Fintype.card_fin]; omega)
  obtain ⟨S₀, hS₀⟩ := assignments_nonempty (show 2 ≤ n by omega)
  have hc := mem_assignments.mp hS₀
  obtain ⟨est, h1, h2⟩ := C113_coin_flips_partial R argsort ha D ["clicks"] "item_id" "treatment_assignment" (by decide)
    (by unfold Spec.Reserved; decide) (by unfold Spec.Reserved; decide) tenPercentParams rfl "clicks" none rfl n (Finset.Icc 2 (n - 2)) _
    (fun S => by simp) ⟨S₀, (hA S₀).mpr (by omega)⟩ y1 y0 _
    (fun S _ => trialTable_observed n S ["test"] (fun _ => seen y1 y0 S) "clicks" y1 y0 rfl) (fun S _ => by simp [trialTable]) r hr'
  exact ⟨r, est, _, hA, fun S hS => ⟨hr' S hS, h1 S hS⟩, h2⟩

end Feedx
