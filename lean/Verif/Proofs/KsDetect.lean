import Verif.Props.NullPValues
import Mathlib.Probability.Moments.SubGaussian

/-!
How likely uniform numbers are far from the uniform distribution.
-/

namespace Feedx

open Fl MeasureTheory ProbabilityTheory

theorem countP_sum {α : Type} (p : α → Bool) (l : List α) : (l.countP p : ℝ) = (l.map (fun x => if p x = true then (1 : ℝ) else 0)).sum := by
  induction l with
  | nil => simp
  | cons a l ih =>
    rw [List.countP_cons, List.map_cons, List.sum_cons, ← ih, Nat.cast_add, add_comm]
    split_ifs <;> simp

/-- One coordinate's contribution to the share up to `t`, minus its expectation. -/
noncomputable def stepAt (t : ℝ) (x : unitInterval) : ℝ := (if (x : ℝ) ≤ t then 1 else 0) - t

theorem stepAt_measurable (t : ℝ) : Measurable (stepAt t) := by
  unfold stepAt
  refine Measurable.sub_const (Measurable.ite ?_ measurable_const measurable_const) t
  exact measurableSet_le measurable_subtype_coe measurable_const

theorem stepAt_range {t : ℝ} (x : unitInterval) : stepAt t x ∈ Set.Icc (-t) (1 - t) := by
  unfold stepAt
  constructor <;> split_ifs <;> linarith

theorem stepAt_integral {t : ℝ} (h0 : 0 ≤ t) (h1 : t ≤ 1) : ∫ x, stepAt t x = 0 := by
  unfold stepAt
  have e : (fun x : unitInterval => if (x : ℝ) ≤ t then (1 : ℝ) else 0) = (Set.Iic (⟨t, h0, h1⟩ : unitInterval)).indicator 1 := by
    ext x
    by_cases h : (x : ℝ) ≤ t
    · rw [if_pos h, Set.indicator_of_mem (show x ∈ Set.Iic (⟨t, h0, h1⟩ : unitInterval) from h)]
      rfl
    · rw [if_neg h, Set.indicator_of_notMem (show x ∉ Set.Iic (⟨t, h0, h1⟩ : unitInterval) from h)]
  have hi : Integrable (fun x : unitInterval => if (x : ℝ) ≤ t then (1 : ℝ) else 0) := by
    rw [e]
    exact (integrable_const (1 : ℝ)).indicator measurableSet_Iic
  rw [integral_sub hi (integrable_const _), e, integral_indicator_one measurableSet_Iic, measureReal_def, unitInterval.volume_Iic,
    ENNReal.toReal_ofReal h0]
  simp

theorem share_coordinates {n : ℕ} (hn : 0 < n) (t : ℝ) (u : Fin n → unitInterval) :
    ∑ i, stepAt t (u i) = n * (Spec.shareUpTo (Spec.coordinates u) t - t) := by
  have hn' : (0 : ℝ) < n := by exact_mod_cast hn
  unfold Spec.shareUpTo Spec.coordinates
  rw [countP_sum, List.map_ofFn, List.sum_ofFn, List.length_ofFn, mul_sub, mul_div_cancel₀ _ hn'.ne']
  unfold stepAt
  rw [Finset.sum_sub_distrib]
  simp

/-- Hoeffding's inequality for the share up to `t`. -/
theorem share_tail {n : ℕ} (hn : 0 < n) {t ε : ℝ} (h0 : 0 ≤ t) (h1 : t ≤ 1) (hε : 0 ≤ ε) (sgn : ℝ) (hs : sgn = 1 ∨ sgn = -1) :
    (volume {u : Fin n → unitInterval | ε ≤ sgn * (Spec.shareUpTo (Spec.coordinates u) t - t)}).toReal ≤ Real.exp (-2 * n * ε ^ 2) := by
  have hn' : (0 : ℝ) < n := by exact_mod_cast hn
  have hind : iIndepFun (fun (i : Fin n) (u : Fin n → unitInterval) => sgn * stepAt t (u i)) (volume : Measure (Fin n → unitInterval)) :=
    iIndepFun_pi (μ := fun _ : Fin n => (volume : Measure unitInterval)) (X := fun _ x => sgn * stepAt t x)
      (fun _ => ((stepAt_measurable t).const_mul sgn).aemeasurable)
  have hsub : ∀ i ∈ (Finset.univ : Finset (Fin n)), HasSubgaussianMGF (fun u : Fin n → unitInterval => sgn * stepAt t (u i))
      ((fun _ => (1 / 4 : NNReal)) i) (volume : Measure (Fin n → unitInterval)) := by
    intro i _
    have hm : AEMeasurable (fun u : Fin n → unitInterval => sgn * stepAt t (u i)) volume :=
      (((stepAt_measurable t).comp (measurable_pi_apply i)).const_mul sgn).aemeasurable
    have hint : ∫ u : Fin n → unitInterval, sgn * stepAt t (u i) = 0 := by
      have hmp : MeasurePreserving (Function.eval i) (volume : Measure (Fin n → unitInterval)) (volume : Measure unitInterval) :=
        measurePreserving_eval _ i
      have := integral_map (μ := (volume : Measure (Fin n → unitInterval))) hmp.measurable.aemeasurable (f := stepAt t)
        (stepAt_measurable t).aestronglyMeasurable
      rw [hmp.map_eq, stepAt_integral h0 h1] at this
      rw [integral_const_mul]
      have e : ∫ u : Fin n → unitInterval, stepAt t (u i) = 0 := this.symm
      rw [e, mul_zero]
    rcases hs with rfl | rfl
    · have := hasSubgaussianMGF_of_mem_Icc_of_integral_eq_zero (a := -t) (b := 1 - t) hm
        (Filter.Eventually.of_forall fun u => by rw [one_mul]; exact stepAt_range (u i)) hint
      convert this using 1
      have : (1 - t - -t) = 1 := by ring
      rw [this, nnnorm_one]
      norm_num
    · have := hasSubgaussianMGF_of_mem_Icc_of_integral_eq_zero (a := t - 1) (b := t) hm
        (Filter.Eventually.of_forall fun u => by
          have := stepAt_range (t := t) (u i)
          rw [Set.mem_Icc] at this ⊢
          constructor <;> linarith [this.1, this.2]) hint
      convert this using 1
      have : (t - (t - 1)) = 1 := by ring
      rw [this, nnnorm_one]
      norm_num
  have key := HasSubgaussianMGF.measure_sum_ge_le_of_iIndepFun hind hsub (ε := n * ε) (by positivity)
  have e : {u : Fin n → unitInterval | ε ≤ sgn * (Spec.shareUpTo (Spec.coordinates u) t - t)} =
      {u | (n : ℝ) * ε ≤ ∑ i, sgn * stepAt t (u i)} := by
    ext u
    simp only [Set.mem_ofPred_eq]
    rw [← Finset.mul_sum, share_coordinates hn, mul_left_comm, mul_le_mul_iff_of_pos_left hn']
  rw [e]
  refine le_trans key (le_of_eq ?_)
  congr 1
  rw [Finset.sum_const, Finset.card_univ, Fintype.card_fin, nsmul_eq_mul]
  push_cast
  field_simp
  ring

theorem share_mono {l : List ℝ} {a b : ℝ} (h : a ≤ b) : Spec.shareUpTo l a ≤ Spec.shareUpTo l b := by
  unfold Spec.shareUpTo
  refine div_le_div_of_nonneg_right ?_ (by positivity)
  have : l.countP (fun x => decide (x ≤ a)) ≤ l.countP (fun x => decide (x ≤ b)) :=
    List.countP_mono_left fun x _ hx => by
      rw [decide_eq_true_eq] at hx ⊢
      exact hx.trans h
  exact_mod_cast this

/-- Numbers that are far from the uniform distribution are far from it at one of `m` places. -/
theorem far_at_grid {l : List ℝ} (hne : l ≠ []) (h01 : ∀ x ∈ l, 0 ≤ x ∧ x ≤ 1) {m : ℕ} (hm : 0 < m) {d : ℝ} (hd : 1 / (m : ℝ) < d)
    (h : d ≤ ksStatistic l) : ∃ j < m, d - 1 / m ≤ |Spec.shareUpTo l ((j : ℝ) / m) - (j : ℝ) / m| := by
  have hm' : (0 : ℝ) < m := by exact_mod_cast hm
  by_contra hcon
  push Not at hcon
  obtain ⟨k, hk, hmax⟩ := Finset.exists_max_image (Finset.range m) (fun j : ℕ => |Spec.shareUpTo l ((j : ℝ) / m) - (j : ℝ) / m|)
    ⟨0, Finset.mem_range.mpr hm⟩
  obtain ⟨M, hM⟩ : ∃ M, M = |Spec.shareUpTo l ((k : ℝ) / m) - (k : ℝ) / m| := ⟨_, rfl⟩
  have hMlt : M < d - 1 / m := hM ▸ hcon k (Finset.mem_range.mp hk)
  have hM0 : 0 ≤ M := hM ▸ abs_nonneg _
  have h1 : Spec.shareUpTo l 1 = 1 := by
    unfold Spec.shareUpTo
    have : l.countP (fun x => decide (x ≤ 1)) = l.length := by
      rw [List.countP_eq_length]
      intro x hx
      rw [decide_eq_true_eq]
      exact (h01 x hx).2
    rw [this, div_self]
    have := List.length_pos_iff.mpr hne
    positivity
  have hgrid : ∀ j : ℕ, j ≤ m → |Spec.shareUpTo l ((j : ℝ) / m) - (j : ℝ) / m| ≤ M := by
    intro j hj
    rcases hj.lt_or_eq with hj | rfl
    · rw [hM]
      exact hmax j (Finset.mem_range.mpr hj)
    · rw [div_self hm'.ne', h1, sub_self, abs_zero]
      exact hM0
  have hle : ksStatistic l ≤ M + 1 / m := by
    refine (ks_distance hne h01).2 ?_
    rintro y ⟨t, t0, t1, rfl⟩
    have hfl : (⌊t * m⌋₊ : ℝ) ≤ t * m := Nat.floor_le (by positivity)
    have hfl2 : t * m < ⌊t * m⌋₊ + 1 := Nat.lt_floor_add_one _
    obtain ⟨j, hj⟩ : ∃ j, j = ⌊t * m⌋₊ := ⟨_, rfl⟩
    rw [← hj] at hfl hfl2
    have hjm : j ≤ m := by
      have : (j : ℝ) ≤ m := hfl.trans (by nlinarith)
      exact_mod_cast this
    have hlow : (j : ℝ) / m ≤ t := (div_le_iff₀ hm').mpr hfl
    have hstep : ((j : ℝ) + 1) / m = (j : ℝ) / m + 1 / m := by ring
    have hup : t ≤ ((j : ℝ) + 1) / m := (le_div_iff₀ hm').mpr hfl2.le
    have g1 := abs_le.mp (hgrid j hjm)
    have s1 := share_mono (l := l) hlow
    rw [abs_le']
    constructor
    · rcases hjm.lt_or_eq with hlt | heq
      · have g2 := abs_le.mp (hgrid (j + 1) hlt)
        have s2 := share_mono (l := l) hup
        push_cast at g2
        linarith [g2.2]
      · have : t = 1 := by
          rw [heq, div_self hm'.ne'] at hlow
          linarith
        rw [this, h1, sub_self]
        positivity
    · linarith [g1.1]
  linarith

/-- The chance that `n` uniform numbers are `d` away from the uniform distribution decreases exponentially in `n`. -/
theorem ksSurvival_le {n m : ℕ} (hn : 0 < n) (hm : 0 < m) {d : ℝ} (hd : 1 / (m : ℝ) < d) :
    ksSurvival n d ≤ 2 * m * Real.exp (-2 * n * (d - 1 / m) ^ 2) := by
  have hm' : (0 : ℝ) < m := by exact_mod_cast hm
  have hε : 0 ≤ d - 1 / m := by linarith
  have hsub : {u : Fin n → unitInterval | d ≤ ksStatistic (List.ofFn (fun i => (u i : ℝ)))} ⊆
      ⋃ j ∈ Finset.range m, ({u | d - 1 / m ≤ 1 * (Spec.shareUpTo (Spec.coordinates u) ((j : ℝ) / m) - (j : ℝ) / m)} ∪
        {u | d - 1 / m ≤ -1 * (Spec.shareUpTo (Spec.coordinates u) ((j : ℝ) / m) - (j : ℝ) / m)}) := by
    intro u hu
    obtain ⟨j, hj, hle⟩ := far_at_grid (coordinates_ne hn u) (coordinates_range u) hm hd hu
    simp only [Set.mem_iUnion, Finset.mem_range]
    refine ⟨j, hj, ?_⟩
    rcases le_abs.mp hle with h | h
    · left
      rw [Set.mem_ofPred_eq, one_mul]
      exact h
    · right
      rw [Set.mem_ofPred_eq, neg_one_mul]
      exact h
  have h1 : volume.real {u : Fin n → unitInterval | d ≤ ksStatistic (List.ofFn (fun i => (u i : ℝ)))} ≤
      ∑ j ∈ Finset.range m, (Real.exp (-2 * n * (d - 1 / m) ^ 2) + Real.exp (-2 * n * (d - 1 / m) ^ 2)) := by
    refine (measureReal_mono hsub (measure_ne_top _ _)).trans ((measureReal_biUnion_finset_le _ _).trans (Finset.sum_le_sum fun j hj => ?_))
    have hj' : (j : ℝ) ≤ m := by exact_mod_cast (Finset.mem_range.mp hj).le
    have j0 : 0 ≤ (j : ℝ) / m := by positivity
    have j1 : (j : ℝ) / m ≤ 1 := (div_le_one hm').mpr hj'
    refine (measureReal_union_le _ _).trans (add_le_add ?_ ?_)
    · exact share_tail hn j0 j1 hε 1 (Or.inl rfl)
    · exact share_tail hn j0 j1 hε (-1) (Or.inr rfl)
  have e : volume.real {u : Fin n → unitInterval | d ≤ ksStatistic (List.ofFn (fun i => (u i : ℝ)))} = ksSurvival n d := rfl
  rw [e, Finset.sum_const, Finset.card_range, nsmul_eq_mul] at h1
  linarith

end Feedx
