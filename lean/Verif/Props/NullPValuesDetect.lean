import Verif.Proofs.KsDetect

/-!
C111, continued: p-values that are not uniform are detected, and p-values and their complements are treated alike.
-/

namespace Feedx

open Fl MeasureTheory

variable {X : RobustnessTests} {c : SimConfig} {s : SimState}

/-- **C111.**  P-values that are at least `d` away from the uniform distribution fail the check if there are enough simulations: with `n`
simulations, and any `m > 1/d`, it is enough that `2 m exp(-2 n (d - 1/m)²)` is below the threshold. -/
theorem C111_far_from_uniform_fails (hX : Spec.ExactKs X) (aa : List TestResult) (ps : List ℝ) (d e : ℝ) (m : ℕ) (haa : s.aa = some aa)
    (hps : Spec.GavePValues aa ps) (hne : ps ≠ []) (h01 : ∀ p ∈ ps, 0 ≤ p ∧ p ≤ 1) (he : Spec.DistanceFromUniform ps e) (hde : d ≤ e)
    (hm : 0 < m) (hd : 1 / (m : ℝ) < d) (hn : 2 * m * Real.exp (-2 * ps.length * (d - 1 / m) ^ 2) < c.threshold) :
    nullCheck X c s = .ok (some false) := by
  rw [nullCheck_fin hX haa hps hne h01]
  have h1 := ksSurvival_le (List.length_pos_iff.mpr hne) hm hd
  rw [he.unique (ks_distance hne h01)] at hde
  have h2 := ksSurvival_anti ps.length hde
  rw [decide_eq_false (by linarith)]

/-- **C111.**  For every distance and every threshold there is a number of simulations from which on p-values that far away fail. -/
theorem C111_detected_eventually (hX : Spec.ExactKs X) (d : ℝ) (hd : 0 < d) (ht : 0 < c.threshold) :
    ∃ N : ℕ, ∀ (s : SimState) (aa : List TestResult) (ps : List ℝ) (e : ℝ), s.aa = some aa → Spec.GavePValues aa ps → N ≤ ps.length →
      (∀ p ∈ ps, 0 ≤ p ∧ p ≤ 1) → Spec.DistanceFromUniform ps e → d ≤ e → nullCheck X c s = .ok (some false) := by
  obtain ⟨m, hm⟩ := exists_nat_gt (1 / d)
  have hm0 : (0 : ℝ) < m := lt_trans (by positivity) hm
  have hmN : 0 < m := by exact_mod_cast hm0
  have hmd : 1 / (m : ℝ) < d := by rwa [one_div_lt hm0 hd]
  obtain ⟨a, ha⟩ : ∃ a, a = 2 * (d - 1 / m) ^ 2 := ⟨_, rfl⟩
  have ha0 : 0 < a := by
    rw [ha]
    have : 0 < d - 1 / m := by linarith
    positivity
  obtain ⟨N, hN⟩ := exists_nat_gt (2 * m / c.threshold / a)
  refine ⟨N + 1, fun s aa ps e haa hps hlen h01 he hde => ?_⟩
  have hne : ps ≠ [] := by
    rintro rfl
    simp at hlen
  refine C111_far_from_uniform_fails hX aa ps d e m haa hps hne h01 he hde hmN hmd ?_
  have hlen' : (N : ℝ) + 1 ≤ ps.length := by exact_mod_cast hlen
  have h1 : 2 * m / c.threshold < a * ps.length := by
    rw [div_lt_iff₀ ha0] at hN
    nlinarith
  have h2 : a * ps.length < Real.exp (a * ps.length) := lt_of_lt_of_le (by linarith) (Real.add_one_le_exp _)
  have h3 : -2 * (ps.length : ℝ) * (d - 1 / m) ^ 2 = -(a * ps.length) := by
    rw [ha]
    ring
  rw [h3, Real.exp_neg, ← div_eq_mul_inv, div_lt_iff₀ (Real.exp_pos _)]
  rw [div_lt_iff₀ ht] at h1
  nlinarith

/-- **C111.**  In particular a simulated false positive rate that is further from the significance level, in either direction, fails this
check. -/
theorem C111_wrong_rate_fails (hX : Spec.ExactKs X) (aa : List TestResult) (ps : List ℝ) (r : ℝ) (m : ℕ) (haa : s.aa = some aa)
    (hps : Spec.GavePValues aa ps) (hne : ps ≠ []) (h01 : ∀ p ∈ ps, 0 ≤ p ∧ p ≤ 1) (h0 : 0 ≤ c.design.alpha.val) (h1 : c.design.alpha.val ≤ 1)
    (hr : falsePositiveRate c.design s = .ok (some r)) (hm : 0 < m) (hd : 1 / (m : ℝ) < |r - c.design.alpha.val|)
    (hn : 2 * m * Real.exp (-2 * ps.length * (|r - c.design.alpha.val| - 1 / m) ^ 2) < c.threshold) :
    nullCheck X c s = .ok (some false) := by
  have hb := nullCheck_fin (c := c) hX haa hps hne h01
  by_cases hp : c.threshold ≤ ksSurvival ps.length (ksStatistic ps)
  · rw [decide_eq_true hp] at hb
    have h2 := C111_false_positive_rate hX aa ps r haa hps hne h01 h0 h1 hr hb
    rw [chance_eq (List.length_pos_iff.mpr hne)] at h2
    have h3 := ksSurvival_le (List.length_pos_iff.mpr hne) hm hd
    linarith
  · rw [hb, decide_eq_false hp]

theorem sort_complement (l : List ℝ) : (l.map (fun x => 1 - x)).insertionSort (· ≤ ·) = ((l.insertionSort (· ≤ ·)).map (fun x => 1 - x)).reverse := by
  refine List.Perm.eq_of_pairwise (fun a b _ _ h1 h2 => le_antisymm h1 h2) (List.pairwise_insertionSort _ _) ?_ ?_
  · rw [List.pairwise_reverse, List.pairwise_map]
    exact (List.pairwise_insertionSort (· ≤ ·) l).imp fun h => by linarith
  · refine (List.perm_insertionSort _ _).trans (((List.perm_insertionSort _ l).map _).symm.trans (List.reverse_perm _).symm)

theorem ks_complement_le {l : List ℝ} (hl : l ≠ []) : ksStatistic (l.map (fun x => 1 - x)) ≤ ksStatistic l := by
  have hl' : l.map (fun x => 1 - x) ≠ [] := by
    intro e
    exact hl (List.map_eq_nil_iff.mp e)
  have hN := List.length_pos_iff.mpr hl
  have hn : (0 : ℝ) < l.length := by exact_mod_cast hN
  obtain ⟨hub, -⟩ := ks_candidates hl
  obtain ⟨-, i, hi, he⟩ := ks_candidates hl'
  simp only [sort_complement, List.length_map] at hi he
  rw [List.length_reverse, List.length_map, List.length_insertionSort] at hi
  rw [List.getElem_reverse, List.getElem_map] at he
  simp only [List.length_map, List.length_insertionSort] at he
  have h := hub (l.length - 1 - i) (by rw [List.length_insertionSort]; omega)
  have hc : ((l.length - 1 - i : ℕ) : ℝ) = l.length - 1 - i := by
    rw [Nat.cast_sub (by omega), Nat.cast_sub (by omega), Nat.cast_one]
  rw [hc] at h
  rcases he with e | e
  · rw [e]
    refine le_trans (le_of_eq ?_) h.2
    field_simp
    ring
  · rw [e]
    refine le_trans (le_of_eq ?_) h.1
    field_simp
    ring

/-- **C111.**  The check is two-sided: replacing every p-value `p` by `1 - p` does not change it. -/
theorem C111_complement (hX : Spec.ExactKs X) (s' : SimState) (aa aa' : List TestResult) (ps : List ℝ) (haa : s.aa = some aa)
    (haa' : s'.aa = some aa') (hps : Spec.GavePValues aa ps) (hps' : Spec.GavePValues aa' (ps.map (fun p => 1 - p))) (hne : ps ≠ [])
    (h01 : ∀ p ∈ ps, 0 ≤ p ∧ p ≤ 1) : nullCheck X c s' = nullCheck X c s := by
  have hne' : ps.map (fun x => 1 - x) ≠ [] := by
    intro e
    exact hne (List.map_eq_nil_iff.mp e)
  rw [nullCheck_fin hX haa hps hne h01, nullCheck_fin hX haa' hps' hne', List.length_map]
  · have h1 := ks_complement_le hne
    have h2 := ks_complement_le hne'
    rw [List.map_map] at h2
    have : ps.map ((fun x : ℝ => 1 - x) ∘ fun x => 1 - x) = ps := by
      conv_rhs => rw [← List.map_id ps]
      exact List.map_congr_left fun x _ => by simp
    rw [this] at h2
    rw [le_antisymm h1 h2]
  · intro p hp
    obtain ⟨q, hq, rfl⟩ := List.mem_map.mp hp
    have := h01 q hq
    constructor <;> linarith [this.1, this.2]

/-! ### Examples -/

/-- SciPy's Kolmogorov–Smirnov test. -/
noncomputable def exactKs : RobustnessTests := ⟨ksTest, binomTail, fun _ _ => .nan⟩

theorem exactKs_ok : Spec.ExactKs exactKs := fun _ => rfl

/-- A state with given A/A p-values. -/
noncomputable def pValuesOf (ps : List ℝ) : SimState := ⟨⟨[], []⟩, none, none, none, none, some (ps.map resultOf), none⟩

theorem pValuesOf_gave (ps : List ℝ) : Spec.GavePValues (ps.map resultOf) ps := by
  unfold Spec.GavePValues
  rw [List.map_map]
  rfl

/-- A hundred evenly spread p-values pass; so do their complements. -/
example : nullCheck exactKs (configOf (1 / 20) (4 / 5) (1 / 20)) (pValuesOf ((List.range 100).map (fun i : ℕ => ((i : ℝ) + 1 / 2) / (100 : ℕ)))) = .ok (some true) :=
  C111_evenly_spread exactKs_ok _ 100 (by norm_num) _ rfl (pValuesOf_gave _) (List.Perm.refl _) (show (1 / 20 : ℝ) ≤ 1 by norm_num)

/-- A thousand simulations that all give the p-value 1/5: at least four fifths away, so they fail. -/
example : nullCheck exactKs (configOf (1 / 20) (4 / 5) (1 / 20)) (pValuesOf (List.replicate 1000 (1 / 5))) = .ok (some false) := by
  have hne : List.replicate 1000 (1 / 5 : ℝ) ≠ [] := List.ne_nil_of_length_pos (by rw [List.length_replicate]; norm_num)
  have h01 : ∀ p ∈ List.replicate 1000 (1 / 5 : ℝ), 0 ≤ p ∧ p ≤ 1 := by
    intro p hp
    rw [List.eq_of_mem_replicate hp]
    norm_num
  have hd := ks_distance hne h01
  refine C111_far_from_uniform_fails exactKs_ok _ _ (4 / 5) _ 2 rfl (pValuesOf_gave _) hne h01 hd ?_ (by norm_num) (by norm_num) ?_
  · have h := hd.1 ⟨1 / 5, by norm_num, by norm_num, rfl⟩
    have e : Spec.shareUpTo (List.replicate 1000 (1 / 5 : ℝ)) (1 / 5) = 1 := by
      unfold Spec.shareUpTo
      rw [List.countP_replicate, List.length_replicate]
      norm_num
    rw [e] at h
    refine le_trans ?_ h
    rw [abs_of_pos] <;> norm_num
  · show _ < (1 / 20 : ℝ)
    rw [List.length_replicate]
    have e : (-2 * ((1000 : ℕ) : ℝ) * (4 / 5 - 1 / ((2 : ℕ) : ℝ)) ^ 2) = -180 := by norm_num
    rw [e, Real.exp_neg]
    have h : (181 : ℝ) ≤ Real.exp 180 := by
      have := Real.add_one_le_exp (180 : ℝ)
      linarith
    have h2 : (Real.exp 180)⁻¹ ≤ 1 / 181 := by
      rw [← one_div]
      exact one_div_le_one_div_of_le (by norm_num) h
    push_cast
    linarith

/-- Uniform p-values of ten simulations fail with a chance of at most one in twenty. -/
example : (volume {u : Fin 10 → unitInterval | nullCheck exactKs (configOf (1 / 20) (4 / 5) (1 / 20)) (pValuesOf (Spec.coordinates u)) ≠ .ok (some true)}).toReal ≤ 1 / 20 :=
  C111_false_alarms (c := configOf (1 / 20) (4 / 5) (1 / 20)) exactKs_ok 10 (by norm_num) (show (0 : ℝ) ≤ 1 / 20 by norm_num) _
    (fun u => ⟨_, rfl, pValuesOf_gave _⟩)

end Feedx
