import Verif.Props.Analysis

/-!
Property C124: the analysis of a metric that is constant in the pretest.
-/

set_option linter.unusedSectionVars false
set_option linter.unusedSimpArgs false

namespace Feedx

open Fl

theorem groupSize_add {piv : Pivoted ℝ} (hall : ∀ k ∈ piv.index, Spec.AssignedTo 0 k ∨ Spec.AssignedTo 1 k) :
    groupSize piv 1 + groupSize piv 0 = piv.index.length := by
  classical
  have e0 : groupSize piv 0 = piv.index.countP (fun k => !decide (Spec.AssignedTo 1 k)) := by
    unfold groupSize
    refine List.countP_congr fun k hk => ?_
    by_cases h1 : Spec.AssignedTo 1 k
    · have h0 : ¬ Spec.AssignedTo 0 k := fun h0 => not_assigned_both h0 h1
      simp [h0, h1]
    · have h0 := (hall k hk).resolve_right h1
      simp [h0, h1]
  have e1 := List.length_eq_countP_add_countP (l := piv.index) (fun k => decide (Spec.AssignedTo 1 k))
  rw [e0, e1]
  unfold groupSize
  congr 2
  funext k
  by_cases h1 : Spec.AssignedTo 1 k <;> simp [h1]

theorem finiteValues_nan {n : ℕ} {v : List ℝ} (h : finiteValues (List.replicate n (.nan : Fl ℝ)) = .ok v) : n = 0 := by
  have := finiteValues_ok.mp h
  cases n with
  | zero => rfl
  | succ n =>
    cases v with
    | nil => simp at this
    | cons a v => simp [List.replicate_succ] at this

theorem indTest_needs_values {R : Rounding ℝ} {argsort : List ℝ → List ℕ} {D : TDist} {v1 v2 : List ℝ} {q : ℝ} {d1 d2 : Option (List ℝ)} {ev : Bool}
    {alt : String} {α : ℝ} {r : TestResult} (h : indTest R argsort D v1 v2 q d1 d2 ev alt α = .ok r) :
    v1 ≠ [] ∧ (∀ x, d1 = some x → x ≠ []) := by
  rcases indTest_ok h with ⟨x1, x2, rfl, -, T1, T2, hT1, -, hl, -⟩ | ⟨rfl, -, T1, T2, hT1, -, hl, -⟩
  · obtain ⟨-, -, -, e, -⟩ := mkTrimmed_ok hT1
    unfold TrimmedArray.len at hl
    unfold stack2 at e
    rw [List.length_zipWith] at e
    constructor
    · rintro rfl
      simp only [List.length_nil, Nat.zero_min, Nat.min_zero, Nat.add_eq_zero_iff] at e
      omega
    · rintro x hx rfl
      cases hx
      simp only [List.length_nil, Nat.zero_min, Nat.min_zero, Nat.add_eq_zero_iff] at e
      omega
  · obtain ⟨-, -, -, e, -⟩ := mkTrimmed_ok hT1
    unfold TrimmedArray.len at hl
    refine ⟨?_, fun x hx => by cases hx⟩
    rintro rfl
    simp only [asStack, List.map_nil, List.length_nil, Nat.add_eq_zero_iff] at e
    omega

/-- If the values, or their denominators, are nan then the result has no numbers. -/
theorem indTestFl_nan {R : Rounding ℝ} {argsort : List ℝ → List ℕ} {D : TDist} {y : List (Fl ℝ) × List (Fl ℝ)} {q : ℝ} {n1 n2 : ℕ} {r : TestResult}
    (hy : y = (List.replicate n1 .nan, List.replicate n2 .nan)) (h : indTestFl R argsort D y q none = .ok r) : Spec.NoEstimate r (n1 + n2) := by
  subst hy
  unfold indTestFl at h
  simp only [onlyNan_replicate, List.length_replicate] at h
  split at h
  · obtain ⟨-, h⟩ := raiseIf_bind_ok.mp h
    obtain ⟨r', hr, hn⟩ := nan_results D n1 n2 true
    rw [hr] at h
    cases h
    exact hn
  · rename_i hneg
    obtain ⟨v1, h1, h'⟩ := Py.bind_eq_ok.mp h
    obtain ⟨v2, h2, h''⟩ := Py.bind_eq_ok.mp h'
    have e := finiteValues_nan h1
    rw [e] at h1
    have := finiteValues_ok.mp h1
    exact absurd (by simpa using this.symm) (indTest_needs_values h'').1

theorem indTestFl_nan_ratio {R : Rounding ℝ} {argsort : List ℝ → List ℕ} {D : TDist} {y z : List (Fl ℝ) × List (Fl ℝ)} {q : ℝ} {n1 n2 : ℕ} {r : TestResult}
    (hl : y.1.length = n1 ∧ y.2.length = n2)
    (hy : y = (List.replicate n1 .nan, List.replicate n2 .nan) ∨ z = (List.replicate n1 .nan, List.replicate n2 .nan))
    (h : indTestFl R argsort D y q (some z) = .ok r) : Spec.NoEstimate r (n1 + n2) := by
  obtain ⟨hl1, hl2⟩ := hl
  unfold indTestFl at h
  simp only at h
  split at h
  · obtain ⟨-, h⟩ := raiseIf_bind_ok.mp h
    obtain ⟨r', hr, hn⟩ := nan_results D n1 n2 false
    rw [hl1, hl2, hr] at h
    cases h
    exact hn
  · rename_i hneg
    obtain ⟨v1, h1, k1⟩ := Py.bind_eq_ok.mp h
    obtain ⟨v2, h2, k2⟩ := Py.bind_eq_ok.mp k1
    obtain ⟨d1, h3, k3⟩ := Py.bind_eq_ok.mp k2
    obtain ⟨d2, h4, k4⟩ := Py.bind_eq_ok.mp k3
    rcases hy with rfl | rfl
    · have e := finiteValues_nan h1
      rw [e] at h1
      have := finiteValues_ok.mp h1
      exact absurd (by simpa using this.symm) (indTest_needs_values k4).1
    · have e := finiteValues_nan h3
      rw [e] at h3
      have := finiteValues_ok.mp h3
      exact absurd (by simpa using this.symm) ((indTest_needs_values k4).2 _ rfl)

theorem prepared_lengths {R : Rounding ℝ} {argsort : List ℝ → List ℕ} {piv : Pivoted ℝ} {m : String} {q : ℝ} {y : List (Fl ℝ) × List (Fl ℝ)}
    (h : (¬ Spec.ConstantPretest R piv m q ∧
      ∃ v, Spec.AdjustedValues R argsort piv m q v ∧ y = ((Spec.groupOf piv 1 v).map .fin, (Spec.groupOf piv 0 v).map .fin)) ∨
    (Spec.ConstantPretest R piv m q ∧ y = (List.replicate (groupSize piv 1) .nan, List.replicate (groupSize piv 0) .nan))) :
    y.1.length = groupSize piv 1 ∧ y.2.length = groupSize piv 0 := by
  classical
  rcases h with ⟨-, v, hv, rfl⟩ | ⟨-, rfl⟩
  · exact ⟨by simp [groupOf_size _ hv.length], by simp [groupOf_size _ hv.length]⟩
  · simp

/-- **C124, plain metric.**  If the metric has the same value for every item in the pretest and nothing is trimmed, then an analysis that returns says
nothing: every number is nan, there are no relative effects, and the result is not significant, whatever the values in the test. -/
theorem C124_constant_pretest (R : Rounding ℝ) (argsort : List ℝ → List ℕ) (D : TDist) (piv : Pivoted ℝ)
    (metrics : List String) (itemCol treatmentCol : String) (hne : itemCol ≠ treatmentCol)
    (hi : ¬ Spec.Reserved itemCol) (ht : ¬ Spec.Reserved treatmentCol) (hidx : ∀ k ∈ piv.index, k.length = 2)
    (hall : ∀ k ∈ piv.index, Spec.AssignedTo 0 k ∨ Spec.AssignedTo 1 k)
    (d : DesignParams ℝ) (hd : d.isCrossover = false) (metric : String) (override : Option ℝ) (r : TestResult)
    (hc : Spec.ConstantPretest R piv metric (override.getD d.postTrim.val))
    (h : analyzeSingleMetric R argsort D piv metrics [itemCol, treatmentCol] d metric none treatmentCol override = .ok r) :
    Spec.NoEstimate r piv.index.length := by
  obtain ⟨f, hf, ⟨-, h⟩ | ⟨m', g, hm, -, -⟩⟩ := analyzeSingle_ok h
  swap
  · cases hm
  rw [hd] at h
  simp only [Bool.false_eq_true, if_false] at h
  unfold analyzeRegular at h
  obtain ⟨y, hy, h⟩ := Py.bind_eq_ok.mp h
  obtain ⟨hc', -⟩ | ⟨-, rfl⟩ := prepareRegular_ok hf hne hi ht hidx hy
  · exact absurd hc hc'
  rw [← groupSize_add hall]
  exact indTestFl_nan rfl h

/-- **C124, ratio metric.**  The same holds for a ratio whose numerator or whose denominator is constant in the pretest. -/
theorem C124_constant_pretest_ratio (R : Rounding ℝ) (argsort : List ℝ → List ℕ) (D : TDist) (piv : Pivoted ℝ)
    (metrics : List String) (itemCol treatmentCol : String) (hne : itemCol ≠ treatmentCol)
    (hi : ¬ Spec.Reserved itemCol) (ht : ¬ Spec.Reserved treatmentCol) (hidx : ∀ k ∈ piv.index, k.length = 2)
    (hall : ∀ k ∈ piv.index, Spec.AssignedTo 0 k ∨ Spec.AssignedTo 1 k)
    (d : DesignParams ℝ) (hd : d.isCrossover = false) (metric denominator : String) (override : Option ℝ) (r : TestResult)
    (hc : Spec.ConstantPretest R piv metric (override.getD d.postTrim.val) ∨ Spec.ConstantPretest R piv denominator (override.getD d.postTrim.val))
    (h : analyzeSingleMetric R argsort D piv metrics [itemCol, treatmentCol] d metric (some denominator) treatmentCol
      override = .ok r) : Spec.NoEstimate r piv.index.length := by
  obtain ⟨f, hf, ⟨hm, -⟩ | ⟨m', g, hm, hg, h⟩⟩ := analyzeSingle_ok h
  · cases hm
  cases hm
  rw [hd] at h
  simp only [Bool.false_eq_true, if_false] at h
  unfold analyzeRegular at h
  obtain ⟨y, hy, h⟩ := Py.bind_eq_ok.mp h
  obtain ⟨z, hz, h⟩ := Py.bind_eq_ok.mp h
  have py := prepareRegular_ok hf hne hi ht hidx hy
  have pz := prepareRegular_ok hg hne hi ht hidx hz
  rw [← groupSize_add hall]
  refine indTestFl_nan_ratio (prepared_lengths py) ?_ h
  rcases hc with hc | hc
  · exact Or.inl (py.resolve_left fun h => h.1 hc).2
  · exact Or.inr (pz.resolve_left fun h => h.1 hc).2

end Feedx
