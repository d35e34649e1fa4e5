import Verif.Model.Analysis
import Verif.Spec.Analysis
import Verif.Props.TTestFormulas
import Verif.Props.Cuped

/-!
Lemmas about the analysis of one metric.
-/

set_option linter.unusedSectionVars false
set_option linter.unusedSimpArgs false

namespace Feedx

open Fl

theorem finiteValues_ok {l : List (Fl ℝ)} {v : List ℝ} : finiteValues l = .ok v ↔ l = v.map .fin := by
  unfold finiteValues
  induction l generalizing v with
  | nil =>
    simp only [List.mapM_nil, pure, Except.pure]
    constructor
    · intro h; cases h; rfl
    · intro h
      cases v with
      | nil => rfl
      | cons a v => simp at h
  | cons x l ih =>
    rw [List.mapM_cons]
    cases x with
    | fin y =>
      cases v with
      | nil =>
        simp only [List.map_nil, reduceCtorEq, iff_false]
        intro h
        obtain ⟨a, ha, h⟩ := Py.bind_eq_ok.mp h
        obtain ⟨b, hb, h⟩ := Py.bind_eq_ok.mp h
        cases h
      | cons a v =>
        simp only [List.map_cons, List.cons.injEq, Fl.fin.injEq, ← ih]
        constructor
        · intro h
          obtain ⟨a', ha, h⟩ := Py.bind_eq_ok.mp h
          obtain ⟨b, hb, h⟩ := Py.bind_eq_ok.mp h
          cases ha
          cases h
          exact ⟨rfl, hb⟩
        · rintro ⟨rfl, h⟩
          rw [h]; rfl
    | nan =>
      cases v <;> simp [bind, Except.bind]
    | ninf =>
      cases v <;> simp [bind, Except.bind]
    | pinf =>
      cases v <;> simp [bind, Except.bind]

theorem toFl_flCell (x : Fl ℝ) : (flCell x).toFl = x := by
  cases x <;> rfl

theorem metricSubset_ok {piv : Pivoted ℝ} {metrics names : List String} {m : String} {f : Frame ℝ}
    (h : metricSubset piv metrics names m = .ok f) :
    f.cols = names ++ piv.periods.map (fun c => match c with
      | .str s => s
      | _ => "") ∧
    f.rows = piv.index.map (fun k c =>
      match (names.zip k).lookup c with
      | some v => v
      | none => flCell (piv.value k m c)) := by
  unfold metricSubset at h
  obtain ⟨-, h⟩ := raiseIf_bind_ok.mp h
  obtain ⟨-, h⟩ := raiseIf_bind_ok.mp h
  cases h
  exact ⟨rfl, rfl⟩

/-- The value column of a metric in the subset. -/
theorem subset_values {piv : Pivoted ℝ} {metrics : List String} {itemCol treatmentCol m : String} {f : Frame ℝ}
    (h : metricSubset piv metrics [itemCol, treatmentCol] m = .ok f) {p : String} (h1 : p ≠ itemCol)
    (h2 : p ≠ treatmentCol) {v : List ℝ} (hv : finiteValues ((f.col p).map Cell.toFl) = .ok v) :
    Spec.ValuesOf piv m p v := by
  rw [finiteValues_ok] at hv
  unfold Frame.col at hv
  rw [(metricSubset_ok h).2, List.map_map, List.map_map] at hv
  unfold Spec.ValuesOf
  have e : piv.index.map (fun k => piv.value k m p) = v.map .fin := by
    rw [← hv]
    apply List.map_congr_left
    intro k _
    simp only [Function.comp_apply]
    have hl : ([itemCol, treatmentCol].zip k).lookup p = none := by
      have h1' : (p == itemCol) = false := by simpa using h1
      have h2' : (p == treatmentCol) = false := by simpa using h2
      rcases k with _ | ⟨a, _ | ⟨b, k⟩⟩ <;> simp [List.lookup, h1', h2']
    rw [hl, toFl_flCell]
  have := List.forall₂_map_left_iff (f := fun k => piv.value k m p) (R := fun a (b : ℝ) => a = Fl.fin b)
    (l := piv.index) (u := v)
  rw [← this, e, List.forall₂_map_left_iff]
  exact List.forall₂_same.mpr (fun _ _ => rfl)

open Classical in
/-- The mask of the items with assignment `b`. -/
theorem subset_mask {piv : Pivoted ℝ} {metrics : List String} {itemCol treatmentCol m : String} {f : Frame ℝ}
    (h : metricSubset piv metrics [itemCol, treatmentCol] m = .ok f) (hne : itemCol ≠ treatmentCol)
    (hidx : ∀ k ∈ piv.index, k.length = 2) (b : ℝ) :
    (f.col treatmentCol).map (cellEq b) = piv.index.map (fun k => decide (Spec.AssignedTo b k)) := by
  unfold Frame.col
  rw [(metricSubset_ok h).2, List.map_map, List.map_map]
  apply List.map_congr_left
  intro k hk
  obtain ⟨i, t, rfl⟩ := List.length_eq_two.mp (hidx k hk)
  have h1' : (treatmentCol == itemCol) = false := by simpa using hne.symm
  simp only [Function.comp_apply, List.zip_cons_cons, List.zip_nil_right, List.lookup, h1', beq_self_eq_true, cellEq]
  congr 1
  apply propext
  constructor
  · intro ht; exact ⟨i, t, rfl, ht⟩
  · rintro ⟨i', t', e, ht⟩
    simp only [List.cons.injEq, and_true] at e
    rw [e.2]; exact ht

theorem maskSelect_map {α β : Type} (l : List α) (p : α → Bool) (y : List β) :
    maskSelect (l.map p) y = ((l.zip y).filter (fun e => p e.1)).map Prod.snd := by
  unfold maskSelect
  induction l generalizing y with
  | nil => rfl
  | cons a l ih =>
    cases y with
    | nil => rfl
    | cons b y =>
      simp only [List.map_cons, List.zip_cons_cons, List.filter_cons]
      cases p a <;> simp [ih]

theorem mem_period_cols {piv : Pivoted ℝ} {metrics : List String} {itemCol treatmentCol m : String} {f : Frame ℝ}
    (h : metricSubset piv metrics [itemCol, treatmentCol] m = .ok f) {p : String} (h1 : p ≠ itemCol)
    (h2 : p ≠ treatmentCol) (hp : p ≠ "") : p ∈ f.cols ↔ Cell.str p ∈ piv.periods := by
  rw [(metricSubset_ok h).1]
  simp only [List.mem_append, List.mem_cons, List.not_mem_nil, or_false, List.mem_map, h1, h2, false_or]
  constructor
  · rintro ⟨c, hc, e⟩
    cases c with
    | str s => simp only at e; rw [← e]; exact hc
    | _ => exact absurd e.symm hp
  · intro hc; exact ⟨_, hc, rfl⟩

theorem cuped_length {R : Rounding ℝ} {argsort : List ℝ → List ℕ} {a b : List ℝ} {q : ℝ} {out : List (Fl ℝ)}
    (h : cuped R argsort a b q = .ok out) : out.length = a.length := by
  unfold cuped at h
  obtain ⟨hl, h⟩ := raiseIf_bind_ok.mp h
  obtain ⟨-, h⟩ := raiseIf_bind_ok.mp h
  obtain ⟨-, h⟩ := raiseIf_bind_ok.mp h
  have hl' : a.length = b.length := by simpa using hl
  dsimp only at h
  split at h
  · split at h
    · cases h; simp
    · obtain ⟨-, h⟩ := raiseIf_bind_ok.mp h
      cases h; simp
  · obtain ⟨T, -, h⟩ := Py.bind_eq_ok.mp h
    split at h
    · cases h; simp [hl']
    · obtain ⟨-, h⟩ := raiseIf_bind_ok.mp h
      split at h
      · cases h; simp
      · obtain ⟨T1, -, h⟩ := Py.bind_eq_ok.mp h
        obtain ⟨T2, -, h⟩ := Py.bind_eq_ok.mp h
        split at h
        · cases h; simp [hl']
        · cases h; simp

theorem Spec.AdjustedValues.length {R : Rounding ℝ} {argsort : List ℝ → List ℕ} {piv : Pivoted ℝ} {m : String} {q : ℝ}
    {y : List ℝ} (h : Spec.AdjustedValues R argsort piv m q y) : y.length = piv.index.length := by
  obtain ⟨test, ht, ⟨-, rfl⟩ | ⟨-, pre, hp, hc⟩⟩ := h
  · exact ht.length_eq.symm
  · have := cuped_length hc
    rw [List.length_map] at this
    rw [this]; exact ht.length_eq.symm

theorem sampleCov_zero_iff {l : List ℝ} (h : 1 < l.length) : sampleCov l l = 0 ↔ ∃ c, ∀ x ∈ l, x = c := by
  have hn : ((l.length : ℝ) - 1) ≠ 0 := by
    have : (1 : ℝ) < l.length := by exact_mod_cast h
    linarith
  have hs : List.zipWith (fun a b => (a - meanOf l) * (b - meanOf l)) l l = l.map (fun a => (a - meanOf l) ^ 2) := by
    rw [List.zipWith_self]
    exact List.map_congr_left fun a _ => by ring
  unfold sampleCov
  rw [hs, div_eq_zero_iff, or_iff_left hn]
  constructor
  · intro h0
    refine ⟨meanOf l, fun x hx => ?_⟩
    have h1 := List.single_le_sum (l := l.map (fun a => (a - meanOf l) ^ 2)) (by
      intro y hy
      obtain ⟨a, -, rfl⟩ := List.mem_map.mp hy
      positivity) _ (List.mem_map.mpr ⟨x, hx, rfl⟩)
    rw [h0] at h1
    have := le_antisymm h1 (sq_nonneg _)
    have := pow_eq_zero_iff (two_ne_zero) |>.mp this
    linarith
  · rintro ⟨c, hc⟩
    have hm : meanOf l = c := by
      unfold meanOf
      rw [List.eq_replicate_of_mem hc, List.sum_replicate, List.length_replicate, nsmul_eq_mul]
      have : ((l.length : ℕ) : ℝ) ≠ 0 := by
        have : (1 : ℝ) < l.length := by exact_mod_cast h
        linarith
      field_simp
    refine List.sum_eq_zero fun y hy => ?_
    obtain ⟨a, ha, rfl⟩ := List.mem_map.mp hy
    rw [hm, hc a ha]
    ring

/-- The adjusted values are all finite, or all nan. -/
theorem cuped_shape {R : Rounding ℝ} {argsort : List ℝ → List ℕ} {a b : List ℝ} {q : ℝ} {out : List (Fl ℝ)}
    (h : cuped R argsort a b q = .ok out) : 1 < a.length ∧ a.length = b.length ∧
      ((∃ v : List ℝ, out = v.map .fin ∧ ¬ (sampleCov b b = 0 ∧ nTrimOf R q a.length = 0)) ∨
        (sampleCov b b = 0 ∧ nTrimOf R q a.length = 0 ∧ out = a.map (fun _ => .nan))) := by
  unfold cuped at h
  obtain ⟨hl, h⟩ := raiseIf_bind_ok.mp h
  obtain ⟨h1, h⟩ := raiseIf_bind_ok.mp h
  obtain ⟨-, h⟩ := raiseIf_bind_ok.mp h
  refine ⟨by omega, by simpa using hl, ?_⟩
  dsimp only at h
  split at h
  · rename_i h0
    split at h
    · rename_i hg
      cases h
      exact Or.inr ⟨h0, hg, rfl⟩
    · rename_i hg
      obtain ⟨-, h⟩ := raiseIf_bind_ok.mp h
      cases h
      exact Or.inl ⟨a, rfl, fun hc => hg hc.2⟩
  · rename_i h0
    obtain ⟨T, -, h⟩ := Py.bind_eq_ok.mp h
    split at h
    · cases h
      exact Or.inl ⟨_, rfl, fun hc => h0 hc.1⟩
    · obtain ⟨-, h⟩ := raiseIf_bind_ok.mp h
      split at h
      · cases h
        exact Or.inl ⟨_, rfl, fun hc => h0 hc.1⟩
      · obtain ⟨T1, -, h⟩ := Py.bind_eq_ok.mp h
        obtain ⟨T2, -, h⟩ := Py.bind_eq_ok.mp h
        split at h
        · cases h
          refine Or.inl ⟨(List.zipWith (fun a b => a - T.cov 0 1 2 / T.cov 0 2 2 * b) a b).map (fun x => x + T1.mean 0 - T2.mean 0), ?_, fun hc => h0 hc.1⟩
          rw [List.map_map]
          rfl
        · cases h
          exact Or.inl ⟨_, rfl, fun hc => h0 hc.1⟩

open Classical in
/-- The number of index tuples with assignment `b`. -/
noncomputable def groupSize (piv : Pivoted ℝ) (b : ℝ) : ℕ := piv.index.countP (fun k => decide (Spec.AssignedTo b k))

open Classical in
theorem maskSelect_group {piv : Pivoted ℝ} (b : ℝ) (y : List ℝ) :
    maskSelect (piv.index.map (fun k => decide (Spec.AssignedTo b k))) (y.map Fl.fin) = (Spec.groupOf piv b y).map .fin := by
  rw [maskSelect_map]
  unfold Spec.groupOf
  rw [List.zip_map_right, List.filter_map, List.map_map, List.map_map]
  rfl

open Classical in
theorem maskSelect_nan {piv : Pivoted ℝ} (b : ℝ) {y : List ℝ} (h : y.length = piv.index.length) :
    maskSelect (piv.index.map (fun k => decide (Spec.AssignedTo b k))) (y.map (fun _ => (Fl.nan : Fl ℝ))) = List.replicate (groupSize piv b) .nan := by
  rw [maskSelect_map]
  unfold groupSize
  generalize piv.index = l at h
  induction l generalizing y with
  | nil => rfl
  | cons k l ih =>
    cases y with
    | nil => simp at h
    | cons x y =>
      have := ih (y := y) (by simpa using h)
      rw [List.map_cons, List.zip_cons_cons, List.filter_cons, List.countP_cons]
      split
      · rw [List.map_cons, this, List.replicate_succ]
      · rw [this, Nat.add_zero]

theorem groupOf_size {piv : Pivoted ℝ} (b : ℝ) {v : List ℝ} (h : v.length = piv.index.length) : (Spec.groupOf piv b v).length = groupSize piv b := by
  classical
  have h1 := congrArg List.length (maskSelect_nan (piv := piv) b h)
  rw [List.length_replicate, maskSelect_map, List.length_map] at h1
  have h2 := congrArg List.length (maskSelect_group (piv := piv) b v)
  rw [List.length_map, maskSelect_map, List.length_map, List.zip_map_right, List.filter_map, List.length_map] at h2
  rw [List.zip_map_right, List.filter_map, List.length_map] at h1
  rw [← h2, ← h1]
  rfl

theorem valuesOf_mem {piv : Pivoted ℝ} {m p : String} {v : List ℝ} (h : Spec.ValuesOf piv m p v) {x : ℝ} (hx : x ∈ v) :
    ∃ k ∈ piv.index, piv.value k m p = .fin x := by
  obtain ⟨i, hi, rfl⟩ := List.mem_iff_getElem.mp hx
  have hl := h.length_eq
  exact ⟨_, List.getElem_mem (by omega), h.get (by omega) hi⟩

theorem valuesOf_of_mem {piv : Pivoted ℝ} {m p : String} {v : List ℝ} (h : Spec.ValuesOf piv m p v) {k : List (Cell ℝ)} (hk : k ∈ piv.index) :
    ∃ x ∈ v, piv.value k m p = .fin x := by
  obtain ⟨i, hi, rfl⟩ := List.mem_iff_getElem.mp hk
  have hl := h.length_eq
  exact ⟨_, List.getElem_mem (by omega), h.get hi (by omega)⟩

theorem prepareRegular_ok {R : Rounding ℝ} {argsort : List ℝ → List ℕ} {piv : Pivoted ℝ} {metrics : List String}
    {itemCol treatmentCol m : String} {f : Frame ℝ} {q : ℝ} {y : List (Fl ℝ) × List (Fl ℝ)}
    (hs : metricSubset piv metrics [itemCol, treatmentCol] m = .ok f) (hne : itemCol ≠ treatmentCol)
    (hi : ¬ Spec.Reserved itemCol) (ht : ¬ Spec.Reserved treatmentCol)
    (hidx : ∀ k ∈ piv.index, k.length = 2)
    (h : prepareRegular R argsort f treatmentCol q = .ok y) :
    (¬ Spec.ConstantPretest R piv m q ∧
      ∃ v, Spec.AdjustedValues R argsort piv m q v ∧ y = ((Spec.groupOf piv 1 v).map .fin, (Spec.groupOf piv 0 v).map .fin)) ∨
    (Spec.ConstantPretest R piv m q ∧ y = (List.replicate (groupSize piv 1) .nan, List.replicate (groupSize piv 0) .nan)) := by
  classical
  unfold Spec.Reserved at hi ht
  push Not at hi ht
  unfold prepareRegular at h
  obtain ⟨test, htest, h⟩ := Py.bind_eq_ok.mp h
  have vt := subset_values hs hi.2.1.symm ht.2.1.symm htest
  have hm := mem_period_cols hs (p := "pretest") hi.1.symm ht.1.symm (by decide)
  have m1 := subset_mask hs hne hidx 1
  have m0 := subset_mask hs hne hidx 0
  by_cases hp : "pretest" ∈ f.cols
  · rw [if_pos hp] at h
    obtain ⟨out, hv, h⟩ := Py.bind_eq_ok.mp h
    obtain ⟨pre, hpre, hout⟩ := Py.bind_eq_ok.mp hv
    have vp := subset_values hs hi.1.symm ht.1.symm hpre
    cases h
    obtain ⟨h1, hl, hcase⟩ := cuped_shape hout
    have tl : test.length = piv.index.length := vt.length_eq.symm
    have hcp : Spec.ConstantPretest R piv m q ↔ sampleCov pre pre = 0 ∧ nTrimOf R q test.length = 0 := by
      rw [sampleCov_zero_iff (by omega)]
      unfold Spec.ConstantPretest
      rw [and_iff_right (hm.mp hp)]
      have e1 : (∃ c : ℝ, ∀ k ∈ piv.index, piv.value k m "pretest" = .fin c) ↔ ∃ c, ∀ x ∈ pre, x = c := by
        refine exists_congr fun c => ?_
        constructor
        · intro hk x hx
          obtain ⟨k, hk', e⟩ := valuesOf_mem vp hx
          rw [hk k hk'] at e
          exact (Fl.fin.inj e).symm
        · intro hx k hk
          obtain ⟨x, hx', e⟩ := valuesOf_of_mem vp hk
          rw [e, hx x hx']
      have e2 : ⌊R.rnd (q * (piv.index.length : ℝ))⌋ ≤ 0 ↔ nTrimOf R q test.length = 0 := by
        unfold nTrimOf Rounding.floorMul
        rw [tl, Int.toNat_eq_zero]
        simp
      rw [e1, e2]
    rcases hcase with ⟨v, rfl, hn⟩ | ⟨h0, hg, rfl⟩
    · refine Or.inl ⟨fun hc => hn (hcp.mp hc), v, ⟨test, vt, Or.inr ⟨hm.mp hp, pre, vp, hout⟩⟩, ?_⟩
      rw [m1, m0, maskSelect_group, maskSelect_group]
    · refine Or.inr ⟨hcp.mpr ⟨h0, hg⟩, ?_⟩
      rw [m1, m0, maskSelect_nan _ tl, maskSelect_nan _ tl]
  · rw [if_neg hp] at h
    cases h
    refine Or.inl ⟨fun hc => hp (hm.mpr hc.1), test, ⟨test, vt, Or.inl ⟨fun hc => hp (hm.mpr hc), rfl⟩⟩, ?_⟩
    rw [m1, m0, maskSelect_group, maskSelect_group]

theorem onlyNan_fin (l : List ℝ) : onlyNan (l.map .fin) = false := by
  unfold onlyNan
  rw [decide_eq_false_iff_not]
  rintro ⟨h1, h2⟩
  cases l with
  | nil => exact h1 rfl
  | cons a l => exact absurd (h2 (.fin a) (by simp)) (by simp)

theorem onlyNan_replicate (n : ℕ) : onlyNan (List.replicate n (.nan : Fl ℝ)) = true ↔ 0 < n := by
  unfold onlyNan
  rw [decide_eq_true_iff]
  constructor
  · rintro ⟨h1, -⟩
    cases n with
    | zero => exact absurd rfl h1
    | succ n => omega
  · intro h
    exact ⟨by simp; omega, fun x hx => (List.mem_replicate.mp hx).2⟩

theorem indTestFl_fin {R : Rounding ℝ} {argsort : List ℝ → List ℕ} {D : TDist} (v1 v2 : List ℝ) (q : ℝ) :
    indTestFl R argsort D (v1.map .fin, v2.map .fin) q none = indTest R argsort D v1 v2 q none none false "two-sided" defaultAlpha := by
  unfold indTestFl
  simp only [onlyNan_fin, Bool.false_eq_true, false_and, if_false, finiteValues_ok.mpr rfl, bind, Except.bind]

theorem indTestFl_fin_ratio {R : Rounding ℝ} {argsort : List ℝ → List ℕ} {D : TDist} (v1 v2 d1 d2 : List ℝ) (q : ℝ) :
    indTestFl R argsort D (v1.map .fin, v2.map .fin) q (some (d1.map .fin, d2.map .fin)) =
      indTest R argsort D v1 v2 q (some d1) (some d2) false "two-sided" defaultAlpha := by
  unfold indTestFl
  simp only [onlyNan_fin, Bool.false_eq_true, false_and, or_false, if_false, finiteValues_ok.mpr rfl, bind, Except.bind]

/-- The result when the means and variances are nan. -/
theorem nan_results (D : TDist) (n1 n2 : ℕ) (b : Bool) :
    ∃ r, resultsFrom D (indEstimates nan nan nan nan n1 n2 false) b "two-sided" defaultAlpha = .ok r ∧ Spec.NoEstimate r (n1 + n2) := by
  refine ⟨_, rfl, ?_, ⟨rfl, rfl, rfl⟩, ⟨rfl, rfl⟩, rfl⟩
  intro x hx
  simp only [List.mem_cons, List.not_mem_nil, or_false] at hx
  rcases hx with rfl | rfl | rfl | rfl | rfl | rfl | rfl | rfl <;> rfl

theorem analyzeSingle_ok {R : Rounding ℝ} {argsort : List ℝ → List ℕ} {D : TDist} {piv : Pivoted ℝ}
    {metrics names : List String} {d : DesignParams ℝ} {metric : String} {denominator : Option String}
    {treatmentName : String} {override : Option ℝ} {r : TestResult}
    (h : analyzeSingleMetric R argsort D piv metrics names d metric denominator treatmentName override = .ok r) :
    ∃ f, metricSubset piv metrics names metric = .ok f ∧
      ((denominator = none ∧
          (if d.isCrossover then analyzeCrossover R argsort D (storeFirst piv metric) id f none treatmentName (override.getD d.postTrim.val)
            else analyzeRegular R argsort D f none treatmentName (override.getD d.postTrim.val)) = .ok r) ∨
       ∃ m' g, denominator = some m' ∧ metricSubset piv metrics names m' = .ok g ∧
          (if d.isCrossover then analyzeCrossover R argsort D (storeFirst piv metric) (storeFirst piv m') f (some g) treatmentName (override.getD d.postTrim.val)
            else analyzeRegular R argsort D f (some g) treatmentName (override.getD d.postTrim.val)) = .ok r) := by
  unfold analyzeSingleMetric at h
  obtain ⟨f, hf, h⟩ := Py.bind_eq_ok.mp h
  refine ⟨f, hf, ?_⟩
  cases denominator with
  | none =>
    simp only [pure_bind] at h
    obtain ⟨-, h⟩ := raiseIf_bind_ok.mp h
    exact Or.inl ⟨rfl, h⟩
  | some m' =>
    obtain ⟨g, hg, h⟩ := Py.bind_eq_ok.mp h
    obtain ⟨g', hg', hg⟩ := Py.bind_eq_ok.mp hg
    cases hg
    obtain ⟨-, h⟩ := raiseIf_bind_ok.mp h
    exact Or.inr ⟨m', g', rfl, hg', h⟩


theorem not_assigned_both {k : List (Cell ℝ)} (h0 : Spec.AssignedTo 0 k) (h1 : Spec.AssignedTo 1 k) : False := by
  obtain ⟨i, t, rfl, h0⟩ := h0
  obtain ⟨i', t', e, h1⟩ := h1
  simp only [List.cons.injEq, and_true] at e
  rw [← e.2, h0] at h1
  simp at h1

theorem groupOf_partition {piv : Pivoted ℝ} {y : List ℝ} (hl : y.length = piv.index.length)
    (hall : ∀ k ∈ piv.index, Spec.AssignedTo 0 k ∨ Spec.AssignedTo 1 k) :
    (Spec.groupOf piv 1 y ++ Spec.groupOf piv 0 y).Perm y := by
  classical
  have hz : (piv.index.zip y).map Prod.snd = y := by
    rw [List.map_snd_zip]; omega
  unfold Spec.groupOf
  rw [← List.map_append]
  conv_rhs => rw [← hz]
  apply List.Perm.map
  have e : (piv.index.zip y).filter (fun e => decide (Spec.AssignedTo 0 e.1)) =
      (piv.index.zip y).filter (fun e => !decide (Spec.AssignedTo 1 e.1)) := by
    apply List.filter_congr
    rintro ⟨k, x⟩ hm
    have hk := hall k (List.of_mem_zip hm).1
    by_cases h1 : Spec.AssignedTo 1 k
    · have h0 : ¬ Spec.AssignedTo 0 k := fun h0 => not_assigned_both h0 h1
      simp [h0, h1]
    · have h0 := hk.resolve_right h1
      simp [h0, h1]
  have key := List.filter_append_perm (fun e : List (Cell ℝ) × ℝ => decide (Spec.AssignedTo 1 e.1)) (piv.index.zip y)
  convert key using 2

theorem crossDev_shift {α : Type} {z : List α} (h : z ≠ []) (f g : α → ℝ) (a b : ℝ) :
    Spec.crossDev (z.map (fun p => f p + a)) (z.map (fun p => g p + b)) = Spec.crossDev (z.map f) (z.map g) := by
  have e1 := crossDev_comb h f f (fun p => g p + b) 1 0 a
  have e2 := crossDev_comb h g g f 1 0 b
  simp only [one_mul, zero_mul, add_zero] at e1 e2
  rw [e1, crossDev_comm z f, e2, crossDev_comm z g]

/-- Adding the same constant to both samples of the untrimmed paired test changes nothing but the levels. -/
theorem paired_common_shift {R : Rounding ℝ} {argsort : List ℝ → List ℕ} {D : TDist} {v1 v2 : List ℝ} {k : ℝ}
    {alt : String} {α : ℝ} {r r' : TestResult}
    (h : pairedTest R argsort D v1 v2 0 none none alt α = .ok r)
    (h' : pairedTest R argsort D (v1.map (fun x => x + k)) (v2.map (fun x => x + k)) 0 none none alt α = .ok r') :
    r'.absoluteDifference = r.absoluteDifference ∧ r'.statistic = r.statistic ∧ r'.pValue = r.pValue ∧
      r'.isSignificant = r.isSignificant ∧ r'.absoluteLower = r.absoluteLower ∧ r'.absoluteUpper = r.absoluteUpper ∧
      r'.standardError = r.standardError ∧ r'.sampleSize = r.sampleSize ∧
      r'.degreesOfFreedom = r.degreesOfFreedom := by
  rcases pairedTest_ok h with ⟨x1, x2, e1, -⟩ | ⟨-, -, T, hT, hl, hr⟩
  · cases e1
  rcases pairedTest_ok h' with ⟨x1, x2, e1, -⟩ | ⟨-, -, T', hT', hl', hr'⟩
  · cases e1
  rw [mkTrimmed_zero] at hT hT'
  cases hT
  cases hT'
  have hst : stack3 (v1.map (fun x => x + k)) (v2.map (fun x => x + k)) =
      (stack3 v1 v2).map (fun c => ![c 0, c 1 + k, c 2 + k]) := by
    unfold stack3
    rw [List.zipWith_map_left, List.zipWith_map_right, List.map_zipWith]
    congr 1
    funext x y
    funext i
    fin_cases i <;> simp
  have hne : stack3 v1 v2 ≠ [] := by
    intro hc
    rw [hc] at hl
    simp [TrimmedArray.len] at hl
  rw [hst] at hr'
  clear hst h h' hl'
  generalize stack3 v1 v2 = z at *
  have hg : ∀ n : ℕ, ⌊R.rnd (0 * (n : ℝ))⌋ = 0 := by
    intro n
    have := R.intFix 0 (by norm_num)
    rw [zero_mul]
    rw [show (0 : ℝ) = ((0 : ℤ) : ℝ) by simp, this]; simp
  set z' := z.map (fun c => (![c 0, c 1 + k, c 2 + k] : Fin 3 → ℝ)) with hz'
  let kk : Fin 3 → ℝ := ![0, k, k]
  have hrow : ∀ i : Fin 3, rowOf z' i = z.map (fun c => c i + kk i) := by
    intro i
    unfold rowOf
    rw [hz', List.map_map]
    apply List.map_congr_left
    intro c _
    simp only [Function.comp_apply, kk]
    fin_cases i <;> simp
  have hrow0 : ∀ i : Fin 3, rowOf z i = z.map (fun c => c i) := fun i => rfl
  have hlen : z'.length = z.length := by rw [hz', List.length_map]
  have hcov : ∀ i j : Fin 3, (⟨z', 0, z'⟩ : TrimmedArray ℝ 2).cov 1 i j = (⟨z, 0, z⟩ : TrimmedArray ℝ 2).cov 1 i j := by
    intro i j
    obtain ⟨-, -, -, c1, -⟩ := C19_no_trimming_ordinary_statistics R argsort 2 z 0 _ (mkTrimmed_zero R argsort z) (hg _) i j 1
    obtain ⟨-, -, -, c2, -⟩ := C19_no_trimming_ordinary_statistics R argsort 2 z' 0 _ (mkTrimmed_zero R argsort z') (hg _) i j 1
    rw [c1, c2, hrow, hrow, hrow0, hrow0, crossDev_shift hne, hlen]
  have hmean : ∀ i : Fin 3, (⟨z', 0, z'⟩ : TrimmedArray ℝ 2).mean i = (⟨z, 0, z⟩ : TrimmedArray ℝ 2).mean i + kk i := by
    intro i
    obtain ⟨-, c1, -⟩ := C19_no_trimming_ordinary_statistics R argsort 2 z 0 _ (mkTrimmed_zero R argsort z) (hg _) i i 1
    obtain ⟨-, c2, -⟩ := C19_no_trimming_ordinary_statistics R argsort 2 z' 0 _ (mkTrimmed_zero R argsort z') (hg _) i i 1
    rw [c1, c2, hrow, hrow0]
    have := mean_comb hne (fun c : Fin 3 → ℝ => c i) (fun c => c i) 1 0 (kk i)
    simp only [one_mul, zero_mul, add_zero] at this
    exact this
  have hvar : ∀ i : Fin 3, (⟨z', 0, z'⟩ : TrimmedArray ℝ 2).var 1 i = (⟨z, 0, z⟩ : TrimmedArray ℝ 2).var 1 i :=
    fun i => hcov i i
  have hll : (⟨z', 0, z'⟩ : TrimmedArray ℝ 2).len = (⟨z, 0, z⟩ : TrimmedArray ℝ 2).len := hlen
  have k0 : kk 0 = 0 := rfl
  have k1 : kk 1 = k := rfl
  have k2 : kk 2 = k := rfl
  obtain ⟨-, a1, a2, a3, -, a5, a6, a7, a8, a9, -⟩ := resultsFrom_ok hr
  obtain ⟨-, b1, b2, b3, -, b5, b6, b7, b8, b9, -⟩ := resultsFrom_ok hr'
  simp only [pairedPlain, hcov, hvar, hll, hmean, k0, k1, k2, add_zero] at a1 a2 a3 a5 a6 a7 a8 a9 b1 b2 b3 b5 b6 b7 b8 b9
  have hd : (fin ((⟨z, 0, z⟩ : TrimmedArray ℝ 2).mean 1 + k) - fin ((⟨z, 0, z⟩ : TrimmedArray ℝ 2).mean 2 + k) : Fl ℝ) =
      fin ((⟨z, 0, z⟩ : TrimmedArray ℝ 2).mean 1) - fin ((⟨z, 0, z⟩ : TrimmedArray ℝ 2).mean 2) := by
    rw [fin_sub, fin_sub]; congr 1; ring
  rw [hd, ← a6] at b6
  simp only [Prod.mk.injEq] at b6
  exact ⟨by rw [b5, a5], by rw [b1, a1], by rw [b2, a2], by rw [b3, a3, b2, a2], b6.1, b6.2, by rw [b7, a7],
    by rw [b8, a8], by rw [b9, a9]⟩

theorem subset_values_eq {piv : Pivoted ℝ} {metrics : List String} {itemCol treatmentCol m : String} {f : Frame ℝ}
    (h : metricSubset piv metrics [itemCol, treatmentCol] m = .ok f) {p : String} (h1 : p ≠ itemCol)
    (h2 : p ≠ treatmentCol) {v : List ℝ} (hv : Spec.ValuesOf piv m p v) :
    finiteValues ((f.col p).map Cell.toFl) = .ok v := by
  rw [finiteValues_ok]
  unfold Frame.col
  rw [(metricSubset_ok h).2, List.map_map, List.map_map]
  have e : piv.index.map (fun k => piv.value k m p) = v.map .fin := by
    unfold Spec.ValuesOf at hv
    generalize piv.index = l at hv
    induction hv with
    | nil => rfl
    | cons hx _ ih => simp only [List.map_cons, hx, ih]
  rw [← e]
  apply List.map_congr_left
  intro k _
  simp only [Function.comp_apply]
  have hl : ([itemCol, treatmentCol].zip k).lookup p = none := by
    have h1' : (p == itemCol) = false := by simpa using h1
    have h2' : (p == treatmentCol) = false := by simpa using h2
    rcases k with _ | ⟨a, _ | ⟨b, k⟩⟩ <;> simp [List.lookup, h1', h2']
  rw [hl, toFl_flCell]

theorem metricSubset_returns {piv : Pivoted ℝ} {metrics : List String} {itemCol treatmentCol m : String}
    (hm : m ∈ metrics) (hi : Cell.str itemCol ∉ piv.periods) (ht : Cell.str treatmentCol ∉ piv.periods) :
    ∃ f, metricSubset piv metrics [itemCol, treatmentCol] m = .ok f := by
  unfold metricSubset
  refine ⟨_, raiseIf_bind_ok.mpr ⟨not_not.mpr hm, raiseIf_bind_ok.mpr ⟨?_, rfl⟩⟩⟩
  simp [hi, ht]

/-- The regular analysis of a plain metric without pretest data, as an equation. -/
theorem analyze_regular_eq {R : Rounding ℝ} {argsort : List ℝ → List ℕ} {D : TDist} {piv : Pivoted ℝ}
    {metrics : List String} {itemCol treatmentCol : String} (hne : itemCol ≠ treatmentCol)
    (hi : ¬ Spec.Reserved itemCol) (ht : ¬ Spec.Reserved treatmentCol) (hidx : ∀ k ∈ piv.index, k.length = 2)
    (hi' : Cell.str itemCol ∉ piv.periods) (ht' : Cell.str treatmentCol ∉ piv.periods)
    {d : DesignParams ℝ} (hd : d.isCrossover = false) (hpre : ¬ 0 < d.pretest) {metric : String} (hm : metric ∈ metrics)
    (htest : Cell.str "test" ∈ piv.periods) (hnp : Cell.str "pretest" ∉ piv.periods) {override : Option ℝ}
    {y : List ℝ} (hy : Spec.ValuesOf piv metric "test" y) :
    analyzeSingleMetric R argsort D piv metrics [itemCol, treatmentCol] d metric none treatmentCol override =
      indTest R argsort D (Spec.groupOf piv 1 y) (Spec.groupOf piv 0 y) (override.getD d.postTrim.val) none none false
        "two-sided" defaultAlpha := by
  obtain ⟨f, hf⟩ := metricSubset_returns (metrics := metrics) hm hi' ht'
  unfold Spec.Reserved at hi ht
  push Not at hi ht
  unfold analyzeSingleMetric
  rw [hf]
  have hreq : ¬ ((requiredColumns d treatmentCol).any (fun c => decide (c ∉ f.cols) || false) = true) := by
    have e1 : treatmentCol ∈ f.cols := by rw [(metricSubset_ok hf).1]; simp
    have e2 : "test" ∈ f.cols := (mem_period_cols hf hi.2.1.symm ht.2.1.symm (by decide)).mpr htest
    simp [requiredColumns, hd, hpre, e1, e2]
  simp only [bind, Except.bind, pure, Except.pure]
  unfold raiseIf
  rw [if_neg hreq, hd]
  simp only [Bool.false_eq_true, if_false]
  unfold analyzeRegular prepareRegular
  have hnp' : "pretest" ∉ f.cols := by
    rw [mem_period_cols hf hi.1.symm ht.1.symm (by decide)]; exact hnp
  rw [subset_values_eq hf hi.2.1.symm ht.2.1.symm hy, subset_mask hf hne hidx 1, subset_mask hf hne hidx 0]
  simp only [if_neg hnp', bind, Except.bind, pure, Except.pure, maskSelect_group, indTestFl_fin]

theorem crossoverItems_ok {piv : Pivoted ℝ} {metrics : List String} {itemCol treatmentCol m : String} {f : Frame ℝ}
    (hs : metricSubset piv metrics [itemCol, treatmentCol] m = .ok f) (hne : itemCol ≠ treatmentCol)
    (hi : ¬ Spec.Reserved itemCol) (ht : ¬ Spec.Reserved treatmentCol) (hidx : ∀ k ∈ piv.index, k.length = 2)
    {items : List (Bool × ℝ × ℝ)} (h : crossoverItems f treatmentCol = .ok items) :
    List.Forall₂ (fun k (i : Bool × ℝ × ℝ) => (i.1 = true ↔ Spec.AssignedTo 1 k) ∧ piv.value k m "test_1" = .fin i.2.1 ∧
      piv.value k m "test_2" = .fin i.2.2) piv.index items := by
  classical
  unfold Spec.Reserved at hi ht
  push Not at hi ht
  unfold crossoverItems at h
  obtain ⟨y1, h1, h⟩ := Py.bind_eq_ok.mp h
  obtain ⟨y2, h2, h⟩ := Py.bind_eq_ok.mp h
  cases h
  have v1 := subset_values hs hi.2.2.1.symm ht.2.2.1.symm h1
  have v2 := subset_values hs hi.2.2.2.symm ht.2.2.2.symm h2
  rw [subset_mask hs hne hidx 1]
  unfold Spec.ValuesOf at v1 v2
  clear * - v1 v2
  generalize piv.index = l at v1 v2
  induction v1 generalizing y2 with
  | nil => cases v2; exact List.Forall₂.nil
  | cons hx _ ih =>
    cases v2 with
    | cons hx2 hr =>
      simp only [List.map_cons, List.zip_cons_cons]
      exact List.Forall₂.cons ⟨by simp, hx, hx2⟩ (ih _ hr)

theorem prepareCrossover_length (s : ℝ → ℝ) (items : List (Bool × ℝ × ℝ)) (b : Bool) :
    (prepareCrossover s items b).1.length = items.length ∧ (prepareCrossover s items b).2.length = items.length := by
  unfold prepareCrossover
  cases b <;> simp

theorem keeps_float {piv : Pivoted ℝ} {m : String} (h : piv.whole m = false) : Spec.KeepsFractions piv m := by
  intro h'
  rw [h] at h'
  cases h'

theorem storeFirst_float {piv : Pivoted ℝ} {m : String} (h : piv.whole m = false) : storeFirst piv m = id := by
  unfold storeFirst
  rw [if_neg]
  rw [h]
  simp

theorem dropFraction_spec (x : ℝ) : ∃ n : ℤ, dropFraction x = n ∧ |dropFraction x| ≤ |x| ∧ |x| < |dropFraction x| + 1 ∧ 0 ≤ dropFraction x * x := by
  unfold dropFraction
  split
  next h =>
    have h1 := Int.floor_le x
    have h2 := Int.lt_floor_add_one x
    have h3 : (0 : ℝ) ≤ ⌊x⌋ := by exact_mod_cast Int.floor_nonneg.mpr h
    rw [abs_of_nonneg h, abs_of_nonneg h3]
    exact ⟨_, rfl, h1, h2, mul_nonneg h3 h⟩
  next h =>
    have h := not_le.mp h
    have h1 := Int.le_ceil x
    have h2 := Int.ceil_lt_add_one x
    have h3 : (⌈x⌉ : ℝ) ≤ 0 := by exact_mod_cast Int.ceil_le.mpr (by simpa using h.le)
    rw [abs_of_neg h, abs_of_nonpos h3]
    exact ⟨_, rfl, by linarith, by linarith, mul_nonneg_of_nonpos_of_nonpos h3 h.le⟩

theorem storeFirst_spec (piv : Pivoted ℝ) (m : String) : Spec.Stores piv m (storeFirst piv m) := by
  unfold storeFirst
  constructor
  · intro h x
    rw [if_pos h]
    exact dropFraction_spec x
  · intro h x
    rw [if_neg h]
    rfl

/-- Nothing is dropped from a whole number. -/
theorem drops_whole {x y : ℝ} (h : ∃ n : ℤ, y = n ∧ |y| ≤ |x| ∧ |x| < |y| + 1 ∧ 0 ≤ y * x) (hx : ∃ n : ℤ, x = n) : y = x := by
  obtain ⟨n, e, h1, h2, h3⟩ := h
  obtain ⟨n', e'⟩ := hx
  rw [e, e'] at h1 h2 h3
  rw [e, e']
  have h3' : (0 : ℤ) ≤ n * n' := by exact_mod_cast h3
  have h1' : |n| ≤ |n'| := by exact_mod_cast h1
  have h2' : |n'| < |n| + 1 := by exact_mod_cast h2
  have : |n| = |n'| := by omega
  rcases abs_eq_abs.mp this with h | h
  · rw [h]
  · have : n' * n' ≤ 0 := by rw [h] at h3'; nlinarith
    have h0 : n' = 0 := by nlinarith [mul_self_nonneg n', mul_self_eq_zero.mp (le_antisymm this (mul_self_nonneg n'))]
    rw [h, h0]; simp

/-- What is stored is what was there, if no fractions can be lost. -/
theorem store_id {s : ℝ → ℝ} {piv : Pivoted ℝ} {m : String} (hs : Spec.Stores piv m s) (hk : Spec.KeepsFractions piv m) {k : List (Cell ℝ)}
    (hk' : k ∈ piv.index) {x : ℝ} (hx : piv.value k m "test_2" = .fin x) : s x = x := by
  by_cases hw : piv.whole m = true ∧ ∀ k ∈ piv.index, ∃ n : ℤ, piv.value k m "test_1" = .fin (n : ℝ)
  · obtain ⟨n', e'⟩ := hk hw.1 hw.2 k hk'
    rw [hx] at e'
    exact drops_whole (hs.1 hw x) ⟨n', Fl.fin.inj e'⟩
  · exact hs.2 hw x

/-- The crossover preparation in the words of the specification. -/
theorem prepareCrossover_spec {items : List (Bool × ℝ × ℝ)} :
    let sp : List Spec.CrossoverItem := items.map (fun i => ⟨i.1 = true, i.2.1, i.2.2⟩)
    prepareCrossover id items false = (sp.map (fun i => i.treated 0 0), sp.map (fun i => i.untreated 0 0)) ∧
    ∃ c, prepareCrossover id items true =
        (sp.map (fun i => i.treated (Spec.mean (sp.map (fun i => i.first))) (Spec.mean (sp.map (fun i => i.second))) + c),
         sp.map (fun i => i.untreated (Spec.mean (sp.map (fun i => i.first))) (Spec.mean (sp.map (fun i => i.second))) + c)) ∧
      Spec.mean (prepareCrossover id items true).2 = Spec.mean (sp.map (fun i => i.untreated 0 0)) := by
  intro sp
  have hf : sp.map (fun i => i.first) = items.map (fun i => i.2.1) := by simp [sp, Function.comp_def]
  have hg : sp.map (fun i => i.second) = items.map (fun i => i.2.2) := by simp [sp, Function.comp_def]
  have hT : ∀ a b, sp.map (fun i => i.treated a b) = items.map (fun i => pickTreated i.1 (i.2.1 - a) (i.2.2 - b)) := by
    intro a b
    simp only [sp, List.map_map]
    apply List.map_congr_left
    intro i _
    simp [Spec.CrossoverItem.treated, pickTreated]
  have hU : ∀ a b, sp.map (fun i => i.untreated a b) = items.map (fun i => pickControl i.1 (i.2.1 - a) (i.2.2 - b)) := by
    intro a b
    simp only [sp, List.map_map]
    apply List.map_congr_left
    intro i _
    simp [Spec.CrossoverItem.untreated, pickControl]
  refine ⟨?_, ?_⟩
  · rw [hT, hU]
    simp only [prepareCrossover, Bool.false_eq_true, if_false, sub_zero, id_eq]
  · rw [hf, hg]
    set m1 := Spec.mean (items.map (fun i => i.2.1)) with hm1
    set m2 := Spec.mean (items.map (fun i => i.2.2)) with hm2
    set control := items.map (fun i => pickControl i.1 i.2.1 i.2.2) with hc
    set cd := items.map (fun i => pickControl i.1 (i.2.1 - m1) (i.2.2 - m2)) with hcd
    have e : prepareCrossover id items true =
        ((items.map (fun i => pickTreated i.1 (i.2.1 - m1) (i.2.2 - m2))).map (fun x => x + (Spec.mean control - Spec.mean cd)),
         cd.map (fun x => x + (Spec.mean control - Spec.mean cd))) := rfl
    refine ⟨Spec.mean control - Spec.mean cd, ?_, ?_⟩
    · have t1 : ∀ c, sp.map (fun i => i.treated m1 m2 + c) = (sp.map (fun i => i.treated m1 m2)).map (fun x => x + c) := by
        intro c; exact (List.map_map (l := sp) (f := fun i => i.treated m1 m2) (g := fun x => x + c)).symm
      have t2 : ∀ c, sp.map (fun i => i.untreated m1 m2 + c) = (sp.map (fun i => i.untreated m1 m2)).map (fun x => x + c) := by
        intro c; exact (List.map_map (l := sp) (f := fun i => i.untreated m1 m2) (g := fun x => x + c)).symm
      rw [t1, t2, hT, hU, e]
    · rw [hU, e]
      simp only [sub_zero]
      rw [← hc]
      by_cases h0 : items = []
      · subst h0; simp [hc, hcd]
      · have hne : cd ≠ [] := by rw [hcd]; simpa using h0
        have := mean_comb hne (fun x : ℝ => x) (fun x => x) 1 0 (Spec.mean control - Spec.mean cd)
        simp only [one_mul, zero_mul, add_zero, List.map_id'] at this
        rw [this]; ring

/-- Shifting the two periods by constants shifts both prepared arrays by one common constant. -/
theorem prepareCrossover_shift (s s' : ℝ → ℝ) {items : List (Bool × ℝ × ℝ)} (h : items ≠ []) (a b : ℝ) :
    ∃ k, prepareCrossover s' (items.map (fun i => (i.1, i.2.1 + a, i.2.2 + b))) true =
      ((prepareCrossover s items true).1.map (fun x => x + k), (prepareCrossover s items true).2.map (fun x => x + k)) := by
  set items' := items.map (fun i => (i.1, i.2.1 + a, i.2.2 + b)) with hi
  have m1 : Spec.mean (items'.map (fun i => i.2.1)) = Spec.mean (items.map (fun i => i.2.1)) + a := by
    have := mean_comb h (fun i : Bool × ℝ × ℝ => i.2.1) (fun i => i.2.1) 1 0 a
    simp only [one_mul, zero_mul, add_zero] at this
    rw [hi, List.map_map, ← this]; rfl
  have m2 : Spec.mean (items'.map (fun i => i.2.2)) = Spec.mean (items.map (fun i => i.2.2)) + b := by
    have := mean_comb h (fun i : Bool × ℝ × ℝ => i.2.2) (fun i => i.2.2) 1 0 b
    simp only [one_mul, zero_mul, add_zero] at this
    rw [hi, List.map_map, ← this]; rfl
  have e : ∀ (s : ℝ → ℝ) (l : List (Bool × ℝ × ℝ)), prepareCrossover s l true =
      ((l.map (fun i => pickTreated i.1 (i.2.1 - Spec.mean (l.map (fun i => i.2.1))) (i.2.2 - Spec.mean (l.map (fun i => i.2.2))))).map
          (fun x => x + (Spec.mean (l.map (fun i => pickControl i.1 i.2.1 (s i.2.2))) - Spec.mean (l.map (fun i =>
            pickControl i.1 (i.2.1 - Spec.mean (l.map (fun i => i.2.1))) (i.2.2 - Spec.mean (l.map (fun i => i.2.2))))))),
       (l.map (fun i => pickControl i.1 (i.2.1 - Spec.mean (l.map (fun i => i.2.1))) (i.2.2 - Spec.mean (l.map (fun i => i.2.2))))).map
          (fun x => x + (Spec.mean (l.map (fun i => pickControl i.1 i.2.1 (s i.2.2))) - Spec.mean (l.map (fun i =>
            pickControl i.1 (i.2.1 - Spec.mean (l.map (fun i => i.2.1))) (i.2.2 - Spec.mean (l.map (fun i => i.2.2)))))))) :=
    fun s l => rfl
  rw [e s' items', e s items, m1, m2]
  have ht : ∀ x y, items'.map (fun i => pickTreated i.1 (i.2.1 - (x + a)) (i.2.2 - (y + b))) =
      items.map (fun i => pickTreated i.1 (i.2.1 - x) (i.2.2 - y)) := by
    intro x y
    rw [hi, List.map_map]
    apply List.map_congr_left
    intro i _
    simp only [Function.comp_apply]
    congr 1 <;> ring
  have hc : ∀ x y, items'.map (fun i => pickControl i.1 (i.2.1 - (x + a)) (i.2.2 - (y + b))) =
      items.map (fun i => pickControl i.1 (i.2.1 - x) (i.2.2 - y)) := by
    intro x y
    rw [hi, List.map_map]
    apply List.map_congr_left
    intro i _
    simp only [Function.comp_apply]
    congr 1 <;> ring
  rw [ht, hc]
  refine ⟨Spec.mean (items'.map (fun i => pickControl i.1 i.2.1 (s' i.2.2))) - Spec.mean (items.map (fun i => pickControl i.1 i.2.1 (s i.2.2))), ?_⟩
  rw [List.map_map (f := fun x => x + _), List.map_map (f := fun x => x + _)]
  congr 2 <;> (funext x; simp only [Function.comp_apply]; ring)

end Feedx
