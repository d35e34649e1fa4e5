import Verif.Proofs.DeepDive
import Verif.Props.DeepDive

/-!
Property C98, last part: the line of the planted effect is not always at the planted effect.
-/

set_option linter.unusedSectionVars false
set_option linter.unusedSimpArgs false

namespace Feedx
open Fl

variable {R : Rounding ℝ} {D : TDist}

/-- A crossover design of 100 items with one pretest week, one week in each half, and one item in fifty left out at the top. -/
noncomputable def sparseParams : DesignParams ℝ :=
  { tenPercentParams with
    nBefore := 100, runtime := 2, pretest := 1, isCrossover := true, preTop := .float (1 / 50), washout := some 0 }

/-- See `sparseParams`. -/
noncomputable def sparseDesign : Design ℝ := { sparseParams with nAfterPre := 98, nAfterPost := 98 }

theorem floorMul_zero' (R : Rounding ℝ) (n : ℤ) : R.floorMul 0 n = 0 := by
  have h0 : R.rnd 0 = 0 := by simpa using R.intFix 0 (by norm_num)
  unfold Rounding.floorMul
  rw [zero_mul, h0]; simp

theorem floorMul_fifty (R : Rounding ℝ) : R.floorMul (1 / 50) 100 = 2 := by
  have := twoWeek_floor R 2 le_rfl
  unfold Rounding.floorMul
  norm_num at this ⊢
  exact this

theorem sparseDesign_created (R : Rounding ℝ) : mkDesign R sparseParams = .ok sparseDesign := by
  have hd : deriveCounts R sparseParams = sparseDesign := by
    unfold deriveCounts
    have e1 : sparseParams.preTop.val = 1 / 50 := rfl
    have e2 : sparseParams.preBottom.val = 0 := rfl
    have e3 : sparseParams.postTrim.val = 0 := rfl
    have e4 : sparseParams.nBefore = 100 := rfl
    simp only [e1, e2, e3, e4, floorMul_zero', sub_zero, floorMul_fifty]
    rfl
  rw [mkDesign_ok_iff]
  refine ⟨hd.symm, (validateDesign_ok_iff R _).mpr ⟨?_, by show (50 : ℤ) < 98; decide⟩⟩
  have e1 : sparseDesign.preTop.val = 1 / 50 := rfl
  have e2 : sparseDesign.preBottom.val = 0 := rfl
  have e3 : sparseDesign.postTrim.val = 0 := rfl
  refine ⟨by decide, by decide, by rw [e1]; norm_num, by rw [e2], by rw [e3], ?_, by rw [e3]; norm_num,
    fun h => absurd h (by decide), fun _ => ⟨0, rfl, by decide, by decide, by decide⟩⟩
  rw [e1, e2, add_zero]
  have h1 : R.rnd (1 / 50) ≤ R.rnd (1 / 2) := R.mono (by norm_num)
  have h2 : R.rnd (1 / 2) = 1 / 2 := by simpa using R.halfFix 1 (by norm_num)
  rw [h2] at h1
  linarith

/-- Only item 0 has a click, in week 1. -/
noncomputable def sparseRow (w : ℤ) (i : ℕ) : Row ℝ := fun c =>
  if c = "item_id" then .int (i : ℤ) else if c = "week_id" then .int w
  else if c = "clicks" then .num (if i = 0 ∧ w = 1 then 1 else 0) else .null

/-- 100 items in three weeks. -/
noncomputable def sparseData : Frame ℝ :=
  ⟨["item_id", "week_id", "clicks"],
    (List.range 100).map (sparseRow 0) ++ (List.range 100).map (sparseRow 1) ++ (List.range 100).map (sparseRow 2)⟩

/-- The object for this data. -/
noncomputable def sparseConfig : SimConfig :=
  ⟨sparseDesign, "item_id", "week_id", "time_period", "treatment_assignment", 1, 1, 1 / 20⟩

/-- The new object. -/
noncomputable def sparseState : SimState := ⟨sparseData, none, none, none, none, none, none⟩

theorem sparse_starts : sparseConfig.starts = [1] := by decide

theorem sparse_mem {r : Row ℝ} : r ∈ sparseData.rows ↔ ∃ w : ℤ, ∃ i : ℕ, (w = 0 ∨ w = 1 ∨ w = 2) ∧ i < 100 ∧ r = sparseRow w i := by
  unfold sparseData
  simp only [List.mem_append, List.mem_map, List.mem_range]
  constructor
  · rintro ((⟨i, hi, rfl⟩ | ⟨i, hi, rfl⟩) | ⟨i, hi, rfl⟩)
    · exact ⟨0, i, by simp, hi, rfl⟩
    · exact ⟨1, i, by simp, hi, rfl⟩
    · exact ⟨2, i, by simp, hi, rfl⟩
  · rintro ⟨w, i, (rfl | rfl | rfl), hi, rfl⟩
    · exact Or.inl (Or.inl ⟨i, hi, rfl⟩)
    · exact Or.inl (Or.inr ⟨i, hi, rfl⟩)
    · exact Or.inr ⟨i, hi, rfl⟩

theorem sparseData_usable : Spec.UsableHistory sparseDesign "item_id" "week_id" "time_period" sparseConfig.starts sparseData := by
  have htl : ∀ e ∈ Spec.timeline sparseDesign.toDesignParams 1, e.2.1 < e.2.2 →
      e.2.2 = e.2.1 + 1 ∧ (e.2.1 = 0 ∨ e.2.1 = 1 ∨ e.2.1 = 2) := by decide
  rw [sparse_starts]
  refine ⟨⟨?_, ?_, ?_⟩, ?_, ?_⟩
  · intro r hr
    obtain ⟨w, i, -, -, rfl⟩ := sparse_mem.mp hr
    exact Or.inr ⟨w, by simp [sparseRow]⟩
  · intro r hr
    obtain ⟨w, i, -, -, rfl⟩ := sparse_mem.mp hr
    exact Or.inr ⟨if i = 0 ∧ w = 1 then 1 else 0, by simp [sparseRow, sparseDesign, sparseParams, tenPercentParams, Cell.toFl]⟩
  · intro start hs
    simp only [List.mem_singleton] at hs
    subst hs
    refine ⟨(List.range 100).map (fun i : ℕ => .int (i : ℤ)), ?_, ?_, ?_⟩
    · exact List.nodup_range.map (fun a b h => by simpa using h)
    · rw [List.length_map, List.length_range]; rfl
    · intro y
      rw [List.mem_map]
      constructor
      · rintro ⟨i, hi, rfl⟩
        exact ⟨by simp, sparseRow 0 i, sparse_mem.mpr ⟨0, i, by simp, List.mem_range.mp hi, rfl⟩, by simp [sparseRow], 0, by simp [sparseRow],
          "pretest", 0, 1, by decide, by omega, by omega⟩
      · rintro ⟨-, r, hr, rfl, -⟩
        obtain ⟨w, i, -, hi, rfl⟩ := sparse_mem.mp hr
        exact ⟨i, List.mem_range.mpr hi, by simp [sparseRow]⟩
  · simp [sparseData, sparseDesign, sparseParams, tenPercentParams]
  · intro start hs label lo hi hmem' hlt
    simp only [List.mem_singleton] at hs
    subst hs
    obtain ⟨h1, h2⟩ := htl _ hmem' hlt
    simp only at h1 h2
    exact ⟨sparseRow lo 0, sparse_mem.mpr ⟨lo, 0, h2, by omega, rfl⟩, by simp [sparseRow], lo, by simp [sparseRow], by omega, by omega⟩

theorem sumSkip_zeros {l : List (Fl ℝ)} (h : ∀ x ∈ l, x = .fin 0) : Fl.sumSkip l = .fin 0 := by
  rw [List.eq_replicate_of_mem h]
  generalize l.length = n
  induction n with
  | zero => rfl
  | succ n ih =>
    unfold Fl.sumSkip at ih ⊢
    rw [List.replicate_succ, List.filter_cons_of_pos (by rfl), List.foldr_cons, ih]
    simp

theorem sparse_zero (k : List (Cell ℝ)) (lo : ℤ) (h : k ≠ [.int 0] ∨ lo ≠ 1) :
    Spec.total sparseData.rows ["item_id"] "week_id" k lo (lo + 1) "clicks" = .fin 0 := by
  unfold Spec.total
  apply sumSkip_zeros
  intro x hx
  obtain ⟨r, hr, rfl⟩ := List.mem_map.mp hx
  obtain ⟨hr, hin⟩ := List.mem_filter.mp hr
  obtain ⟨w, i, -, -, rfl⟩ := sparse_mem.mp hr
  simp only [Spec.inWeeks, sparseRow, List.map_cons, List.map_nil, Bool.and_eq_true, decide_eq_true_eq, if_true] at hin
  obtain ⟨hk, hw⟩ := hin
  have hw : lo ≤ w ∧ w < lo + 1 := by simpa using hw
  have : ¬ (i = 0 ∧ w = 1) := by
    rintro ⟨rfl, rfl⟩
    rcases h with h | h
    · exact h (by rw [← hk]; simp)
    · omega
  simp [sparseRow, this, Cell.toFl]

theorem sparse_positive : ∃ y : ℝ, 0 < y ∧ Spec.total sparseData.rows ["item_id"] "week_id" [.int 0] 1 2 "clicks" = .fin y := by
  unfold Spec.total
  apply sumSkip_positive
  · intro h
    have hm : sparseRow 1 0 ∈ sparseData.rows.filter (Spec.inWeeks ["item_id"] "week_id" [.int 0] 1 2) := by
      refine List.mem_filter.mpr ⟨sparse_mem.mpr ⟨1, 0, by simp, by omega, rfl⟩, ?_⟩
      simp [Spec.inWeeks, sparseRow]
    rw [List.map_eq_nil_iff] at h
    rw [h] at hm
    cases hm
  · intro x hx
    obtain ⟨r, hr, rfl⟩ := List.mem_map.mp hx
    obtain ⟨hr, hin⟩ := List.mem_filter.mp hr
    obtain ⟨w, i, -, -, rfl⟩ := sparse_mem.mp hr
    simp only [Spec.inWeeks, sparseRow, List.map_cons, List.map_nil, Bool.and_eq_true, decide_eq_true_eq, if_true] at hin
    obtain ⟨hk, hw⟩ := hin
    have hw : 1 ≤ w ∧ w < 2 := by simpa using hw
    have hi : i = 0 := by simpa using hk
    have hw1 : w = 1 := by omega
    exact ⟨1, one_pos, by simp [sparseRow, hi, hw1, Cell.toFl]⟩

/-- The values of a column. -/
theorem wideValues_forall₂ {w : Wide ℝ} {l : List String} {v : List ℝ} (h : wideValues w l = .ok v) :
    List.Forall₂ (fun (r : WideRow ℝ) (x : ℝ) => r.val l = .fin x) w.rows v := by
  unfold wideValues at h
  obtain ⟨-, h⟩ := raiseIf_bind_ok.mp h
  have h := Py.mapM_ok h
  rw [List.forall₂_map_left_iff] at h
  refine h.imp ?_
  intro r x hx
  cases hr : r.val l <;> rw [hr] at hx <;> cases hx
  rfl

theorem stack3_mem {rows : List (WideRow ℝ)} {l1 l2 : List String} {y1 y2 : List ℝ}
    (h1 : List.Forall₂ (fun (r : WideRow ℝ) (x : ℝ) => r.val l1 = .fin x) rows y1)
    (h2 : List.Forall₂ (fun (r : WideRow ℝ) (x : ℝ) => r.val l2 = .fin x) rows y2) :
    (∀ x ∈ stack3 y1 y2, ∃ r ∈ rows, ∃ a b, r.val l1 = .fin a ∧ r.val l2 = .fin b ∧ x 0 = a - b) ∧
    (∀ r ∈ rows, ∃ x ∈ stack3 y1 y2, ∃ a b, r.val l1 = .fin a ∧ r.val l2 = .fin b ∧ x 0 = a - b) ∧
    (stack3 y1 y2).length = rows.length := by
  induction h1 generalizing y2 with
  | nil => cases h2; simp [stack3]
  | @cons r a rows y1 hr h1 ih =>
    cases h2 with
    | @cons _ b _ y2 hr2 h2 =>
      obtain ⟨i1, i2, i3⟩ := ih h2
      have e : stack3 (a :: y1) (b :: y2) = ![a - b, a, b] :: stack3 y1 y2 := rfl
      rw [e]
      refine ⟨?_, ?_, by simp [i3]⟩
      · intro x hx
        rcases List.mem_cons.mp hx with rfl | hx
        · exact ⟨r, by simp, a, b, hr, hr2, rfl⟩
        · obtain ⟨r', hr', h⟩ := i1 x hx
          exact ⟨r', by simp [hr'], h⟩
      · intro r' hr'
        rcases List.mem_cons.mp hr' with rfl | hr'
        · exact ⟨_, List.mem_cons_self, a, b, hr, hr2, rfl⟩
        · obtain ⟨x, hx, h⟩ := i2 r' hr'
          exact ⟨x, by simp [hx], h⟩

set_option maxHeartbeats 1000000 in
/-- The estimate for this data: it is zero if item 0 is left out by the first trimming, and positive otherwise.  All pretest values are tied, so
the shuffle decides. -/
theorem sparse_estimate (R : Rounding ℝ) (D : TDist) : ∃ k < 100, ∀ σ : ℤ → Shuffle, ∃ e : ℝ,
    (estimateMde R stableArgsort D σ sparseConfig sparseState).1 = .ok () ∧
    (estimateMde R stableArgsort D σ sparseConfig sparseState).2.mde = some (.fin e) ∧
    (((σ 1).order 100).idxOf k < 2 → e = 0) ∧ (2 ≤ ((σ 1).order 100).idxOf k → 0 < e) := by
  have hd := sparseDesign_created R
  have hs : (1 : ℤ) ∈ sparseConfig.starts := by rw [sparse_starts]; simp
  have hu := sparseData_usable
  obtain ⟨piv, f', hp, -, hper, -, -⟩ := usable_pivot hd hs hu
  obtain ⟨hnd, hidx⟩ := C13_index_is_items_with_labelled_rows R _ _ hd 1 _ "item_id" "week_id" none "time_period" _ _ piv hp hu.complete.weeks
  obtain ⟨hlen, -⟩ := complete_table hd hp hs hu.complete
  have hlen : piv.index.length = 100 := by
    have : (piv.index.length : ℤ) = 100 := hlen
    exact_mod_cast this
  have hval : ∀ k label lo, (label, lo, lo + 1) ∈ Spec.timeline sparseDesign.toDesignParams 1 →
      piv.value k "clicks" label = Spec.total sparseData.rows ["item_id"] "week_id" k lo (lo + 1) "clicks" := by
    intro k label lo hm
    have := C13_values_are_weekly_averages R _ _ hd 1 _ "item_id" "week_id" none "time_period" _ _ piv hp hu.complete.weeks k "clicks"
      (by simp [sparseDesign, sparseParams, tenPercentParams]) label lo (lo + 1) hm
    rw [this]
    show Spec.total sparseData.rows ["item_id"] "week_id" k lo (lo + 1) "clicks" / _ = _
    obtain ⟨y, hy⟩ : ∃ y, Spec.total sparseData.rows ["item_id"] "week_id" k lo (lo + 1) "clicks" = .fin y := by
      by_cases h : k ≠ [.int 0] ∨ lo ≠ 1
      · exact ⟨0, sparse_zero k lo h⟩
      · push Not at h
        obtain ⟨rfl, rfl⟩ := h
        obtain ⟨y, -, hy⟩ := sparse_positive
        exact ⟨y, hy⟩
    rw [hy, fin_div_ne (by simp)]
    simp
  have hmem0 : [Cell.int 0] ∈ piv.index := by
    rw [hidx]
    exact ⟨⟨sparseRow 0 0, sparse_mem.mpr ⟨0, 0, by simp, by omega, rfl⟩, by simp [sparseRow], 0, by simp [sparseRow],
      "pretest", 0, 1, by decide, by omega, by omega⟩, by simp⟩
  have t0 : ("pretest", (0 : ℤ), (0 : ℤ) + 1) ∈ Spec.timeline sparseDesign.toDesignParams 1 := by decide
  have t1 : ("test_1", (1 : ℤ), (1 : ℤ) + 1) ∈ Spec.timeline sparseDesign.toDesignParams 1 := by decide
  have t2 : ("test_2", (2 : ℤ), (2 : ℤ) + 1) ∈ Spec.timeline sparseDesign.toDesignParams 1 := by decide
  obtain ⟨k, hk, hk0⟩ := List.mem_iff_getElem.mp hmem0
  refine ⟨k, by omega, fun σ => ?_⟩
  obtain ⟨w, f1, st, h1, h2, h3, -⟩ := usable_week (R := R) (c := sparseConfig) (σ := σ 1) stableArgsort_ok hd (by decide) hs hu
  -- the table
  set w0 := piv.wide ["clicks"] "item_id" with hw0
  have hrows : w0.rows.length = 100 := by rw [hw0]; simp [Pivoted.wide, hlen]
  have htrim : trimWide R (σ 1) w0 ["clicks", "pretest"] (1 / 50) 0 = .ok w := by
    have h := h1
    unfold historicalTable at h
    have hp' : pivotTimeAssignment sparseConfig.design.toDesignParams 1 [sparseConfig.design.primaryMetric] sparseConfig.itemCol sparseConfig.weekCol
      none sparseConfig.periodCol sparseData = (.ok piv, f') := hp
    rw [hp'] at h
    simp only [Prod.mk.injEq] at h
    have h := h.1
    unfold trimHistorical at h
    obtain ⟨w1, e1, h⟩ := Py.bind_eq_ok.mp h
    cases e1
    obtain ⟨-, h⟩ := raiseIf_bind_ok.mp h
    obtain ⟨w2, e2, h⟩ := Py.bind_eq_ok.mp h
    obtain ⟨-, h⟩ := raiseIf_bind_ok.mp h
    cases h
    rw [if_pos (by decide)] at e2
    exact e2
  have hkept := trimWide_tied (g := 2) (x := 0) (w := w0) (by
      intro r hr
      obtain ⟨q, -, rfl⟩ := List.mem_map.mp hr
      show piv.value q "clicks" "pretest" = _
      rw [hval q _ 0 t0]
      exact sparse_zero q 0 (Or.inr (by decide))) (by rw [hrows]; exact_mod_cast floorMul_fifty R) (by omega) htrim
  rw [hrows] at hkept
  -- the statistics
  have hprim := h2
  unfold primaryStats at h2
  obtain ⟨st', h2, h2'⟩ := Py.bind_eq_ok.mp h2
  obtain ⟨-, h2'⟩ := raiseIf_bind_ok.mp h2'
  cases h2'
  rw [if_pos (show sparseConfig.design.isCrossover = true from rfl)] at h2
  obtain ⟨y1, hy1, h2⟩ := Py.bind_eq_ok.mp h2
  obtain ⟨y2, hy2, h2⟩ := Py.bind_eq_ok.mp h2
  obtain ⟨T, hT, h2⟩ := Py.bind_eq_ok.mp h2
  have hT' : mkTrimmed R stableArgsort (stack3 y1 y2) 0 = .ok T := hT
  rw [mkTrimmed_zero] at hT'
  cases hT'
  obtain ⟨-, h2⟩ := raiseIf_bind_ok.mp h2
  obtain ⟨s1, s2, s3⟩ := stack3_mem (wideValues_forall₂ hy1) (wideValues_forall₂ hy2)
  have hnum : (stack3 y1 y2).length = 98 := by
    have h4 : ((stack3 y1 y2).length : ℤ) = 98 := by
      cases h2
      exact h3
    exact_mod_cast h4
  have hrow : ∀ r ∈ w.rows, ∃ i, ∃ hi : i < piv.index.length, r.key = piv.index[i] ∧ 2 ≤ ((σ 1).order 100).idxOf i ∧
      r.val ["clicks", "test_1"] = piv.value r.key "clicks" "test_1" ∧ r.val ["clicks", "test_2"] = piv.value r.key "clicks" "test_2" := by
    intro r hr
    obtain ⟨i, hi, hge⟩ := (hkept r).mp hr
    have hi : (piv.index.map (fun k => (⟨k, fun l => match l with
      | [m, p] => piv.value k m p
      | _ => .nan⟩ : WideRow ℝ)))[i]? = some r := hi
    rw [List.getElem?_map] at hi
    obtain ⟨q, hq, rfl⟩ := Option.map_eq_some_iff.mp hi
    obtain ⟨hlt, rfl⟩ := List.getElem?_eq_some_iff.mp hq
    exact ⟨i, hlt, rfl, hge, rfl, rfl⟩
  have hother : ∀ r ∈ w.rows, r.key ≠ [.int 0] → r.val ["clicks", "test_1"] = .fin 0 ∧ r.val ["clicks", "test_2"] = .fin 0 := by
    intro r hr hne
    obtain ⟨i, hi, -, -, e1, e2⟩ := hrow r hr
    rw [e1, e2, hval _ _ 1 t1, hval _ _ 2 t2]
    exact ⟨sparse_zero _ _ (Or.inl hne), sparse_zero _ _ (Or.inl hne)⟩
  set V := (⟨stack3 y1 y2, 0, stack3 y1 y2⟩ : TrimmedArray ℝ 2).var 1 0 with hV
  have hv0 : ((σ 1).order 100).idxOf k < 2 → V = 0 := by
    intro hlt
    apply var_constant
    intro x hx
    obtain ⟨r, hr, a, b, ea, eb, ex⟩ := s1 x hx
    have hne : r.key ≠ [.int 0] := by
      intro hkey
      obtain ⟨i, hi, e1, hge, -, -⟩ := hrow r hr
      have : i = k := (List.Nodup.getElem_inj_iff hnd).mp (by rw [← e1, hkey, hk0])
      subst this
      omega
    obtain ⟨e1, e2⟩ := hother r hr hne
    have ea : Fl.fin (0 : ℝ) = .fin a := e1.symm.trans ea
    have eb : Fl.fin (0 : ℝ) = .fin b := e2.symm.trans eb
    cases ea
    cases eb
    rw [ex, sub_zero]
  have hv1 : 2 ≤ ((σ 1).order 100).idxOf k → 0 < V := by
    intro hge
    have hin : (w0.rows[k]'(by omega)) ∈ w.rows := (hkept _).mpr ⟨k, by rw [List.getElem?_eq_getElem (by omega)], hge⟩
    have hkey : (w0.rows[k]'(by omega)).key = [.int 0] := by
      rw [← hk0]
      simp [hw0, Pivoted.wide]
    obtain ⟨x, hx, a, b, ea, eb, ex⟩ := s2 _ hin
    obtain ⟨i, hi, -, -, e1, e2⟩ := hrow _ hin
    have ea : Fl.fin a = _ := ea.symm.trans e1
    have eb : Fl.fin b = _ := eb.symm.trans e2
    rw [hkey, hval _ _ 1 t1] at ea
    rw [hkey, hval _ _ 2 t2, sparse_zero _ _ (Or.inr (by decide))] at eb
    obtain ⟨y, hy, hyt⟩ := sparse_positive
    have ea : Fl.fin a = .fin y := ea.trans hyt
    cases ea
    cases eb
    -- another row
    obtain ⟨r, hr, hne⟩ : ∃ r ∈ w.rows, r.key ≠ [.int 0] := by
      by_contra hno
      push Not at hno
      have hsub := (trimWide_sublist htrim).1.map WideRow.key
      have hndk : (w.rows.map WideRow.key).Nodup := by
        refine hsub.nodup ?_
        have : w0.rows.map WideRow.key = piv.index := by simp [hw0, Pivoted.wide, Function.comp_def]
        rw [this]
        exact hnd
      have hrep : w.rows.map WideRow.key = List.replicate (w.rows.map WideRow.key).length [.int 0] :=
        List.eq_replicate_of_mem (by
          intro q hq
          obtain ⟨r, hr, rfl⟩ := List.mem_map.mp hq
          exact hno r hr)
      rw [hrep] at hndk
      have := List.nodup_replicate.mp hndk
      simp only [List.length_map] at this
      omega
    obtain ⟨z, hz, a', b', ea', eb', ez⟩ := s2 r hr
    obtain ⟨o1, o2⟩ := hother r hr hne
    have ea' : Fl.fin (0 : ℝ) = .fin a' := o1.symm.trans ea'
    have eb' : Fl.fin (0 : ℝ) = .fin b' := o2.symm.trans eb'
    cases ea'
    cases eb'
    refine var_varied hx hz ?_ (by omega)
    rw [ex, ez]
    simp
    exact hy.ne'
  have hvn : 0 ≤ V := by
    rcases Nat.lt_or_ge (((σ 1).order 100).idxOf k) 2 with h | h
    · rw [hv0 h]
    · exact (hv1 h).le
  have hst : st.variance = .fin V ∧ st.size = 98 := by
    cases h2
    refine ⟨?_, hnum⟩
    show Fl.fin (if 0 < (0 : ℝ) then _ else _) = Fl.fin V
    rw [if_neg (lt_irrefl _)]
  have hweeks : statsOfWeeks R stableArgsort σ sparseConfig sparseConfig.starts sparseState.data = (.ok [st], f1) := by
    rw [sparse_starts]
    unfold statsOfWeeks
    have h1' : historicalTable R (σ 1) sparseConfig none 1 sparseState.data = (.ok w, f1) := h1
    rw [h1']
    simp only
    rw [hprim]
    rfl
  have havg : averageStats [st] = .ok (flMean [st.average], .fin (Real.sqrt V), 98) := by
    unfold averageStats
    refine raiseIf_bind_ok.mpr ⟨by simp, ?_⟩
    have : flMean [st.variance] = .fin V := by
      rw [hst.1]
      refine (flMean_map_fin (l := [V]) (by simp)).trans ?_
      simp [meanOf]
    have hsq : (Fl.fin V).sqrt = .fin (Real.sqrt V) := if_neg (not_lt.mpr hvn)
    show Except.ok (flMean [st.average], (flMean [st.variance]).sqrt, st.size) = _
    rw [this, hst.2, hsq]
  have hpow := (C35_power_calculations D (Real.sqrt V) ((98 : ℕ) : ℝ) (8 / 10) (1 / 10) (Real.sqrt_nonneg _) (by norm_num) (by norm_num) (by norm_num)
    (by norm_num) "two-sided" (Or.inl rfl)).2 (by norm_num)
  set e : ℝ := Real.sqrt V / Real.sqrt ((98 : ℕ) : ℝ) *
    (D.ppf (((98 : ℕ) : ℝ) - 1) (1 - if "two-sided" = "two-sided" then 1 / 10 / 2 else 1 / 10) + D.ppf (((98 : ℕ) : ℝ) - 1) (8 / 10)) with he
  have hmde : mdeOf D sparseConfig.design (flMean [st.average]) (.fin (Real.sqrt V)) 98 = .ok (.fin e, .fin e / flMean [st.average]) := by
    unfold mdeOf
    refine Py.bind_eq_ok.mpr ⟨.fin e, ?_, rfl⟩
    rw [if_pos (show sparseConfig.design.isCrossover = true from rfl)]
    exact hpow
  have hq : 0 < D.ppf (((98 : ℕ) : ℝ) - 1) (1 - if "two-sided" = "two-sided" then 1 / 10 / 2 else 1 / 10) + D.ppf (((98 : ℕ) : ℝ) - 1) (8 / 10) := by
    rw [if_pos rfl]
    have hdf : (0 : ℝ) < ((98 : ℕ) : ℝ) - 1 := by norm_num
    have a := (D.ppf_pos_iff hdf (q := 1 - 1 / 10 / 2) (by norm_num) (by norm_num)).mpr (by norm_num)
    have b := (D.ppf_pos_iff hdf (q := 8 / 10) (by norm_num) (by norm_num)).mpr (by norm_num)
    linarith
  have hest : estimateMde R stableArgsort D σ sparseConfig sparseState =
      (.ok (), ⟨f1, some (.fin e), some (.fin e / flMean [st.average]), some (flMean [st.average]), some (.fin (Real.sqrt V)), none, none⟩) := by
    unfold estimateMde
    rw [hweeks]
    simp only
    rw [havg]
    simp only
    rw [hmde]
    rfl
  rw [hest]
  refine ⟨e, rfl, rfl, fun h => ?_, fun h => ?_⟩
  · rw [he, hv0 h]; simp
  · rw [he]
    exact mul_pos (div_pos (Real.sqrt_pos.mpr (hv1 h)) (Real.sqrt_pos.mpr (by norm_num))) hq

theorem sparse_new : mkSimulation sparseDesign sparseData "item_id" "week_id" "time_period" "treatment_assignment" 1 (1 / 20) =
    .ok (sparseConfig, sparseState) := by
  have h : ∀ (w : ℤ) (n : ℕ), ((List.range n).map (sparseRow w)).map (fun r => r "week_id") =
      (List.replicate n w).map (fun w : ℤ => (Cell.int w : Cell ℝ)) := by
    intro w n
    rw [List.map_map, List.map_replicate, List.eq_replicate_iff]
    refine ⟨by simp, ?_⟩
    intro x hx
    obtain ⟨i, -, rfl⟩ := List.mem_map.mp hx
    simp [sparseRow]
  have hints : sparseData.col "week_id" =
      (List.replicate 100 (0 : ℤ) ++ List.replicate 100 (1 : ℤ) ++ List.replicate 100 (2 : ℤ)).map (fun w : ℤ => (Cell.int w : Cell ℝ)) := by
    unfold sparseData Frame.col
    rw [List.map_append, List.map_append, h, h, h, ← List.map_append, ← List.map_append]
  unfold mkSimulation
  refine raiseIf_bind_ok.mpr ⟨by simp [sparseData], raiseIf_bind_ok.mpr ⟨?_, ?_⟩⟩
  · rw [hints, Bool.not_eq_false, List.all_eq_true]
    intro x hx
    obtain ⟨w, -, rfl⟩ := List.mem_map.mp hx
    rfl
  have hmax : (ints (sparseData.col "week_id")).max? = some 2 := by
    rw [hints, ints_of_int, List.map_id']
    decide +kernel
  rw [hmax]
  rfl

/-- A simulated experiment: all items are drawn, 98 are left after the first trimming. -/
def sparseDraw (τ : Shuffle) : SimDraw := ⟨1, List.range 100, τ, (List.range 98).map (fun i => decide (i % 2 = 0))⟩

theorem sparseDraw_valid (R : Rounding ℝ) (τ : Shuffle) : Spec.ValidDraw R sparseConfig (sparseDraw τ) := by
  refine ⟨⟨by rw [sparse_starts]; simp [sparseDraw], ⟨by simp [sparseDraw, sparseConfig, sparseDesign, sparseParams], ?_⟩,
    by simp [sparseDraw, sparseConfig, sparseDesign]⟩, fun h => absurd h (by decide)⟩
  intro q hq
  have : q < 100 := List.mem_range.mp hq
  show (q : ℤ) < 100
  omega

theorem run_estimate {argsort : List ℝ → List ℕ} {c : SimConfig} (s : SimState) (σ : ℤ → Shuffle) :
    runSim R argsort D c s [.estimate σ] = (estimateMde R argsort D σ c s).2 := rfl

theorem run_three {argsort : List ℝ → List ℕ} {c : SimConfig} (s : SimState) (a b : SimCall) (σ : ℤ → Shuffle) :
    runSim R argsort D c s ([a] ++ b :: [.estimate σ]) = (estimateMde R argsort D σ c (runSim R argsort D c s [a, b])).2 := rfl

/-- **C98, the line of the planted effect: violated.**  A new object with usable data; the effect is estimated, the design validated, and the
effect estimated again, all without an error.  The effects shown are those of the validation, for which a positive effect was planted, but
the line that should show the planted effect is at zero, the effect of the second estimate. -/
theorem C98_effect_line_false (R : Rounding ℝ) (D : TDist) (τ : Shuffle) : ∃ (σ₁ σ₂ : ℤ → Shuffle) (d : DeepDive) (e : ℝ),
    mkSimulation sparseDesign sparseData "item_id" "week_id" "time_period" "treatment_assignment" 1 (1 / 20) = .ok (sparseConfig, sparseState) ∧
    mkDesign R sparseParams = .ok sparseDesign ∧
    (runCall R stableArgsort D sparseConfig sparseState (.estimate σ₁)).1 = .ok () ∧
    (runCall R stableArgsort D sparseConfig (runSim R stableArgsort D sparseConfig sparseState [.estimate σ₁]) (.validate [sparseDraw τ])).1 = .ok () ∧
    (runCall R stableArgsort D sparseConfig (runSim R stableArgsort D sparseConfig sparseState [.estimate σ₁, .validate [sparseDraw τ]])
      (.estimate σ₂)).1 = .ok () ∧
    (runSim R stableArgsort D sparseConfig sparseState [.estimate σ₁]).mde = some (.fin e) ∧ 0 < e ∧
    deepDive sparseConfig (runSim R stableArgsort D sparseConfig sparseState [.estimate σ₁, .validate [sparseDraw τ], .estimate σ₂]) = .ok d ∧
    d.abEffects.length = 1 ∧ d.effectLine = .fin 0 := by
  obtain ⟨k, hk, hest⟩ := sparse_estimate R D
  obtain ⟨e1, o1, m1, -, p1⟩ := hest (fun _ => shuffleLast k)
  obtain ⟨e2, o2, m2, z2, -⟩ := hest (fun _ => shuffleFirst k)
  have p1 := p1 (by rw [shuffleLast_idx hk]; omega)
  have z2 := z2 (by rw [shuffleFirst_idx hk]; omega)
  subst z2
  have hd := sparseDesign_created R
  have hstarts : sparseConfig.starts ≠ [] := by rw [sparse_starts]; simp
  have hu1 := (C71_estimation_succeeds (D := D) (c := sparseConfig) stableArgsort_ok _ hd (by decide) (fun _ => shuffleLast k) sparseState
    hstarts sparseData_usable).2
  have hval := (C86_validation_succeeds_partial (D := D) (c := sparseConfig) stableArgsort_ok _ hd (by decide) clicks_names _ e1 m1 hu1 (Or.inl rfl)
    [sparseDraw τ] (by intro r hr; simp at hr; rw [hr]; exact sparseDraw_valid R τ)).1
  have hrep := C97_estimate_repeatable (D := D) (argsort := stableArgsort) (c := sparseConfig) _ hd sparseState sparseData_usable
    [.estimate (fun _ => shuffleLast k), .validate [sparseDraw τ]] (by
      intro call hc
      simp only [List.mem_cons, List.not_mem_nil, or_false] at hc
      rcases hc with rfl | rfl
      · trivial
      · intro r hr
        simp only [List.mem_cons, List.not_mem_nil, or_false] at hr
        rw [hr, sparse_starts]
        simp [sparseDraw]) (fun _ => shuffleFirst k)
  obtain ⟨d, aa, ab, g1, -, -, -, g5, -, g7, -, -, -, g11⟩ := C98_shows_last_validation (R := R) (argsort := stableArgsort) (D := D) (c := sparseConfig)
    sparseState [.estimate (fun _ => shuffleLast k)] [.estimate (fun _ => shuffleFirst k)] [sparseDraw τ] (by simp) hval
    (by intro pre draws post h; cases pre <;> simp at h)
  refine ⟨fun _ => shuffleLast k, fun _ => shuffleFirst k, d, e1, sparse_new, hd, ?_, ?_, ?_, ?_, p1, ?_, ?_, ?_⟩
  · exact o1
  · exact hval
  · exact hrep.1.trans o2
  · rw [run_estimate]; exact m1
  · exact g1
  · rw [g7, List.length_map, g5]; rfl
  have hline : some d.effectLine = some (.fin 0) := by
    rw [g11, run_three]
    exact (hrep.2 o2).1.trans m2
  exact Option.some.inj hline

end Feedx
