import Verif.Model.Prepare
import Verif.Spec.Prepare
import Mathlib.Data.List.Perm.Basic
import Mathlib.Tactic.Linarith
import Mathlib.Tactic.NormNum
import Mathlib.Tactic.Ring

/-!
Lemmas about the data preparation.
-/

set_option linter.unusedSectionVars false
set_option linter.unusedSimpArgs false

namespace Feedx

variable {K : Type}

theorem Py.mapM_ok {α β : Type} {f : α → Py β} {l : List α} {out : List β} (h : l.mapM f = .ok out) :
    List.Forall₂ (fun a b => f a = .ok b) l out := by
  induction l generalizing out with
  | nil => cases h; exact List.Forall₂.nil
  | cons a l ih =>
    rw [List.mapM_cons] at h
    obtain ⟨b, hb, h⟩ := Py.bind_eq_ok.mp h
    obtain ⟨bs, hbs, h⟩ := Py.bind_eq_ok.mp h
    cases h
    exact List.Forall₂.cons hb (ih hbs)

theorem Py.mapM_returns {α β : Type} {f : α → Py β} {l : List α} (h : ∀ a ∈ l, ∃ b, f a = .ok b) :
    ∃ out, l.mapM f = .ok out := by
  induction l with
  | nil => exact ⟨[], rfl⟩
  | cons a l ih =>
    obtain ⟨b, hb⟩ := h a (by simp)
    obtain ⟨bs, hbs⟩ := ih (fun a ha => h a (by simp [ha]))
    exact ⟨b :: bs, by rw [List.mapM_cons, hb, hbs]; rfl⟩

/-- Splitting rows by a key and listing the classes loses and adds nothing. -/
theorem flatMap_filter_perm {α β : Type} [DecidableEq β] (key : α → β) {ks : List β} (hks : ks.Nodup) {rows : List α}
    (h : ∀ r ∈ rows, key r ∈ ks) : (ks.flatMap (fun k => rows.filter (fun r => decide (key r = k)))).Perm rows := by
  induction ks generalizing rows with
  | nil =>
    cases rows with
    | nil => simp
    | cons r rows => exact absurd (h r (by simp)) (by simp)
  | cons k ks ih =>
    rw [List.nodup_cons] at hks
    rw [List.flatMap_cons]
    have e : ks.flatMap (fun k' => rows.filter (fun r => decide (key r = k'))) =
        ks.flatMap (fun k' => (rows.filter (fun r => !decide (key r = k))).filter (fun r => decide (key r = k'))) := by
      refine List.flatMap_congr ?_
      intro k' hk'
      rw [List.filter_filter]
      refine List.filter_congr ?_
      intro r _
      by_cases hr : key r = k'
      · have : k' ≠ k := fun e => hks.1 (e ▸ hk')
        simp [hr, this]
      · simp [hr]
    rw [e]
    refine List.Perm.trans (List.Perm.append_left _ (ih hks.2 ?_)) (List.filter_append_perm _ rows)
    intro r hr
    obtain ⟨hr, hk⟩ := List.mem_filter.mp hr
    rcases List.mem_cons.mp (h r hr) with e | e
    · simp [e] at hk
    · exact e

theorem countP_flatMap_unique {α β : Type} {p : α → Bool} {g : β → List α} {ks : List β} (hks : ks.Nodup) {k : β} (hk : k ∈ ks)
    (h : ∀ k' ∈ ks, k' ≠ k → ∀ x ∈ g k', p x = false) : (ks.flatMap g).countP p = (g k).countP p := by
  induction ks with
  | nil => simp at hk
  | cons a ks ih =>
    rw [List.nodup_cons] at hks
    rw [List.flatMap_cons, List.countP_append]
    rcases List.mem_cons.mp hk with rfl | hk
    · have : (ks.flatMap g).countP p = 0 := by
        rw [List.countP_eq_zero]
        intro x hx
        obtain ⟨k', hk', hx⟩ := List.mem_flatMap.mp hx
        rw [h k' (by simp [hk']) (fun e => hks.1 (e ▸ hk')) x hx]
        simp
      rw [this]; omega
    · have : (g a).countP p = 0 := by
        rw [List.countP_eq_zero]
        intro x hx
        rw [h a (by simp) (fun e => hks.1 (e ▸ hk)) x hx]
        simp
      rw [this, ih hks.2 hk (fun k' hk' => h k' (by simp [hk']))]
      omega

section fill
variable [DecidableEq K] [Zero K]

theorem fillMissing_ok {f out : Frame K} {itemCol dateCol : String} (h : fillMissing f itemCol dateCol = .ok out) :
    itemCol ∈ f.cols ∧ dateCol ∈ f.cols ∧ itemCol ≠ dateCol ∧
    out.cols = itemCol :: dateCol :: f.cols.filter (fun c => decide (c ≠ itemCol ∧ c ≠ dateCol)) ∧
    out.rows = (dropDup (f.col itemCol)).flatMap (fun i => (dropDup (f.col dateCol)).flatMap (fun d =>
      (mergeRows f itemCol dateCol i d).map (fillRow f itemCol dateCol))) := by
  unfold fillMissing at h
  obtain ⟨h1, h⟩ := raiseIf_bind_ok.mp h
  obtain ⟨h2, h⟩ := raiseIf_bind_ok.mp h
  cases h
  push Not at h1
  exact ⟨h1.1, h1.2, h2, rfl, rfl⟩

theorem mergeRows_key {f : Frame K} {itemCol dateCol : String} (hne : itemCol ≠ dateCol) {i d : Cell K} {r : Row K}
    (hr : r ∈ mergeRows f itemCol dateCol i d) : r itemCol = i ∧ r dateCol = d := by
  unfold mergeRows at hr
  simp only at hr
  split at hr
  · rw [List.mem_singleton] at hr
    subst hr
    simp [hne.symm]
  · have := (List.mem_filter.mp hr).2
    simpa using this

theorem mergeRows_length {f : Frame K} {itemCol dateCol : String} {i d : Cell K} :
    (mergeRows f itemCol dateCol i d).length = max 1 (Spec.rowsAt f itemCol dateCol i d) := by
  unfold mergeRows Spec.rowsAt
  rw [List.countP_eq_length_filter]
  simp only
  split
  · rename_i h
    rw [List.isEmpty_iff] at h
    rw [h]; simp
  · rename_i h
    generalize hm : List.filter _ f.rows = m at h
    cases m with
    | nil => simp at h
    | cons a m => simp

theorem fillRow_key {f : Frame K} {itemCol dateCol : String} {r : Row K} :
    fillRow f itemCol dateCol r itemCol = r itemCol ∧ fillRow f itemCol dateCol r dateCol = r dateCol := by
  simp [fillRow]

/-- Number of filled rows of one item and date. -/
theorem fill_rowsAt {f out : Frame K} {itemCol dateCol : String} (h : fillMissing f itemCol dateCol = .ok out) {i d : Cell K}
    (hi : i ∈ f.col itemCol) (hd : d ∈ f.col dateCol) :
    Spec.rowsAt out itemCol dateCol i d = max 1 (Spec.rowsAt f itemCol dateCol i d) := by
  obtain ⟨-, -, hne, -, hr⟩ := fillMissing_ok h
  rw [← mergeRows_length]
  unfold Spec.rowsAt
  rw [hr]
  have key : ∀ i' d' : Cell K, ∀ x ∈ (mergeRows f itemCol dateCol i' d').map (fillRow f itemCol dateCol),
      x itemCol = i' ∧ x dateCol = d' := by
    intro i' d' x hx
    obtain ⟨r, hr, rfl⟩ := List.mem_map.mp hx
    rw [fillRow_key.1, fillRow_key.2]
    exact mergeRows_key hne hr
  rw [countP_flatMap_unique (nodup_dropDup _) (mem_dropDup.mpr hi)]
  · rw [countP_flatMap_unique (nodup_dropDup _) (mem_dropDup.mpr hd)]
    · rw [List.countP_eq_length.mpr]
      · simp
      · intro x hx
        simpa using key i d x hx
    · intro d' _ hd' x hx
      have := key i d' x hx
      simp [this, hd']
  · intro i' _ hi' x hx
    obtain ⟨d', _, hx⟩ := List.mem_flatMap.mp hx
    have := key i' d' x hx
    simp [this, hi']

theorem fill_mem {f out : Frame K} {itemCol dateCol : String} (h : fillMissing f itemCol dateCol = .ok out) {r : Row K}
    (hr : r ∈ out.rows) : r itemCol ∈ f.col itemCol ∧ r dateCol ∈ f.col dateCol := by
  obtain ⟨-, -, hne, -, e⟩ := fillMissing_ok h
  rw [e] at hr
  obtain ⟨i, hi, hr⟩ := List.mem_flatMap.mp hr
  obtain ⟨d, hd, hr⟩ := List.mem_flatMap.mp hr
  obtain ⟨r', hr', rfl⟩ := List.mem_map.mp hr
  rw [fillRow_key.1, fillRow_key.2, (mergeRows_key hne hr').1, (mergeRows_key hne hr').2]
  exact ⟨mem_dropDup.mp hi, mem_dropDup.mp hd⟩

/-- The row added for an item and date without rows. -/
def blankRow (itemCol dateCol : String) (i d : Cell K) : Row K := fun c =>
  if c = itemCol then i else if c = dateCol then d else .null

/-- The rows added by filling. -/
def addedRows (f : Frame K) (itemCol dateCol : String) : List (Row K) :=
  (dropDup (f.col itemCol)).flatMap (fun i => (dropDup (f.col dateCol)).flatMap (fun d =>
    if (f.rows.filter (fun r => decide (r itemCol = i ∧ r dateCol = d))).isEmpty then
      [fillRow f itemCol dateCol (blankRow itemCol dateCol i d)] else []))

theorem fill_perm {f out : Frame K} {itemCol dateCol : String} (h : fillMissing f itemCol dateCol = .ok out) :
    out.rows.Perm (f.rows.map (fillRow f itemCol dateCol) ++ addedRows f itemCol dateCol) := by
  obtain ⟨-, -, hne, -, e⟩ := fillMissing_ok h
  rw [e]
  have e1 : ∀ i d : Cell K, (mergeRows f itemCol dateCol i d).map (fillRow f itemCol dateCol) =
      (f.rows.filter (fun r => decide (r itemCol = i ∧ r dateCol = d))).map (fillRow f itemCol dateCol) ++
      (if (f.rows.filter (fun r => decide (r itemCol = i ∧ r dateCol = d))).isEmpty then
        [fillRow f itemCol dateCol (blankRow itemCol dateCol i d)] else []) := by
    intro i d
    unfold mergeRows
    simp only
    split
    · rename_i h
      rw [List.isEmpty_iff] at h
      rw [h]; rfl
    · simp
  simp only [e1]
  refine List.Perm.trans (List.Perm.flatMap_left _ (fun i _ => (List.flatMap_append_perm _ _ _).symm)) ?_
  refine List.Perm.trans (List.flatMap_append_perm _ _ _).symm ?_
  refine List.Perm.append_right _ ?_
  have e2 : ∀ i : Cell K, ((dropDup (f.col dateCol)).flatMap (fun d =>
      (f.rows.filter (fun r => decide (r itemCol = i ∧ r dateCol = d))).map (fillRow f itemCol dateCol))).Perm
      ((f.rows.filter (fun r => decide (r itemCol = i))).map (fillRow f itemCol dateCol)) := by
    intro i
    rw [← List.map_flatMap]
    refine List.Perm.map _ ?_
    have := flatMap_filter_perm (fun r : Row K => r dateCol) (nodup_dropDup (f.col dateCol))
      (rows := f.rows.filter (fun r => decide (r itemCol = i))) (fun r hr => mem_dropDup.mpr
        (List.mem_map.mpr ⟨r, (List.mem_filter.mp hr).1, rfl⟩))
    refine List.Perm.trans (List.Perm.of_eq (List.flatMap_congr fun d _ => ?_)) this
    rw [List.filter_filter]
    refine List.filter_congr fun r _ => ?_
    simp [Bool.and_comm]
  refine List.Perm.trans (List.Perm.flatMap_left _ (fun i _ => e2 i)) ?_
  rw [← List.map_flatMap]
  refine List.Perm.map _ ?_
  exact flatMap_filter_perm (fun r : Row K => r itemCol) (nodup_dropDup (f.col itemCol))
    (fun r hr => mem_dropDup.mpr (List.mem_map.mpr ⟨r, hr, rfl⟩))

theorem zeroCell_isZero {l : List (Cell K)} (h : ∀ c ∈ l, Spec.IsNumber c) : Spec.IsZero (zeroCell l) := by
  unfold zeroCell Spec.IsZero
  split
  · exact Or.inl rfl
  split
  · exact Or.inl rfl
  split
  · rename_i ht
    rw [List.any_eq_true] at ht
    obtain ⟨c, hc, ht⟩ := ht
    cases c with
    | time t => exact absurd rfl ((h _ hc).2 t)
    | _ => simp at ht
  · exact Or.inr rfl

theorem mem_addedRows {f : Frame K} {itemCol dateCol : String} {r : Row K} (hr : r ∈ addedRows f itemCol dateCol) :
    ∃ i d, i ∈ f.col itemCol ∧ d ∈ f.col dateCol ∧ (∀ r' ∈ f.rows, ¬ (r' itemCol = i ∧ r' dateCol = d)) ∧
      r = fillRow f itemCol dateCol (blankRow itemCol dateCol i d) := by
  unfold addedRows at hr
  obtain ⟨i, hi, hr⟩ := List.mem_flatMap.mp hr
  obtain ⟨d, hd, hr⟩ := List.mem_flatMap.mp hr
  split at hr
  · rename_i he
    rw [List.isEmpty_iff, List.filter_eq_nil_iff] at he
    refine ⟨i, d, mem_dropDup.mp hi, mem_dropDup.mp hd, ?_, by simpa using hr⟩
    intro r' hr'
    simpa using he r' hr'
  · simp at hr

theorem dropDup_append {α : Type} [DecidableEq α] (l l' : List α) :
    dropDup (l ++ l') = dropDup l ++ (dropDup l').filter (fun b => decide (b ∉ l)) := by
  induction l with
  | nil => simp [dropDup]
  | cons a l ih =>
    simp only [List.cons_append, dropDup, ih, List.filter_append, List.filter_filter, List.mem_cons]
    congr 2
    refine List.filter_congr fun b _ => ?_
    by_cases h : b = a <;> simp [h]

theorem dropDup_append_subset {α : Type} [DecidableEq α] {l l' : List α} (h : ∀ a ∈ l', a ∈ l) : dropDup (l ++ l') = dropDup l := by
  rw [dropDup_append, (List.filter_eq_nil_iff).mpr, List.append_nil]
  intro b hb
  simp [h b (mem_dropDup.mp hb)]

theorem dropDup_const {α : Type} [DecidableEq α] {l : List α} {a : α} (hl : l ≠ []) (h : ∀ b ∈ l, b = a) : dropDup l = [a] := by
  cases l with
  | nil => exact absurd rfl hl
  | cons b l =>
    have := h b (by simp)
    subst this
    simp only [dropDup, List.cons.injEq, true_and, List.filter_eq_nil_iff]
    intro c hc
    simp [h c (by simp [mem_dropDup.mp hc])]

theorem dropDup_blocks {α β : Type} [DecidableEq β] {key : α → β} {ks : List β} (hks : ks.Nodup) {g : β → List α}
    (hne : ∀ k ∈ ks, g k ≠ []) (h : ∀ k ∈ ks, ∀ x ∈ g k, key x = k) : dropDup ((ks.flatMap g).map key) = ks := by
  induction ks with
  | nil => rfl
  | cons k ks ih =>
    rw [List.nodup_cons] at hks
    rw [List.flatMap_cons, List.map_append, dropDup_append, ih hks.2 (fun k' hk' => hne k' (by simp [hk']))
      (fun k' hk' => h k' (by simp [hk']))]
    rw [dropDup_const (a := k) (by simpa using hne k (by simp))]
    · rw [List.singleton_append, List.filter_eq_self.mpr]
      intro b hb
      simp only [List.mem_map, not_exists, not_and, decide_eq_true_eq]
      intro x hx e
      rw [h k (by simp) x hx] at e
      exact hks.1 (e ▸ hb)
    · intro b hb
      obtain ⟨x, hx, rfl⟩ := List.mem_map.mp hb
      exact h k (by simp) x hx

theorem filter_flatMap_unique {α β : Type} {p : α → Bool} {g : β → List α} {ks : List β} (hks : ks.Nodup) {k : β} (hk : k ∈ ks)
    (h : ∀ k' ∈ ks, k' ≠ k → ∀ x ∈ g k', p x = false) : (ks.flatMap g).filter p = (g k).filter p := by
  induction ks with
  | nil => simp at hk
  | cons a ks ih =>
    rw [List.nodup_cons] at hks
    rw [List.flatMap_cons, List.filter_append]
    rcases List.mem_cons.mp hk with rfl | hk
    · have : (ks.flatMap g).filter p = [] := by
        rw [List.filter_eq_nil_iff]
        intro x hx
        obtain ⟨k', hk', hx⟩ := List.mem_flatMap.mp hx
        rw [h k' (by simp [hk']) (fun e => hks.1 (e ▸ hk')) x hx]
        simp
      rw [this, List.append_nil]
    · have : (g a).filter p = [] := by
        rw [List.filter_eq_nil_iff]
        intro x hx
        rw [h a (by simp) (fun e => hks.1 (e ▸ hk)) x hx]
        simp
      rw [this, ih hks.2 hk (fun k' hk' => h k' (by simp [hk'])), List.nil_append]

theorem zeroCell_ne_null (l : List (Cell K)) : zeroCell l ≠ .null := by
  unfold zeroCell
  split_ifs <;> simp

theorem fillRow_fillRow {f g : Frame K} {itemCol dateCol : String} {r : Row K} :
    fillRow g itemCol dateCol (fillRow f itemCol dateCol r) = fillRow f itemCol dateCol r := by
  funext c
  unfold fillRow
  by_cases hc : c = itemCol ∨ c = dateCol
  · simp [hc]
  · simp only [hc, if_false]
    by_cases hn : (r c).isNull = true
    · have : (zeroCell (f.col c)).isNull = false := by
        have := zeroCell_ne_null (f.col c)
        cases h : zeroCell (f.col c) <;> simp_all [Cell.isNull]
      simp [hn, this]
    · simp [hn]

/-- Filling twice is filling once. -/
theorem fill_fill {f out : Frame K} {itemCol dateCol : String} (h : fillMissing f itemCol dateCol = .ok out) :
    fillMissing out itemCol dateCol = .ok out := by
  obtain ⟨hi, hd, hne, hc, hr⟩ := fillMissing_ok h
  have hcols : out.cols = itemCol :: dateCol :: out.cols.filter (fun c => decide (c ≠ itemCol ∧ c ≠ dateCol)) := by
    rw [hc]
    simp only [List.filter_cons, ne_eq, not_true, false_and, decide_false, Bool.false_eq_true, if_false, and_false,
      List.filter_filter, Bool.and_self]
  unfold fillMissing
  refine raiseIf_bind_ok.mpr ⟨?_, raiseIf_bind_ok.mpr ⟨hne, ?_⟩⟩
  · rw [hc]; simp
  set B : Cell K → Cell K → List (Row K) := fun i d => (mergeRows f itemCol dateCol i d).map (fillRow f itemCol dateCol)
    with hB
  have hBne : ∀ i d, B i d ≠ [] := by
    intro i d e
    have : (mergeRows f itemCol dateCol i d).length = 0 := by
      have := congrArg List.length e
      simpa [hB] using this
    rw [mergeRows_length] at this
    omega
  have hBkey : ∀ i d, ∀ x ∈ B i d, x itemCol = i ∧ x dateCol = d := by
    intro i d x hx
    obtain ⟨r, hr, rfl⟩ := List.mem_map.mp hx
    rw [fillRow_key.1, fillRow_key.2]
    exact mergeRows_key hne hr
  have hItems : dropDup (out.col itemCol) = dropDup (f.col itemCol) := by
    unfold Frame.col
    rw [hr]
    by_cases hD : dropDup (f.col dateCol) = []
    · have : f.rows = [] := by
        cases hf : f.rows with
        | nil => rfl
        | cons r l => simp [Frame.col, hf, dropDup] at hD
      simp [Frame.col, this, dropDup]
    · refine dropDup_blocks (nodup_dropDup _) ?_ ?_
      · intro i _ e
        rw [List.flatMap_eq_nil_iff] at e
        cases hD' : dropDup (f.col dateCol) with
        | nil => exact hD hD'
        | cons d l => exact hBne i d (e d (by simp [hD']))
      · intro i _ x hx
        obtain ⟨d, _, hx⟩ := List.mem_flatMap.mp hx
        exact (hBkey i d x hx).1
  have hDates : dropDup (out.col dateCol) = dropDup (f.col dateCol) := by
    unfold Frame.col
    rw [hr]
    cases hI : dropDup (f.col itemCol) with
    | nil =>
      have : f.rows = [] := by
        cases hf : f.rows with
        | nil => rfl
        | cons r l => simp [Frame.col, hf, dropDup] at hI
      simp [Frame.col, this, dropDup]
    | cons i l =>
      have hblock : dropDup (((dropDup (f.col dateCol)).flatMap (B i)).map (fun r => r dateCol)) = dropDup (f.col dateCol) :=
        dropDup_blocks (nodup_dropDup _) (fun d _ => hBne i d) (fun d _ x hx => (hBkey i d x hx).2)
      rw [List.flatMap_cons, List.map_append]
      show dropDup (((dropDup (f.col dateCol)).flatMap (B i)).map (fun r => r dateCol) ++ _) = _
      rw [dropDup_append_subset, hblock]
      · rfl
      · intro a ha
        obtain ⟨x, hx, rfl⟩ := List.mem_map.mp ha
        obtain ⟨i', _, hx⟩ := List.mem_flatMap.mp hx
        obtain ⟨d, hd', hx⟩ := List.mem_flatMap.mp hx
        rw [(hBkey i' d x hx).2, ← mem_dropDup, hblock]
        exact hd'
  have hMerge : ∀ i ∈ dropDup (f.col itemCol), ∀ d ∈ dropDup (f.col dateCol), mergeRows out itemCol dateCol i d = B i d := by
    intro i hi d hd
    have : out.rows.filter (fun r => decide (r itemCol = i ∧ r dateCol = d)) = B i d := by
      rw [hr]
      rw [filter_flatMap_unique (nodup_dropDup _) hi]
      · rw [filter_flatMap_unique (nodup_dropDup _) hd]
        · rw [List.filter_eq_self]
          intro x hx
          simpa using hBkey i d x hx
        · intro d' _ hd' x hx
          have := hBkey i d' x hx
          simp [this, hd']
      · intro i' _ hi' x hx
        obtain ⟨d', _, hx⟩ := List.mem_flatMap.mp hx
        have := hBkey i' d' x hx
        simp [this, hi']
    unfold mergeRows
    rw [this]
    simp only
    rw [if_neg]
    rw [List.isEmpty_iff]
    exact hBne i d
  congr 1
  rw [hItems, hDates, ← hcols]
  have hrows : (dropDup (f.col itemCol)).flatMap (fun i => (dropDup (f.col dateCol)).flatMap (fun d =>
      (mergeRows out itemCol dateCol i d).map (fillRow out itemCol dateCol))) = out.rows := by
    rw [hr]
    refine List.flatMap_congr fun i hi => List.flatMap_congr fun d hd => ?_
    rw [hMerge i hi d hd]
    simp only [hB, List.map_map]
    refine List.map_congr_left fun r _ => ?_
    exact fillRow_fillRow
  rw [hrows]

end fill

section totals
variable [Field K] [LinearOrder K]

theorem sumSkip_cons (a : Fl K) (l : List (Fl K)) :
    Fl.sumSkip (a :: l) = if a.isNan then Fl.sumSkip l else a + Fl.sumSkip l := by
  unfold Fl.sumSkip
  cases h : a.isNan <;> simp [h, List.filter_cons]

theorem sumSkip_append_zeros (l z : List (Fl K)) (hz : ∀ a ∈ z, a = .fin 0) : Fl.sumSkip (l ++ z) = Fl.sumSkip l := by
  induction l with
  | nil =>
    rw [List.nil_append]
    induction z with
    | nil => rfl
    | cons a z ih =>
      rw [sumSkip_cons, hz a (by simp), ih (fun b hb => hz b (by simp [hb]))]
      simp [Fl.isNan, Fl.zero_add']
  | cons a l ih =>
    rw [List.cons_append, sumSkip_cons, sumSkip_cons, ih]

theorem toFl_of_isZero {c : Cell K} (h : Spec.IsZero c) : c.toFl = .fin 0 := by
  rcases h with rfl | rfl <;> simp [Cell.toFl]

/-- Filling does not change the total of a numeric column. -/
theorem fill_total {f out : Frame K} {itemCol dateCol : String} (h : fillMissing f itemCol dateCol = .ok out) {c : String}
    (hc : c ≠ itemCol) (hc' : c ≠ dateCol) (hnum : ∀ r ∈ f.rows, Spec.IsNumber (r c)) :
    sumCol out.rows c = sumCol f.rows c := by
  unfold sumCol
  rw [Fl.sumSkip_perm ((fill_perm h).map _), List.map_append]
  have hz : Spec.IsZero (zeroCell (f.col c)) := zeroCell_isZero (by
    intro x hx
    obtain ⟨r, hr, rfl⟩ := List.mem_map.mp hx
    exact hnum r hr)
  rw [sumSkip_append_zeros]
  · have : ∀ l : List (Row K), (∀ r ∈ l, Spec.IsNumber (r c)) →
        Fl.sumSkip ((l.map (fillRow f itemCol dateCol)).map (fun r => (r c).toFl)) = Fl.sumSkip (l.map (fun r => (r c).toFl)) := by
      intro l hl
      induction l with
      | nil => rfl
      | cons r l ih =>
        simp only [List.map_cons, sumSkip_cons]
        rw [ih (fun r hr => hl r (by simp [hr]))]
        unfold fillRow
        simp only [hc, hc', or_self, if_false]
        by_cases hn : r c = .null
        · have e1 : (r c).isNull = true := by rw [hn]; rfl
          have e2 : (r c).toFl = .nan := by rw [hn]; rfl
          rw [if_pos e1, e2, toFl_of_isZero hz]
          simp [Fl.isNan, Fl.zero_add']
        · have e1 : (r c).isNull = false := by
            cases hr : r c <;> simp_all [Cell.isNull]
          rw [e1]
          simp
    exact this f.rows hnum
  · intro a ha
    obtain ⟨r, hr, rfl⟩ := List.mem_map.mp ha
    obtain ⟨i, d, -, -, -, rfl⟩ := mem_addedRows hr
    rw [← toFl_of_isZero hz]
    congr 1
    simp [fillRow, blankRow, hc, hc', Cell.isNull]

end totals
end Feedx
