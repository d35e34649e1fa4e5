import Verif.Props.RowOrder

/-!
What leaving out rows does to each step of the data preparation: rows of zeros are filled in again, rows of items that are not assigned are dropped later.
-/

set_option linter.unusedSectionVars false

namespace Feedx

variable {K : Type} [Field K] [LinearOrder K]

/-! ### Tables that agree on the rows of some items -/

/-- The rows of the items in `P` are the same up to their order, and every row of the second table is like some row of the first: equal in the columns `D`,
and numeric wherever that is. -/
structure KeepRows (P : Cell K → Prop) [DecidablePred P] (D : List String) (f f' : Frame K) : Prop where
  cols : f'.cols = f.cols
  rows : (f'.rows.filter (fun r => decide (P (r "item_id")))).Perm (f.rows.filter (fun r => decide (P (r "item_id"))))
  like : ∀ r' ∈ f'.rows, ∃ r ∈ f.rows, (∀ c ∈ D, r' c = r c) ∧ ∀ c, (r c).isNumeric = true → (r' c).isNumeric = true

section keep
variable {P : Cell K → Prop} [DecidablePred P] {D : List String} {f f' : Frame K}

theorem KeepRows.mono {D' : List String} (h : KeepRows P D f f') (hD : ∀ c ∈ D', c ∈ D) : KeepRows P D' f f' := by
  refine ⟨h.cols, h.rows, fun r' hr' => ?_⟩
  obtain ⟨r, hr, e, n⟩ := h.like r' hr'
  exact ⟨r, hr, fun c hc => e c (hD c hc), n⟩

theorem KeepRows.setCol_rows (h : KeepRows P D f f') {c : String} (hc : c ≠ "item_id") (v : Row K → Cell K) :
    ((f'.setCol c v).rows.filter (fun r => decide (P (r "item_id")))).Perm ((f.setCol c v).rows.filter (fun r => decide (P (r "item_id")))) := by
  have e : ∀ l : List (Row K), (l.map (fun r => Function.update r c (v r))).filter (fun r => decide (P (r "item_id"))) =
      (l.filter (fun r => decide (P (r "item_id")))).map (fun r => Function.update r c (v r)) := by
    intro l
    rw [List.filter_map]
    congr 1
    refine List.filter_congr fun r _ => ?_
    simp only [Function.comp, Function.update_of_ne (Ne.symm hc)]
  have := h.rows.map (fun r => Function.update r c (v r))
  rw [← e, ← e] at this
  exact this

/-- Adding a column whose value depends on columns that agree. -/
theorem KeepRows.setCol (h : KeepRows P D f f') {c : String} (hc : c ≠ "item_id") (hcD : c ∉ D) {v : Row K → Cell K}
    (hv : ∀ r r' : Row K, (∀ x ∈ D, r' x = r x) → v r' = v r) : KeepRows P (c :: D) (f.setCol c v) (f'.setCol c v) := by
  refine ⟨?_, h.setCol_rows hc v, ?_⟩
  · unfold Frame.setCol
    simp only [h.cols]
  · intro r' hr'
    obtain ⟨q', hq', rfl⟩ := List.mem_map.mp hr'
    obtain ⟨q, hq, e, n⟩ := h.like q' hq'
    refine ⟨_, List.mem_map.mpr ⟨q, hq, rfl⟩, ?_, ?_⟩
    · intro x hx
      by_cases hxc : x = c
      · simp only [hxc, Function.update_self]
        exact hv q q' e
      · rw [Function.update_of_ne hxc, Function.update_of_ne hxc]
        rcases List.mem_cons.mp hx with rfl | hx
        · exact absurd rfl hxc
        · exact e x hx
    · intro x hx
      by_cases hxc : x = c
      · simp only [hxc, Function.update_self] at hx ⊢
        rwa [hv q q' e]
      · rw [Function.update_of_ne hxc] at hx ⊢
        exact n x hx

theorem addWeeks_keep {E : Ext K} {startDate : String} {out : Frame K} (h : KeepRows P ["item_id", "date"] f f')
    (hw : addWeeks E f "date" (some startDate) "week_id" "week_start" = .ok out) :
    ∃ out', addWeeks E f' "date" (some startDate) "week_id" "week_start" = .ok out' ∧
      KeepRows P ["week_start", "week_id", "item_id", "date"] out out' := by
  unfold addWeeks at hw ⊢
  obtain ⟨h1, hw⟩ := raiseIf_bind_ok.mp hw
  obtain ⟨h2, hw⟩ := raiseIf_bind_ok.mp hw
  obtain ⟨start, h3, hw⟩ := Py.bind_eq_ok.mp hw
  obtain ⟨h4, hw⟩ := raiseIf_bind_ok.mp hw
  cases hw
  refine ⟨_, raiseIf_bind_ok.mpr ⟨by rwa [h.cols], raiseIf_bind_ok.mpr ⟨?_, Py.bind_eq_ok.mpr ⟨start, h3, raiseIf_bind_ok.mpr ⟨?_, rfl⟩⟩⟩⟩, ?_⟩
  · unfold isTimeColumn at h2 ⊢
    rw [Bool.not_eq_false, List.all_eq_true] at h2 ⊢
    intro x hx
    obtain ⟨r', hr', rfl⟩ := List.mem_map.mp hx
    obtain ⟨r, hr, e, -⟩ := h.like r' hr'
    simp only [e "date" (by simp)]
    exact h2 _ (List.mem_map.mpr ⟨r, hr, rfl⟩)
  · rw [Bool.not_eq_true, List.any_eq_false] at h4 ⊢
    intro r' hr'
    obtain ⟨r, hr, e, -⟩ := h.like r' hr'
    rw [e "date" (by simp)]
    exact h4 r hr
  · refine (h.setCol (by decide) (by decide) ?_).setCol (by decide) (by decide) ?_
    · intro r r' e
      rw [e "date" (by simp)]
    · intro r r' e
      rw [e "week_id" (by simp)]

theorem addTimePeriodColumn_keep {d : DesignParams K} {start : ℤ} {out : Frame K} (h : KeepRows P ["week_start", "week_id", "item_id", "date"] f f')
    (hw : addTimePeriodColumn d start "week_id" "time_period" f = .ok out) :
    ∃ out', addTimePeriodColumn d start "week_id" "time_period" f' = .ok out' ∧ KeepRows P [] out out' := by
  unfold addTimePeriodColumn labelRows at hw ⊢
  obtain ⟨h1, hw⟩ := raiseIf_bind_ok.mp hw
  obtain ⟨h2, hw⟩ := raiseIf_bind_ok.mp hw
  obtain ⟨h3, hw⟩ := raiseIf_bind_ok.mp hw
  obtain ⟨h4, hw⟩ := raiseIf_bind_ok.mp hw
  cases hw
  refine ⟨_, raiseIf_bind_ok.mpr ⟨by rwa [h.cols], raiseIf_bind_ok.mpr ⟨by rwa [h.cols], raiseIf_bind_ok.mpr ⟨h3, raiseIf_bind_ok.mpr
    ⟨?_, rfl⟩⟩⟩⟩, ?_⟩
  · rw [Bool.not_eq_true, List.any_eq_false] at h4 ⊢
    intro r' hr'
    obtain ⟨r, hr, e, -⟩ := h.like r' hr'
    rw [e "week_id" (by simp)]
    exact h4 r hr
  · refine (h.setCol (by decide) (by decide) ?_).mono (by simp)
    intro r r' e
    rw [e "week_id" (by simp)]

theorem addAtLeastOne_keep {pairs : List (String × String)} {out : Frame K} (hnames : ∀ p ∈ pairs, p.2 ≠ "item_id") (h : KeepRows P [] f f')
    (hw : addAtLeastOne pairs f = .ok out) : ∃ out', addAtLeastOne pairs f' = .ok out' ∧ KeepRows P [] out out' := by
  induction pairs generalizing f f' with
  | nil =>
    cases hw
    exact ⟨f', rfl, h⟩
  | cons p pairs ih =>
    obtain ⟨m, new⟩ := p
    unfold addAtLeastOne at hw ⊢
    obtain ⟨h1, hw⟩ := raiseIf_bind_ok.mp hw
    obtain ⟨h2, hw⟩ := raiseIf_bind_ok.mp hw
    have hs : KeepRows P [] (f.setCol new (fun r => positiveCell (r m))) (f'.setCol new (fun r => positiveCell (r m))) := by
      refine ⟨?_, h.setCol_rows (hnames (m, new) (by simp)) _, ?_⟩
      · unfold Frame.setCol
        simp only [h.cols]
      · intro r' hr'
        obtain ⟨q', hq', rfl⟩ := List.mem_map.mp hr'
        obtain ⟨q, hq, -, n⟩ := h.like q' hq'
        refine ⟨_, List.mem_map.mpr ⟨q, hq, rfl⟩, by simp, ?_⟩
        intro x hx
        by_cases hxc : x = new
        · simp only [hxc, Function.update_self]
          rfl
        · rw [Function.update_of_ne hxc] at hx ⊢
          exact n x hx
    obtain ⟨out', ho, hso⟩ := ih (fun p hp => hnames p (by simp [hp])) hs hw
    refine ⟨out', raiseIf_bind_ok.mpr ⟨by rwa [h.cols], raiseIf_bind_ok.mpr ⟨?_, ho⟩⟩, hso⟩
    rw [Bool.not_eq_true, List.any_eq_false] at h2 ⊢
    intro r' hr' hn
    obtain ⟨r, hr, -, n⟩ := h.like r' hr'
    have : (r m).isNumeric = true := by
      have := h2 r hr
      simpa using this
    rw [n m this] at hn
    simp at hn

/-- Merging the assignment drops the items that are not in it. -/
theorem mergeAssignment_keep {a out : Frame K} (hP : ∀ x ∈ a.col "item_id", P x) (h : KeepRows P [] f f') (hw : mergeAssignment f a = .ok out) :
    ∃ out', mergeAssignment f' a = .ok out' ∧ Spec.SameRows out out' := by
  unfold mergeAssignment at hw ⊢
  obtain ⟨h1, hw⟩ := raiseIf_bind_ok.mp hw
  cases hw
  refine ⟨_, raiseIf_bind_ok.mpr ⟨by rwa [h.cols], rfl⟩, by simp only [h.cols], ?_⟩
  simp only
  rw [h.cols]
  have key : ∀ l : List (Row K), l.flatMap (fun r => (a.rows.filter (fun x => decide (x "item_id" = r "item_id"))).map (joinRow f.cols r)) =
      (l.filter (fun r => decide (P (r "item_id")))).flatMap
        (fun r => (a.rows.filter (fun x => decide (x "item_id" = r "item_id"))).map (joinRow f.cols r)) := by
    intro l
    induction l with
    | nil => rfl
    | cons r l ih =>
      by_cases hr : P (r "item_id")
      · rw [List.filter_cons_of_pos (by simpa using hr), List.flatMap_cons, List.flatMap_cons, ih]
      · rw [List.filter_cons_of_neg (by simpa using hr), List.flatMap_cons, ih]
        have : a.rows.filter (fun x => decide (x "item_id" = r "item_id")) = [] := by
          rw [List.filter_eq_nil_iff]
          intro x hx e
          have e : x "item_id" = r "item_id" := by simpa using e
          exact hr (e ▸ hP _ (List.mem_map.mpr ⟨x, hx, rfl⟩))
        rw [this]
        rfl
  rw [key f.rows, key f'.rows]
  exact List.Perm.flatMap h.rows fun r _ => List.Perm.refl _

end keep

/-! ### Filling in -/

/-- All cells apart from the item and the date are floats. -/
def FloatCells (rows : List (Row K)) : Prop := ∀ r ∈ rows, ∀ c, c ≠ "item_id" → c ≠ "date" → ∃ x, r c = Cell.ofFl x

/-- Missing values replaced by zero. -/
def zeroFill (r : Row K) : Row K := fun c =>
  if c = "item_id" ∨ c = "date" then r c
  else if (r c).isNull then .num 0 else r c

theorem fillRow_zero {f : Frame K} (hf : FloatCells f.rows) (hne : f.rows ≠ []) : fillRow f "item_id" "date" = zeroFill := by
  funext r c
  unfold fillRow zeroFill
  by_cases hc : c = "item_id" ∨ c = "date"
  · rw [if_pos hc, if_pos hc]
  · rw [if_neg hc, if_neg hc]
    push Not at hc
    have hz : zeroCell (f.col c) = .num 0 := by
      have hcell : ∀ x ∈ f.col c, ∃ y, x = Cell.ofFl y := by
        intro x hx
        obtain ⟨q, hq, rfl⟩ := List.mem_map.mp hx
        exact hf q hq c hc.1 hc.2
      obtain ⟨q, hq⟩ := List.exists_mem_of_ne_nil _ hne
      unfold zeroCell
      rw [if_neg, if_neg, if_neg]
      · rw [Bool.not_eq_true, List.any_eq_false]
        intro x hx
        obtain ⟨y, rfl⟩ := hcell x hx
        cases y <;> simp [Cell.ofFl]
      · rw [Bool.not_eq_true, List.any_eq_false]
        intro x hx
        obtain ⟨y, rfl⟩ := hcell x hx
        cases y <;> simp [Cell.ofFl]
      · rw [List.all_eq_true]
        intro hall
        have hx : q c ∈ f.col c := List.mem_map.mpr ⟨q, hq, rfl⟩
        have := hall _ hx
        obtain ⟨y, hy⟩ := hcell _ hx
        rw [hy] at this
        cases y <;> simp [Cell.ofFl] at this
    rw [hz]

theorem isNumeric_ofFl (x : Fl K) : (Cell.ofFl x).isNumeric = true := by
  cases x <;> rfl

theorem filter_flatMap_of {α β : Type} {B : α → List β} {p : β → Bool} {q : α → Bool} {l : List α} (h : ∀ a ∈ l, ∀ b ∈ B a, p b = q a) :
    (l.flatMap B).filter p = (l.filter q).flatMap B := by
  induction l with
  | nil => rfl
  | cons a l ih =>
    rw [List.flatMap_cons, List.filter_append, ih (fun a ha => h a (by simp [ha]))]
    have h0 := h a (by simp)
    by_cases hq : q a = true
    · rw [List.filter_cons_of_pos hq, List.flatMap_cons, List.filter_eq_self.mpr (fun b hb => by rw [h0 b hb, hq])]
    · rw [List.filter_cons_of_neg hq, List.filter_eq_nil_iff.mpr (fun b hb => by rw [h0 b hb]; exact hq), List.nil_append]

theorem mergeRows_keys {f : Frame K} {i d : Cell K} {r : Row K} (hr : r ∈ mergeRows f "item_id" "date" i d) : r "item_id" = i ∧ r "date" = d := by
  unfold mergeRows at hr
  simp only at hr
  split_ifs at hr with he
  · rw [List.mem_singleton] at hr
    subst hr
    exact ⟨rfl, rfl⟩
  · simpa using (List.mem_filter.mp hr).2

theorem mergeRows_float {f : Frame K} (hf : FloatCells f.rows) {i d : Cell K} : FloatCells (mergeRows f "item_id" "date" i d) := by
  intro r hr c h1 h2
  unfold mergeRows at hr
  simp only at hr
  split_ifs at hr with he
  · rw [List.mem_singleton] at hr
    subst hr
    exact ⟨.nan, by simp only [if_neg h1, if_neg h2]; rfl⟩
  · exact hf r (List.mem_filter.mp hr).1 c h1 h2

theorem fillMissing_keep {P : Cell K → Prop} [DecidablePred P] {f f' out : Frame K} (hc : f'.cols = f.cols)
    (hf : FloatCells f.rows) (hf' : FloatCells f'.rows) (hne : f.rows ≠ []) (hne' : f'.rows ≠ [])
    (hi : ∀ x ∈ f'.col "item_id", x ∈ f.col "item_id") (hi' : ∀ x ∈ f.col "item_id", P x → x ∈ f'.col "item_id")
    (hd : ∀ x, x ∈ f'.col "date" ↔ x ∈ f.col "date")
    (hm : ∀ i d, P i → ((mergeRows f' "item_id" "date" i d).map zeroFill).Perm ((mergeRows f "item_id" "date" i d).map zeroFill))
    (h : fillMissing f "item_id" "date" = .ok out) :
    ∃ out', fillMissing f' "item_id" "date" = .ok out' ∧ KeepRows P ["item_id", "date"] out out' := by
  have hgrid := fun i d => fill_grid h (i := i) (d := d)
  unfold fillMissing at h ⊢
  obtain ⟨h1, h⟩ := raiseIf_bind_ok.mp h
  obtain ⟨h2, h⟩ := raiseIf_bind_ok.mp h
  cases h
  refine ⟨_, raiseIf_bind_ok.mpr ⟨by rwa [hc], raiseIf_bind_ok.mpr ⟨h2, rfl⟩⟩, by simp only [hc], ?_, ?_⟩
  · simp only
    rw [fillRow_zero hf hne, fillRow_zero hf' hne']
    have key : ∀ (g : Frame K), ((dropDup (g.col "item_id")).flatMap (fun i => (dropDup (g.col "date")).flatMap (fun d =>
        (mergeRows g "item_id" "date" i d).map zeroFill))).filter (fun r => decide (P (r "item_id"))) =
        ((dropDup (g.col "item_id")).filter (fun i => decide (P i))).flatMap (fun i => (dropDup (g.col "date")).flatMap (fun d =>
        (mergeRows g "item_id" "date" i d).map zeroFill)) := by
      intro g
      refine filter_flatMap_of ?_
      intro i _ r hr
      obtain ⟨d, -, hr⟩ := List.mem_flatMap.mp hr
      obtain ⟨q, hq, rfl⟩ := List.mem_map.mp hr
      have : zeroFill q "item_id" = i := (mergeRows_keys hq).1
      rw [this]
    rw [key, key]
    refine List.Perm.flatMap ((List.perm_ext_iff_of_nodup ((nodup_dropDup _).filter _) ((nodup_dropDup _).filter _)).mpr ?_) ?_
    · intro x
      simp only [List.mem_filter, mem_dropDup, decide_eq_true_eq]
      exact ⟨fun hx => ⟨hi x hx.1, hx.2⟩, fun hx => ⟨hi' x hx.1 hx.2, hx.2⟩⟩
    · intro i hiP
      refine List.Perm.flatMap ((List.perm_ext_iff_of_nodup (nodup_dropDup _) (nodup_dropDup _)).mpr fun x => by rw [mem_dropDup, mem_dropDup, hd]) ?_
      intro d _
      exact hm i d (by simpa using (List.mem_filter.mp hiP).2)
  · intro r' hr'
    simp only at hr'
    obtain ⟨i, hi0, hr'⟩ := List.mem_flatMap.mp hr'
    obtain ⟨d, hd0, hr'⟩ := List.mem_flatMap.mp hr'
    obtain ⟨q, hq, rfl⟩ := List.mem_map.mp hr'
    obtain ⟨k1, k2⟩ := mergeRows_keys hq
    obtain ⟨r, hr, e1, e2⟩ := (hgrid i d).mpr ⟨hi i (mem_dropDup.mp hi0), (hd d).mp (mem_dropDup.mp hd0)⟩
    have e1' : fillRow f' "item_id" "date" q "item_id" = r "item_id" := k1.trans e1.symm
    have e2' : fillRow f' "item_id" "date" q "date" = r "date" := k2.trans e2.symm
    refine ⟨r, hr, ?_, ?_⟩
    · intro c hc
      simp only [List.mem_cons, List.not_mem_nil, or_false] at hc
      rcases hc with rfl | rfl
      · exact e1'
      · exact e2'
    · intro c hn
      by_cases h1 : c = "item_id"
      · subst h1
        rw [e1']
        exact hn
      by_cases h2 : c = "date"
      · subst h2
        rw [e2']
        exact hn
      rw [fillRow_zero hf' hne']
      unfold zeroFill
      rw [if_neg (by push Not; exact ⟨h1, h2⟩)]
      split_ifs
      · rfl
      · obtain ⟨x, hx⟩ := mergeRows_float hf' q hq c h1 h2
        rw [hx]
        exact isNumeric_ofFl x

/-- A row of zeros that is the only one of its item and date is filled in again when it is left out. -/
theorem mergeRows_leftOut {P : Cell K → Prop} {f f' : Frame K} {left : List (Row K)} (hrows : f.rows.Perm (f'.rows ++ left))
    (hleft : ∀ z ∈ left, P (z "item_id") → (∀ c, c ≠ "item_id" → c ≠ "date" → z c = .num 0 ∨ z c = .null) ∧
      ∃ rest, f.rows.Perm (z :: rest) ∧ ∀ r ∈ rest, ¬ (r "item_id" = z "item_id" ∧ r "date" = z "date"))
    (i d : Cell K) (hi : P i) :
    ((mergeRows f' "item_id" "date" i d).map zeroFill).Perm ((mergeRows f "item_id" "date" i d).map zeroFill) := by
  have hp := hrows.filter (fun r => decide (r "item_id" = i ∧ r "date" = d))
  rw [List.filter_append] at hp
  by_cases hz : ∃ z ∈ left, z "item_id" = i ∧ z "date" = d
  · obtain ⟨z, hzl, hz1, hz2⟩ := hz
    obtain ⟨hzero, rest, hrest, hother⟩ := hleft z hzl (hz1 ▸ hi)
    have h1 : (f.rows.filter (fun r => decide (r "item_id" = i ∧ r "date" = d))).Perm [z] := by
      refine (hrest.filter _).trans ?_
      rw [List.filter_cons_of_pos (by simp [hz1, hz2]), List.filter_eq_nil_iff.mpr]
      intro r hr e
      have e : r "item_id" = i ∧ r "date" = d := by simpa using e
      exact hother r hr ⟨e.1.trans hz1.symm, e.2.trans hz2.symm⟩
    have hmem : z ∈ left.filter (fun r => decide (r "item_id" = i ∧ r "date" = d)) := List.mem_filter.mpr ⟨hzl, by simp [hz1, hz2]⟩
    have h2 : f'.rows.filter (fun r => decide (r "item_id" = i ∧ r "date" = d)) = [] := by
      have hlen := (h1.symm.trans hp).length_eq
      rw [List.length_append, List.length_singleton] at hlen
      have := List.length_pos_of_mem hmem
      rw [← List.length_eq_zero_iff]
      omega
    have e1 : f.rows.filter (fun r => decide (r "item_id" = i ∧ r "date" = d)) = [z] := List.perm_singleton.mp h1
    unfold mergeRows
    simp only [h2, e1]
    rw [if_pos (by rfl), if_neg (by simp)]
    refine List.Perm.of_eq ?_
    simp only [List.map_cons, List.map_nil]
    congr 1
    funext c
    unfold zeroFill
    by_cases hc : c = "item_id" ∨ c = "date"
    · rw [if_pos hc, if_pos hc]
      rcases hc with rfl | rfl
      · exact hz1.symm
      · exact hz2.symm
    · rw [if_neg hc, if_neg hc]
      push Not at hc
      simp only [if_neg hc.1, if_neg hc.2]
      rcases hzero c hc.1 hc.2 with e | e <;> rw [e] <;> rfl
  · push Not at hz
    have h0 : left.filter (fun r => decide (r "item_id" = i ∧ r "date" = d)) = [] := by
      rw [List.filter_eq_nil_iff]
      intro r hr e
      have e : r "item_id" = i ∧ r "date" = d := by simpa using e
      exact hz r hr e.1 e.2
    rw [h0, List.append_nil] at hp
    refine List.Perm.map _ ?_
    unfold mergeRows
    simp only
    have he : (f'.rows.filter (fun r => decide (r "item_id" = i ∧ r "date" = d))).isEmpty =
        (f.rows.filter (fun r => decide (r "item_id" = i ∧ r "date" = d))).isEmpty := by
      rw [Bool.eq_iff_iff, List.isEmpty_iff, List.isEmpty_iff, ← List.length_eq_zero_iff, ← List.length_eq_zero_iff, hp.length_eq]
    rw [he]
    split_ifs
    · exact List.Perm.refl _
    · exact hp.symm

end Feedx
