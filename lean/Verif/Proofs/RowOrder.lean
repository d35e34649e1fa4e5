import Verif.Proofs.Experiment
import Verif.Proofs.OverTime

/-!
What reordering the rows of a table does to each step of the data preparation.
-/

set_option linter.unusedSectionVars false

namespace Feedx

/-- The same table with its rows in another order. -/
structure Spec.SameRows {K : Type} (f f' : Frame K) : Prop where
  cols : f'.cols = f.cols
  rows : f'.rows.Perm f.rows

variable {K : Type}

theorem Spec.SameRows.refl (f : Frame K) : Spec.SameRows f f := ⟨rfl, List.Perm.refl _⟩

theorem Spec.SameRows.symm {f f' : Frame K} (h : Spec.SameRows f f') : Spec.SameRows f' f := ⟨h.cols.symm, h.rows.symm⟩

theorem Spec.SameRows.col {f f' : Frame K} (h : Spec.SameRows f f') (c : String) : (f'.col c).Perm (f.col c) := h.rows.map _

theorem Spec.SameRows.setCol {f f' : Frame K} (h : Spec.SameRows f f') (c : String) (v : Row K → Cell K) :
    Spec.SameRows (f.setCol c v) (f'.setCol c v) := by
  refine ⟨?_, h.rows.map _⟩
  unfold Frame.setCol
  simp only [h.cols]

theorem Spec.SameRows.dropCol {f f' : Frame K} (h : Spec.SameRows f f') (c : String) : Spec.SameRows (f.dropCol c) (f'.dropCol c) :=
  ⟨by unfold Frame.dropCol; simp only [h.cols], h.rows⟩

/-- Converting the rows one by one. -/
theorem mapM_perm {α β : Type} {g : α → Py β} {l l' : List α} {out : List β} (h : l.mapM g = .ok out) (hp : l'.Perm l) :
    ∃ out', l'.mapM g = .ok out' ∧ out'.Perm out := by
  have hex : ∀ a ∈ l, ∃ b, g a = .ok b := by
    intro a ha
    obtain ⟨b, -, e⟩ : ∃ b ∈ out, g a = .ok b := by
      have := Py.mapM_ok h
      clear h hp
      induction this with
      | nil => simp at ha
      | cons hab _ ih =>
        rcases List.mem_cons.mp ha with rfl | ha
        · exact ⟨_, by simp, hab⟩
        · obtain ⟨b, hb, e⟩ := ih ha
          exact ⟨b, by simp [hb], e⟩
    exact ⟨b, e⟩
  by_cases hl : l = []
  · subst hl
    obtain rfl := hp.eq_nil
    exact ⟨out, h, List.Perm.refl _⟩
  · obtain ⟨a0, ha0⟩ := List.exists_mem_of_ne_nil l hl
    obtain ⟨b0, -⟩ := hex a0 ha0
    have key : ∀ {m : List α} {o : List β}, m.mapM g = .ok o → o = m.map (fun a => match g a with | .ok b => b | .error _ => b0) := by
      intro m o hm
      have := Py.mapM_ok hm
      clear hm
      induction this with
      | nil => rfl
      | cons hab _ ih => simp [hab, ih]
    obtain ⟨out', ho⟩ := Py.mapM_returns (f := g) (l := l') (fun a ha => hex a (hp.mem_iff.mp ha))
    refine ⟨out', ho, ?_⟩
    rw [key ho, key h]
    exact hp.map _

/-! ### standardize -/

theorem lookup_map_pair {α β γ : Type} [BEq α] [LawfulBEq α] (g : α → β → γ) (l : List (α × β)) (a : α) :
    (l.map (fun p => (p.1, g p.1 p.2))).lookup a = (l.lookup a).map (g a) := by
  induction l with
  | nil => rfl
  | cons p l ih =>
    obtain ⟨x, y⟩ := p
    simp only [List.map_cons, List.lookup_cons]
    cases h : a == x with
    | true =>
      have : a = x := by simpa using h
      simp [this]
    | false => simpa using ih

/-- The converted cell (missing if it cannot be converted). -/
def parsedCell (E : Ext K) (customParse : List (String × (Cell K → Py (Cell K)))) (name : String) (c : Cell K) : Cell K :=
  match parseCell E customParse name c with
  | .ok x => x
  | .error _ => .null

/-- A standardised row. -/
def stdRow (E : Ext K) (names : List (String × String)) (customParse : List (String × (Cell K → Py (Cell K)))) (r : Row K) : Row K := fun c =>
  match names.lookup c with
  | some src => parsedCell E customParse c (r src)
  | none => .null

theorem standardize_eq {E : Ext K} {f out : Frame K} {itemCol dateCol : String} {s : StdCols} {custom : List (String × String)}
    {customParse : List (String × (Cell K → Py (Cell K)))} (h : standardize E f itemCol dateCol s custom customParse = .ok out) :
    (∀ p ∈ columnNames itemCol dateCol s custom, ∀ r ∈ f.rows, ∃ x, parseCell E customParse p.1 (r p.2) = .ok x) ∧
    out = ⟨(columnNames itemCol dateCol s custom).map Prod.fst, f.rows.map (stdRow E (columnNames itemCol dateCol s custom) customParse)⟩ := by
  unfold standardize at h
  obtain ⟨-, h⟩ := raiseIf_bind_ok.mp h
  obtain ⟨-, h⟩ := raiseIf_bind_ok.mp h
  simp only at h
  obtain ⟨-, h⟩ := raiseIf_bind_ok.mp h
  obtain ⟨-, h⟩ := raiseIf_bind_ok.mp h
  obtain ⟨cols, hcols, h⟩ := Py.bind_eq_ok.mp h
  obtain rfl := Except.ok.inj h
  clear h
  have hF := Py.mapM_ok hcols
  clear hcols
  generalize columnNames itemCol dateCol s custom = names at hF ⊢
  have key : ∀ {m : List (Row K)} {src nm : String} {o : List (Cell K)}, (m.map (fun r => r src)).mapM (parseCell E customParse nm) = .ok o →
      (∀ r ∈ m, ∃ x, parseCell E customParse nm (r src) = .ok x) ∧
      o = m.map (fun r => parsedCell E customParse nm (r src)) := by
    intro m src nm o hm
    have := Py.mapM_ok hm
    rw [List.forall₂_map_left_iff] at this
    clear hm
    induction this with
    | nil => simp
    | cons hab _ ih =>
      refine ⟨?_, by simp [parsedCell, hab, ih.2]⟩
      intro r hr
      rcases List.mem_cons.mp hr with rfl | hr
      · exact ⟨_, hab⟩
      · exact ih.1 r hr
  have hc : (∀ p ∈ names, ∀ r ∈ f.rows, ∃ x, parseCell E customParse p.1 (r p.2) = .ok x) ∧
      cols = names.map (fun p => (p.1, (fun nm src => f.rows.map (fun r => parsedCell E customParse nm (r src))) p.1 p.2)) := by
    clear * - hF key
    induction hF with
    | nil => simp
    | cons hab _ ih =>
      obtain ⟨l, hl, e⟩ := Py.bind_eq_ok.mp hab
      obtain ⟨k1, k2⟩ := key hl
      cases e
      subst k2
      refine ⟨?_, by simp [← ih.2]⟩
      intro p hp
      rcases List.mem_cons.mp hp with rfl | hp
      · exact k1
      · exact ih.1 p hp
  refine ⟨hc.1, ?_⟩
  obtain ⟨-, rfl⟩ := hc
  unfold ofColumns
  congr 1
  · simp
  · refine List.ext_getElem (by simp) ?_
    intro i h1 h2
    funext c
    simp only [List.getElem_map, List.getElem_range]
    rw [lookup_map_pair (fun nm src => f.rows.map (fun r => parsedCell E customParse nm (r src))) names c]
    unfold stdRow
    cases names.lookup c with
    | none => rfl
    | some src =>
      have : i < f.rows.length := by simpa using h2
      simp [this]

theorem standardize_returns_subset {E : Ext K} {f f' out : Frame K} {itemCol dateCol : String} {s : StdCols} {custom : List (String × String)}
    {customParse : List (String × (Cell K → Py (Cell K)))} (hc : f'.cols = f.cols) (hr' : ∀ r ∈ f'.rows, r ∈ f.rows)
    (h : standardize E f itemCol dateCol s custom customParse = .ok out) :
    ∃ out', standardize E f' itemCol dateCol s custom customParse = .ok out' := by
  obtain ⟨e, -⟩ := standardize_eq h
  unfold standardize at h ⊢
  obtain ⟨h1, h⟩ := raiseIf_bind_ok.mp h
  obtain ⟨h2, h⟩ := raiseIf_bind_ok.mp h
  simp only at h
  obtain ⟨h3, h⟩ := raiseIf_bind_ok.mp h
  obtain ⟨h4, h⟩ := raiseIf_bind_ok.mp h
  have hm : ∃ cols, (columnNames itemCol dateCol s custom).mapM (fun p => do
      let l ← (f'.col p.2).mapM (parseCell E customParse p.1)
      pure (p.1, l)) = .ok cols := by
    refine Py.mapM_returns ?_
    intro p hp
    obtain ⟨l, hl⟩ := Py.mapM_returns (f := parseCell E customParse p.1) (l := f'.col p.2) (by
      intro c hcc
      obtain ⟨r, hr, rfl⟩ := List.mem_map.mp hcc
      exact e p hp r (hr' r hr))
    exact ⟨_, Py.bind_eq_ok.mpr ⟨l, hl, rfl⟩⟩
  obtain ⟨cols, hm⟩ := hm
  refine ⟨ofColumns f'.rows.length cols, raiseIf_bind_ok.mpr ⟨h1, raiseIf_bind_ok.mpr ⟨h2, ?_⟩⟩⟩
  · simp only
    rw [hc]
    exact raiseIf_bind_ok.mpr ⟨h3, raiseIf_bind_ok.mpr ⟨h4, Py.bind_eq_ok.mpr ⟨cols, hm, rfl⟩⟩⟩

theorem standardize_sameRows {E : Ext K} {f f' out : Frame K} {itemCol dateCol : String} {s : StdCols} {custom : List (String × String)}
    {customParse : List (String × (Cell K → Py (Cell K)))} (hs : Spec.SameRows f f')
    (h : standardize E f itemCol dateCol s custom customParse = .ok out) :
    ∃ out', standardize E f' itemCol dateCol s custom customParse = .ok out' ∧ Spec.SameRows out out' := by
  obtain ⟨out', ho⟩ := standardize_returns_subset hs.cols (fun _ => hs.rows.mem_iff.mp) h
  obtain ⟨-, rfl⟩ := standardize_eq h
  obtain ⟨-, rfl⟩ := standardize_eq ho
  exact ⟨_, ho, rfl, hs.rows.map _⟩

variable [Field K] [LinearOrder K]

/-! ### The assignment table -/

theorem cleanAssignment_sameRows {E : Ext K} {a a' out : Frame K} {itemCol treatCol : String} (hs : Spec.SameRows a a')
    (h : cleanAssignment E a itemCol treatCol = .ok out) :
    ∃ out', cleanAssignment E a' itemCol treatCol = .ok out' ∧ Spec.SameRows out out' := by
  unfold cleanAssignment at h ⊢
  simp only at h ⊢
  obtain ⟨h1, h⟩ := raiseIf_bind_ok.mp h
  obtain ⟨h2, h⟩ := raiseIf_bind_ok.mp h
  obtain ⟨h3, h⟩ := raiseIf_bind_ok.mp h
  obtain ⟨rows, hr, h⟩ := Py.bind_eq_ok.mp h
  cases h
  rw [hs.cols]
  obtain ⟨rows', hr', hp⟩ := mapM_perm hr hs.rows
  exact ⟨⟨_, rows'⟩, raiseIf_bind_ok.mpr ⟨h1, raiseIf_bind_ok.mpr ⟨h2, raiseIf_bind_ok.mpr ⟨h3, Py.bind_eq_ok.mpr ⟨rows', hr', rfl⟩⟩⟩⟩,
    rfl, hp⟩

theorem nunique_perm {l l' : List (Cell K)} (h : l'.Perm l) : nunique l' = nunique l :=
  (dropDup_perm (h.filter _)).length_eq

theorem missingItems_perm {E : Ext K} {perf perf' a a' : Frame K} {itemCol : String} (hp : Spec.SameRows perf perf') (ha : Spec.SameRows a a') :
    (missingItems E perf' a' itemCol).Perm (missingItems E perf a itemCol) := by
  refine (List.perm_ext_iff_of_nodup (nodup_dropDup _) (nodup_dropDup _)).mpr fun i => ?_
  have e := mem_missingItems (E := E) (perf := perf') (a := a') (itemCol := itemCol) (i := i)
  have e' := mem_missingItems (E := E) (perf := perf) (a := a) (itemCol := itemCol) (i := i)
  unfold missingItems at e e'
  rw [e, e', (ha.col "item_id").mem_iff]
  simp only [hp.rows.mem_iff]

/-- The row of an item without data on a date. -/
def noDataRow (i d : Cell K) : Row K := fun c => if c = "item_id" then i else if c = "date" then d else .null

/-- The added rows: the items not in the data, on some date of the data. -/
theorem missingRows_eq {E : Ext K} {perf a : Frame K} {itemCol dateCol : String} {missing : List (Row K)}
    (h : missingRows E perf a itemCol dateCol = .ok missing) :
    ∃ d, missing = (missingItems E perf a itemCol).map (fun i => noDataRow i d) ∧
      (missing ≠ [] → ∃ r ∈ perf.rows, (E.toDate (r dateCol)).map Cell.ofTime = .ok d) := by
  obtain ⟨-, -, -, r0, hr0, hF⟩ := missingRows_ok h
  cases e : E.toDate (r0 dateCol) with
  | error x =>
    have : missingItems E perf a itemCol = [] := by
      cases hl : missingItems E perf a itemCol with
      | nil => rfl
      | cons i l =>
        rw [hl] at hF
        cases hF with
        | cons hab _ =>
          obtain ⟨t, et, -⟩ := hab
          rw [e] at et
          cases et
    rw [this] at hF ⊢
    cases hF
    exact ⟨.null, rfl, fun h => absurd rfl h⟩
  | ok t =>
    refine ⟨Cell.ofTime t, ?_, fun _ => ⟨r0, hr0, by rw [e]; rfl⟩⟩
    clear h
    generalize missingItems E perf a itemCol = items at hF
    induction hF with
    | nil => rfl
    | cons hab _ ih =>
      obtain ⟨t', et, rfl⟩ := hab
      rw [e] at et
      cases et
      rw [List.map_cons, ← ih]
      rfl

theorem missingRows_sameRows {E : Ext K} {perf perf' a a' : Frame K} {itemCol dateCol : String} {missing : List (Row K)}
    (hp : Spec.SameRows perf perf') (ha : Spec.SameRows a a') (hd : ∀ r ∈ perf.rows, ∃ t, E.toDate (r dateCol) = .ok t)
    (h : missingRows E perf a itemCol dateCol = .ok missing) :
    ∃ missing', missingRows E perf' a' itemCol dateCol = .ok missing' := by
  unfold missingRows at h ⊢
  obtain ⟨h1, h⟩ := raiseIf_bind_ok.mp h
  obtain ⟨h2, h⟩ := raiseIf_bind_ok.mp h
  obtain ⟨h3, h⟩ := raiseIf_bind_ok.mp h
  have hne : perf.rows ≠ [] := by
    intro e
    rw [e] at h
    cases h
  cases hr : perf'.rows with
  | nil =>
    have := hp.rows
    rw [hr] at this
    exact absurd this.symm.eq_nil hne
  | cons r0 l =>
    obtain ⟨t, ht⟩ := hd r0 (hp.rows.mem_iff.mp (by simp [hr]))
    obtain ⟨out, ho⟩ := Py.mapM_returns (f := fun i => (do
      let t ← E.toDate (r0 dateCol)
      pure (fun c => if c = "item_id" then i else if c = "date" then Cell.ofTime t else .null) : Py (Row K)))
      (l := missingItems E perf' a' itemCol) (fun i _ => ⟨_, Py.bind_eq_ok.mpr ⟨t, ht, rfl⟩⟩)
    refine ⟨out, ?_⟩
    refine raiseIf_bind_ok.mpr ⟨by rwa [hp.cols], raiseIf_bind_ok.mpr ⟨?_, raiseIf_bind_ok.mpr ⟨by rwa [hp.cols], ?_⟩⟩⟩
    · rwa [nunique_perm (ha.col "item_id")]
    · exact ho

/-! ### Filling in missing rows -/

theorem zeroCell_perm {l l' : List (Cell K)} (h : l'.Perm l) : zeroCell l' = zeroCell l := by
  unfold zeroCell
  simp only [h.all_eq, h.any_eq]

theorem fillRow_perm {f f' : Frame K} {itemCol dateCol : String} (h : ∀ c, c ≠ itemCol → c ≠ dateCol → (f'.col c).Perm (f.col c)) :
    fillRow f' itemCol dateCol = fillRow f itemCol dateCol := by
  funext r c
  unfold fillRow
  by_cases hc : c = itemCol ∨ c = dateCol
  · rw [if_pos hc, if_pos hc]
  · rw [if_neg hc, if_neg hc]
    push Not at hc
    rw [zeroCell_perm (h c hc.1 hc.2)]

theorem mergeRows_perm {f f' : Frame K} {itemCol dateCol : String} (h : f'.rows.Perm f.rows) (i d : Cell K) :
    (mergeRows f' itemCol dateCol i d).Perm (mergeRows f itemCol dateCol i d) := by
  unfold mergeRows
  simp only
  have hp := h.filter (fun r => decide (r itemCol = i ∧ r dateCol = d))
  have he : (f'.rows.filter (fun r => decide (r itemCol = i ∧ r dateCol = d))).isEmpty =
      (f.rows.filter (fun r => decide (r itemCol = i ∧ r dateCol = d))).isEmpty := by
    rw [Bool.eq_iff_iff, List.isEmpty_iff, List.isEmpty_iff, ← List.length_eq_zero_iff, ← List.length_eq_zero_iff, hp.length_eq]
  rw [he]
  split_ifs
  · exact List.Perm.refl _
  · exact hp

/-- Filling in depends on the items, the dates, the rows of each item and date, and the columns' values. -/
theorem fillMissing_congr {f f' out : Frame K} {itemCol dateCol : String} (hc : f'.cols = f.cols)
    (hi : ∀ x, x ∈ f'.col itemCol ↔ x ∈ f.col itemCol) (hd : ∀ x, x ∈ f'.col dateCol ↔ x ∈ f.col dateCol)
    (hm : ∀ i d, (mergeRows f' itemCol dateCol i d).Perm (mergeRows f itemCol dateCol i d))
    (hz : ∀ c, c ≠ itemCol → c ≠ dateCol → (f'.col c).Perm (f.col c))
    (h : fillMissing f itemCol dateCol = .ok out) :
    ∃ out', fillMissing f' itemCol dateCol = .ok out' ∧ Spec.SameRows out out' := by
  unfold fillMissing at h ⊢
  obtain ⟨h1, h⟩ := raiseIf_bind_ok.mp h
  obtain ⟨h2, h⟩ := raiseIf_bind_ok.mp h
  cases h
  refine ⟨_, raiseIf_bind_ok.mpr ⟨by rwa [hc], raiseIf_bind_ok.mpr ⟨h2, rfl⟩⟩, by simp only [hc], ?_⟩
  have dd : ∀ {l l' : List (Cell K)}, (∀ x, x ∈ l' ↔ x ∈ l) → (dropDup l').Perm (dropDup l) := by
    intro l l' hl
    refine (List.perm_ext_iff_of_nodup (nodup_dropDup _) (nodup_dropDup _)).mpr fun i => ?_
    rw [mem_dropDup, mem_dropDup, hl]
  refine List.Perm.flatMap (dd hi) ?_
  intro i _
  refine List.Perm.flatMap (dd hd) ?_
  intro d _
  rw [fillRow_perm hz]
  exact (hm i d).map _

theorem fillMissing_sameRows {f f' out : Frame K} {itemCol dateCol : String} (hs : Spec.SameRows f f')
    (h : fillMissing f itemCol dateCol = .ok out) :
    ∃ out', fillMissing f' itemCol dateCol = .ok out' ∧ Spec.SameRows out out' :=
  fillMissing_congr hs.cols (fun _ => (hs.col _).mem_iff) (fun _ => (hs.col _).mem_iff) (mergeRows_perm hs.rows) (fun c _ _ => hs.col c) h

/-- Merging in the items without data does not change the rows an item has on a date, after missing ones are filled in. -/
theorem mergeRows_blank {f : Frame K} {items : List (Cell K)} {d0 : Cell K} (hnd : items.Nodup)
    (hnew : ∀ i ∈ items, i ∉ f.col "item_id") (i d : Cell K) :
    (mergeRows (mergeMissing f (items.map (fun i => noDataRow i d0))) "item_id" "date" i d).Perm (mergeRows f "item_id" "date" i d) := by
  refine (mergeRows_perm (f := ⟨f.cols, f.rows ++ items.map (fun i => noDataRow i d0)⟩) (mergeMissing_perm f _) i d).trans ?_
  unfold mergeRows
  simp only [List.filter_append]
  by_cases hi : i ∈ items
  · have h1 : f.rows.filter (fun r => decide (r "item_id" = i ∧ r "date" = d)) = [] := by
      rw [List.filter_eq_nil_iff]
      intro r hr h
      simp only [decide_eq_true_eq] at h
      exact hnew i hi (List.mem_map.mpr ⟨r, hr, h.1⟩)
    rw [h1, List.nil_append]
    simp only [List.isEmpty_nil, if_true]
    by_cases hd : d = d0
    · have h2 : (items.map (fun i => noDataRow i d0)).filter (fun r => decide (r "item_id" = i ∧ r "date" = d)) = [noDataRow i d0] := by
        rw [List.filter_map]
        have : items.filter ((fun r : Row K => decide (r "item_id" = i ∧ r "date" = d)) ∘ fun i => noDataRow i d0) = items.filter (· == i) := by
          refine List.filter_congr fun j _ => ?_
          simp only [Function.comp, noDataRow, if_true]
          rw [if_neg (by decide)]
          simp [hd]
          rfl
        rw [this, List.filter_beq, List.count_eq_one_of_mem hnd hi]
        rfl
      rw [h2, hd]
      exact List.Perm.refl _
    · have h2 : (items.map (fun i => noDataRow i d0)).filter (fun r => decide (r "item_id" = i ∧ r "date" = d)) = [] := by
        rw [List.filter_eq_nil_iff]
        intro r hr h
        obtain ⟨j, -, rfl⟩ := List.mem_map.mp hr
        simp only [decide_eq_true_eq, noDataRow] at h
        exact hd (by simpa using h.2.symm)
      rw [h2]
      exact List.Perm.refl _
  · have h2 : (items.map (fun i => noDataRow i d0)).filter (fun r => decide (r "item_id" = i ∧ r "date" = d)) = [] := by
      rw [List.filter_eq_nil_iff]
      intro r hr h
      obtain ⟨j, hj, rfl⟩ := List.mem_map.mp hr
      simp only [decide_eq_true_eq, noDataRow] at h
      exact hi (by rw [← h.1]; simpa using hj)
    rw [h2, List.append_nil]

/-! ### Weeks -/

theorem addWeeks_sameRows {E : Ext K} {f f' out : Frame K} {dateCol : String} {startDate : Option String} {weekCol startCol : String}
    (hs : Spec.SameRows f f') (h : addWeeks E f dateCol startDate weekCol startCol = .ok out) :
    ∃ out', addWeeks E f' dateCol startDate weekCol startCol = .ok out' ∧ Spec.SameRows out out' := by
  unfold addWeeks at h ⊢
  obtain ⟨h1, h⟩ := raiseIf_bind_ok.mp h
  obtain ⟨h2, h⟩ := raiseIf_bind_ok.mp h
  obtain ⟨start, h3, h⟩ := Py.bind_eq_ok.mp h
  obtain ⟨h4, h⟩ := raiseIf_bind_ok.mp h
  cases h
  refine ⟨_, raiseIf_bind_ok.mpr ⟨by rwa [hs.cols], raiseIf_bind_ok.mpr ⟨?_, Py.bind_eq_ok.mpr ⟨start, ?_, raiseIf_bind_ok.mpr ⟨?_, rfl⟩⟩⟩⟩, ?_⟩
  · unfold isTimeColumn at h2 ⊢
    rwa [(hs.col dateCol).all_eq]
  · cases startDate with
    | none => rw [← h3]; unfold weekOrigin; simp only; rw [minTime_perm (hs.col dateCol)]
    | some s => rw [← h3]; rfl
  · rwa [hs.rows.any_eq]
  · exact (hs.setCol _ _).setCol _ _

theorem spacedBy_perm (n : ℤ) {l l' : List (Cell K)} (h : l'.Perm l) : spacedBy n l' = spacedBy n l := by
  unfold spacedBy
  simp only
  have ht : (times l').Perm (times l) := h.filterMap _
  have he : (dropDup (times l')).insertionSort (· ≤ ·) = (dropDup (times l)).insertionSort (· ≤ ·) := by
    refine List.Perm.eq_of_pairwise' (List.pairwise_insertionSort (· ≤ ·) _) (List.pairwise_insertionSort (· ≤ ·) _) ?_
    exact ((List.perm_insertionSort _ _).trans (dropDup_perm ht)).trans (List.perm_insertionSort _ _).symm
  rw [he, h.all_eq]

theorem sumCell_perm {rows rows' : List (Row K)} (h : rows'.Perm rows) (c : String) : sumCell rows' c = sumCell rows c := by
  unfold sumCell
  rw [h.all_eq, (h.map _).sum_eq, sumCol_perm h]

theorem groupRows_perm {rows rows' : List (Row K)} (h : rows'.Perm rows) (keys : List String) (k : List (Cell K)) :
    (groupRows rows' keys k).Perm (groupRows rows keys k) := h.filter _

theorem groupWeeks_sameRows {f f' out : Frame K} {dateCol itemCol weekCol startCol : String} {extra : List String} (hs : Spec.SameRows f f')
    (h : groupWeeks f dateCol itemCol weekCol startCol extra = .ok out) :
    ∃ out', groupWeeks f' dateCol itemCol weekCol startCol extra = .ok out' ∧ Spec.SameRows out out' ∧
      (spacedBy 1 (f.col dateCol) = true → out' = out) := by
  unfold groupWeeks at h ⊢
  obtain ⟨h1, h⟩ := raiseIf_bind_ok.mp h
  obtain ⟨h2, h⟩ := raiseIf_bind_ok.mp h
  have ht : isTimeColumn (f'.col dateCol) = isTimeColumn (f.col dateCol) := (hs.col dateCol).all_eq
  rw [hs.cols, ht, spacedBy_perm 1 (hs.col dateCol), spacedBy_perm 7 (hs.col dateCol)]
  split_ifs at h ⊢ with c1 c2
  · obtain ⟨h3, h⟩ := raiseIf_bind_ok.mp h
    obtain ⟨h4, h⟩ := raiseIf_bind_ok.mp h
    obtain ⟨h5, h⟩ := raiseIf_bind_ok.mp h
    cases h
    have hr : weekRow f'.rows (weekCol :: startCol :: itemCol :: extra) = weekRow f.rows (weekCol :: startCol :: itemCol :: extra) := by
      funext k c
      unfold weekRow
      split
      · rfl
      · exact sumCell_perm (groupRows_perm hs.rows _ _) c
    have hn : ∀ k, nunique ((groupRows f'.rows (weekCol :: startCol :: itemCol :: extra) k).map (fun r => r dateCol)) =
        nunique ((groupRows f.rows (weekCol :: startCol :: itemCol :: extra) k).map (fun r => r dateCol)) :=
      fun k => nunique_perm ((groupRows_perm hs.rows _ _).map _)
    refine ⟨_, raiseIf_bind_ok.mpr ⟨h1, raiseIf_bind_ok.mpr ⟨h2, raiseIf_bind_ok.mpr ⟨h3, raiseIf_bind_ok.mpr ⟨h4, raiseIf_bind_ok.mpr
      ⟨by rwa [hs.rows.any_eq], ?_⟩⟩⟩⟩⟩, Spec.SameRows.refl _, fun _ => rfl⟩
    rw [hr, groupKeys_perm hs.rows]
    simp only [hn]
    rfl
  · cases h
    exact ⟨_, raiseIf_bind_ok.mpr ⟨h1, raiseIf_bind_ok.mpr ⟨h2, rfl⟩⟩, hs.dropCol _, fun h => absurd h c1⟩

/-! ### Time periods, at-least-one metrics, assignment -/

theorem addTimePeriodColumn_sameRows {d : DesignParams K} {start : ℤ} {weekCol periodCol : String} {f f' out : Frame K}
    (hs : Spec.SameRows f f') (h : addTimePeriodColumn d start weekCol periodCol f = .ok out) :
    ∃ out', addTimePeriodColumn d start weekCol periodCol f' = .ok out' ∧ Spec.SameRows out out' := by
  unfold addTimePeriodColumn labelRows at h ⊢
  obtain ⟨h1, h⟩ := raiseIf_bind_ok.mp h
  obtain ⟨h2, h⟩ := raiseIf_bind_ok.mp h
  obtain ⟨h3, h⟩ := raiseIf_bind_ok.mp h
  obtain ⟨h4, h⟩ := raiseIf_bind_ok.mp h
  cases h
  refine ⟨_, raiseIf_bind_ok.mpr ⟨by rwa [hs.cols], raiseIf_bind_ok.mpr ⟨by rwa [hs.cols], raiseIf_bind_ok.mpr ⟨h3, raiseIf_bind_ok.mpr
    ⟨by rwa [hs.rows.any_eq], rfl⟩⟩⟩⟩, hs.setCol _ _⟩

theorem addAtLeastOne_sameRows {pairs : List (String × String)} {f f' out : Frame K} (hs : Spec.SameRows f f')
    (h : addAtLeastOne pairs f = .ok out) : ∃ out', addAtLeastOne pairs f' = .ok out' ∧ Spec.SameRows out out' := by
  induction pairs generalizing f f' with
  | nil =>
    cases h
    exact ⟨f', rfl, hs⟩
  | cons p pairs ih =>
    obtain ⟨m, new⟩ := p
    unfold addAtLeastOne at h ⊢
    obtain ⟨h1, h⟩ := raiseIf_bind_ok.mp h
    obtain ⟨h2, h⟩ := raiseIf_bind_ok.mp h
    obtain ⟨out', ho, hso⟩ := ih (hs.setCol new _) h
    exact ⟨out', raiseIf_bind_ok.mpr ⟨by rwa [hs.cols], raiseIf_bind_ok.mpr ⟨by rwa [hs.rows.any_eq], ho⟩⟩, hso⟩

theorem mergeAssignment_sameRows {f f' a a' out : Frame K} (hs : Spec.SameRows f f') (ha : Spec.SameRows a a')
    (h : mergeAssignment f a = .ok out) : ∃ out', mergeAssignment f' a' = .ok out' ∧ Spec.SameRows out out' := by
  unfold mergeAssignment at h ⊢
  obtain ⟨h1, h⟩ := raiseIf_bind_ok.mp h
  cases h
  refine ⟨_, raiseIf_bind_ok.mpr ⟨by rwa [hs.cols, ha.cols], rfl⟩, by simp only [hs.cols, ha.cols], ?_⟩
  simp only
  rw [hs.cols]
  exact List.Perm.flatMap hs.rows fun r _ => (ha.rows.filter _).map _

end Feedx
