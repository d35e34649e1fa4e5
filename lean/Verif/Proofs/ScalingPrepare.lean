import Verif.Model.Pipeline
import Verif.Spec.SessionUnits
import Verif.Proofs.ScalingWide

/-!
Lemmas for C130: the preparation of historical data, with the metric in other units.
-/

set_option linter.unusedSectionVars false
set_option maxHeartbeats 1000000

namespace Feedx

open Fl

/-- The relation between rows whose cell of the metric is a float. -/
def RowUnits (c : ℝ) (m : String) (r r' : Row ℝ) : Prop :=
  (∀ x, x ≠ m → r' x = r x) ∧ ∃ v : Fl ℝ, r m = Cell.ofFl v ∧ r' m = Cell.ofFl (fin c * v)

/-- The relation between tables. -/
structure FrameUnits (c : ℝ) (m : String) (f f' : Frame ℝ) : Prop where
  cols : f'.cols = f.cols
  rows : List.Forall₂ (RowUnits c m) f.rows f'.rows

section units
variable {c : ℝ} {m : String}

theorem ofFl_reads (v : Fl ℝ) : (Cell.ofFl v).toFl = v := by cases v <;> rfl

theorem ofFl_numeric (v : Fl ℝ) : (Cell.ofFl v).isNumeric = true := by cases v <;> rfl

theorem ofFl_null (v : Fl ℝ) : (Cell.ofFl v).isNull = v.isNan := by cases v <;> rfl

theorem RowUnits.times {r r' : Row ℝ} (h : RowUnits c m r r') : RowTimes c m r r' := by
  obtain ⟨h1, v, e, e'⟩ := h
  exact ⟨h1, by rw [e, e', ofFl_reads, ofFl_reads]⟩

theorem FrameUnits.times {f f' : Frame ℝ} (h : FrameUnits c m f f') : Spec.ColumnTimes c m f f' :=
  ⟨h.cols, h.rows.imp fun _ _ hr => hr.times⟩

theorem FrameUnits.col {f f' : Frame ℝ} (h : FrameUnits c m f f') {x : String} (hx : x ≠ m) : f'.col x = f.col x :=
  rel_map_eq h.rows _ _ fun _ _ hr => hr.1 x hx

theorem RowUnits.null (hc : 0 < c) {r r' : Row ℝ} (h : RowUnits c m r r') (x : String) : (r' x).isNull = (r x).isNull := by
  by_cases hx : x = m
  · subst hx
    obtain ⟨-, v, e, e'⟩ := h
    rw [e, e', ofFl_null, ofFl_null, isNan_scale hc]
  · rw [h.1 x hx]

theorem RowUnits.numeric {r r' : Row ℝ} (h : RowUnits c m r r') (x : String) : (r' x).isNumeric = (r x).isNumeric := by
  by_cases hx : x = m
  · subst hx
    obtain ⟨-, v, e, e'⟩ := h
    rw [e, e', ofFl_numeric, ofFl_numeric]
  · rw [h.1 x hx]

theorem rel_flatMap {ι α β : Type} {P : α → β → Prop} (l : List ι) (g : ι → List α) (g' : ι → List β) (hg : ∀ x ∈ l, List.Forall₂ P (g x) (g' x)) :
    List.Forall₂ P (l.flatMap g) (l.flatMap g') := by
  induction l with
  | nil => exact List.Forall₂.nil
  | cons x l ih =>
    rw [List.flatMap_cons, List.flatMap_cons]
    exact List.rel_append (hg x List.mem_cons_self) (ih fun y hy => hg y (List.mem_cons_of_mem _ hy))

theorem rel_mapM {α α' β β' : Type} {P : α → α' → Prop} {Q : β → β' → Prop} {l : List α} {l' : List α'} (h : List.Forall₂ P l l') (g : α → Py β)
    (g' : α' → Py β') (hg : ∀ a a', P a a' → Spec.SameOutcome Q (g a) (g' a')) : Spec.SameOutcome (List.Forall₂ Q) (l.mapM g) (l'.mapM g') := by
  induction h with
  | nil => exact List.Forall₂.nil
  | cons hr _ ih =>
    rw [List.mapM_cons, List.mapM_cons]
    exact (hg _ _ hr).bind fun x x' hx => ih.bind fun y y' hy => List.Forall₂.cons hx hy

/-! ### Standardising -/

theorem columnNames_units {primary : String} (h : primary ∈ allowedPrimaryMetrics) (i d col : String) :
    columnNames i d (stdColsOf primary col) (if primary = "other" then [(col, col)] else []) =
      [("item_id", i), ("date", d), (if primary = "other" then col else primary, col)] := by
  simp only [allowedPrimaryMetrics, List.mem_cons, List.not_mem_nil, or_false] at h
  rcases h with rfl | rfl | rfl | rfl | rfl | rfl <;> rfl

theorem parse_primary {primary : String} (E : Ext ℝ) (h : primary ∈ allowedPrimaryMetrics) (col : String) (x : Cell ℝ) :
    parseCell E (if primary = "other" then [(col, floatParse E)] else []) (if primary = "other" then col else primary) x =
      (Spec.readMetric E primary x).map Cell.ofFl := by
  simp only [allowedPrimaryMetrics, List.mem_cons, List.not_mem_nil, or_false] at h
  rcases h with rfl | rfl | rfl | rfl | rfl | rfl <;> simp [parseCell, Spec.readMetric, floatParse, standardNames]

theorem standardize_units (E : Ext ℝ) {primary col : String} (hp : primary ∈ allowedPrimaryMetrics) {raw raw' : Frame ℝ}
    (h : Spec.RawUnits E primary col c raw raw') (i d : String) :
    Spec.SameOutcome (FrameUnits c (if primary = "other" then col else primary))
      (standardize E raw i d (stdColsOf primary col) (if primary = "other" then [(col, col)] else [])
        (if primary = "other" then [(col, floatParse E)] else []))
      (standardize E raw' i d (stdColsOf primary col) (if primary = "other" then [(col, col)] else [])
        (if primary = "other" then [(col, floatParse E)] else [])) := by
  obtain ⟨hcols, hrows⟩ := h
  unfold standardize
  rw [hcols, columnNames_units hp]
  by_cases h1 : (if primary = "other" then [(col, col)] else []).any (fun p => decide (p.1 ∈ standardNames)) = true
  · simp only [raiseIf, if_pos h1]; rfl
  have hname : (if primary = "other" then col else primary) ≠ "item_id" ∧ (if primary = "other" then col else primary) ≠ "date" := by
    by_cases ho : primary = "other"
    · simp only [if_pos ho] at h1 ⊢
      simp only [List.any_cons, List.any_nil, Bool.or_false, decide_eq_true_eq] at h1
      exact ⟨fun e => h1 (by rw [e]; decide), fun e => h1 (by rw [e]; decide)⟩
    · simp only [if_neg ho]
      constructor <;>
      · rintro rfl
        exact absurd hp (by decide)
  generalize hN : (if primary = "other" then col else primary) = name at *
  refine (Spec.SameOutcome.raiseIf Iff.rfl).bind fun _ _ _ => (Spec.SameOutcome.raiseIf Iff.rfl).bind fun _ _ _ =>
    (Spec.SameOutcome.raiseIf Iff.rfl).bind fun _ _ _ => ?_
  by_cases hnd : ([("item_id", i), ("date", d), (name, col)].map Prod.snd).Nodup
  swap
  · simp only [raiseIf, if_pos hnd]; rfl
  refine (Spec.SameOutcome.raiseIf Iff.rfl).bind fun _ _ _ => ?_
  have hi : i ≠ col ∧ d ≠ col := by
    simp only [List.map_cons, List.map_nil, List.nodup_cons, List.mem_cons, List.not_mem_nil, or_false, not_or] at hnd
    exact ⟨hnd.1.2, hnd.2.1⟩
  have ei : raw'.col i = raw.col i := rel_map_eq hrows _ _ fun r r' e => e.1 i hi.1
  have ed : raw'.col d = raw.col d := rel_map_eq hrows _ _ fun r r' e => e.1 d hi.2
  have hval : Spec.SameOutcome (List.Forall₂ fun a a' : Cell ℝ => ∃ v : Fl ℝ, a = Cell.ofFl v ∧ a' = Cell.ofFl (fin c * v))
      ((raw.col col).mapM (parseCell E (if primary = "other" then [(col, floatParse E)] else []) name))
      ((raw'.col col).mapM (parseCell E (if primary = "other" then [(col, floatParse E)] else []) name)) := by
    refine rel_mapM (P := fun a a' => Spec.SameOutcome (fun v v' => v' = fin c * v) (Spec.readMetric E primary a) (Spec.readMetric E primary a')) ?_ _ _ ?_
    · show List.Forall₂ _ (raw.rows.map _) (raw'.rows.map _)
      rw [List.forall₂_map_left_iff, List.forall₂_map_right_iff]
      exact hrows.imp fun _ _ e => e.2
    · intro a a' haa
      rw [← hN, parse_primary E hp, parse_primary E hp]
      revert haa
      cases Spec.readMetric E primary a <;> cases Spec.readMetric E primary a'
      · exact id
      · exact id
      · exact id
      · rintro e
        exact ⟨_, rfl, congrArg Cell.ofFl e⟩
  have hlen : raw'.rows.length = raw.rows.length := hrows.length_eq.symm
  simp only [List.mapM_cons, List.mapM_nil, ei, ed, hlen]
  generalize hp1 : (raw.col i).mapM (parseCell E (if primary = "other" then [(col, floatParse E)] else []) "item_id") = A
  generalize hp2 : (raw.col d).mapM (parseCell E (if primary = "other" then [(col, floatParse E)] else []) "date") = B
  revert hval
  generalize (raw.col col).mapM (parseCell E (if primary = "other" then [(col, floatParse E)] else []) name) = V
  generalize (raw'.col col).mapM (parseCell E (if primary = "other" then [(col, floatParse E)] else []) name) = V'
  intro hval
  cases A with
  | error e => rfl
  | ok A =>
    cases B with
    | error e => rfl
    | ok B =>
      cases V with
      | error e =>
        cases V' with
        | error e' => exact hval
        | ok _ => exact hval.elim
      | ok V =>
        cases V' with
        | error e' => exact hval.elim
        | ok V' =>
          refine ⟨rfl, ?_⟩
          show List.Forall₂ _ ((List.range raw.rows.length).map _) ((List.range raw.rows.length).map _)
          rw [List.forall₂_map_left_iff, List.forall₂_map_right_iff, List.forall₂_same]
          intro k _
          have n1 : (name == "item_id") = false := by simpa using hname.1
          have n2 : (name == "date") = false := by simpa using hname.2
          refine ⟨fun x hx => ?_, ?_⟩
          · have n3 : (x == name) = false := by simpa using hx
            simp only [List.lookup_cons, n3, List.lookup_nil]
          · have n3 : (name == name) = true := by simp
            simp only [List.lookup_cons, n1, n2, n3]
            have := rel_getElem hval k
            simp only [Option.bind_some]
            cases hx : V[k]? <;> cases hx' : V'[k]? <;> rw [hx, hx'] at this
            · exact ⟨.nan, rfl, rfl⟩
            · cases this
            · cases this
            · cases this with | some hr => exact hr

/-! ### Missing rows -/

theorem zeroCell_floats {l : List (Cell ℝ)} (hne : l ≠ []) (h : ∀ x ∈ l, ∃ v : Fl ℝ, x = Cell.ofFl v) : zeroCell l = .num 0 := by
  unfold zeroCell
  obtain ⟨x, hx⟩ := List.exists_mem_of_ne_nil l hne
  rw [if_neg, if_neg, if_neg]
  · intro e
    obtain ⟨y, hy, e⟩ := List.any_eq_true.mp e
    obtain ⟨v, rfl⟩ := h y hy
    cases v <;> cases e
  · intro e
    obtain ⟨y, hy, e⟩ := List.any_eq_true.mp e
    obtain ⟨v, rfl⟩ := h y hy
    cases v <;> cases e
  · intro e
    have := List.all_eq_true.mp e x hx
    obtain ⟨v, rfl⟩ := h x hx
    cases v <;> cases this

theorem FrameUnits.floats {f f' : Frame ℝ} (h : FrameUnits c m f f') : (∀ x ∈ f.col m, ∃ v : Fl ℝ, x = Cell.ofFl v) ∧ ∀ x ∈ f'.col m, ∃ v : Fl ℝ, x = Cell.ofFl v := by
  have key : ∀ l l' : List (Row ℝ), List.Forall₂ (RowUnits c m) l l' →
      (∀ x ∈ l.map (fun r => r m), ∃ v : Fl ℝ, x = Cell.ofFl v) ∧ ∀ x ∈ l'.map (fun r => r m), ∃ v : Fl ℝ, x = Cell.ofFl v := by
    intro l l' h
    induction h with
    | nil => exact ⟨by simp, by simp⟩
    | cons hr _ ih =>
      obtain ⟨-, v, e, e'⟩ := hr
      simp only [List.map_cons, List.mem_cons]
      exact ⟨fun x hx => hx.elim (fun h => ⟨v, h.trans e⟩) (ih.1 x), fun x hx => hx.elim (fun h => ⟨_, h.trans e'⟩) (ih.2 x)⟩
  exact key _ _ h.rows

theorem fillRow_units (hc : 0 < c) {f f' : Frame ℝ} (h : FrameUnits c m f f') (hne : f.rows ≠ []) {i d : String} (hi : i ≠ m) (hd : d ≠ m) {r r' : Row ℝ}
    (hr : RowUnits c m r r') : RowUnits c m (fillRow f i d r) (fillRow f' i d r') := by
  have hne' : f'.rows ≠ [] := by
    intro e
    have := h.rows.length_eq
    rw [e] at this
    exact hne (List.eq_nil_of_length_eq_zero this)
  refine ⟨fun x hx => ?_, ?_⟩
  · unfold fillRow
    rw [hr.1 x hx, h.col hx]
  · obtain ⟨-, v, e, e'⟩ := hr
    unfold fillRow
    have hn : ¬ (m = i ∨ m = d) := fun e => e.elim (fun e => hi e.symm) (fun e => hd e.symm)
    rw [if_neg hn, if_neg hn, e, e', ofFl_null, ofFl_null, isNan_scale hc,
      zeroCell_floats (l := f.col m) (by simpa [Frame.col] using hne) h.floats.1, zeroCell_floats (l := f'.col m) (by simpa [Frame.col] using hne') h.floats.2]
    by_cases hv : v.isNan = true
    · rw [if_pos hv, if_pos hv]
      exact ⟨fin 0, rfl, by rw [fin_mul, mul_zero]; rfl⟩
    · rw [if_neg hv, if_neg hv]
      exact ⟨v, rfl, rfl⟩

theorem fillMissing_units (hc : 0 < c) {f f' : Frame ℝ} (h : FrameUnits c m f f') {i d : String} (hi : i ≠ m) (hd : d ≠ m) :
    Spec.SameOutcome (FrameUnits c m) (fillMissing f i d) (fillMissing f' i d) := by
  unfold fillMissing
  rw [h.cols]
  refine (Spec.SameOutcome.raiseIf Iff.rfl).bind fun _ _ _ => (Spec.SameOutcome.raiseIf Iff.rfl).bind fun _ _ _ => ?_
  refine ⟨rfl, ?_⟩
  show List.Forall₂ _ ((dropDup (f.col i)).flatMap _) ((dropDup (f'.col i)).flatMap _)
  rw [h.col hi, h.col hd]
  refine rel_flatMap _ _ _ fun a ha => rel_flatMap _ _ _ fun b hb => ?_
  have hne : f.rows ≠ [] := by
    intro e
    rw [Frame.col, e] at ha
    simp [dropDup] at ha
  rw [List.forall₂_map_left_iff, List.forall₂_map_right_iff]
  have hm : List.Forall₂ (RowUnits c m) (mergeRows f i d a b) (mergeRows f' i d a b) := by
    unfold mergeRows
    have hf := rel_filter h.rows (fun r => decide (r i = a ∧ r d = b)) (fun r => decide (r i = a ∧ r d = b)) fun r r' e => by rw [e.1 i hi, e.1 d hd]
    simp only
    revert hf
    generalize f.rows.filter (fun r => decide (r i = a ∧ r d = b)) = l
    generalize f'.rows.filter (fun r => decide (r i = a ∧ r d = b)) = l'
    intro hf
    cases hf with
    | nil =>
      refine List.Forall₂.cons ⟨fun _ _ => rfl, .nan, ?_, ?_⟩ List.Forall₂.nil
      · simp only [hi.symm, hd.symm, if_false]; rfl
      · simp only [hi.symm, hd.symm, if_false]; rfl
    | cons h1 h2 => exact List.Forall₂.cons h1 h2
  exact hm.imp fun r r' hr => fillRow_units hc h hne hi hd hr

/-! ### Weeks -/

theorem setCol_units {f f' : Frame ℝ} (h : FrameUnits c m f f') {x : String} (hx : x ≠ m) (g : Row ℝ → Cell ℝ) (hg : ∀ r r', RowUnits c m r r' → g r' = g r) :
    FrameUnits c m (f.setCol x g) (f'.setCol x g) := by
  refine ⟨?_, ?_⟩
  · show (if x ∈ f'.cols then f'.cols else f'.cols ++ [x]) = if x ∈ f.cols then f.cols else f.cols ++ [x]
    rw [h.cols]
  · show List.Forall₂ _ (f.rows.map _) (f'.rows.map _)
    rw [List.forall₂_map_left_iff, List.forall₂_map_right_iff]
    refine h.rows.imp fun r r' hr => ⟨fun y hy => ?_, ?_⟩
    · by_cases hxy : y = x
      · subst hxy
        rw [Function.update_self, Function.update_self, hg _ _ hr]
      · rw [Function.update_of_ne hxy, Function.update_of_ne hxy, hr.1 y hy]
    · rw [Function.update_of_ne hx.symm, Function.update_of_ne hx.symm]
      exact hr.2

theorem addWeeks_units (E : Ext ℝ) {f f' : Frame ℝ} (h : FrameUnits c m f f') {d w s : String} (o : Option String) (hd : d ≠ m) (hw : w ≠ m)
    (hs : s ≠ m) : Spec.SameOutcome (FrameUnits c m) (addWeeks E f d o w s) (addWeeks E f' d o w s) := by
  have ho : weekOrigin E f' d o = weekOrigin E f d o := by
    cases o with
    | none => show Except.ok (minTime (f'.col d)) = _; rw [h.col hd]; rfl
    | some t => rfl
  unfold addWeeks
  rw [h.cols, h.col hd, ho, rel_any h.rows (fun r => (r d).isNull) (fun r => (r d).isNull) fun r r' e => by rw [e.1 d hd]]
  refine (Spec.SameOutcome.raiseIf Iff.rfl).bind fun _ _ _ => (Spec.SameOutcome.raiseIf Iff.rfl).bind fun _ _ _ => ?_
  refine (Spec.SameOutcome.refl (P := fun a b => b = a) (fun _ => rfl) _).bind fun _ t e => ?_
  subst e
  refine (Spec.SameOutcome.raiseIf Iff.rfl).bind fun _ _ _ => ?_
  show FrameUnits c m (withWeeks f d w s _) (withWeeks f' d w s _)
  unfold withWeeks
  exact setCol_units (setCol_units h hw _ fun r r' e => by rw [e.1 d hd]) hs _ fun r r' e => by rw [e.1 w hw]

theorem sumCell_units (hc : 0 < c) {l l' : List (Row ℝ)} (h : List.Forall₂ (RowUnits c m) l l') (hne : l ≠ []) :
    sumCell l m = Cell.ofFl (sumCol l m) ∧ sumCell l' m = Cell.ofFl (fin c * sumCol l m) := by
  have hs := sumCol_scale hc (h.imp fun _ _ e => e.times) m
  rw [unitOf, if_pos rfl] at hs
  cases h with
  | nil => exact absurd rfl hne
  | @cons r r' l l' hr ht =>
    obtain ⟨-, v, e, e'⟩ := hr
    unfold sumCell
    rw [if_neg, if_neg, hs]
    · exact ⟨rfl, rfl⟩
    · rw [List.all_cons, e']
      generalize fin c * v = u
      cases u <;> simp [Cell.ofFl]
    · rw [List.all_cons, e]
      cases v <;> simp [Cell.ofFl]

theorem rel_all {α β : Type} {P : α → β → Prop} {l : List α} {l' : List β} (h : List.Forall₂ P l l') (p : α → Bool) (q : β → Bool)
    (hpq : ∀ a b, P a b → q b = p a) : l'.all q = l.all p := by
  induction h with
  | nil => rfl
  | cons hr _ ih => rw [List.all_cons, List.all_cons, hpq _ _ hr, ih]

theorem sumCell_same {P : Row ℝ → Row ℝ → Prop} {l l' : List (Row ℝ)} (h : List.Forall₂ P l l') {x : String} (hx : ∀ r r', P r r' → r' x = r x) :
    sumCell l' x = sumCell l x := by
  unfold sumCell sumCol
  refine if_congr (iff_of_eq (congrArg (· = true) (rel_all h _ _ fun r r' e => by rw [hx r r' e]))) ?_ ?_
  · exact congrArg (fun l : List ℤ => Cell.int l.sum) (rel_map_eq h _ _ fun r r' e => by rw [hx r r' e])
  · exact congrArg (fun l => Cell.ofFl (Fl.sumSkip l)) (rel_map_eq h _ _ fun r r' e => by rw [hx r r' e])

theorem groupWeeks_units (hc : 0 < c) {f f' : Frame ℝ} (h : FrameUnits c m f f') {d i w s : String} (hd : d ≠ m) (hi : i ≠ m) (hw : w ≠ m) (hs : s ≠ m) :
    Spec.SameOutcome (FrameUnits c m) (groupWeeks f d i w s []) (groupWeeks f' d i w s []) := by
  unfold groupWeeks
  rw [h.cols, h.col hd]
  refine (Spec.SameOutcome.raiseIf Iff.rfl).bind fun _ _ _ => (Spec.SameOutcome.raiseIf Iff.rfl).bind fun _ _ _ => ?_
  by_cases h1 : spacedBy 1 (f.col d) = true
  · simp only [if_pos h1]
    have hk : ∀ r r', RowUnits c m r r' → ([w, s, i].map r' : List (Cell ℝ)) = [w, s, i].map r := fun r r' e => by
      simp only [List.map_cons, List.map_nil, e.1 w hw, e.1 s hs, e.1 i hi]
    have hg : ∀ k, List.Forall₂ (RowUnits c m) (groupRows f.rows [w, s, i] k) (groupRows f'.rows [w, s, i] k) := fun k =>
      rel_filter h.rows _ _ fun r r' e => by simp only [hk r r' e]
    have hkeys : groupKeys f'.rows [w, s, i] = groupKeys f.rows [w, s, i] := by
      unfold groupKeys
      rw [rel_map_eq h.rows (fun r => [w, s, i].map r) (fun r => [w, s, i].map r) hk]
    refine (Spec.SameOutcome.raiseIf Iff.rfl).bind fun _ _ _ => (Spec.SameOutcome.raiseIf Iff.rfl).bind fun _ _ _ =>
      (Spec.SameOutcome.raiseIf ?_).bind fun _ _ _ => ?_
    · refine iff_of_eq (congrArg (· = true) (rel_any h.rows _ _ fun r r' e => ?_).symm)
      simp only [e.numeric]
    · refine ⟨rfl, ?_⟩
      have hn : ∀ k, (groupRows f'.rows [w, s, i] k).map (fun r => r d) = (groupRows f.rows [w, s, i] k).map (fun r => r d) := fun k =>
        rel_map_eq (hg k) _ _ fun r r' e => e.1 d hd
      simp only [hkeys, hn]
      rw [List.forall₂_map_left_iff, List.forall₂_map_right_iff, List.forall₂_same]
      intro k hkm
      have hmem := (List.mem_filter.mp hkm).1
      obtain ⟨⟨r, hr, hrk⟩, -⟩ := mem_groupKeys.mp hmem
      have hne : groupRows f.rows [w, s, i] k ≠ [] := List.ne_nil_of_mem (List.mem_filter.mpr ⟨hr, by simp [hrk]⟩)
      refine ⟨fun x hx => ?_, ?_⟩
      · unfold weekRow
        cases ([w, s, i].zip k).lookup x with
        | some v => rfl
        | none =>
          show sumCell _ x = sumCell _ x
          exact sumCell_same (hg k) fun r r' e => e.1 x hx
      · have hlk : ([w, s, i].zip k).lookup m = none := by
          have e1 : (m == w) = false := by simpa using hw.symm
          have e2 : (m == s) = false := by simpa using hs.symm
          have e3 : (m == i) = false := by simpa using hi.symm
          rw [← hrk]
          simp [List.lookup_cons, e1, e2, e3]
        unfold weekRow
        rw [hlk]
        obtain ⟨q1, q2⟩ := sumCell_units hc (hg k) hne
        exact ⟨_, q1, q2⟩
  · simp only [if_neg h1]
    by_cases h7 : spacedBy 7 (f.col d) = true
    · simp only [if_pos h7]
      refine ⟨?_, h.rows⟩
      show f'.cols.filter _ = f.cols.filter _
      rw [h.cols]
    · simp only [if_neg h7]; rfl

theorem downsample_units (R : Rounding ℝ) (rng : Sampler (Cell ℝ)) {f f' : Frame ℝ} (h : FrameUnits c m f f') (fraction : ℝ) {i : String} (hi : i ≠ m) :
    Spec.SameOutcome (FrameUnits c m) (downsample R rng f fraction i) (downsample R rng f' fraction i) := by
  unfold downsample
  rw [h.cols, h.col hi]
  refine (Spec.SameOutcome.raiseIf Iff.rfl).bind fun _ _ _ => (Spec.SameOutcome.raiseIf Iff.rfl).bind fun _ _ _ => ?_
  by_cases h1 : fraction = 1
  · simp only [if_pos h1]; exact h
  · simp only [if_neg h1]
    exact ⟨h.cols, rel_filter h.rows _ _ fun r r' e => by rw [e.1 i hi]⟩

/-! ### Checks -/

theorem isFinite_scale {a : ℝ} (ha : 0 < a) (x : Fl ℝ) : (fin a * x).isFinite = x.isFinite := by
  cases x with
  | nan => rfl
  | ninf => rw [sc_ninf ha]
  | pinf => rw [sc_pinf ha]
  | fin x => rfl

theorem col_any_units {f f' : Frame ℝ} (h : FrameUnits c m f f') (p : Cell ℝ → Bool) (hp : ∀ v : Fl ℝ, p (Cell.ofFl (fin c * v)) = p (Cell.ofFl v)) :
    (f'.col m).any p = (f.col m).any p := by
  unfold Frame.col
  rw [List.any_map, List.any_map]
  exact rel_any h.rows _ _ fun r r' ⟨_, v, e, e'⟩ => by simp only [Function.comp, e, e', hp]

theorem validateHistorical_units (hc : 0 < c) (S : DateSorter ℝ) {f f' : Frame ℝ} (h : FrameUnits c m f f') {i d w : String} (hi : i ≠ m) (hd : d ≠ m)
    (hw : w ≠ m) (skip : List String) : validateHistorical S f' i d w m skip = validateHistorical S f i d w m skip := by
  have e1 : checkNulls f' = checkNulls f := by
    unfold checkNulls
    rw [h.cols, rel_any h.rows (fun r => f.cols.any (fun x => (r x).isNull)) (fun r => f.cols.any (fun x => (r x).isNull)) fun r r' e => by
      simp only [e.null hc]]
  have hg : ∀ k, List.Forall₂ (RowUnits c m) (groupRows f.rows [d] k) (groupRows f'.rows [d] k) := fun k =>
    rel_filter h.rows _ _ fun r r' e => by simp only [List.map_cons, List.map_nil, e.1 d hd]
  have e2 : checkDuplicates f' i d = checkDuplicates f i d := by
    unfold checkDuplicates
    have hk : groupKeys f'.rows [d] = groupKeys f.rows [d] := by
      unfold groupKeys
      rw [rel_map_eq h.rows (fun r => [d].map r) (fun r => [d].map r) fun r r' e => by simp only [List.map_cons, List.map_nil, e.1 d hd]]
    have hio : itemsOn f' i d = itemsOn f i d := by
      funext k
      unfold itemsOn
      rw [rel_map_eq (hg k) (fun r => r i) (fun r => r i) fun r r' e => e.1 i hi]
    rw [h.cols, hk, hio]
  have e3 : checkSpacing f' d = checkSpacing f d := by
    unfold checkSpacing
    rw [h.cols, h.col hd]
  have e4 : checkWeekIds S f' w d = checkWeekIds S f w d := by
    unfold checkWeekIds
    rw [h.cols, h.col hd, h.col hw, rel_map_eq h.rows (fun r => (r w, r d)) (fun r => (r w, r d)) fun r r' e => by rw [e.1 w hw, e.1 d hd]]
  have e5 : checkFinite f' [m] = checkFinite f [m] := by
    unfold checkFinite
    have s1 : (f'.col m).any (fun x => !x.isNumeric) = (f.col m).any (fun x => !x.isNumeric) :=
      col_any_units h _ (fun v => by rw [ofFl_numeric, ofFl_numeric])
    have s2 : (f'.col m).any (fun x => !x.toFl.isFinite) = (f.col m).any (fun x => !x.toFl.isFinite) :=
      col_any_units h _ (fun v => by rw [ofFl_reads, ofFl_reads, isFinite_scale hc])
    rw [h.cols, s1, s2]
    congr 1
    funext _
    congr 1
    refine congrArg (fun b => raiseIf PyErr.typeError (b = true)) (col_any_units h _ fun v => ?_)
    generalize fin c * v = u
    cases u <;> cases v <;> rfl
  have e6 : checkNonNegative f' [m] = checkNonNegative f [m] := by
    unfold checkNonNegative
    rw [h.cols, col_any_units h (fun x => !x.isNumeric) (fun v => by rw [ofFl_numeric, ofFl_numeric]),
      col_any_units h (fun x => Fl.lt x.toFl (.fin 0)) (fun v => by rw [ofFl_reads, ofFl_reads, sc_lt hc])]
    rfl
  unfold validateHistorical
  rw [e1, e2, e3, e4, e5, e6]

/-- The preparation of a history in other units. -/
theorem prepareHistorical_units (hc : 0 < c) (R : Rounding ℝ) (rng : Sampler (Cell ℝ)) (E : Ext ℝ) (S : DateSorter ℝ) {primary col : String}
    {raw raw' : Frame ℝ} (h : Spec.RawUnits E primary col c raw raw') (i d : String) (fraction : ℝ) (skip : List String)
    (hname : (if primary = "other" then col else primary) ∉ ["week_id", "week_start"]) :
    Spec.SameOutcome (fun f f' => FrameUnits c (if primary = "other" then col else primary) f f' ∧ (if primary = "other" then col else primary) ≠ "item_id")
      (prepareHistorical R rng E S raw i d primary col fraction skip)
      (prepareHistorical R rng E S raw' i d primary col fraction skip) := by
  unfold prepareHistorical cleanHistorical
  by_cases hp : primary ∈ allowedPrimaryMetrics
  swap
  · simp only [raiseIf, if_pos hp]; rfl
  simp only [bind_assoc]
  refine (Spec.SameOutcome.raiseIf Iff.rfl).bind fun _ _ _ => ?_
  -- the name is not one of the columns `item_id` and `date`, or standardising fails
  have hn : standardNames.contains "item_id" = true := by decide
  by_cases hbad : (if primary = "other" then col else primary) = "item_id" ∨ (if primary = "other" then col else primary) = "date"
  · have ho : primary = "other" := by
      by_contra ho
      simp only [if_neg ho] at hbad
      rcases hbad with rfl | rfl <;> exact absurd hp (by decide)
    simp only [if_pos ho] at hbad ⊢
    have hfail : ∀ g : Frame ℝ, ∃ e, standardize E g i d (stdColsOf primary col) [(col, col)] [(col, floatParse E)] = .error e ∧ e = .valueError := by
      intro g
      refine ⟨_, ?_, rfl⟩
      unfold standardize
      have : ([(col, col)] : List (String × String)).any (fun p => decide (p.1 ∈ standardNames)) = true := by
        rcases hbad with rfl | rfl <;> decide
      simp only [raiseIf, if_pos this]; rfl
    obtain ⟨_, e1, rfl⟩ := hfail raw
    obtain ⟨_, e2, rfl⟩ := hfail raw'
    rw [e1, e2]; rfl
  · rw [not_or] at hbad
    simp only [List.mem_cons, List.not_mem_nil, or_false, not_or] at hname
    refine (standardize_units E hp h i d).bind fun f1 f1' h1 => ?_
    refine (fillMissing_units hc h1 (Ne.symm hbad.1) (Ne.symm hbad.2)).bind fun f2 f2' h2 => ?_
    refine (addWeeks_units E h2 none (Ne.symm hbad.2) (Ne.symm hname.1) (Ne.symm hname.2)).bind fun f3 f3' h3 => ?_
    refine (groupWeeks_units hc h3 (Ne.symm hbad.2) (Ne.symm hbad.1) (Ne.symm hname.1) (Ne.symm hname.2)).bind fun f4 f4' h4 => ?_
    refine (downsample_units R rng h4 fraction (Ne.symm hbad.1)).bind fun f5 f5' h5 => ?_
    simp only [pure_bind]
    rw [validateHistorical_units hc S h5 (Ne.symm hbad.1) (Ne.symm hname.2) (Ne.symm hname.1)]
    refine (Spec.SameOutcome.refl (P := fun _ _ => True) (fun _ => trivial) _).bind fun _ _ _ => ?_
    exact ⟨h5, hbad.1⟩

end units

end Feedx
