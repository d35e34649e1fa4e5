import Verif.Proofs.CalendarChecks
import Verif.Proofs.FurtherColumns
import Verif.Spec.ItemNames

/-!
Lemmas for C136: the preparation and the analysis of data with other names of the items.
-/

set_option linter.unusedSectionVars false
set_option linter.unusedSimpArgs false
set_option maxHeartbeats 1000000

namespace Feedx

open Spec (named)

section cells
variable {K : Type} [Field K] [LinearOrder K] (ρ : String → String)

@[simp] theorem named_isNull (c : Cell K) : (named ρ c).isNull = c.isNull := by cases c <;> rfl
@[simp] theorem named_isNumeric (c : Cell K) : (named ρ c).isNumeric = c.isNumeric := by cases c <;> rfl
@[simp] theorem named_toFl (c : Cell K) : (named ρ c).toFl = c.toFl := by cases c <;> rfl

/-- A row with the item's new name. -/
def namedRow (r : Row K) : Row K := fun x => if x = "item_id" then named ρ (r x) else r x

/-- A table with new names of the items. -/
def namedFrame (f : Frame K) : Frame K := ⟨f.cols, f.rows.map (namedRow ρ)⟩

variable {ρ}

theorem named_inj (hρ : Function.Injective ρ) {a b : Cell K} : named ρ a = named ρ b ↔ a = b := by
  cases a <;> cases b <;> simp [named, hρ.eq_iff]

theorem named_le (hρ : StrictMono ρ) (a b : Cell K) : (named ρ a).le (named ρ b) = a.le b := by
  cases a <;> cases b <;> simp [named, Cell.le, Cell.rank, hρ.le_iff_le]

theorem namedRow_item (r : Row K) : namedRow ρ r "item_id" = named ρ (r "item_id") := if_pos rfl
theorem namedRow_other {x : String} (h : x ≠ "item_id") (r : Row K) : namedRow ρ r x = r x := if_neg h

theorem namedRow_isNull (r : Row K) (x : String) : (namedRow ρ r x).isNull = (r x).isNull := by
  unfold namedRow; split <;> simp
theorem namedRow_isNumeric (r : Row K) (x : String) : (namedRow ρ r x).isNumeric = (r x).isNumeric := by
  unfold namedRow; split <;> simp
theorem namedRow_toFl (r : Row K) (x : String) : (namedRow ρ r x).toFl = (r x).toFl := by
  unfold namedRow; split <;> simp
theorem namedRow_inj (hρ : Function.Injective ρ) {r r' : Row K} (x : String) : namedRow ρ r x = namedRow ρ r' x ↔ r x = r' x := by
  unfold namedRow; split
  · exact named_inj hρ
  · rfl
theorem namedRow_le (hρ : StrictMono ρ) (r r' : Row K) (x : String) : (namedRow ρ r x).le (namedRow ρ r' x) = (r x).le (r' x) := by
  unfold namedRow; split
  · exact named_le hρ _ _
  · rfl

theorem namedFrame_cols (f : Frame K) : (namedFrame ρ f).cols = f.cols := rfl
theorem namedFrame_rows (f : Frame K) : (namedFrame ρ f).rows = f.rows.map (namedRow ρ) := rfl

theorem namedFrame_items (f : Frame K) : (namedFrame ρ f).col "item_id" = (f.col "item_id").map (named ρ) := by
  unfold Frame.col
  rw [namedFrame_rows, List.map_map, List.map_map]
  exact List.map_congr_left fun r _ => namedRow_item r

theorem namedFrame_col {x : String} (h : x ≠ "item_id") (f : Frame K) : (namedFrame ρ f).col x = f.col x := by
  unfold Frame.col
  rw [namedFrame_rows, List.map_map]
  exact List.map_congr_left fun r _ => namedRow_other h r

theorem namedFrame_dropCol (f : Frame K) (c : String) : (namedFrame ρ f).dropCol c = namedFrame ρ (f.dropCol c) := rfl

theorem namedFrame_setCol (f : Frame K) (c : String) (v v' : Row K → Cell K)
    (hv : ∀ r ∈ f.rows, v' (namedRow ρ r) = if c = "item_id" then named ρ (v r) else v r) :
    (namedFrame ρ f).setCol c v' = namedFrame ρ (f.setCol c v) := by
  unfold Frame.setCol namedFrame
  simp only [List.map_map]
  congr 1
  refine List.map_congr_left fun r hr => ?_
  funext x
  simp only [Function.comp]
  by_cases hx : x = c
  · subst hx
    rw [Function.update_self, hv r hr]
    unfold namedRow
    rw [Function.update_self]
  · rw [Function.update_of_ne hx]
    unfold namedRow
    rw [Function.update_of_ne hx]

end cells

section prepare
variable {K : Type} [Field K] [LinearOrder K] {ρ : String → String}

theorem RawNamed.col {E : Ext K} {itemCol : String} {raw raw' : Frame K} (h : Spec.RawNamed E itemCol ρ raw raw') {x : String} (hx : x ≠ itemCol) :
    raw'.col x = raw.col x := by
  obtain ⟨-, h⟩ := h
  unfold Frame.col
  generalize raw.rows = L, raw'.rows = L' at h ⊢
  induction h with
  | nil => rfl
  | cons hr _ ih => rw [List.map_cons, List.map_cons, ih, hr.1 x hx]

theorem RawNamed.ids {E : Ext K} {itemCol : String} {raw raw' : Frame K} (h : Spec.RawNamed E itemCol ρ raw raw') :
    raw'.rows.map (fun r => (.str (E.toStr (r itemCol)) : Cell K)) = (raw.rows.map (fun r => (.str (E.toStr (r itemCol)) : Cell K))).map (named ρ) := by
  obtain ⟨-, h⟩ := h
  generalize raw.rows = L, raw'.rows = L' at h ⊢
  induction h with
  | nil => rfl
  | cons hr _ ih => rw [List.map_cons, List.map_cons, List.map_cons, ih, hr.2]; rfl

theorem RawNamed.items {E : Ext K} {itemCol : String} {raw raw' : Frame K} (h : Spec.RawNamed E itemCol ρ raw raw') :
    (raw'.col itemCol).mapM (fun c => (.ok (.str (E.toStr c)) : Py (Cell K))) =
      ((raw.col itemCol).mapM (fun c => (.ok (.str (E.toStr c)) : Py (Cell K)))).map (List.map (named ρ)) := by
  obtain ⟨-, h⟩ := h
  unfold Frame.col
  generalize raw.rows = L, raw'.rows = L' at h ⊢
  induction h with
  | nil => rfl
  | @cons r r' l l' hr _ ih =>
    rw [List.map_cons, List.map_cons, List.mapM_cons, List.mapM_cons, ih, hr.2]
    cases (l.map (fun r => r itemCol)).mapM (fun c => (.ok (.str (E.toStr c)) : Py (Cell K))) <;> rfl

theorem ofColumns_named (n : ℕ) (l : List (String × List (Cell K))) :
    ofColumns n (l.map (fun q => (q.1, if q.1 = "item_id" then q.2.map (named ρ) else q.2))) = namedFrame ρ (ofColumns n l) := by
  unfold ofColumns namedFrame
  simp only [List.map_map]
  congr 1
  refine List.map_congr_left fun i _ => ?_
  funext x
  simp only [Function.comp, namedRow]
  rw [lookup_map_cols (g := fun s v => if s = "item_id" then v.map (named ρ) else v)]
  by_cases hx : x = "item_id"
  · subst hx
    cases l.lookup "item_id" with
    | none => simp [named]
    | some v =>
      simp only [Option.map_some, Option.bind_some, if_true, List.mem_singleton, List.getElem?_map]
      cases v[i]? <;> simp [named]
  · cases l.lookup x <;> simp [hx]

theorem standardize_named {E : Ext K} {itemCol : String} {raw raw' : Frame K} (h : Spec.RawNamed E itemCol ρ raw raw') (dateCol : String) (s : StdCols)
    (custom : List (String × String)) (customParse : List (String × (Cell K → Py (Cell K)))) :
    standardize E raw' itemCol dateCol s custom customParse =
      (standardize E raw itemCol dateCol s custom customParse).map (namedFrame ρ) := by
  unfold standardize
  rw [h.1]
  by_cases h1 : custom.any (fun p => decide (p.1 ∈ standardNames)) = true
  · simp [h1, raiseIf]; rfl
  by_cases h2 : customParse.any (fun p => decide (p.1 ∈ standardNames) || decide (p.1 ∉ custom.map Prod.fst)) = true
  · simp only [h1, h2, raiseIf]; rfl
  by_cases h3 : (columnNames itemCol dateCol s custom).any (fun p => decide (p.2 ∉ raw.cols)) = true
  · simp only [h1, h2, h3, raiseIf]; rfl
  by_cases h4 : ¬ ((columnNames itemCol dateCol s custom).map Prod.snd).Nodup
  · simp only [h1, h2, h3, h4, raiseIf]; rfl
  simp only [h1, h2, h3, h4, raiseIf]
  have hitem : customParse.lookup "item_id" = none := by
    rw [List.lookup_eq_none_iff]
    intro p hp
    rw [bne_iff_ne]
    intro e
    apply h2
    rw [List.any_eq_true]
    exact ⟨p, hp, by rw [← e]; simp [standardNames]⟩
  have hlen : raw'.rows.length = raw.rows.length := h.2.length_eq.symm
  have hmem : ("item_id", itemCol) ∈ columnNames itemCol dateCol s custom := by
    unfold columnNames
    simp
  have key : ∀ p ∈ columnNames itemCol dateCol s custom,
      (do let l ← (raw'.col p.2).mapM (parseCell E customParse p.1); pure (p.1, l) : Py (String × List (Cell K))) =
      (do let l ← (raw.col p.2).mapM (parseCell E customParse p.1); pure (p.1, l) : Py (String × List (Cell K))).map
        (fun q => (q.1, if q.1 = "item_id" then q.2.map (named ρ) else q.2)) := by
    intro p hp
    by_cases hpd : p.2 = itemCol
    · have : p = ("item_id", itemCol) := List.inj_on_of_nodup_map (not_not.mp h4) hp hmem hpd
      subst this
      have e : parseCell E customParse "item_id" = fun c => (.ok (.str (E.toStr c)) : Py (Cell K)) := by
        funext c
        unfold parseCell
        rw [hitem]
        simp
      simp only [e]
      rw [RawNamed.items h]
      cases (raw.col itemCol).mapM (fun c => (.ok (.str (E.toStr c)) : Py (Cell K))) <;> rfl
    · rw [RawNamed.col h hpd]
      have hne : p.1 ≠ "item_id" := by
        intro e
        apply h1
        unfold columnNames at hp
        rcases List.mem_append.mp hp with hp | hp
        · obtain ⟨q, hq, hq2⟩ := List.mem_filterMap.mp hp
          obtain ⟨c, hc, rfl⟩ := Option.map_eq_some_iff.mp hq2
          simp only [List.mem_cons, List.not_mem_nil, or_false] at hq
          rcases hq with rfl | rfl | rfl | rfl | rfl | rfl | rfl
          all_goals first
            | (exact absurd (Option.some.inj hc).symm hpd)
            | (exact absurd e (by simp))
        · rw [List.any_eq_true]
          exact ⟨p, hp, by rw [e]; decide⟩
      cases (raw.col p.2).mapM (parseCell E customParse p.1) with
      | error e => rfl
      | ok l =>
        show (Except.ok (p.1, l) : Py _) = Except.ok (p.1, if p.1 = "item_id" then l.map (named ρ) else l)
        rw [if_neg hne]
  have := mapM_map_outcome _ key
  simp only [if_false, Bool.false_eq_true, not_true_eq_false] at *
  rw [hlen]
  show ((columnNames itemCol dateCol s custom).mapM _ >>= _) = Except.map _ ((columnNames itemCol dateCol s custom).mapM _ >>= _)
  rw [this]
  cases (columnNames itemCol dateCol s custom).mapM (fun p => (do
    let l ← (raw.col p.2).mapM (parseCell E customParse p.1); pure (p.1, l) : Py (String × List (Cell K)))) with
  | error e => rfl
  | ok cols =>
    show (Except.ok _ : Py (Frame K)) = Except.ok _
    rw [ofColumns_named]

theorem nunique_map_named (hρ : Function.Injective ρ) (l : List (Cell K)) : nunique (l.map (named ρ)) = nunique l := by
  unfold nunique
  rw [List.filter_map, dropDup_map fun a b => named_inj hρ, List.length_map]
  simp only [Function.comp_def, named_isNull]

theorem missingRows_named (hρ : Function.Injective ρ) {E : Ext K} {dateCol itemCol : String} {perf perf' : Frame K} (h : Spec.RawNamed E itemCol ρ perf perf')
    (hne : itemCol ≠ dateCol) (b b' : Frame K) (hb : b'.col "item_id" = (b.col "item_id").map (named ρ)) :
    missingRows E perf' b' itemCol dateCol = (missingRows E perf b itemCol dateCol).map (List.map (namedRow ρ)) := by
  have hitems : missingItems E perf' b' itemCol = (missingItems E perf b itemCol).map (named ρ) := by
    unfold missingItems
    rw [hb, RawNamed.ids h, List.filter_map, dropDup_map fun a b => named_inj hρ]
    congr 2
    refine List.filter_congr fun c _ => ?_
    simp only [Function.comp]
    exact decide_eq_decide.mpr (not_congr (List.mem_map_of_injective fun a b => (named_inj hρ).mp))
  have hnu : nunique (b'.col "item_id") = nunique (b.col "item_id") := by
    rw [hb]
    exact nunique_map_named hρ _
  unfold missingRows
  rw [h.1, hitems, hnu]
  by_cases h1 : itemCol ∉ perf.cols
  · simp only [h1, raiseIf]; rfl
  by_cases h2 : nunique (b.col "item_id") = 0
  · simp only [h1, h2, raiseIf]; rfl
  by_cases h3 : dateCol ∉ perf.cols
  · simp only [h1, h2, h3, raiseIf]; rfl
  simp only [h1, h2, h3, raiseIf, if_false, not_false_eq_true, not_true_eq_false]
  obtain ⟨-, h⟩ := h
  show (match perf'.rows with | [] => _ | r0 :: _ => _) = Except.map _ (match perf.rows with | [] => _ | r0 :: _ => _)
  generalize perf.rows = L, perf'.rows = L' at h ⊢
  cases h with
  | nil => rfl
  | @cons r r' l l' hr _ =>
    simp only [hr.1 dateCol (Ne.symm hne)]
    rw [List.mapM_map]
    refine mapM_map_outcome _ fun i _ => ?_
    simp only [Function.comp]
    cases E.toDate (r dateCol) with
    | error e => rfl
    | ok t =>
      show (Except.ok _ : Py (Row K)) = Except.ok _
      congr 1
      funext c
      unfold namedRow
      by_cases c1 : c = "item_id"
      · subst c1; simp
      · simp [c1]

theorem mergeMissing_named (hρ : StrictMono ρ) (f : Frame K) (missing : List (Row K)) :
    mergeMissing (namedFrame ρ f) (missing.map (namedRow ρ)) = namedFrame ρ (mergeMissing f missing) := by
  unfold mergeMissing namedFrame
  congr 1
  rw [← List.map_append]
  symm
  refine List.map_insertionSort _ _ _ _ fun r _ r' _ => ?_
  simp only [List.map_cons, List.map_nil, keyLe, namedRow_inj hρ.injective, namedRow_le hρ]

theorem mergeRows_named (hρ : Function.Injective ρ) (f : Frame K) (i d : Cell K) :
    mergeRows (namedFrame ρ f) "item_id" "date" (named ρ i) d = (mergeRows f "item_id" "date" i d).map (namedRow ρ) := by
  unfold mergeRows
  have hf : (namedFrame ρ f).rows.filter (fun r => decide (r "item_id" = named ρ i ∧ r "date" = d)) =
      (f.rows.filter (fun r => decide (r "item_id" = i ∧ r "date" = d))).map (namedRow ρ) := by
    rw [namedFrame_rows, List.filter_map]
    congr 1
    refine List.filter_congr fun r _ => ?_
    simp only [Function.comp, namedRow_item, namedRow_other (x := "date") (by decide), named_inj hρ]
  simp only [hf, List.isEmpty_map]
  split
  · rw [List.map_singleton]
    congr 1
    funext c
    unfold namedRow
    by_cases c1 : c = "item_id"
    · subst c1; simp
    · simp [c1]
  · rfl

theorem fillRow_named (f : Frame K) (r : Row K) :
    fillRow (namedFrame ρ f) "item_id" "date" (namedRow ρ r) = namedRow ρ (fillRow f "item_id" "date" r) := by
  funext c
  by_cases h : c = "item_id"
  · subst h
    simp [fillRow, namedRow]
  · rw [namedRow_other h]
    unfold fillRow
    rw [namedRow_other h, namedFrame_col h]

theorem fillMissing_named (hρ : Function.Injective ρ) (f : Frame K) :
    fillMissing (namedFrame ρ f) "item_id" "date" = (fillMissing f "item_id" "date").map (namedFrame ρ) := by
  unfold fillMissing
  rw [namedFrame_cols]
  by_cases h1 : "item_id" ∉ f.cols ∨ "date" ∉ f.cols
  · simp only [h1, raiseIf]; rfl
  simp only [h1, raiseIf]
  show (Except.ok _ : Py (Frame K)) = Except.ok _
  congr 1
  unfold namedFrame
  congr 1
  show (dropDup ((namedFrame ρ f).col "item_id")).flatMap (fun i => (dropDup ((namedFrame ρ f).col "date")).flatMap _) = _
  rw [namedFrame_col (x := "date") (by decide), namedFrame_items, dropDup_map fun a b => named_inj hρ]
  rw [List.map_flatMap, List.flatMap_map]
  refine List.flatMap_congr fun i _ => ?_
  rw [List.map_flatMap]
  refine List.flatMap_congr fun d _ => ?_
  show (mergeRows (namedFrame ρ f) "item_id" "date" (named ρ i) d).map _ = _
  rw [mergeRows_named hρ, List.map_map, List.map_map]
  exact List.map_congr_left fun r _ => fillRow_named f r

theorem addWeeks_named (E : Ext K) (f : Frame K) (s : Option String) :
    addWeeks E (namedFrame ρ f) "date" s "week_id" "week_start" = (addWeeks E f "date" s "week_id" "week_start").map (namedFrame ρ) := by
  have hcol : (namedFrame ρ f).col "date" = f.col "date" := namedFrame_col (by decide) f
  have ho : weekOrigin E (namedFrame ρ f) "date" s = weekOrigin E f "date" s := by
    unfold weekOrigin
    rw [hcol]
  have hany : (namedFrame ρ f).rows.any (fun r => (r "date").isNull) = f.rows.any (fun r => (r "date").isNull) := by
    rw [namedFrame_rows, List.any_map]
    simp only [Function.comp_def, namedRow_isNull]
  have hw : ∀ t0, withWeeks (namedFrame ρ f) "date" "week_id" "week_start" t0 = namedFrame ρ (withWeeks f "date" "week_id" "week_start" t0) := by
    intro t0
    unfold withWeeks
    rw [namedFrame_setCol f "week_id" (fun r => match r "date" with | .time t => .int (weekId t0 t) | _ => .null) _ (fun r _ => by
      rw [if_neg (by decide), namedRow_other (by decide)]
      rfl)]
    exact namedFrame_setCol _ "week_start" _ _ fun r _ => by rw [if_neg (by decide), namedRow_other (by decide)]
  unfold addWeeks
  rw [namedFrame_cols, ho, hcol, hany]
  by_cases h1 : "date" ∉ f.cols
  · simp only [h1, raiseIf]; rfl
  by_cases h2 : isTimeColumn (f.col "date") = false
  · simp only [h1, h2, raiseIf]; rfl
  simp only [h1, h2, raiseIf]
  cases weekOrigin E f "date" s with
  | error e => rfl
  | ok o =>
    by_cases h4 : f.rows.any (fun r => (r "date").isNull) = true
    · simp only [h4]; rfl
    simp only [h4, hw]
    rfl

theorem labelRows_named (d : DesignParams K) (start : ℤ) (f : Frame K) :
    labelRows d start "week_id" "time_period" (namedFrame ρ f) = (labelRows d start "week_id" "time_period" f).map (namedFrame ρ) := by
  unfold labelRows
  have hany : (namedFrame ρ f).rows.any (fun r => !(r "week_id").isNumeric) = f.rows.any (fun r => !(r "week_id").isNumeric) := by
    rw [namedFrame_rows, List.any_map]
    simp only [Function.comp_def, namedRow_isNumeric]
  rw [hany]
  by_cases h1 : d.isCrossover = true ∧ d.washout = none
  · simp only [h1, raiseIf]; rfl
  by_cases h2 : f.rows.any (fun r => !(r "week_id").isNumeric) = true
  · simp only [h1, h2, raiseIf]; rfl
  simp only [h1, h2, raiseIf]
  show (Except.ok _ : Py (Frame K)) = Except.ok _
  congr 1
  refine namedFrame_setCol f _ _ _ fun r _ => ?_
  rw [if_neg (by decide), namedRow_toFl]

theorem addTimePeriodColumn_named (d : DesignParams K) (start : ℤ) (f : Frame K) :
    addTimePeriodColumn d start "week_id" "time_period" (namedFrame ρ f) =
      (addTimePeriodColumn d start "week_id" "time_period" f).map (namedFrame ρ) := by
  unfold addTimePeriodColumn
  rw [namedFrame_cols, labelRows_named d start f]
  by_cases h1 : "time_period" ∈ f.cols
  · simp only [h1, raiseIf]; rfl
  by_cases h2 : "week_id" ∉ f.cols
  · simp only [h1, h2, raiseIf]; rfl
  simp only [h1, h2, raiseIf]; rfl

theorem addAtLeastOne_named (pairs : List (String × String)) (f : Frame K) :
    addAtLeastOne pairs (namedFrame ρ f) = (addAtLeastOne pairs f).map (namedFrame ρ) := by
  induction pairs generalizing f with
  | nil => rfl
  | cons p l ih =>
    obtain ⟨m, new⟩ := p
    unfold addAtLeastOne
    have hany : (namedFrame ρ f).rows.any (fun r => !(r m).isNumeric) = f.rows.any (fun r => !(r m).isNumeric) := by
      rw [namedFrame_rows, List.any_map]
      congr 1
      funext r
      simp only [Function.comp, namedRow_isNumeric]
    rw [namedFrame_cols, hany]
    by_cases h1 : m ∉ f.cols
    · simp only [h1, raiseIf]; rfl
    by_cases h2 : f.rows.any (fun r => !(r m).isNumeric) = true
    · simp only [h1, h2, raiseIf]; rfl
    simp only [h1, h2, raiseIf]
    rw [namedFrame_setCol f new (fun r => positiveCell (r m)) _ fun r _ => ?_]
    · exact ih _
    · unfold positiveCell
      rw [namedRow_toFl]
      simp only [named, ite_self]

end prepare

end Feedx
