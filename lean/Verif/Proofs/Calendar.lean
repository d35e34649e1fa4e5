import Verif.Proofs.RowOrderChecks
import Verif.Proofs.Scaling
import Verif.Spec.Calendar

/-!
Lemmas for C132: the preparation of data at another time.
-/

set_option linter.unusedSectionVars false
set_option linter.unusedSimpArgs false
set_option maxHeartbeats 1000000

namespace Feedx

open Spec (later)

/-! ### Cells and rows -/

section cells
variable {K : Type} [Field K] [LinearOrder K] (τ : ℤ)

theorem later_inj {a b : Cell K} : later τ a = later τ b ↔ a = b := by
  cases a <;> cases b <;> simp [later]

@[simp] theorem later_isNull (c : Cell K) : (later τ c).isNull = c.isNull := by cases c <;> rfl
@[simp] theorem later_isNumeric (c : Cell K) : (later τ c).isNumeric = c.isNumeric := by cases c <;> rfl
@[simp] theorem later_toFl (c : Cell K) : (later τ c).toFl = c.toFl := by cases c <;> rfl
@[simp] theorem later_null : later τ (.null : Cell K) = .null := rfl

theorem later_le (a b : Cell K) : (later τ a).le (later τ b) = a.le b := by
  cases a <;> cases b <;> simp [later, Cell.le, Cell.rank]

/-- A row at another time. -/
def laterRow (S : List String) (r : Row K) : Row K := fun x => if x ∈ S then later τ (r x) else r x

/-- A table at another time. -/
def laterFrame (S : List String) (f : Frame K) : Frame K := ⟨f.cols, f.rows.map (laterRow τ S)⟩

variable {S : List String} {τ}

theorem laterRow_of_not_mem {x : String} (h : x ∉ S) (r : Row K) : laterRow τ S r x = r x := if_neg h
theorem laterRow_of_mem {x : String} (h : x ∈ S) (r : Row K) : laterRow τ S r x = later τ (r x) := if_pos h

theorem laterRow_isNull (r : Row K) (x : String) : (laterRow τ S r x).isNull = (r x).isNull := by
  unfold laterRow; split <;> simp
theorem laterRow_isNumeric (r : Row K) (x : String) : (laterRow τ S r x).isNumeric = (r x).isNumeric := by
  unfold laterRow; split <;> simp
theorem laterRow_toFl (r : Row K) (x : String) : (laterRow τ S r x).toFl = (r x).toFl := by
  unfold laterRow; split <;> simp
theorem laterRow_inj {r r' : Row K} (x : String) : laterRow τ S r x = laterRow τ S r' x ↔ r x = r' x := by
  unfold laterRow; split
  · exact later_inj τ
  · rfl
theorem laterRow_le (r r' : Row K) (x : String) : (laterRow τ S r x).le (laterRow τ S r' x) = (r x).le (r' x) := by
  unfold laterRow; split
  · exact later_le τ _ _
  · rfl

theorem laterFrame_cols (f : Frame K) : (laterFrame τ S f).cols = f.cols := rfl
theorem laterFrame_rows (f : Frame K) : (laterFrame τ S f).rows = f.rows.map (laterRow τ S) := rfl

theorem laterFrame_col_mem {x : String} (h : x ∈ S) (f : Frame K) : (laterFrame τ S f).col x = (f.col x).map (later τ) := by
  unfold Frame.col
  rw [laterFrame_rows, List.map_map, List.map_map]
  exact List.map_congr_left fun r _ => laterRow_of_mem h r

theorem laterFrame_col_not_mem {x : String} (h : x ∉ S) (f : Frame K) : (laterFrame τ S f).col x = f.col x := by
  unfold Frame.col
  rw [laterFrame_rows, List.map_map]
  exact List.map_congr_left fun r _ => laterRow_of_not_mem h r

theorem laterFrame_table (f : Frame K) : Spec.TableLater S τ f (laterFrame τ S f) :=
  ⟨rfl, by
    show List.Forall₂ _ f.rows (f.rows.map _)
    rw [List.forall₂_map_right_iff, List.forall₂_same]
    exact fun _ _ _ => rfl⟩

theorem laterFrame_dropCol (f : Frame K) (c : String) : (laterFrame τ S f).dropCol c = laterFrame τ S (f.dropCol c) := rfl

theorem laterFrame_setCol {T : List String} (f : Frame K) (c : String) (v v' : Row K → Cell K) (hT : ∀ x, x ≠ c → (x ∈ T ↔ x ∈ S))
    (hv : ∀ r ∈ f.rows, v' (laterRow τ S r) = if c ∈ T then later τ (v r) else v r) :
    (laterFrame τ S f).setCol c v' = laterFrame τ T (f.setCol c v) := by
  unfold Frame.setCol laterFrame
  simp only [List.map_map]
  congr 1
  refine List.map_congr_left fun r hr => ?_
  funext x
  simp only [Function.comp]
  by_cases hx : x = c
  · subst hx
    rw [Function.update_self, hv r hr]
    unfold laterRow
    rw [Function.update_self]
  · rw [Function.update_of_ne hx]
    unfold laterRow
    rw [Function.update_of_ne hx]
    simp only [hT x hx]

end cells

theorem dropDup_map {α β : Type} [DecidableEq α] [DecidableEq β] {g : α → β} (hg : ∀ a b, g a = g b ↔ a = b) (l : List α) :
    dropDup (l.map g) = (dropDup l).map g := by
  induction l with
  | nil => rfl
  | cons a l ih =>
    rw [List.map_cons, dropDup, dropDup, List.map_cons, ih, List.filter_map]
    congr 2
    refine List.filter_congr fun b _ => ?_
    simp [hg]

theorem mapM_map_outcome {α β γ : Type} {x : α → Py β} {y : α → Py γ} {g : β → γ} (l : List α) (h : ∀ a ∈ l, y a = (x a).map g) :
    l.mapM y = (l.mapM x).map (List.map g) := by
  induction l with
  | nil => rfl
  | cons a l ih =>
    rw [List.mapM_cons, List.mapM_cons, h a List.mem_cons_self, ih fun b hb => h b (List.mem_cons_of_mem _ hb)]
    cases x a with
    | error e => rfl
    | ok b =>
      cases l.mapM x with
      | error e => rfl
      | ok m => rfl

/-! ### Preparation -/

section prepare
variable {K : Type} [Field K] [LinearOrder K] {τ : ℤ}

theorem RawLater.col {E : Ext K} {dateCol : String} {raw raw' : Frame K} (h : Spec.RawLater E dateCol τ raw raw') {x : String} (hx : x ≠ dateCol) :
    raw'.col x = raw.col x := by
  obtain ⟨-, h⟩ := h
  unfold Frame.col
  generalize raw.rows = L, raw'.rows = L' at h ⊢
  induction h with
  | nil => rfl
  | cons hr _ ih => rw [List.map_cons, List.map_cons, ih, hr.1 x hx]

theorem RawLater.dates {E : Ext K} {dateCol : String} {raw raw' : Frame K} (h : Spec.RawLater E dateCol τ raw raw') :
    (raw'.col dateCol).mapM (fun c => (E.toDate c).map Cell.ofTime) =
      ((raw.col dateCol).mapM (fun c => (E.toDate c).map (Cell.ofTime (K := K)))).map (List.map (later τ)) := by
  obtain ⟨-, h⟩ := h
  unfold Frame.col
  generalize raw.rows = L, raw'.rows = L' at h ⊢
  induction h with
  | nil => rfl
  | @cons r r' l l' hr _ ih =>
    rw [List.map_cons, List.map_cons, List.mapM_cons, List.mapM_cons, ih]
    have h2 := hr.2
    cases h3 : E.toDate (r dateCol) <;> cases h4 : E.toDate (r' dateCol) <;> rw [h3, h4] at h2
    · cases h2; rfl
    · cases h2
    · cases h2
    · cases h2
      rename_i t
      cases (l.map (fun r => r dateCol)).mapM (fun c => (E.toDate c).map (Cell.ofTime (K := K)))
      · rfl
      · cases t <;> rfl

theorem lookup_map_cols {g : String → List (Cell K) → List (Cell K)} (l : List (String × List (Cell K))) (x : String) :
    (l.map (fun q => (q.1, g q.1 q.2))).lookup x = (l.lookup x).map (g x) := by
  induction l with
  | nil => rfl
  | cons q l ih =>
    rw [List.map_cons, List.lookup_cons, List.lookup_cons]
    by_cases h : x = q.1
    · subst h; simp
    · have : (x == q.1) = false := by simpa using h
      simp [this, ih]

theorem ofColumns_later (n : ℕ) (l : List (String × List (Cell K))) :
    ofColumns n (l.map (fun q => (q.1, if q.1 = "date" then q.2.map (later τ) else q.2))) = laterFrame τ ["date"] (ofColumns n l) := by
  unfold ofColumns laterFrame
  simp only [List.map_map]
  congr 1
  refine List.map_congr_left fun i _ => ?_
  funext x
  simp only [Function.comp, laterRow]
  rw [lookup_map_cols (g := fun s v => if s = "date" then v.map (later τ) else v)]
  by_cases hx : x = "date"
  · subst hx
    cases l.lookup "date" with
    | none => simp
    | some v =>
      simp only [Option.map_some, Option.bind_some, if_true, List.mem_singleton, List.getElem?_map]
      cases v[i]? <;> simp
  · cases l.lookup x <;> simp [hx]

theorem standardize_later {E : Ext K} {dateCol : String} {raw raw' : Frame K} (h : Spec.RawLater E dateCol τ raw raw') (itemCol : String) (s : StdCols)
    (custom : List (String × String)) (customParse : List (String × (Cell K → Py (Cell K)))) :
    standardize E raw' itemCol dateCol s custom customParse =
      (standardize E raw itemCol dateCol s custom customParse).map (laterFrame τ ["date"]) := by
  unfold standardize
  rw [h.1]
  by_cases h1 : custom.any (fun p => decide (p.1 ∈ standardNames)) = true
  · simp [h1, raiseIf]; rfl
  by_cases h2 : customParse.any (fun p => decide (p.1 ∈ standardNames) || decide (p.1 ∉ custom.map Prod.fst)) = true
  · simp only [h1, h2, raiseIf]; rfl
  by_cases h3 : (columnNames itemCol dateCol s custom).any (fun p => decide (p.2 ∉ raw.cols)) = true
  · simp only [h1, h2, h3, raiseIf]; rfl
  by_cases h4 : ¬ ((columnNames itemCol dateCol s custom).map Prod.snd).Nodup
  · simp only [h1, h2, h3, h4, raiseIf]; rfl
  simp only [h1, h2, h3, h4, raiseIf]
  have hdate : customParse.lookup "date" = none := by
    rw [List.lookup_eq_none_iff]
    intro p hp
    rw [bne_iff_ne]
    intro e
    apply h2
    rw [List.any_eq_true]
    exact ⟨p, hp, by rw [← e]; simp [standardNames]⟩
  have hlen : raw'.rows.length = raw.rows.length := h.2.length_eq.symm
  have hmem : ("date", dateCol) ∈ columnNames itemCol dateCol s custom := by
    unfold columnNames
    simp
  have key : ∀ p ∈ columnNames itemCol dateCol s custom,
      (do let l ← (raw'.col p.2).mapM (parseCell E customParse p.1); pure (p.1, l) : Py (String × List (Cell K))) =
      (do let l ← (raw.col p.2).mapM (parseCell E customParse p.1); pure (p.1, l) : Py (String × List (Cell K))).map
        (fun q => (q.1, if q.1 = "date" then q.2.map (later τ) else q.2)) := by
    intro p hp
    by_cases hpd : p.2 = dateCol
    · have : p = ("date", dateCol) := List.inj_on_of_nodup_map (not_not.mp h4) hp hmem hpd
      subst this
      have e : parseCell E customParse "date" = fun c => (E.toDate c).map Cell.ofTime := by
        funext c
        unfold parseCell
        rw [hdate]
        simp
      simp only [e]
      rw [RawLater.dates h]
      cases (raw.col dateCol).mapM (fun c => (E.toDate c).map (Cell.ofTime (K := K))) <;> rfl
    · rw [RawLater.col h hpd]
      have hne : p.1 ≠ "date" := by
        intro e
        apply h1
        unfold columnNames at hp
        rcases List.mem_append.mp hp with hp | hp
        · obtain ⟨q, hq, hq2⟩ := List.mem_filterMap.mp hp
          obtain ⟨c, hc, rfl⟩ := Option.map_eq_some_iff.mp hq2
          simp only [List.mem_cons, List.not_mem_nil, or_false] at hq
          rcases hq with rfl | rfl | rfl | rfl | rfl | rfl | rfl
          all_goals first
            | (exact absurd (Option.some.inj hc).symm hpd)
            | (exact absurd e (by simp))
        · rw [List.any_eq_true]
          exact ⟨p, hp, by rw [e]; decide⟩
      cases (raw.col p.2).mapM (parseCell E customParse p.1) with
      | error e => rfl
      | ok l =>
        show (Except.ok (p.1, l) : Py _) = Except.ok (p.1, if p.1 = "date" then l.map (later τ) else l)
        rw [if_neg hne]
  have := mapM_map_outcome _ key
  simp only [if_false, Bool.false_eq_true, not_true_eq_false] at *
  rw [hlen]
  show ((columnNames itemCol dateCol s custom).mapM _ >>= _) = Except.map _ ((columnNames itemCol dateCol s custom).mapM _ >>= _)
  rw [this]
  cases (columnNames itemCol dateCol s custom).mapM (fun p => (do
    let l ← (raw.col p.2).mapM (parseCell E customParse p.1); pure (p.1, l) : Py (String × List (Cell K)))) with
  | error e => rfl
  | ok cols =>
    show (Except.ok _ : Py (Frame K)) = Except.ok _
    rw [ofColumns_later]

theorem missingRows_later {E : Ext K} {dateCol itemCol : String} {perf perf' : Frame K} (h : Spec.RawLater E dateCol τ perf perf') (hne : itemCol ≠ dateCol)
    (assign : Frame K) : missingRows E perf' assign itemCol dateCol = (missingRows E perf assign itemCol dateCol).map (List.map (laterRow τ ["date"])) := by
  have hitems : missingItems E perf' assign itemCol = missingItems E perf assign itemCol := by
    unfold missingItems
    have : perf'.rows.map (fun r => (.str (E.toStr (r itemCol)) : Cell K)) = perf.rows.map (fun r => (.str (E.toStr (r itemCol)) : Cell K)) := by
      have := congrArg (List.map (fun c => (.str (E.toStr c) : Cell K))) (RawLater.col h hne)
      unfold Frame.col at this
      rwa [List.map_map, List.map_map] at this
    rw [this]
  unfold missingRows
  rw [h.1, hitems]
  by_cases h1 : itemCol ∉ perf.cols
  · simp only [h1, raiseIf]; rfl
  by_cases h2 : nunique (assign.col "item_id") = 0
  · simp only [h1, h2, raiseIf]; rfl
  by_cases h3 : dateCol ∉ perf.cols
  · simp only [h1, h2, h3, raiseIf]; rfl
  simp only [h1, h2, h3, raiseIf, if_false, not_false_eq_true, not_true_eq_false]
  obtain ⟨-, h⟩ := h
  show (match perf'.rows with | [] => _ | r0 :: _ => _) = Except.map _ (match perf.rows with | [] => _ | r0 :: _ => _)
  generalize perf.rows = L, perf'.rows = L' at h ⊢
  cases h with
  | nil => rfl
  | @cons r r' l l' hr _ =>
    refine mapM_map_outcome _ fun i _ => ?_
    have h2 := hr.2
    cases h3 : E.toDate (r dateCol) <;> cases h4 : E.toDate (r' dateCol) <;> rw [h3, h4] at h2
    · cases h2; rfl
    · cases h2
    · cases h2
    · cases h2
      rename_i t
      show (Except.ok _ : Py (Row K)) = Except.ok _
      congr 1
      funext c
      unfold laterRow
      by_cases c1 : c = "item_id"
      · subst c1; simp
      by_cases c2 : c = "date"
      · subst c2
        cases t <;> simp [Cell.ofTime, later]
      · simp [c1, c2]

theorem mergeMissing_later (f : Frame K) (missing : List (Row K)) :
    mergeMissing (laterFrame τ ["date"] f) (missing.map (laterRow τ ["date"])) = laterFrame τ ["date"] (mergeMissing f missing) := by
  unfold mergeMissing laterFrame
  congr 1
  rw [← List.map_append]
  symm
  refine List.map_insertionSort _ _ _ _ fun r _ r' _ => ?_
  simp only [List.map_cons, List.map_nil, keyLe, laterRow_inj, laterRow_le]

theorem mergeRows_later (f : Frame K) (i d : Cell K) :
    mergeRows (laterFrame τ ["date"] f) "item_id" "date" i (later τ d) = (mergeRows f "item_id" "date" i d).map (laterRow τ ["date"]) := by
  unfold mergeRows
  have hf : (laterFrame τ ["date"] f).rows.filter (fun r => decide (r "item_id" = i ∧ r "date" = later τ d)) =
      (f.rows.filter (fun r => decide (r "item_id" = i ∧ r "date" = d))).map (laterRow τ ["date"]) := by
    rw [laterFrame_rows, List.filter_map]
    congr 1
    refine List.filter_congr fun r _ => ?_
    have h1 : laterRow τ ["date"] r "item_id" = r "item_id" := laterRow_of_not_mem (by decide) r
    have h2 : laterRow τ ["date"] r "date" = later τ (r "date") := laterRow_of_mem (by decide) r
    simp only [Function.comp, h1, h2, later_inj]
  simp only [hf, List.isEmpty_map]
  split
  · rw [List.map_singleton]
    congr 1
    funext c
    unfold laterRow
    by_cases c1 : c = "item_id"
    · subst c1; simp
    by_cases c2 : c = "date"
    · subst c2; simp
    · simp [c1, c2]
  · rfl

theorem fillRow_later (f : Frame K) (r : Row K) :
    fillRow (laterFrame τ ["date"] f) "item_id" "date" (laterRow τ ["date"] r) = laterRow τ ["date"] (fillRow f "item_id" "date" r) := by
  funext c
  by_cases h : c = "date"
  · subst h
    simp [fillRow, laterRow]
  · have hc : c ∉ ["date"] := by simpa using h
    rw [laterRow_of_not_mem hc]
    unfold fillRow
    rw [laterRow_of_not_mem hc, laterFrame_col_not_mem hc]

theorem fillMissing_later (f : Frame K) :
    fillMissing (laterFrame τ ["date"] f) "item_id" "date" = (fillMissing f "item_id" "date").map (laterFrame τ ["date"]) := by
  unfold fillMissing
  rw [laterFrame_cols]
  by_cases h1 : "item_id" ∉ f.cols ∨ "date" ∉ f.cols
  · simp only [h1, raiseIf]; rfl
  simp only [h1, raiseIf]
  show (Except.ok _ : Py (Frame K)) = Except.ok _
  congr 1
  unfold laterFrame
  congr 1
  show (dropDup ((laterFrame τ ["date"] f).col "item_id")).flatMap (fun i => (dropDup ((laterFrame τ ["date"] f).col "date")).flatMap _) = _
  rw [laterFrame_col_not_mem (x := "item_id") (by decide), laterFrame_col_mem (x := "date") (by decide), dropDup_map fun a b => later_inj τ]
  rw [List.map_flatMap]
  refine List.flatMap_congr fun i _ => ?_
  rw [List.map_flatMap, List.flatMap_map]
  refine List.flatMap_congr fun d _ => ?_
  show (mergeRows (laterFrame τ ["date"] f) "item_id" "date" i (later τ d)).map _ = _
  rw [mergeRows_later, List.map_map, List.map_map]
  exact List.map_congr_left fun r _ => fillRow_later f r

theorem times_later (l : List (Cell K)) : times (l.map (later τ)) = (times l).map (· + τ) := by
  induction l with
  | nil => rfl
  | cons c l ih =>
    unfold times at *
    rw [List.map_cons, List.filterMap_cons, List.filterMap_cons, ih]
    cases c <;> simp [later]

theorem isTimeColumn_later (l : List (Cell K)) : isTimeColumn (l.map (later τ)) = isTimeColumn l := by
  unfold isTimeColumn
  rw [List.all_map]
  congr 1
  funext c
  cases c <;> rfl

theorem min?_add (l : List ℤ) : (l.map (· + τ)).min? = l.min?.map (· + τ) := by
  cases l with
  | nil => rfl
  | cons a l =>
    rw [List.map_cons, List.min?_cons', List.min?_cons', Option.map_some]
    congr 1
    induction l generalizing a with
    | nil => rfl
    | cons b l ih =>
      rw [List.map_cons, List.foldl_cons, List.foldl_cons, ← ih]
      congr 1
      rw [min_add_add_right]

theorem max?_add (l : List ℤ) : (l.map (· + τ)).max? = l.max?.map (· + τ) := by
  cases l with
  | nil => rfl
  | cons a l =>
    rw [List.map_cons, List.max?_cons', List.max?_cons', Option.map_some]
    congr 1
    induction l generalizing a with
    | nil => rfl
    | cons b l ih =>
      rw [List.map_cons, List.foldl_cons, List.foldl_cons, ← ih]
      congr 1
      rw [max_add_add_right]

theorem gapDays_add (l : List ℤ) : gapDays (l.map (· + τ)) = gapDays l := by
  induction l with
  | nil => rfl
  | cons a l ih =>
    cases l with
    | nil => rfl
    | cons b l =>
      rw [List.map_cons] at ih
      rw [List.map_cons, List.map_cons, gapDays, gapDays, ih, add_sub_add_right_eq_sub]

theorem spacedBy_later (n : ℤ) (l : List (Cell K)) : spacedBy n (l.map (later τ)) = spacedBy n l := by
  unfold spacedBy
  have h : (dropDup (times (l.map (later τ)))).insertionSort (· ≤ ·) = ((dropDup (times l)).insertionSort (· ≤ ·)).map (· + τ) := by
    rw [times_later, dropDup_map fun a b => add_left_inj τ]
    symm
    exact List.map_insertionSort _ _ _ _ fun a _ b _ => (add_le_add_iff_right τ).symm
  simp only [h, gapDays_add, List.isEmpty_map, List.all_map]
  congr 3
  funext c
  simp [Function.comp]

theorem weekId_add (s t : ℤ) : weekId (s + τ) (t + τ) = weekId s t := by
  unfold weekId
  rw [add_sub_add_right_eq_sub]

theorem withWeeks_later (f : Frame K) (t0 : ℤ) :
    withWeeks (laterFrame τ ["date"] f) "date" "week_id" "week_start" (t0 + τ) =
      laterFrame τ ["date", "week_start"] (withWeeks f "date" "week_id" "week_start" t0) := by
  unfold withWeeks
  have h1 := laterFrame_setCol (τ := τ) (S := ["date"]) (T := ["date"]) f "week_id" (fun r => match r "date" with | .time t => .int (weekId t0 t) | _ => .null)
    (fun r => match r "date" with | .time t => .int (weekId (t0 + τ) t) | _ => .null) (fun _ _ => Iff.rfl) (fun r _ => by
      rw [if_neg (by decide), laterRow_of_mem (by decide)]
      cases r "date" <;> simp [later, weekId_add])
  refine (congrArg (fun g => Frame.setCol g "week_start" _) h1).trans ?_
  refine laterFrame_setCol _ "week_start" _ _ (fun x hx => ?_) fun r _ => ?_
  · simp [hx]
  · rw [if_pos (by decide), laterRow_of_not_mem (x := "week_id") (by decide)]
    cases r "week_id" <;> simp [later, weekStart]
    omega

theorem any_isNull_later {S : List String} (f : Frame K) (c : String) :
    (laterFrame τ S f).rows.any (fun r => (r c).isNull) = f.rows.any (fun r => (r c).isNull) := by
  rw [laterFrame_rows, List.any_map]
  congr 1
  funext r
  exact laterRow_isNull r c

theorem addWeeks_later (E : Ext K) (f : Frame K) (s s' : Option String)
    (hs : weekOrigin E (laterFrame τ ["date"] f) "date" s' = (weekOrigin E f "date" s).map (Option.map (· + τ)))
    (hnone : weekOrigin E f "date" s = .ok none → isTimeColumn (f.col "date") = true → f.rows.any (fun r => (r "date").isNull) = false → f.rows = []) :
    addWeeks E (laterFrame τ ["date"] f) "date" s' "week_id" "week_start" =
      (addWeeks E f "date" s "week_id" "week_start").map (laterFrame τ ["date", "week_start"]) := by
  unfold addWeeks
  rw [laterFrame_cols, hs, laterFrame_col_mem (x := "date") (by decide), isTimeColumn_later, any_isNull_later]
  by_cases h1 : "date" ∉ f.cols
  · simp only [h1, raiseIf]; rfl
  by_cases h2 : isTimeColumn (f.col "date") = false
  · simp only [h1, h2, raiseIf]; rfl
  simp only [h1, h2, raiseIf]
  cases h3 : weekOrigin E f "date" s with
  | error e => rfl
  | ok o =>
    by_cases h4 : f.rows.any (fun r => (r "date").isNull) = true
    · simp only [h4]; rfl
    simp only [h4]
    show (Except.ok _ : Py (Frame K)) = Except.ok _
    congr 1
    cases o with
    | some t => exact withWeeks_later f t
    | none =>
      have := hnone h3 (by simpa using h2) (by simpa using h4)
      unfold withWeeks laterFrame Frame.setCol
      simp [this]

theorem addWeeks_later_start (E : Ext K) (f : Frame K) (s s' : String) (hs : E.strptime s' = (E.strptime s).map (· + τ)) :
    addWeeks E (laterFrame τ ["date"] f) "date" (some s') "week_id" "week_start" =
      (addWeeks E f "date" (some s) "week_id" "week_start").map (laterFrame τ ["date", "week_start"]) := by
  refine addWeeks_later E f _ _ ?_ ?_
  · simp only [weekOrigin]
    rw [hs]
    cases E.strptime s <;> rfl
  · simp only [weekOrigin]
    cases E.strptime s
    · intro h; cases h
    · intro h; cases h

theorem addWeeks_later_first (E : Ext K) (f : Frame K) :
    addWeeks E (laterFrame τ ["date"] f) "date" none "week_id" "week_start" =
      (addWeeks E f "date" none "week_id" "week_start").map (laterFrame τ ["date", "week_start"]) := by
  refine addWeeks_later E f _ _ ?_ ?_
  · unfold weekOrigin minTime
    rw [laterFrame_col_mem (x := "date") (by decide), times_later, min?_add]
    rfl
  · unfold weekOrigin minTime isTimeColumn Frame.col
    intro h ht hn
    have h := List.min?_eq_none_iff.mp (Except.ok.inj h)
    cases hr : f.rows with
    | nil => rfl
    | cons r l =>
      exfalso
      rw [hr] at h ht hn
      simp only [List.map_cons, List.all_cons, List.any_cons, Bool.and_eq_true, Bool.or_eq_false_iff] at ht hn
      unfold times at h
      rw [List.map_cons, List.filterMap_cons] at h
      revert h ht hn
      cases r "date" <;> simp [Cell.isNull]

theorem labelRows_later (d : DesignParams K) (start : ℤ) (f : Frame K) {S : List String} (hp : "time_period" ∉ S) :
    labelRows d start "week_id" "time_period" (laterFrame τ S f) = (labelRows d start "week_id" "time_period" f).map (laterFrame τ S) := by
  unfold labelRows
  have hany : (laterFrame τ S f).rows.any (fun r => !(r "week_id").isNumeric) = f.rows.any (fun r => !(r "week_id").isNumeric) := by
    rw [laterFrame_rows, List.any_map]
    congr 1
    funext r
    simp only [Function.comp, laterRow_isNumeric]
  rw [hany]
  by_cases h1 : d.isCrossover = true ∧ d.washout = none
  · simp only [h1, raiseIf]; rfl
  by_cases h2 : f.rows.any (fun r => !(r "week_id").isNumeric) = true
  · simp only [h1, h2, raiseIf]; rfl
  simp only [h1, h2, raiseIf]
  show (Except.ok _ : Py (Frame K)) = Except.ok _
  congr 1
  refine laterFrame_setCol f _ _ _ (fun _ _ => Iff.rfl) fun r _ => ?_
  rw [if_neg hp, laterRow_toFl]

theorem addTimePeriodColumn_later (d : DesignParams K) (start : ℤ) (f : Frame K) {S : List String} (hp : "time_period" ∉ S) :
    addTimePeriodColumn d start "week_id" "time_period" (laterFrame τ S f) =
      (addTimePeriodColumn d start "week_id" "time_period" f).map (laterFrame τ S) := by
  unfold addTimePeriodColumn
  rw [laterFrame_cols, labelRows_later d start f hp]
  by_cases h1 : "time_period" ∈ f.cols
  · simp only [h1, raiseIf]; rfl
  by_cases h2 : "week_id" ∉ f.cols
  · simp only [h1, h2, raiseIf]; rfl
  simp only [h1, h2, raiseIf]; rfl

theorem addAtLeastOne_later {S : List String} (pairs : List (String × String)) (f : Frame K) :
    addAtLeastOne pairs (laterFrame τ S f) = (addAtLeastOne pairs f).map (laterFrame τ S) := by
  induction pairs generalizing f with
  | nil => rfl
  | cons p l ih =>
    obtain ⟨m, new⟩ := p
    unfold addAtLeastOne
    have hany : (laterFrame τ S f).rows.any (fun r => !(r m).isNumeric) = f.rows.any (fun r => !(r m).isNumeric) := by
      rw [laterFrame_rows, List.any_map]
      congr 1
      funext r
      simp only [Function.comp, laterRow_isNumeric]
    rw [laterFrame_cols, hany]
    by_cases h1 : m ∉ f.cols
    · simp only [h1, raiseIf]; rfl
    by_cases h2 : f.rows.any (fun r => !(r m).isNumeric) = true
    · simp only [h1, h2, raiseIf]; rfl
    simp only [h1, h2, raiseIf]
    rw [laterFrame_setCol (T := S) f new (fun r => positiveCell (r m)) _ (fun _ _ => Iff.rfl) fun r _ => ?_]
    · exact ih _
    · unfold positiveCell
      rw [laterRow_toFl]
      simp only [later, ite_self]

theorem mergeAssignment_later {S : List String} (f assign : Frame K) (hS : ∀ x ∈ S, x ∈ f.cols) (hi : "item_id" ∉ S) :
    mergeAssignment (laterFrame τ S f) assign = (mergeAssignment f assign).map (laterFrame τ S) := by
  unfold mergeAssignment
  rw [laterFrame_cols]
  by_cases h1 : assign.cols.any (fun c => decide (c ≠ "item_id" ∧ c ∈ f.cols)) = true
  · simp only [h1, raiseIf]; rfl
  simp only [h1, raiseIf]
  show (Except.ok _ : Py (Frame K)) = Except.ok _
  congr 1
  show Frame.mk _ ((f.rows.map _).flatMap _) = Frame.mk _ ((f.rows.flatMap _).map _)
  congr 1
  rw [List.flatMap_map, List.map_flatMap]
  refine List.flatMap_congr fun r _ => ?_
  rw [laterRow_of_not_mem hi, List.map_map]
  refine List.map_congr_left fun a _ => ?_
  funext c
  simp only [Function.comp, laterRow, joinRow]
  by_cases hc : c ∈ S
  · simp [hc, hS c hc]
  · simp [hc]

end prepare

end Feedx
