import Verif.Proofs.Prepare
import Mathlib.Data.List.MinMax
import Mathlib.Data.List.Sort

/-!
Lemmas about week ids and weekly grouping.
-/

set_option linter.unusedSectionVars false
set_option linter.unusedSimpArgs false

namespace Feedx

variable {K : Type}

theorem mem_times {l : List (Cell K)} {t : ℤ} : t ∈ times l ↔ Cell.time t ∈ l := by
  unfold times
  rw [List.mem_filterMap]
  constructor
  · rintro ⟨c, hc, e⟩
    cases c <;> simp_all
  · intro h
    exact ⟨_, h, rfl⟩

theorem minTime_some {l : List (Cell K)} {t : ℤ} (h : minTime l = some t) : IsLeast {t | Cell.time t ∈ l} t := by
  unfold minTime at h
  rw [List.min?_eq_some_iff] at h
  refine ⟨mem_times.mp h.1, fun t' ht' => h.2 t' (mem_times.mpr ht')⟩

theorem minTime_none {l : List (Cell K)} (h : minTime l = none) (t : ℤ) : Cell.time t ∉ l := by
  unfold minTime at h
  rw [List.min?_eq_none_iff] at h
  intro ht
  rw [← mem_times, h] at ht
  simp at ht

theorem maxTime_some {l : List (Cell K)} {t : ℤ} (h : maxTime l = some t) : IsGreatest {t | Cell.time t ∈ l} t := by
  unfold maxTime at h
  rw [List.max?_eq_some_iff] at h
  refine ⟨mem_times.mp h.1, fun t' ht' => h.2 t' (mem_times.mpr ht')⟩

/-- The week of a date contains it. -/
theorem weekStart_le (t0 t : ℤ) : weekStart t0 (weekId t0 t) ≤ t ∧ t < weekStart t0 (weekId t0 t) + 7 * dayNs := by
  unfold weekStart weekId daysOf dayNs
  omega

theorem weekId_unique {t0 t w : ℤ} (h1 : weekStart t0 w ≤ t) (h2 : t < weekStart t0 w + 7 * dayNs) : weekId t0 t = w := by
  unfold weekStart weekId daysOf dayNs at *
  omega

theorem isTimeColumn_iff {l : List (Cell K)} : isTimeColumn l = true ↔ ∀ c ∈ l, c = .null ∨ ∃ t, c = .time t := by
  unfold isTimeColumn
  rw [List.all_eq_true]
  refine forall_congr' fun c => forall_congr' fun _ => ?_
  cases c <;> simp

theorem isNull_iff {c : Cell K} : c.isNull = true ↔ c = .null := by
  cases c <;> simp [Cell.isNull]

/-- What adding weeks returns. -/
theorem addWeeks_ok {E : Ext K} {f out : Frame K} {dateCol weekCol startCol : String} {startDate : Option String}
    (h : addWeeks E f dateCol startDate weekCol startCol = .ok out) :
    dateCol ∈ f.cols ∧ (∀ r ∈ f.rows, ∃ t, r dateCol = .time t) ∧
    ∃ t0, (∀ s, startDate = some s → E.strptime s = some t0) ∧
      (startDate = none → f.rows ≠ [] → IsLeast {t | Spec.HasDate f dateCol t} t0) ∧ out = withWeeks f dateCol weekCol startCol t0 := by
  unfold addWeeks at h
  obtain ⟨h1, h⟩ := raiseIf_bind_ok.mp h
  obtain ⟨h2, h⟩ := raiseIf_bind_ok.mp h
  obtain ⟨start, hs, h⟩ := Py.bind_eq_ok.mp h
  obtain ⟨h3, h⟩ := raiseIf_bind_ok.mp h
  have hall : ∀ r ∈ f.rows, ∃ t, r dateCol = .time t := by
    intro r hr
    have h2' := (isTimeColumn_iff (l := f.col dateCol)).mp (by simpa using h2) (r dateCol) (List.mem_map.mpr ⟨r, hr, rfl⟩)
    rcases h2' with e | ⟨t, e⟩
    · refine absurd ?_ h3
      rw [List.any_eq_true]
      exact ⟨r, hr, by rw [e]; rfl⟩
    · exact ⟨t, e⟩
  refine ⟨not_not.mp h1, hall, start.getD 0, ?_, ?_, by cases h; rfl⟩
  · rintro s rfl
    unfold weekOrigin at hs
    simp only at hs
    cases hp : E.strptime s with
    | none => rw [hp] at hs; cases hs
    | some t => rw [hp] at hs; cases hs; rfl
  · rintro rfl hne
    cases hs
    cases hm : minTime (f.col dateCol) with
    | none =>
      exfalso
      obtain ⟨r, hr⟩ := List.exists_mem_of_ne_nil _ hne
      obtain ⟨t, e⟩ := hall r hr
      exact minTime_none hm t (by rw [← e]; exact List.mem_map.mpr ⟨r, hr, rfl⟩)
    | some t =>
      have := minTime_some hm
      simpa [Spec.HasDate, Frame.col] using this

/-- Adding weeks returns when all dates are timestamps and the start date is well formed. -/
theorem addWeeks_returns {E : Ext K} {f : Frame K} {dateCol : String} (weekCol startCol : String) {startDate : Option String}
    (hd : dateCol ∈ f.cols) (ht : ∀ r ∈ f.rows, ∃ t, r dateCol = .time t)
    (hs : ∀ s, startDate = some s → (E.strptime s).isSome) :
    ∃ out, addWeeks E f dateCol startDate weekCol startCol = .ok out := by
  have h1 : isTimeColumn (f.col dateCol) = true := by
    rw [isTimeColumn_iff]
    intro c hc
    obtain ⟨r, hr, rfl⟩ := List.mem_map.mp hc
    exact Or.inr (ht r hr)
  have h2 : ¬ (f.rows.any (fun r => (r dateCol).isNull) = true) := by
    rw [List.any_eq_true]
    rintro ⟨r, hr, hn⟩
    obtain ⟨t, e⟩ := ht r hr
    rw [e] at hn
    simp [Cell.isNull] at hn
  have h3 : ∃ start, weekOrigin E f dateCol startDate = .ok start := by
    unfold weekOrigin
    cases startDate with
    | none => exact ⟨_, rfl⟩
    | some s =>
      obtain ⟨t0, e⟩ := Option.isSome_iff_exists.mp (hs s rfl)
      exact ⟨some t0, by simp [e]⟩
  obtain ⟨start, h3⟩ := h3
  exact ⟨withWeeks f dateCol weekCol startCol (start.getD 0), raiseIf_bind_ok.mpr ⟨not_not.mpr hd,
    raiseIf_bind_ok.mpr ⟨by simp [h1], Py.bind_eq_ok.mpr ⟨start, h3, raiseIf_bind_ok.mpr ⟨h2, rfl⟩⟩⟩⟩⟩

theorem gapDays_all {n : ℤ} {l : List ℤ} (hl : l.Pairwise (· < ·)) :
    (gapDays l).all (fun g => decide (g = n)) = true ↔
      ∀ a ∈ l, ∀ b ∈ l, a < b → (∀ t ∈ l, ¬ (a < t ∧ t < b)) → n * dayNs ≤ b - a ∧ b - a < (n + 1) * dayNs := by
  match l with
  | [] => simp [gapDays]
  | [a] =>
    simp only [gapDays, List.all_nil, List.mem_singleton, true_iff]
    rintro x rfl y rfl h
    exact absurd h (lt_irrefl _)
  | a :: b :: l =>
    rw [gapDays, List.all_cons, Bool.and_eq_true, gapDays_all (List.pairwise_cons.mp hl).2]
    have hab : a < b := (List.pairwise_cons.mp hl).1 b (by simp)
    have hal : ∀ x ∈ b :: l, a < x := (List.pairwise_cons.mp hl).1
    have hbl : ∀ x ∈ l, b < x := (List.pairwise_cons.mp (List.pairwise_cons.mp hl).2).1
    have hgap : (decide (daysOf (b - a) = n)) = true ↔ n * dayNs ≤ b - a ∧ b - a < (n + 1) * dayNs := by
      unfold daysOf dayNs
      rw [decide_eq_true_eq]
      omega
    rw [hgap]
    constructor
    · rintro ⟨h1, h2⟩ x hx y hy hxy hno
      rcases List.mem_cons.mp hx with rfl | hx'
      · rcases List.mem_cons.mp hy with rfl | hy
        · exact absurd hxy (lt_irrefl _)
        · rcases List.mem_cons.mp hy with rfl | hy
          · exact h1
          · exact absurd ⟨hab, hbl y hy⟩ (hno b (by simp))
      · rcases List.mem_cons.mp hy with rfl | hy'
        · exact absurd (hal x hx') (not_lt.mpr hxy.le)
        · exact h2 x hx' y hy' hxy fun t ht => hno t (List.mem_cons_of_mem _ ht)
    · intro h
      refine ⟨h a (by simp) b (by simp) hab ?_, ?_⟩
      · intro t ht ⟨h1, h2⟩
        rcases List.mem_cons.mp ht with rfl | ht
        · exact lt_irrefl _ h1
        · rcases List.mem_cons.mp ht with rfl | ht
          · exact lt_irrefl _ h2
          · exact absurd (hbl t ht) (not_lt.mpr h2.le)
      · intro x hx y hy hxy hno
        refine h x (List.mem_cons_of_mem _ hx) y (List.mem_cons_of_mem _ hy) hxy ?_
        intro t ht hb
        rcases List.mem_cons.mp ht with rfl | ht
        · exact absurd (hal x hx) (not_lt.mpr hb.1.le)
        · exact hno t ht hb

theorem sorted_dates (l : List (Cell K)) : ((dropDup (times l)).insertionSort (· ≤ ·)).Pairwise (· < ·) := by
  have h1 : ((dropDup (times l)).insertionSort (· ≤ ·)).Pairwise (· ≤ ·) := List.pairwise_insertionSort (· ≤ ·) _
  have h2 : ((dropDup (times l)).insertionSort (· ≤ ·)).Nodup :=
    (List.perm_insertionSort _ _).nodup_iff.mpr (nodup_dropDup _)
  exact (h1.and h2).imp fun h => lt_of_le_of_ne h.1 h.2

theorem hasDate_iff {f : Frame K} {dateCol : String} {t : ℤ} :
    Spec.HasDate f dateCol t ↔ t ∈ (dropDup (times (f.col dateCol))).insertionSort (· ≤ ·) := by
  rw [List.mem_insertionSort, mem_dropDup, mem_times]
  unfold Spec.HasDate Frame.col
  rw [List.mem_map]

theorem spacedBy_iff {n : ℤ} {f : Frame K} {dateCol : String} :
    spacedBy n (f.col dateCol) = true ↔ Spec.SpacedBy n f dateCol := by
  unfold spacedBy Spec.SpacedBy
  simp only [Bool.and_eq_true]
  rw [gapDays_all (sorted_dates _), and_comm]
  refine and_congr ?_ ?_
  · rw [Bool.or_eq_true, List.isEmpty_iff, List.all_eq_true]
    constructor
    · rintro (h | h) t ht r hr
      · rw [hasDate_iff, h] at ht
        simp at ht
      · intro e
        have := h (r dateCol) (List.mem_map.mpr ⟨r, hr, rfl⟩)
        rw [e] at this
        simp [Cell.isNull] at this
    · intro h
      by_cases he : (dropDup (times (f.col dateCol))).insertionSort (· ≤ ·) = []
      · exact Or.inl he
      · right
        intro c hc
        obtain ⟨r, hr, rfl⟩ := List.mem_map.mp hc
        obtain ⟨t, ht⟩ := List.exists_mem_of_ne_nil _ he
        have := h t (hasDate_iff.mpr ht) r hr
        cases hr' : r dateCol <;> simp_all [Cell.isNull]
  · constructor
    · intro h a b ha hb hab hno
      exact h a (hasDate_iff.mp ha) b (hasDate_iff.mp hb) hab fun t ht => hno t (hasDate_iff.mpr ht)
    · intro h a ha b hb hab hno
      exact h a b (hasDate_iff.mpr ha) (hasDate_iff.mpr hb) hab fun t ht => hno t (hasDate_iff.mp ht)

section group
variable [Field K] [LinearOrder K]

theorem toFl_ofFl (x : Fl K) : (Cell.ofFl x).toFl = x := by
  cases x <;> rfl

theorem sumCell_toFl (rows : List (Row K)) (c : String) : (sumCell rows c).toFl = sumCol rows c := by
  unfold sumCell
  split
  · rename_i h
    unfold sumCol
    rw [List.all_eq_true] at h
    have : rows.map (fun r => (r c).toFl) = (rows.map (fun r => ((match r c with | .int i => i | _ => 0 : ℤ) : K))).map Fl.fin := by
      rw [List.map_map]
      refine List.map_congr_left fun r hr => ?_
      have := h r hr
      cases hc : r c <;> simp_all [Cell.toFl]
    rw [this, Fl.sumSkip_fin]
    simp only [Cell.toFl]
    congr 1
    clear this h
    induction rows with
    | nil => simp
    | cons r rows ih =>
      simp only [List.map_cons, List.sum_cons, Int.cast_add, ih]
      cases r c <;> rfl
  · exact toFl_ofFl _

theorem nunique_eq (l : List (Cell K)) : nunique l = (l.toFinset.erase .null).card := by
  unfold nunique
  rw [← List.toFinset_card_of_nodup (nodup_dropDup _)]
  congr 1
  ext c
  rw [List.mem_toFinset, mem_dropDup, List.mem_filter, Finset.mem_erase, List.mem_toFinset]
  cases c <;> simp [Cell.isNull]

theorem lookup_zip {α β : Type} [BEq α] [LawfulBEq α] {keys : List α} {k : List β} (hnd : keys.Nodup) (hlen : k.length = keys.length) :
    keys.map (fun c => (keys.zip k).lookup c) = k.map some := by
  induction keys generalizing k with
  | nil => cases k <;> simp_all
  | cons a keys ih =>
    cases k with
    | nil => simp at hlen
    | cons b k =>
      rw [List.nodup_cons] at hnd
      simp only [List.zip_cons_cons, List.map_cons, List.lookup_cons_self, List.cons.injEq, true_and]
      rw [← ih hnd.2 (by simpa using hlen)]
      refine List.map_congr_left fun c hc => ?_
      rw [List.lookup_cons]
      have : (c == a) = false := by
        rw [beq_eq_false_iff_ne]; rintro rfl; exact hnd.1 hc
      rw [this]

theorem lookup_zip_none {α β : Type} [BEq α] [LawfulBEq α] {keys : List α} {k : List β} {c : α} (hc : c ∉ keys) :
    (keys.zip k).lookup c = none := by
  induction keys generalizing k with
  | nil => simp
  | cons a keys ih =>
    cases k with
    | nil => simp
    | cons b k =>
      rw [List.mem_cons, not_or] at hc
      rw [List.zip_cons_cons, List.lookup_cons]
      have : (c == a) = false := by rw [beq_eq_false_iff_ne]; exact hc.1
      rw [this]
      exact ih hc.2

theorem weekRow_keys {rows : List (Row K)} {keys : List String} {k : List (Cell K)} (hnd : keys.Nodup)
    (hk : k.length = keys.length) : keys.map (weekRow rows keys k) = k := by
  have h := lookup_zip (k := k) hnd hk
  have e : keys.map (weekRow rows keys k) = keys.map (fun c => ((keys.zip k).lookup c).getD .null) := by
    refine List.map_congr_left fun c hc => ?_
    unfold weekRow
    have : (keys.zip k).lookup c ∈ k.map some := by
      rw [← h]; exact List.mem_map.mpr ⟨c, hc, rfl⟩
    obtain ⟨v, _, e⟩ := List.mem_map.mp this
    rw [← e]; rfl
  rw [e]
  have := congrArg (List.map (fun o : Option (Cell K) => o.getD .null)) h
  simpa [Function.comp_def] using this

/-- The daily branch of the weekly grouping. -/
theorem groupWeeks_daily_ok {f out : Frame K} {dateCol itemCol weekCol startCol : String} {extra : List String}
    (h : groupWeeks f dateCol itemCol weekCol startCol extra = .ok out) (hd : Spec.SpacedBy 1 f dateCol) :
    (weekCol :: startCol :: itemCol :: extra).Nodup ∧ dateCol ∉ (weekCol :: startCol :: itemCol :: extra) ∧
    (∀ c ∈ (weekCol :: startCol :: itemCol :: extra), c ∈ f.cols) ∧
    (∀ r ∈ f.rows, ∀ c ∈ f.cols, c ∉ (weekCol :: startCol :: itemCol :: extra) → c ≠ dateCol → (r c).isNumeric = true) ∧
    out.cols = (weekCol :: startCol :: itemCol :: extra) ++ (f.cols.filter (fun c => decide (c ∉ weekCol :: startCol :: itemCol :: extra ∧
      c ≠ dateCol))).filter (fun c => decide (c ≠ "days_in_week")) ∧
    out.rows = ((groupKeys f.rows (weekCol :: startCol :: itemCol :: extra)).filter
      (fun k => decide (nunique ((groupRows f.rows (weekCol :: startCol :: itemCol :: extra) k).map (fun r => r dateCol)) = 7))).map
      (weekRow f.rows (weekCol :: startCol :: itemCol :: extra)) := by
  unfold groupWeeks at h
  obtain ⟨h1, h⟩ := raiseIf_bind_ok.mp h
  obtain ⟨h2, h⟩ := raiseIf_bind_ok.mp h
  rw [if_pos (spacedBy_iff.mpr hd)] at h
  simp only at h
  obtain ⟨h3, h⟩ := raiseIf_bind_ok.mp h
  obtain ⟨h4, h⟩ := raiseIf_bind_ok.mp h
  obtain ⟨h5, h⟩ := raiseIf_bind_ok.mp h
  cases h
  push Not at h4
  refine ⟨h4.1, h4.2.1, ?_, ?_, rfl, rfl⟩
  · intro c hc
    by_contra hcf
    refine h3 ?_
    rw [List.any_eq_true]
    exact ⟨c, hc, by simpa using hcf⟩
  · intro r hr c hcf hc hcd
    by_contra hn
    refine h5 ?_
    rw [List.any_eq_true]
    refine ⟨r, hr, ?_⟩
    rw [List.any_eq_true]
    exact ⟨c, List.mem_filter.mpr ⟨hcf, by simpa using ⟨by simpa using hc, hcd⟩⟩, by simpa using hn⟩

end group

end Feedx
