import Verif.Proofs.Weeks
import Mathlib.Algebra.Order.Ring.Rat

/-!
C45, C46, C47: week ids and weekly grouping.
-/

set_option linter.unusedSectionVars false
set_option linter.unusedSimpArgs false

namespace Feedx

variable {K : Type}

/-- A day in nanoseconds, for statements. -/
abbrev Spec.day : ℤ := 86400000000000

/-- **C45.**  Adding weeks keeps the rows in order and all other columns, and gives every row the week `w` and week start `s` with
`s = start + 7 w` days and `s ≤ date < s + 7 days`, where `start` is the given experiment start date, or the first date of the data if none is
given.  Dates before the start get negative weeks. -/
theorem C45_weeks_follow_calendar (E : Ext K) (f out : Frame K) (dateCol weekCol startCol : String) (startDate : Option String)
    (hwd : weekCol ≠ dateCol) (hsd : startCol ≠ dateCol) (hws : weekCol ≠ startCol) (hrows : f.rows ≠ [])
    (h : addWeeks E f dateCol startDate weekCol startCol = .ok out) :
    ∃ start : ℤ,
      (∀ s, startDate = some s → E.strptime s = some start) ∧
      (startDate = none → IsLeast {t | Spec.HasDate f dateCol t} start) ∧
      (∀ c, c ∈ out.cols ↔ c ∈ f.cols ∨ c = weekCol ∨ c = startCol) ∧
      List.Forall₂ (fun r r' => ∃ t w s : ℤ, r dateCol = .time t ∧ r' weekCol = .int w ∧ r' startCol = .time s ∧
        s = start + 7 * w * Spec.day ∧ s ≤ t ∧ t < s + 7 * Spec.day ∧
        ∀ c, c ≠ weekCol → c ≠ startCol → r' c = r c) f.rows out.rows := by
  obtain ⟨-, hall, t0, h1, h2, e⟩ := addWeeks_ok h
  refine ⟨t0, h1, fun hn => h2 hn hrows, ?_, ?_⟩
  · intro c
    rw [e]
    unfold withWeeks Frame.setCol
    simp only
    split <;> split <;> simp_all <;> aesop
  · rw [e]
    unfold withWeeks Frame.setCol
    simp only [List.map_map]
    rw [List.forall₂_map_right_iff, List.forall₂_same]
    intro r hr
    obtain ⟨t, ht⟩ := hall r hr
    refine ⟨t, weekId t0 t, weekStart t0 (weekId t0 t), ht, ?_, ?_, ?_, (weekStart_le t0 t).1, (weekStart_le t0 t).2, ?_⟩
    · simp [Function.update, hws, ht]
    · simp [Function.update, hws, ht]
    · unfold weekStart dayNs Spec.day; ring
    · intro c h1 h2
      simp [Function.update, h1, h2]

/-- Adding weeks returns whenever every date is a timestamp and the start date is well formed. -/
theorem C45_returns (E : Ext K) (f : Frame K) (dateCol weekCol startCol : String) (startDate : Option String)
    (hd : dateCol ∈ f.cols) (ht : ∀ r ∈ f.rows, ∃ t, r dateCol = .time t)
    (hs : ∀ s, startDate = some s → (E.strptime s).isSome) :
    ∃ out, addWeeks E f dateCol startDate weekCol startCol = .ok out := addWeeks_returns weekCol startCol hd ht hs

section
variable [Field K] [LinearOrder K]

/-- **C46.**  For daily data the grouping returns exactly one row for exactly those (week, week start, item, extra columns) without missing
values whose rows have 7 distinct dates, and its metrics are the sums over those rows. -/
theorem C46_complete_weeks (f out : Frame K) (dateCol itemCol weekCol startCol : String) (extra : List String)
    (hdaily : Spec.SpacedBy 1 f dateCol) (h : groupWeeks f dateCol itemCol weekCol startCol extra = .ok out) :
    (out.rows.map (fun r => (weekCol :: startCol :: itemCol :: extra).map r)).Nodup ∧
    (∀ k, (∃ r ∈ out.rows, (weekCol :: startCol :: itemCol :: extra).map r = k) ↔
      (∀ c ∈ k, c ≠ .null) ∧ (Spec.datesOf f (weekCol :: startCol :: itemCol :: extra) k dateCol).card = 7) ∧
    (∀ r ∈ out.rows, ∀ c ∈ out.cols, c ∉ weekCol :: startCol :: itemCol :: extra →
      (r c).toFl = sumCol (f.rows.filter (fun r' => decide ((weekCol :: startCol :: itemCol :: extra).map r' =
        (weekCol :: startCol :: itemCol :: extra).map r))) c) ∧
    (∀ c, c ∈ out.cols ↔ c ∈ f.cols ∧ c ≠ dateCol ∧ c ≠ "days_in_week") := by
  obtain ⟨hnd, hdk, hkc, -, hcols, hrows⟩ := groupWeeks_daily_ok h hdaily
  generalize hkeys : weekCol :: startCol :: itemCol :: extra = keys at *
  have hlen : ∀ k ∈ groupKeys f.rows keys, k.length = keys.length := by
    intro k hk
    obtain ⟨⟨r, _, rfl⟩, _⟩ := mem_groupKeys.mp hk
    simp
  have hn : "days_in_week" ∉ keys := by
    unfold groupWeeks at h
    obtain ⟨-, h⟩ := raiseIf_bind_ok.mp h
    obtain ⟨-, h⟩ := raiseIf_bind_ok.mp h
    rw [if_pos (spacedBy_iff.mpr hdaily)] at h
    simp only at h
    obtain ⟨-, h⟩ := raiseIf_bind_ok.mp h
    obtain ⟨h4, -⟩ := raiseIf_bind_ok.mp h
    push Not at h4
    rw [← hkeys]
    exact h4.2.2
  have hdates : ∀ k, nunique ((groupRows f.rows keys k).map (fun r => r dateCol)) = (Spec.datesOf f keys k dateCol).card := by
    intro k
    rw [nunique_eq]
    unfold Spec.datesOf groupRows
    rfl
  have hmap : out.rows.map (fun r => keys.map r) = (groupKeys f.rows keys).filter
      (fun k => decide (nunique ((groupRows f.rows keys k).map (fun r => r dateCol)) = 7)) := by
    rw [hrows, List.map_map]
    conv_rhs => rw [← List.map_id (List.filter _ _)]
    refine List.map_congr_left fun k hk => ?_
    exact weekRow_keys hnd (hlen k (List.mem_of_mem_filter hk))
  refine ⟨?_, ?_, ?_, ?_⟩
  · rw [hmap]
    exact (nodup_groupKeys _ _).filter _
  · intro k
    have : (∃ r ∈ out.rows, keys.map r = k) ↔ k ∈ out.rows.map (fun r => keys.map r) := by rw [List.mem_map]
    rw [this, hmap, List.mem_filter, mem_groupKeys, decide_eq_true_eq, hdates]
    constructor
    · rintro ⟨⟨_, h2⟩, h3⟩
      exact ⟨h2, h3⟩
    · rintro ⟨h2, h3⟩
      refine ⟨⟨?_, h2⟩, h3⟩
      have hne : (Spec.datesOf f keys k dateCol).Nonempty := by
        rw [← Finset.card_pos, h3]; norm_num
      obtain ⟨c, hc⟩ := hne
      unfold Spec.datesOf at hc
      rw [Finset.mem_erase, List.mem_toFinset] at hc
      obtain ⟨r, hr, _⟩ := List.mem_map.mp hc.2
      obtain ⟨hr, e⟩ := List.mem_filter.mp hr
      exact ⟨r, hr, by simpa using e⟩
  · intro r hr c _ hck
    rw [hrows] at hr
    obtain ⟨k, hk, rfl⟩ := List.mem_map.mp hr
    rw [weekRow_keys hnd (hlen k (List.mem_of_mem_filter hk))]
    unfold weekRow
    rw [lookup_zip_none hck]
    simp only
    rw [sumCell_toFl]
    rfl
  · intro c
    rw [hcols]
    simp only [List.mem_append, List.mem_filter, decide_eq_true_eq]
    constructor
    · rintro (hc | ⟨⟨hc, _, h2⟩, h3⟩)
      · exact ⟨hkc c hc, fun e => hdk (e ▸ hc), fun e => hn (e ▸ hc)⟩
      · exact ⟨hc, h2, h3⟩
    · rintro ⟨hc, h2, h3⟩
      by_cases hk : c ∈ keys
      · exact Or.inl hk
      · exact Or.inr ⟨⟨hc, hk, h2⟩, h3⟩

/-- **C46.**  When every date is a whole number of days after the start of its week (as C45 gives for whole-day dates), the weeks
kept are those in which the item has a row on each of the seven days of the week. -/
theorem C46_all_seven_days (f : Frame K) (dateCol itemCol weekCol startCol : String) (extra : List String)
    (hcal : ∀ r ∈ f.rows, ∃ t s, r dateCol = .time t ∧ r startCol = .time s ∧ s ≤ t ∧ t < s + 7 * Spec.day ∧ Spec.day ∣ t - s)
    (w : Cell K) (s : ℤ) (i : Cell K) (e : List (Cell K)) :
    (Spec.datesOf f (weekCol :: startCol :: itemCol :: extra) (w :: .time s :: i :: e) dateCol).card = 7 ↔
      ∀ j : ℤ, 0 ≤ j → j < 7 → ∃ r ∈ f.rows, (weekCol :: startCol :: itemCol :: extra).map r = w :: .time s :: i :: e ∧
        r dateCol = .time (s + j * Spec.day) := by
  set k := w :: Cell.time s :: i :: e with hk
  set keys := weekCol :: startCol :: itemCol :: extra with hkeys
  let days : Finset (Cell K) := (Finset.range 7).image (fun j : ℕ => Cell.time (s + j * Spec.day))
  have hcard : days.card = 7 := by
    rw [Finset.card_image_of_injective]
    · rfl
    · intro a b hab
      simp only [Cell.time.injEq, Spec.day] at hab
      omega
  have hmem : ∀ c, c ∈ Spec.datesOf f keys k dateCol ↔ c ≠ .null ∧ ∃ r ∈ f.rows, keys.map r = k ∧ r dateCol = c := by
    intro c
    unfold Spec.datesOf
    rw [Finset.mem_erase, List.mem_toFinset, List.mem_map]
    simp only [List.mem_filter, decide_eq_true_eq, and_assoc]
  have hsub : Spec.datesOf f keys k dateCol ⊆ days := by
    intro c hc
    obtain ⟨-, r, hr, hrk, rfl⟩ := (hmem c).mp hc
    obtain ⟨t, s', ht, hs', h1, h2, j, hj⟩ := hcal r hr
    have : r startCol = .time s := by
      have := congrArg (fun l => l[1]?) hrk
      simpa [hkeys, hk] using this
    rw [this] at hs'
    cases hs'
    rw [ht]
    refine Finset.mem_image.mpr ⟨j.toNat, ?_, ?_⟩
    · unfold Spec.day at *
      rw [Finset.mem_range]; omega
    · congr 1
      unfold Spec.day at *
      omega
  constructor
  · intro h j hj0 hj7
    have heq : Spec.datesOf f keys k dateCol = days := Finset.eq_of_subset_of_card_le hsub (by rw [hcard, h])
    have : Cell.time (s + j * Spec.day) ∈ Spec.datesOf f keys k dateCol := by
      rw [heq]
      refine Finset.mem_image.mpr ⟨j.toNat, ?_, ?_⟩
      · rw [Finset.mem_range]; omega
      · rw [Int.toNat_of_nonneg hj0]
    obtain ⟨-, r, hr, hrk, e⟩ := (hmem _).mp this
    exact ⟨r, hr, hrk, e⟩
  · intro h
    rw [← hcard]
    congr 1
    refine Finset.Subset.antisymm hsub ?_
    intro c hc
    obtain ⟨j, hj, rfl⟩ := Finset.mem_image.mp hc
    obtain ⟨r, hr, hrk, e⟩ := h j (by omega) (by rw [Finset.mem_range] at hj; omega)
    exact (hmem _).mpr ⟨by simp, r, hr, hrk, e⟩

/-- **C47 (weekly data with at least two dates).**  Data whose consecutive dates are all 7 days apart is returned unchanged except that
the date column is dropped.  Missing from the full claim: data with a single date, see `C47_single_date_false`. -/
theorem C47_weekly_unchanged_partial (f : Frame K) (dateCol itemCol weekCol startCol : String) (extra : List String)
    (hc : dateCol ∈ f.cols) (htime : ∀ r ∈ f.rows, r dateCol = .null ∨ ∃ t, r dateCol = .time t)
    (hweekly : Spec.SpacedBy 7 f dateCol) (htwo : ∃ a b, a ≠ b ∧ Spec.HasDate f dateCol a ∧ Spec.HasDate f dateCol b) :
    ∃ out, groupWeeks f dateCol itemCol weekCol startCol extra = .ok out ∧ out.rows = f.rows ∧
      out.cols = f.cols.filter (fun c => decide (c ≠ dateCol)) := by
  have hnot : ¬ (spacedBy 1 (f.col dateCol) = true) := by
    intro hd
    have hd := spacedBy_iff.mp hd
    -- the smallest date above the minimum is both 1 and 7 days later
    have hs := sorted_dates (f.col dateCol)
    obtain ⟨a, b, hab, ha, hb⟩ := htwo
    rw [hasDate_iff] at ha hb
    match hl : (dropDup (times (f.col dateCol))).insertionSort (· ≤ ·) with
    | [] => rw [hl] at ha; simp at ha
    | [x] =>
      rw [hl] at ha hb
      simp only [List.mem_singleton] at ha hb
      exact hab (ha.trans hb.symm)
    | x :: y :: l =>
      rw [hl] at hs
      have hx : Spec.HasDate f dateCol x := hasDate_iff.mpr (by rw [hl]; simp)
      have hy : Spec.HasDate f dateCol y := hasDate_iff.mpr (by rw [hl]; simp)
      have hxy : x < y := (List.pairwise_cons.mp hs).1 y (by simp)
      have hno : ∀ t, Spec.HasDate f dateCol t → ¬ (x < t ∧ t < y) := by
        intro t ht ⟨h1, h2⟩
        rw [hasDate_iff, hl] at ht
        rcases List.mem_cons.mp ht with rfl | ht
        · exact lt_irrefl _ h1
        · rcases List.mem_cons.mp ht with rfl | ht
          · exact lt_irrefl _ h2
          · exact absurd ((List.pairwise_cons.mp (List.pairwise_cons.mp hs).2).1 t ht) (not_lt.mpr h2.le)
      have h1 := hd.2 x y hx hy hxy hno
      have h7 := hweekly.2 x y hx hy hxy hno
      omega
  unfold groupWeeks
  have htc : isTimeColumn (f.col dateCol) = true := by
    rw [isTimeColumn_iff]
    intro c hc
    obtain ⟨r, hr, rfl⟩ := List.mem_map.mp hc
    exact htime r hr
  refine ⟨f.dropCol dateCol, raiseIf_bind_ok.mpr ⟨not_not.mpr hc, raiseIf_bind_ok.mpr ⟨by simp [htc], ?_⟩⟩, rfl, rfl⟩
  rw [if_neg hnot, if_pos (spacedBy_iff.mpr hweekly)]
  rfl

/-- **C47.**  Data that is neither daily nor weekly raises `ValueError`. -/
theorem C47_mixed_refused (f : Frame K) (dateCol itemCol weekCol startCol : String) (extra : List String)
    (hc : dateCol ∈ f.cols) (htime : ∀ r ∈ f.rows, r dateCol = .null ∨ ∃ t, r dateCol = .time t)
    (h1 : ¬ Spec.SpacedBy 1 f dateCol) (h7 : ¬ Spec.SpacedBy 7 f dateCol) :
    groupWeeks f dateCol itemCol weekCol startCol extra = .error .valueError := by
  unfold groupWeeks
  have htc : isTimeColumn (f.col dateCol) = true := by
    rw [isTimeColumn_iff]
    intro c hc
    obtain ⟨r, hr, rfl⟩ := List.mem_map.mp hc
    exact htime r hr
  refine raiseIf_bind_err.mpr (Or.inr ⟨not_not.mpr hc, raiseIf_bind_err.mpr (Or.inr ⟨by simp [htc], ?_⟩)⟩)
  rw [if_neg (fun h => h1 (spacedBy_iff.mp h)), if_neg (fun h => h7 (spacedBy_iff.mp h))]

end

/-- One item with one weekly row. -/
def singleWeek : Frame ℚ where
  cols := ["item_id", "date", "clicks", "week_id", "week_start"]
  rows := [fun c => if c = "item_id" then .str "a" else if c = "date" then .time 0 else if c = "clicks" then .num 3
    else if c = "week_id" then .int 0 else if c = "week_start" then .time 0 else .null]

/-- **C47 fails for a single date.**  One week of weekly data (its consecutive dates are all 7 days apart) is taken for daily data with an
incomplete week, and every row is dropped. -/
theorem C47_single_date_false : Spec.SpacedBy 7 singleWeek "date" ∧ singleWeek.rows ≠ [] ∧
    ∃ out, groupWeeks singleWeek "date" "item_id" "week_id" "week_start" [] = .ok out ∧ out.rows = [] := by
  refine ⟨spacedBy_iff.mp (by decide +kernel), by simp [singleWeek], ?_⟩
  have hd : spacedBy 1 (singleWeek.col "date") = true := by decide +kernel
  have hret : ∃ out, groupWeeks singleWeek "date" "item_id" "week_id" "week_start" [] = .ok out := by
    unfold groupWeeks
    rw [if_pos hd]
    exact ⟨_, raiseIf_bind_ok.mpr ⟨by decide, raiseIf_bind_ok.mpr ⟨by decide +kernel, raiseIf_bind_ok.mpr ⟨by decide +kernel,
      raiseIf_bind_ok.mpr ⟨by decide +kernel, raiseIf_bind_ok.mpr ⟨by decide +kernel, rfl⟩⟩⟩⟩⟩⟩
  obtain ⟨out, ho⟩ := hret
  refine ⟨out, ho, ?_⟩
  obtain ⟨-, -, -, -, -, hr⟩ := groupWeeks_daily_ok ho (spacedBy_iff.mp hd)
  rw [hr, List.map_eq_nil_iff, List.filter_eq_nil_iff]
  intro k _
  have : (groupRows singleWeek.rows ("week_id" :: "week_start" :: "item_id" :: []) k).length ≤ 1 := by
    unfold groupRows
    exact List.length_filter_le _ _
  have h2 : nunique ((groupRows singleWeek.rows ("week_id" :: "week_start" :: "item_id" :: []) k).map (fun r => r "date")) ≤ 1 := by
    refine le_trans ?_ this
    unfold nunique
    have hl : ∀ l : List (Cell ℚ), (dropDup l).length ≤ l.length := by
      intro l
      induction l with
      | nil => simp [dropDup]
      | cons a l ih =>
        simp only [dropDup, List.length_cons]
        have := List.length_filter_le (fun b => decide (b ≠ a)) (dropDup l)
        omega
    refine le_trans (hl _) (le_trans (List.length_filter_le _ _) ?_)
    simp
  simp only [decide_eq_true_eq]
  omega

/-- Nine daily rows of one item: one complete week and an incomplete one. -/
def nineDays : Frame ℚ where
  cols := ["item_id", "date", "clicks"]
  rows := (List.range 9).map (fun n c => if c = "item_id" then .str "a" else if c = "date" then .time (n * 86400000000000)
    else if c = "clicks" then .num n else .null)

/-- A conversion for the examples; its start date is the third day. -/
def exampleExt : Ext ℚ where
  toStr := fun c => match c with | .str s => s | .int 7 => "7" | _ => "a"
  toStr_str := fun _ => rfl
  toInt := fun c => match c with | .int i => .ok i | _ => .error .valueError
  toInt_int := fun _ => rfl
  toDate := fun c => match c with | .time t => .ok (some t) | _ => .ok none
  toNumeric := fun c => .ok c.toFl
  toFloat := fun c => .ok c.toFl
  strptime := fun s => if s = "2024-01-03" then some (2 * 86400000000000) else none

/-- C45 is not vacuous, with and without a start date. -/
example : (addWeeks exampleExt nineDays "date" none "week_id" "week_start").map (fun out => out.col "week_id") =
      .ok [.int 0, .int 0, .int 0, .int 0, .int 0, .int 0, .int 0, .int 1, .int 1] ∧
    (addWeeks exampleExt nineDays "date" (some "2024-01-03") "week_id" "week_start").map (fun out => out.col "week_id") =
      .ok [.int (-1), .int (-1), .int 0, .int 0, .int 0, .int 0, .int 0, .int 0, .int 0] := by
  decide +kernel

/-- C46 is not vacuous: nine days of one item are daily data, and the one complete week is kept with its total. -/
example : (addWeeks exampleExt nineDays "date" none "week_id" "week_start" >>= fun f =>
      groupWeeks f "date" "item_id" "week_id" "week_start" []).map (fun out => (out.cols, out.table)) =
    .ok (["week_id", "week_start", "item_id", "clicks"], [[.int 0, .time 0, .str "a", .num 21]]) := by
  decide +kernel

/-- Two weekly rows. -/
def twoWeeks : Frame ℚ where
  cols := ["item_id", "date", "clicks"]
  rows := [fun c => if c = "item_id" then .str "a" else if c = "date" then .time 0 else if c = "clicks" then .num 3 else .null,
    fun c => if c = "item_id" then .str "a" else if c = "date" then .time (7 * 86400000000000) else if c = "clicks" then .num 4
      else .null]

/-- C47 is not vacuous: two weekly rows are weekly data with two dates; rows three days apart are neither daily nor weekly. -/
example : (Spec.SpacedBy 7 twoWeeks "date" ∧ ∃ a b, a ≠ b ∧ Spec.HasDate twoWeeks "date" a ∧ Spec.HasDate twoWeeks "date" b) ∧
    (¬ Spec.SpacedBy 1 (twoWeeks.setCol "date" (fun r => match r "date" with | .time t => .time (t / 7 * 3) | c => c)) "date" ∧
     ¬ Spec.SpacedBy 7 (twoWeeks.setCol "date" (fun r => match r "date" with | .time t => .time (t / 7 * 3) | c => c)) "date") := by
  refine ⟨⟨spacedBy_iff.mp (by decide +kernel), 0, 7 * 86400000000000, by norm_num, ⟨_, by simp [twoWeeks]; left; rfl, rfl⟩,
    ⟨_, by simp [twoWeeks]; right; rfl, rfl⟩⟩, ?_, ?_⟩
  · rw [← spacedBy_iff]; decide +kernel
  · rw [← spacedBy_iff]; decide +kernel

end Feedx
