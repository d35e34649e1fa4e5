import Verif.Props.History

/-!
C108: the items of prepared historical data are the ids of the raw data.
-/

namespace Feedx

variable {K : Type} [Field K] [LinearOrder K] [IsStrictOrderedRing K] [FloorRing K]

/-- The total of the values of the rows with a given id in the week that starts at `s`. -/
def Spec.idTotal (raw : Frame K) (itemCol : String) (time : Row K → ℤ) (value : Row K → K) (id : Cell K) (s : ℤ) : K :=
  ((raw.rows.filter (fun q => decide (q itemCol = id ∧ s ≤ time q ∧ time q < s + 7 * 86400000000000))).map value).sum

theorem texts_pos {E : Ext K} {raw : Frame K} {itemCol : String} (h : raw.rows ≠ []) :
    (1 : K) ≤ 1 * ((raw.rows.map (fun q => E.toStr (q itemCol))).toFinset.card : K) := by
  obtain ⟨q, hq⟩ := List.exists_mem_of_ne_nil _ h
  have : 0 < (raw.rows.map (fun q => E.toStr (q itemCol))).toFinset.card :=
    Finset.card_pos.mpr ⟨_, List.mem_toFinset.mpr (List.mem_map.mpr ⟨q, hq, rfl⟩)⟩
  rw [one_mul]
  exact_mod_cast this

/-- **C108, the part that holds.**  If every id is a text, the prepared data has exactly those items, and each row holds the total of the rows
with its id. -/
theorem C108_text_ids_partial (R : Rounding K) (rng : Sampler (Cell K)) (E : Ext K) (S : DateSorter K) (raw : Frame K)
    (itemCol dateCol primary primaryCol : String) (first step n : ℤ) (time : Row K → ℤ) (value : Row K → K)
    (U : Spec.UsableRaw E raw itemCol dateCol primary primaryCol first step n time value) (hne : raw.rows ≠ [])
    (hsize : (raw.rows.map (fun q => E.toStr (q itemCol))).toFinset.card ≤ 2 ^ 53) (hpos : ∀ q ∈ raw.rows, 0 ≤ value q)
    (htext : ∀ q ∈ raw.rows, ∃ id, q itemCol = .str id) :
    ∃ out, prepareHistorical R rng E S raw itemCol dateCol primary primaryCol 1 [] = .ok out ∧
      (∀ i, i ∈ out.col "item_id" ↔ i ∈ raw.col itemCol) ∧
      ∀ r ∈ out.rows, ∃ s, r "week_start" = .time s ∧
        (r (Spec.metricName primary primaryCol)).toFl = .fin (Spec.idTotal raw itemCol time value (r "item_id") s) := by
  obtain ⟨out, h1, -, -, h4, -, h6⟩ := C96_accepted R rng E S raw itemCol dateCol primary primaryCol 1 first step n time value U one_pos (le_refl _)
    (texts_pos hne) hsize [] (by simp) (Or.inr hpos)
  refine ⟨out, h1, ?_, ?_⟩
  · intro i
    rw [h4 rfl]
    constructor
    · rintro ⟨q, hq, rfl⟩
      obtain ⟨id, hid⟩ := htext q hq
      refine List.mem_map.mpr ⟨q, hq, ?_⟩
      rw [hid, E.toStr_str]
    · intro hi
      obtain ⟨q, hq, rfl⟩ := List.mem_map.mp hi
      obtain ⟨id, hid⟩ := htext q hq
      exact ⟨q, hq, by rw [hid, E.toStr_str]⟩
  · intro r hr
    obtain ⟨w, item, e1, -, e3, e4⟩ := h6 r hr
    refine ⟨_, e3, ?_⟩
    rw [e4, e1]
    unfold Spec.weekTotal Spec.idTotal
    congr 3
    refine List.filter_congr fun q hq => ?_
    obtain ⟨id, hid⟩ := htext q hq
    rw [hid, E.toStr_str]
    simp

/-- **C108 fails.**  Rows without an id are not reported: whatever else is in the table, they become one item, named by the text of a missing value,
and its numbers are the totals of all those rows (unless another id has the same text). -/
theorem C108_missing_ids_false (R : Rounding K) (rng : Sampler (Cell K)) (E : Ext K) (S : DateSorter K) (raw : Frame K)
    (itemCol dateCol primary primaryCol : String) (first step n : ℤ) (time : Row K → ℤ) (value : Row K → K)
    (U : Spec.UsableRaw E raw itemCol dateCol primary primaryCol first step n time value)
    (hsize : (raw.rows.map (fun q => E.toStr (q itemCol))).toFinset.card ≤ 2 ^ 53) (hpos : ∀ q ∈ raw.rows, 0 ≤ value q)
    (hnull : ∃ q ∈ raw.rows, q itemCol = .null) (hother : ∀ q ∈ raw.rows, E.toStr (q itemCol) = E.toStr .null → q itemCol = .null) :
    ∃ out, prepareHistorical R rng E S raw itemCol dateCol primary primaryCol 1 [] = .ok out ∧
      .str (E.toStr .null) ∈ out.col "item_id" ∧
      ∀ r ∈ out.rows, r "item_id" = .str (E.toStr .null) → ∃ s, r "week_start" = .time s ∧
        (r (Spec.metricName primary primaryCol)).toFl = .fin (Spec.idTotal raw itemCol time value .null s) := by
  obtain ⟨q, hq, hqn⟩ := hnull
  obtain ⟨out, h1, -, -, h4, -, h6⟩ := C96_accepted R rng E S raw itemCol dateCol primary primaryCol 1 first step n time value U one_pos (le_refl _)
    (texts_pos (List.ne_nil_of_mem hq)) hsize [] (by simp) (Or.inr hpos)
  refine ⟨out, h1, (h4 rfl _).mpr ⟨q, hq, by rw [hqn]⟩, ?_⟩
  intro r hr hi
  obtain ⟨w, item, e1, -, e3, e4⟩ := h6 r hr
  refine ⟨_, e3, ?_⟩
  obtain rfl : item = E.toStr .null := Cell.str.inj (e1.symm.trans hi)
  rw [e4]
  unfold Spec.weekTotal Spec.idTotal
  congr 3
  refine List.filter_congr fun q hq => ?_
  have : E.toStr (q itemCol) = E.toStr .null ↔ q itemCol = .null := ⟨hother q hq, fun h => by rw [h]⟩
  simp only [this]

/-- **C108 fails.**  Ids of different types with the same text, like the number 7 and the text "7", become one item. -/
theorem C108_same_text_false (R : Rounding K) (rng : Sampler (Cell K)) (E : Ext K) (S : DateSorter K) (raw : Frame K)
    (itemCol dateCol primary primaryCol : String) (first step n : ℤ) (time : Row K → ℤ) (value : Row K → K)
    (U : Spec.UsableRaw E raw itemCol dateCol primary primaryCol first step n time value) (hne : raw.rows ≠ [])
    (hsize : (raw.rows.map (fun q => E.toStr (q itemCol))).toFinset.card ≤ 2 ^ 53) (hpos : ∀ q ∈ raw.rows, 0 ≤ value q)
    (a b : Cell K) (hab : a ≠ b) (ht : E.toStr a = E.toStr b) (hother : ∀ q ∈ raw.rows, E.toStr (q itemCol) = E.toStr a → q itemCol = a ∨ q itemCol = b) :
    ∃ out, prepareHistorical R rng E S raw itemCol dateCol primary primaryCol 1 [] = .ok out ∧
      ∀ r ∈ out.rows, r "item_id" = .str (E.toStr a) → ∃ s, r "week_start" = .time s ∧
        (r (Spec.metricName primary primaryCol)).toFl =
          .fin (Spec.idTotal raw itemCol time value a s + Spec.idTotal raw itemCol time value b s) := by
  obtain ⟨out, h1, -, -, h4, -, h6⟩ := C96_accepted R rng E S raw itemCol dateCol primary primaryCol 1 first step n time value U one_pos (le_refl _)
    (texts_pos hne) hsize [] (by simp) (Or.inr hpos)
  refine ⟨out, h1, ?_⟩
  intro r hr hi
  obtain ⟨w, item, e1, -, e3, e4⟩ := h6 r hr
  refine ⟨_, e3, ?_⟩
  obtain rfl : item = E.toStr a := Cell.str.inj (e1.symm.trans hi)
  rw [e4]
  congr 1
  unfold Spec.weekTotal Spec.idTotal
  have key : ∀ l : List (Row K), (∀ q ∈ l, q ∈ raw.rows) → ∀ s,
      ((l.filter (fun q => decide (E.toStr (q itemCol) = E.toStr a ∧ s ≤ time q ∧ time q < s + 7 * 86400000000000))).map value).sum =
      ((l.filter (fun q => decide (q itemCol = a ∧ s ≤ time q ∧ time q < s + 7 * 86400000000000))).map value).sum +
      ((l.filter (fun q => decide (q itemCol = b ∧ s ≤ time q ∧ time q < s + 7 * 86400000000000))).map value).sum := by
    intro l
    induction l with
    | nil => intro _ s; simp
    | cons q l ih =>
      intro hl s
      have ih := ih (fun q hq => hl q (List.mem_cons_of_mem _ hq)) s
      have hq := hother q (hl q List.mem_cons_self)
      simp only [List.filter_cons]
      by_cases hs : s ≤ time q ∧ time q < s + 7 * 86400000000000
      · by_cases h1 : q itemCol = a
        · have h2 : ¬ q itemCol = b := by rw [h1]; exact hab
          simp only [h1, hs, hab, ih, if_true, if_false, decide_true, decide_false, and_self, false_and, Bool.false_eq_true, List.map_cons, List.sum_cons]
          ring
        · by_cases h2 : q itemCol = b
          · simp only [h2, ht, hs, hab.symm, if_true, if_false, decide_true, decide_false, and_self, false_and, Bool.false_eq_true, List.map_cons,
              List.sum_cons] at ih ⊢
            rw [ih]
            ring
          · have h3 : ¬ E.toStr (q itemCol) = E.toStr a := by
              intro h
              rcases hq h with h | h
              · exact h1 h
              · exact h2 h
            simp only [h1, h2, h3, false_and, decide_false, Bool.false_eq_true, if_false, ih]
      · simp only [hs, and_false, decide_false, Bool.false_eq_true, if_false, ih]
  exact key raw.rows (fun _ h => h) _

/-! ### Examples -/

/-- Two weeks of daily clicks of two ids. -/
def twoIds (a b : Cell ℚ) : Frame ℚ where
  cols := ["id", "day", "clk"]
  rows := ((List.range 14).map (fun (n : ℕ) c => if c = "id" then a else if c = "day" then .time (n * 86400000000000)
      else if c = "clk" then .num 1 else .null)) ++
    ((List.range 14).map (fun (n : ℕ) c => if c = "id" then b else if c = "day" then .time (n * 86400000000000)
      else if c = "clk" then .num 2 else .null))

theorem twoIds_usable (a b : Cell ℚ) : Spec.UsableRaw exampleExt (twoIds a b) "id" "day" "clicks" "clk" 0 1 14 dayOf clicksOf where
  metric := by decide
  other := by intro h; revert h; decide
  columns := by simp [twoIds]
  distinct := by decide
  dates := by
    intro r hr
    rcases List.mem_append.mp hr with hr | hr <;> obtain ⟨n, -, rfl⟩ := List.mem_map.mp hr <;> rfl
  values := by
    intro r hr
    rcases List.mem_append.mp hr with hr | hr <;> obtain ⟨n, -, rfl⟩ := List.mem_map.mp hr <;> rfl
  grid := by
    intro t
    constructor
    · rintro ⟨r, hr, rfl⟩
      rcases List.mem_append.mp hr with hr | hr <;> obtain ⟨n, hn, rfl⟩ := List.mem_map.mp hr <;> rw [List.mem_range] at hn
      · exact ⟨n, by omega, by omega, by change (n : ℤ) * 86400000000000 = _; omega⟩
      · exact ⟨n, by omega, by omega, by change (n : ℤ) * 86400000000000 = _; omega⟩
    · rintro ⟨k, h0, h1, rfl⟩
      obtain ⟨n, rfl⟩ := Int.eq_ofNat_of_zero_le h0
      refine ⟨_, List.mem_append_left _ (List.mem_map.mpr ⟨n, List.mem_range.mpr (by omega), rfl⟩), ?_⟩
      change (n : ℤ) * 86400000000000 = _
      omega
  spacing := Or.inl (by decide)

theorem twoIds_rows {a b : Cell ℚ} {q : Row ℚ} (h : q ∈ (twoIds a b).rows) : (q "id" = a ∨ q "id" = b) ∧ 0 ≤ clicksOf q := by
  rcases List.mem_append.mp h with h | h <;> obtain ⟨n, -, rfl⟩ := List.mem_map.mp h
  · exact ⟨Or.inl rfl, show (0 : ℚ) ≤ 1 by norm_num⟩
  · exact ⟨Or.inr rfl, show (0 : ℚ) ≤ 2 by norm_num⟩

theorem twoIds_size (a b : Cell ℚ) : ((twoIds a b).rows.map (fun q => exampleExt.toStr (q "id"))).toFinset.card ≤ 2 ^ 53 := by
  refine (List.toFinset_card_le _).trans ?_
  rw [List.length_map]
  simp [twoIds]

theorem twoIds_ne (a b : Cell ℚ) : (twoIds a b).rows ≠ [] := by simp [twoIds, List.range_succ]

example : ∃ out, prepareHistorical (Rounding.exact ℚ) (takeSampler _) exampleExt (stableSorter ℚ) (twoIds (.str "x") (.str "y")) "id" "day" "clicks" "clk" 1 []
    = .ok out ∧ ∀ i, i ∈ out.col "item_id" ↔ i ∈ (twoIds (.str "x") (.str "y")).col "id" := by
  obtain ⟨out, h1, h2, -⟩ := C108_text_ids_partial (Rounding.exact ℚ) (takeSampler _) exampleExt (stableSorter ℚ) _ _ _ _ _ _ _ _ _ _
    (twoIds_usable (.str "x") (.str "y")) (twoIds_ne _ _) (twoIds_size _ _) (fun q hq => (twoIds_rows hq).2) (by
      intro q hq
      rcases (twoIds_rows hq).1 with h | h
      · exact ⟨_, h⟩
      · exact ⟨_, h⟩)
  exact ⟨out, h1, h2⟩

/-- Rows without an id next to an item "b". -/
example : ∃ out, prepareHistorical (Rounding.exact ℚ) (takeSampler _) exampleExt (stableSorter ℚ) (twoIds .null (.str "b")) "id" "day" "clicks" "clk" 1 []
    = .ok out ∧ .str "a" ∈ out.col "item_id" := by
  obtain ⟨out, h1, h2, -⟩ := C108_missing_ids_false (Rounding.exact ℚ) (takeSampler _) exampleExt (stableSorter ℚ) _ _ _ _ _ _ _ _ _ _
    (twoIds_usable .null (.str "b")) (twoIds_size _ _) (fun q hq => (twoIds_rows hq).2)
    ⟨_, List.mem_append_left _ (List.mem_map.mpr ⟨0, by decide, rfl⟩), rfl⟩ (by
      intro q hq ht
      rcases (twoIds_rows hq).1 with h | h
      · exact h
      · rw [h] at ht
        exact absurd ht (by decide))
  exact ⟨out, h1, h2⟩

/-- The number 7 and the text "7": three clicks a day of one item. -/
example : ∃ out, prepareHistorical (Rounding.exact ℚ) (takeSampler _) exampleExt (stableSorter ℚ) (twoIds (.int 7) (.str "7")) "id" "day" "clicks" "clk" 1 []
    = .ok out ∧ ∀ r ∈ out.rows, r "item_id" = .str "7" → ∃ s, r "week_start" = .time s ∧ (r "clicks").toFl =
      .fin (Spec.idTotal (twoIds (.int 7) (.str "7")) "id" dayOf clicksOf (.int 7) s + Spec.idTotal (twoIds (.int 7) (.str "7")) "id" dayOf clicksOf (.str "7") s) :=
  C108_same_text_false (Rounding.exact ℚ) (takeSampler _) exampleExt (stableSorter ℚ) _ _ _ _ _ _ _ _ _ _
    (twoIds_usable (.int 7) (.str "7")) (twoIds_ne _ _) (twoIds_size _ _) (fun q hq => (twoIds_rows hq).2) (.int 7) (.str "7") (by decide) rfl
    (fun q hq _ => (twoIds_rows hq).1)

end Feedx
