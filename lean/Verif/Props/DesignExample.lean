import Verif.Props.DesignValidate
import Verif.Props.EndToEndGroups
import Verif.Props.History

/-!
A concrete study for C116 to C118: sixty items over four weeks.
-/

set_option linter.unusedSectionVars false
set_option linter.unusedSimpArgs false

namespace Feedx

/-- Conversions for the example. -/
noncomputable def studyExt : Ext ℝ where
  toStr := fun c => match c with | .str s => s | _ => "?"
  toStr_str := fun _ => rfl
  toInt := fun c => match c with | .int i => .ok i | _ => .error .valueError
  toInt_int := fun _ => rfl
  toDate := fun c => match c with | .time t => .ok (some t) | _ => .ok none
  toNumeric := fun c => .ok c.toFl
  toFloat := fun c => .ok c.toFl
  strptime := fun _ => some 0

/-- The item with the given number. -/
def itemText (n : ℕ) : String := String.ofList (List.replicate n 'a')

theorem itemText_inj {m n : ℕ} (h : itemText m = itemText n) : m = n := by
  have := congrArg (fun s => s.toList.length) h
  simpa [itemText] using this

/-- The row of an item in a week; the values are 1, 2, 3, ... by item. -/
def studyRow (name : String) (p : ℕ × ℕ) : Row ℝ := fun c =>
  if c = "id" then .str (itemText p.1) else if c = "day" then .time (p.2 * (7 * 86400000000000)) else if c = name then .num (p.1 + 1) else .null

/-- Sixty items over five weeks, with the values in a column of the given name. -/
def studyRaw (name : String) : Frame ℝ where
  cols := ["id", "day", name]
  rows := (List.range 60 ×ˢ List.range 5).map (studyRow name)

/-- What the user enters: runtimes 2 and 4, no pretest, nothing trimmed, crossover with one week of washout or not. -/
noncomputable def studyForm (name : String) : StudyForm where
  itemCol := "id"
  dateCol := "day"
  primary := "other"
  primaryCol := name
  fraction := 1
  skip := []
  runtimes := [2, 4]
  pretests := [0]
  preTops := [0]
  preBottoms := [0]
  postTrims := [0]
  crossoverAllowed := true
  traditionalAllowed := true
  washout := 1

/-- The time of a row. -/
def studyTime (r : Row ℝ) : ℤ := match r "day" with | .time t => t | _ => 0

/-- The value of a row. -/
noncomputable def studyValue (name : String) (r : Row ℝ) : ℝ := match r name with | .num x => x | _ => 0

theorem studyRaw_mem {name : String} {r : Row ℝ} (h : r ∈ (studyRaw name).rows) : ∃ i w, i < 60 ∧ w < 5 ∧ r = studyRow name (i, w) := by
  obtain ⟨⟨i, w⟩, hp, rfl⟩ := List.mem_map.mp h
  rw [List.mem_product, List.mem_range, List.mem_range] at hp
  exact ⟨i, w, hp.1, hp.2, rfl⟩

theorem mem_studyRaw {name : String} {i w : ℕ} (hi : i < 60) (hw : w < 5) : studyRow name (i, w) ∈ (studyRaw name).rows :=
  List.mem_map.mpr ⟨(i, w), List.mem_product.mpr ⟨List.mem_range.mpr hi, List.mem_range.mpr hw⟩, rfl⟩

theorem studyRow_value {name : String} (h1 : name ≠ "id") (h2 : name ≠ "day") (p : ℕ × ℕ) : studyRow name p name = .num (p.1 + 1 : ℝ) := by
  simp [studyRow, h1, h2]

theorem studyRaw_usable {name : String} (h : name ∉ ["item_id", "date", "clicks", "impressions", "total_cost", "conversions", "total_conversion_value",
    "week_id", "week_start", "days_in_week", "id", "day"]) :
    Spec.UsableRaw studyExt (studyRaw name) "id" "day" "other" name 0 7 5 studyTime (studyValue name) := by
  have h1 : name ≠ "id" := fun e => h (by simp [e])
  have h2 : name ≠ "day" := fun e => h (by simp [e])
  refine ⟨by decide, fun _ hc => h (by simp only [List.mem_cons, List.not_mem_nil, or_false] at hc ⊢; tauto), ?_, ?_, ?_, ?_, ?_, ?_⟩
  · simp [studyRaw]
  · exact ⟨by decide, fun e => h1 e.symm, fun e => h2 e.symm⟩
  · intro r hr
    obtain ⟨i, w, -, -, rfl⟩ := studyRaw_mem hr
    rfl
  · intro r hr
    obtain ⟨i, w, -, -, rfl⟩ := studyRaw_mem hr
    unfold studyValue
    rw [studyRow_value h1 h2]
    rfl
  · intro t
    constructor
    · rintro ⟨r, hr, rfl⟩
      obtain ⟨i, w, -, hw, rfl⟩ := studyRaw_mem hr
      exact ⟨w, by omega, by omega, by change (w : ℤ) * (7 * 86400000000000) = _; omega⟩
    · rintro ⟨k, h0, hk, rfl⟩
      obtain ⟨n, rfl⟩ := Int.eq_ofNat_of_zero_le h0
      refine ⟨_, mem_studyRaw (i := 0) (w := n) (by norm_num) (by omega), ?_⟩
      change (n : ℤ) * (7 * 86400000000000) = _
      omega
  · refine Or.inr ⟨rfl, by norm_num, ?_⟩
    show List.Pairwise _ (List.map _ _)
    rw [List.pairwise_map]
    refine (List.Nodup.product List.nodup_range List.nodup_range).imp ?_
    rintro ⟨i, w⟩ ⟨i', w'⟩ hne ⟨e1, e2⟩
    apply hne
    have e1 : itemText i = itemText i' := e1
    have e2 : (w : ℤ) * (7 * 86400000000000) = (w' : ℤ) * (7 * 86400000000000) := e2
    rw [itemText_inj e1, show w = w' by omega]

theorem studyRaw_items (name : String) : ((studyRaw name).rows.map (fun q => studyExt.toStr (q "id"))).toFinset.card = 60 := by
  have : ((studyRaw name).rows.map (fun q => studyExt.toStr (q "id"))).toFinset = (Finset.range 60).image itemText := by
    ext x
    rw [List.mem_toFinset, List.mem_map, Finset.mem_image]
    constructor
    · rintro ⟨r, hr, rfl⟩
      obtain ⟨i, w, hi, -, rfl⟩ := studyRaw_mem hr
      exact ⟨i, Finset.mem_range.mpr hi, rfl⟩
    · rintro ⟨i, hi, rfl⟩
      exact ⟨_, mem_studyRaw (w := 0) (Finset.mem_range.mp hi) (by norm_num), rfl⟩
  rw [this, Finset.card_image_of_injective _ (fun _ _ => itemText_inj), Finset.card_range]

/-- The data is accepted, has five weeks and sixty items, and the designs are generated. -/
theorem studyRaw_accepted (V : StudyEnv) (hV : V.ext = studyExt) {name : String} (h : name ∉ ["item_id", "date", "clicks", "impressions", "total_cost",
    "conversions", "total_conversion_value", "week_id", "week_start", "days_in_week", "id", "day"]) :
    ∃ data, prepareHistorical V.R V.rng V.ext V.sorter (studyRaw name) "id" "day" "other" name 1 [] = .ok data ∧ Spec.WeeksOf data 0 4 ∧
      nunique (data.col "item_id") = 60 ∧
      ∃ designs, generateDesigns V.R ((studyForm name).candidates data) = .ok designs ∧ designs ≠ [] ∧ ∀ d ∈ designs, d.pretest = 0 := by
  have h1 : name ≠ "id" := fun e => h (by simp [e])
  have h2 : name ≠ "day" := fun e => h (by simp [e])
  have hc := studyRaw_items name
  rw [hV]
  obtain ⟨data, hdata, -, hw, hi, -⟩ := C96_accepted V.R V.rng studyExt V.sorter (studyRaw name) "id" "day" "other" name 1 0 7 5 studyTime
    (studyValue name) (studyRaw_usable h) (by norm_num) le_rfl (by rw [hc]; norm_num) (by rw [hc]; norm_num) [] (by simp) (Or.inr (by
      intro r hr
      obtain ⟨i, w, -, -, rfl⟩ := studyRaw_mem hr
      unfold studyValue
      rw [studyRow_value h1 h2]
      exact add_nonneg (Nat.cast_nonneg _) zero_le_one))
  have hn : nunique (data.col "item_id") = 60 := by
    rw [nunique_eq]
    have : (data.col "item_id").toFinset = (Finset.range 60).image (fun i => (.str (itemText i) : Cell ℝ)) := by
      ext x
      rw [List.mem_toFinset, hi rfl, Finset.mem_image]
      constructor
      · rintro ⟨r, hr, rfl⟩
        obtain ⟨i, w, hi, -, rfl⟩ := studyRaw_mem hr
        exact ⟨i, Finset.mem_range.mpr hi, rfl⟩
      · rintro ⟨i, hi, rfl⟩
        exact ⟨_, mem_studyRaw (w := 0) (Finset.mem_range.mp hi) (by norm_num), rfl⟩
    rw [this, Finset.erase_eq_of_notMem (by simp), Finset.card_image_of_injective _ (fun a b e => itemText_inj (by simpa using e)), Finset.card_range]
  have hr0 : V.R.rnd 0 = 0 := by simpa using V.R.intFix 0 (by norm_num)
  obtain ⟨designs, hd⟩ := (((C64_returns_iff V.R ((studyForm name).candidates data) (by
      intro t ht b hb
      simp only [StudyForm.candidates, studyForm, List.map_cons, List.map_nil, List.mem_singleton] at ht hb
      subst ht; subst hb
      simp [PyNum.val])).1 1 rfl).1).mpr (by
    intro p hp
    simp only [Spec.wanted, Spec.wantedFor, StudyForm.candidates, studyForm, List.map_cons, List.map_nil, List.flatMap_cons, List.flatMap_nil,
      List.append_nil, List.mem_append, PyNum.val, hn, Spec.designOf] at hp
    norm_num at hp
    rcases hp with rfl | rfl | ⟨hev, rfl⟩ <;>
      refine ⟨⟨by norm_num, by norm_num, by simp [PyNum.val], by simp [PyNum.val], by simp [PyNum.val], by simp [PyNum.val, hr0],
        by simp [PyNum.val], by simp [PyNum.val], ?_⟩, by simp [Spec.itemsAfterPost, Spec.itemsAfterPre, PyNum.val, hr0]⟩
    · intro hx; cases hx
    · intro hx; cases hx
    · exact fun _ => ⟨1, rfl, by norm_num, by norm_num, hev⟩)
  refine ⟨data, hdata, ?_, hn, designs, hd, ?_, fun d hdm => ?_⟩
  · have h4 : Spec.completeWeeks 7 5 = 5 := by decide
    rw [h4] at hw
    exact ⟨⟨(hw 0).mpr (by norm_num), fun w h => ((hw w).mp h).1⟩, (hw 4).mpr (by norm_num), fun w h => by have := ((hw w).mp h).2; omega⟩
  · rintro rfl
    have := (C64_exactly_the_wanted_designs V.R _ _ hd).1
    simp [Spec.wanted, Spec.wantedFor, StudyForm.candidates, studyForm, PyNum.val] at this
  · obtain ⟨-, -, -, -, -, -, -, hpt, -⟩ := (C64_members V.R _ designs hd d).mp hdm
    simpa [StudyForm.candidates, studyForm] using hpt

/-- **C116: the code violates it.**  Accepted data whose metric is in a column called "time_period" cannot be used with any design. -/
theorem C116_time_period_false : ¬ C116_full ∧ ∀ V : StudyEnv, V.ext = studyExt →
    (∃ data, prepareHistorical V.R V.rng V.ext V.sorter (studyRaw "time_period") "id" "day" "other" "time_period" 1 [] = .ok data) ∧
    openStudy V (studyForm "time_period") (studyRaw "time_period") = .error .valueError := by
  have main : ∀ V : StudyEnv, V.ext = studyExt →
      (∃ data, prepareHistorical V.R V.rng V.ext V.sorter (studyRaw "time_period") "id" "day" "other" "time_period" 1 [] = .ok data) ∧
      openStudy V (studyForm "time_period") (studyRaw "time_period") = .error .valueError := by
    intro V hV
    obtain ⟨data, hdata, hw, -, designs, hd, hne, -⟩ := studyRaw_accepted V hV (name := "time_period") (by decide)
    exact ⟨⟨data, hdata⟩, C116_time_period V (studyForm "time_period") _ data hdata rfl ⟨rfl, rfl⟩ (fun _ => le_refl _) designs hd hne 0 4 hw
      (by simp [studyForm]) (by simp [studyForm]) (by simp [studyForm])⟩
  refine ⟨fun hfull => ?_, main⟩
  obtain ⟨V, hV, ha⟩ : ∃ V : StudyEnv, V.ext = studyExt ∧ ArgsortOk V.argsort :=
    ⟨⟨Rounding.exact ℝ, takeSampler _, studyExt, stableSorter ℝ, stableArgsort, TDist.logistic, fun _ => [], fun _ => true,
      ⟨fun _ => .pinf, fun _ _ _ _ => .pinf, fun _ _ => .pinf⟩, fun _ _ => noShuffle⟩, rfl, stableArgsort_ok⟩
  obtain ⟨data, hdata, hw, hn, designs, hd, hne, -⟩ := studyRaw_accepted V hV (name := "time_period") (by decide)
  obtain ⟨x, hx⟩ := hfull V ha (studyForm "time_period") (studyRaw "time_period") data hdata rfl (by rw [hn]; norm_num) (fun _ => le_refl _) ⟨_, hd⟩
    (by simp [studyForm]) (by simp [studyForm]) 0 4 hw (by simp [studyForm])
  rw [(main V hV).2] at hx
  cases hx

/-- C116 is not vacuous: with another name, all designs are estimated and shown. -/
example (V : StudyEnv) (hV : V.ext = studyExt) (ha : ArgsortOk V.argsort) (S : SummarySorter) (text : SVal ℝ → String) :
    ∃ data study, openStudy V (studyForm "profit") (studyRaw "profit") = .ok (data, study) ∧ study ≠ [] ∧ (showStudy V S text false study).Returns := by
  obtain ⟨data, hdata, hw, hn, designs, hd, hne, hpre⟩ := studyRaw_accepted V hV (name := "profit") (by decide)
  obtain ⟨study, h, ⟨ids, h1, h2⟩, -⟩ := C116_every_design_estimated_partial V ha (studyForm "profit") (studyRaw "profit") data hdata rfl
    (by rintro ⟨-, h⟩; revert h; decide) (by rw [hn]; norm_num) (fun _ => le_refl _) designs hd 0 4 hw
    (by simp [studyForm]) (by simp [studyForm]) (by simp [studyForm])
  have hs : study ≠ [] := by
    obtain ⟨-, -, designs', hd', hne', -⟩ := opened_entry h
    rw [hd] at hd'
    cases hd'
    exact hne' hne
  exact ⟨data, study, h, hs, ((C117_shown V _ _ data study h [] (by simp) S text).1 hs).1⟩

/-- The items and the values of the accepted data. -/
theorem studyRaw_data (V : StudyEnv) (hV : V.ext = studyExt) {name : String} (h : name ∉ ["item_id", "date", "clicks", "impressions", "total_cost",
    "conversions", "total_conversion_value", "week_id", "week_start", "days_in_week", "id", "day"]) {data : Frame ℝ}
    (hdata : prepareHistorical V.R V.rng V.ext V.sorter (studyRaw name) "id" "day" "other" name 1 [] = .ok data) :
    (data.col "item_id").toFinset = (Finset.range 60).image (fun i => (.str (itemText i) : Cell ℝ)) ∧ Spec.PositiveMetric name data ∧
      data.rows.length ≤ 300 := by
  have h1 : name ≠ "id" := fun e => h (by simp [e])
  have h2 : name ≠ "day" := fun e => h (by simp [e])
  have hc := studyRaw_items name
  rw [hV] at hdata
  obtain ⟨data', hdata', -, hw, hi, hone, hval⟩ := C96_accepted V.R V.rng studyExt V.sorter (studyRaw name) "id" "day" "other" name 1 0 7 5 studyTime
    (studyValue name) (studyRaw_usable h) (by norm_num) le_rfl (by rw [hc]; norm_num) (by rw [hc]; norm_num) [] (by simp) (Or.inr (by
      intro r hr
      obtain ⟨i, w, -, -, rfl⟩ := studyRaw_mem hr
      unfold studyValue
      rw [studyRow_value h1 h2]
      exact add_nonneg (Nat.cast_nonneg _) zero_le_one))
  rw [hdata] at hdata'
  cases hdata'
  have h4 : Spec.completeWeeks 7 5 = 5 := by decide
  rw [h4] at hw
  have hrow : ∀ r ∈ data.rows, ∃ i w : ℕ, i < 60 ∧ w < 5 ∧ r "item_id" = .str (itemText i) ∧ r "week_start" = .time ((w : ℤ) * (7 * 86400000000000)) ∧
      (r name).toFl = .fin (Spec.weekTotal studyExt (studyRaw name) "id" studyTime (studyValue name) (itemText i) ((w : ℤ) * (7 * 86400000000000))) := by
    intro r hr
    obtain ⟨w, item, e1, e2, e3, e4⟩ := hval r hr
    obtain ⟨q, hq, e5⟩ := (hi rfl (r "item_id")).mp (List.mem_map.mpr ⟨r, hr, rfl⟩)
    obtain ⟨i, w', hi60, -, rfl⟩ := studyRaw_mem hq
    have e6 : item = itemText i := Cell.str.inj (e1.symm.trans e5)
    subst e6
    have hw4 := (hw w).mp (List.mem_map.mpr ⟨r, hr, e2⟩)
    obtain ⟨n, rfl⟩ := Int.eq_ofNat_of_zero_le hw4.1
    rw [zero_add] at e3 e4
    exact ⟨i, n, hi60, by omega, e1, e3, e4⟩
  refine ⟨?_, ?_, ?_⟩
  · ext x
    rw [List.mem_toFinset, hi rfl, Finset.mem_image]
    constructor
    · rintro ⟨r, hr, rfl⟩
      obtain ⟨i, w, hi, -, rfl⟩ := studyRaw_mem hr
      exact ⟨i, Finset.mem_range.mpr hi, rfl⟩
    · rintro ⟨i, hi, rfl⟩
      exact ⟨_, mem_studyRaw (w := 0) (Finset.mem_range.mp hi) (by norm_num), rfl⟩
  · intro r hr
    obtain ⟨i, w, hi60, hw4, -, -, e⟩ := hrow r hr
    refine ⟨_, ?_, e⟩
    have hmem : studyRow name (i, w) ∈ (studyRaw name).rows.filter (fun q => decide (studyExt.toStr (q "id") = itemText i ∧
        (w : ℤ) * (7 * 86400000000000) ≤ studyTime q ∧ studyTime q < (w : ℤ) * (7 * 86400000000000) + 7 * 86400000000000)) := by
      rw [List.mem_filter]
      refine ⟨mem_studyRaw hi60 hw4, decide_eq_true ⟨rfl, ?_, ?_⟩⟩
      · exact le_refl _
      · show (w : ℤ) * (7 * 86400000000000) < _
        omega
    unfold Spec.weekTotal
    refine List.sum_pos _ ?_ (by simpa using List.ne_nil_of_mem hmem)
    intro x hx
    obtain ⟨q, hq, rfl⟩ := List.mem_map.mp hx
    obtain ⟨i', w', -, -, rfl⟩ := studyRaw_mem (List.mem_of_mem_filter hq)
    unfold studyValue
    rw [studyRow_value h1 h2]
    exact add_pos_of_nonneg_of_pos (Nat.cast_nonneg _) one_pos
  · classical
    have hnd : (data.rows.map (fun r => (r "item_id", r "week_start"))).Nodup := by
      rw [List.nodup_iff_count_le_one]
      rintro ⟨i, w⟩
      by_cases hin : (i, w) ∈ data.rows.map (fun r => (r "item_id", r "week_start"))
      · obtain ⟨r, hr, e⟩ := List.mem_map.mp hin
        obtain ⟨rfl, rfl⟩ := Prod.mk.inj e
        have := hone (r "item_id") (List.mem_map.mpr ⟨r, hr, rfl⟩) (r "week_start") (List.mem_map.mpr ⟨r, hr, rfl⟩)
        unfold Spec.rowsAt at this
        rw [List.count, List.countP_map]
        refine le_of_eq (Eq.trans (List.countP_congr ?_) this)
        intro q _
        simp
      · rw [List.count_eq_zero_of_not_mem hin]
        omega
    have hlen : data.rows.length = (data.rows.map (fun r => (r "item_id", r "week_start"))).toFinset.card := by
      rw [List.toFinset_card_of_nodup hnd, List.length_map]
    rw [hlen]
    obtain ⟨T, hT⟩ : ∃ T : Finset (Cell ℝ × Cell ℝ), T = (Finset.range 60 ×ˢ Finset.range 5).image
      (fun p : ℕ × ℕ => ((.str (itemText p.1) : Cell ℝ), (.time ((p.2 : ℤ) * (7 * 86400000000000)) : Cell ℝ))) := ⟨_, rfl⟩
    have hcard : T.card ≤ 300 := by
      rw [hT]
      exact Finset.card_image_le.trans (by rw [Finset.card_product, Finset.card_range, Finset.card_range])
    refine (Finset.card_le_card ?_).trans hcard
    intro x hx
    rw [List.mem_toFinset, List.mem_map] at hx
    obtain ⟨r, hr, e⟩ := hx
    obtain ⟨i, w, hi60, hw4, e1, e2, -⟩ := hrow r hr
    rw [hT, Finset.mem_image]
    refine ⟨(i, w), ?_, ?_⟩
    · rw [Finset.mem_product]
      exact ⟨Finset.mem_range.mpr hi60, Finset.mem_range.mpr hw4⟩
    · rw [← e, e1, e2]

/-- Only one design over four weeks, a crossover or not. -/
noncomputable def oneForm (x : Bool) : StudyForm := { studyForm "profit" with runtimes := [4], crossoverAllowed := x, traditionalAllowed := !x }

theorem oneForm_design {V : StudyEnv} {x : Bool} {data : Frame ℝ} (hn : nunique (data.col "item_id") = 60) {designs : List (Design ℝ)}
    (hd : generateDesigns V.R ((oneForm x).candidates data) = .ok designs) :
    ∀ d ∈ designs, d.isCrossover = x ∧ d.runtime = 4 ∧ d.pretest = 0 ∧ d.nBefore = 60 ∧ d.nAfterPre = 60 ∧ d.preTop.val = 0 ∧ d.preBottom.val = 0 ∧
      d.postTrim.val = 0 ∧ d.primaryMetric = "profit" := by
  have hr0 : V.R.rnd 0 = 0 := by simpa using V.R.intFix 0 (by norm_num)
  intro d hdm
  obtain ⟨hmk, hnb, hpm, -, -, -, hrt, hpt, htop, hbot, hpost, -, hx⟩ := (C64_members V.R _ designs hd d).mp hdm
  have hnb : d.nBefore = 60 := by
    rw [hnb]
    show ((nunique (data.col "item_id") : ℕ) : ℤ) = 60
    rw [hn]; rfl
  simp only [StudyForm.candidates, oneForm, studyForm, List.map_cons, List.map_nil, List.mem_singleton] at hrt hpt htop hbot hpost
  refine ⟨?_, hrt, hpt, hnb, ?_, by rw [htop]; simp [PyNum.val], by rw [hbot]; simp [PyNum.val], by rw [hpost]; simp [PyNum.val], ?_⟩
  · rcases hx with hx | hx
    · rw [hx.1]
      have := hx.2.2
      cases x
      · rfl
      · simp [StudyForm.candidates, oneForm, studyForm] at this
    · rw [hx.1]
      have := hx.2.2.1
      cases x
      · simp [StudyForm.candidates, oneForm, studyForm] at this
      · rfl
  · have := ((mkDesign_ok_iff V.R _ _).mp hmk).1
    rw [this]
    unfold deriveCounts Rounding.floorMul
    simp only [htop, hbot, hnb]
    simp [PyNum.val, hr0]
  · rw [hpm]
    rfl

/-- A study with sixty items in five weeks is opened with one design without trimming that can start in the first week. -/
theorem oneForm_opened_of (x : Bool) (V : StudyEnv) (ha : ArgsortOk V.argsort) {raw data : Frame ℝ}
    (hdata : prepareHistorical V.R V.rng V.ext V.sorter raw "id" "day" "other" "profit" 1 [] = .ok data) (hw : Spec.WeeksOf data 0 4)
    (hn : nunique (data.col "item_id") = 60) :
    ∃ s, openStudy V (oneForm x) raw = .ok (data, s) ∧ s ≠ [] ∧
      ∀ e ∈ s, e.2.1.design.isCrossover = x ∧ 0 ∈ e.2.1.starts ∧ e.2.1.design.nBefore = 60 ∧ e.2.1.design.nAfterPre = 60 ∧
        e.2.1.design.preTop.val = 0 ∧ e.2.1.design.preBottom.val = 0 ∧ e.2.1.design.pretest = 0 ∧ e.2.1.design.salt = none ∧
        e.2.1.design.postTrim.val = 0 := by
  have hr0 : V.R.rnd 0 = 0 := by simpa using V.R.intFix 0 (by norm_num)
  obtain ⟨designs, hd⟩ := (((C64_returns_iff V.R ((oneForm x).candidates data) (by
      intro t ht b hb
      simp only [StudyForm.candidates, oneForm, studyForm, List.map_cons, List.map_nil, List.mem_singleton] at ht hb
      subst ht; subst hb
      simp [PyNum.val])).1 1 rfl).1).mpr (by
    intro p hp
    simp only [Spec.wanted, Spec.wantedFor, StudyForm.candidates, oneForm, studyForm, List.map_cons, List.map_nil, List.flatMap_cons, List.flatMap_nil,
      List.append_nil, List.mem_append, PyNum.val, hn, Spec.designOf] at hp
    cases x
    · norm_num at hp
      subst hp
      exact ⟨⟨by norm_num, by norm_num, by simp [PyNum.val], by simp [PyNum.val], by simp [PyNum.val], by simp [PyNum.val, hr0],
        by simp [PyNum.val], by simp [PyNum.val], fun hx => by cases hx⟩,
        by simp [Spec.itemsAfterPost, Spec.itemsAfterPre, PyNum.val, hr0]⟩
    · norm_num at hp
      obtain ⟨hev, rfl⟩ := hp
      exact ⟨⟨by norm_num, by norm_num, by simp [PyNum.val], by simp [PyNum.val], by simp [PyNum.val], by simp [PyNum.val, hr0],
        by simp [PyNum.val], by simp [PyNum.val], fun _ => ⟨1, rfl, by norm_num, by norm_num, hev⟩⟩,
        by simp [Spec.itemsAfterPost, Spec.itemsAfterPre, PyNum.val, hr0]⟩)
  have hmem := oneForm_design hn hd
  obtain ⟨study, h, -, hent, -⟩ := C116_every_design_estimated_partial V ha (oneForm x) raw data hdata rfl
    (by rintro ⟨-, h⟩; exact absurd (show "profit" = "time_period" from h) (by decide)) (by rw [hn]; norm_num) (fun _ => le_refl _) designs hd 0 4 hw
    (by simp [oneForm]) (by simp [oneForm, studyForm]) (by simp [oneForm, studyForm])
  refine ⟨study, h, ?_, fun e he => ?_⟩
  · obtain ⟨-, -, designs', hd', hne', -⟩ := opened_entry h
    rw [hd] at hd'
    cases hd'
    refine hne' ?_
    rintro rfl
    have := (C64_exactly_the_wanted_designs V.R _ _ hd).1
    cases x <;> simp [Spec.wanted, Spec.wantedFor, StudyForm.candidates, oneForm, studyForm, PyNum.val, show Even (4 : ℤ) by decide] at this
  · obtain ⟨hde, -, -, hst, -⟩ := hent e he
    obtain ⟨m1, m2, m7, m3, m4, m5, m6, m8, -⟩ := hmem _ hde
    obtain ⟨-, -, -, -, -, hsalt, -⟩ := (C64_members V.R _ designs hd _).mp hde
    refine ⟨m1, (hst 0).mpr ⟨by simp [oneForm, studyForm], by rw [m2]; norm_num⟩, m3, m4, m5, m6, m7, hsalt, m8⟩

/-- The study is opened with one design without trimming that can start in the first week. -/
theorem oneForm_opened (x : Bool) (V : StudyEnv) (hV : V.ext = studyExt) (ha : ArgsortOk V.argsort) :
    ∃ data s, openStudy V (oneForm x) (studyRaw "profit") = .ok (data, s) ∧ s ≠ [] ∧ nunique (data.col "item_id") = 60 ∧
      ∀ e ∈ s, e.2.1.design.isCrossover = x ∧ 0 ∈ e.2.1.starts ∧ e.2.1.design.nBefore = 60 ∧ e.2.1.design.nAfterPre = 60 ∧
        e.2.1.design.preTop.val = 0 ∧ e.2.1.design.preBottom.val = 0 ∧ e.2.1.design.pretest = 0 ∧ e.2.1.design.salt = none ∧
        e.2.1.design.postTrim.val = 0 := by
  obtain ⟨data, hdata, hw, hn, -⟩ := studyRaw_accepted V hV (name := "profit") (by decide)
  obtain ⟨s, h, hs, he⟩ := oneForm_opened_of x V ha hdata hw hn
  exact ⟨data, s, h, hs, hn, he⟩

/-- 32 of the sixty items are treated with the salt of the byte 1: the binomial test accepts. -/
theorem oneForm_split : ∃ p : ℝ, 1 / 1000 ≤ p ∧ binomTest 32 60 = .ok p := by
  refine ⟨splitP ℝ 60 28, ?_, binomTest_eq (k := 32) (n := 60) (by norm_num) (by norm_num)⟩
  unfold splitP
  rw [if_neg (by norm_num)]
  refine le_min (by norm_num) ?_
  rw [le_div_iff₀ (by positivity)]
  have h := tail_le_far (K := ℝ) (n := 60) (m := 28) (by norm_num)
  have h' : 2 ^ 60 ≤ 1000 * (2 * tailCount 60 28) := by decide +kernel
  have h'' : (2 : ℝ) ^ 60 ≤ 1000 * ((tailCount 60 28 + farCount ℝ 60 28 : ℕ) : ℝ) := by
    have : 2 ^ 60 ≤ 1000 * (tailCount 60 28 + farCount ℝ 60 28) := by omega
    exact_mod_cast this
  linarith

theorem oneForm_flips : ((Finset.range 60).filter (fun i => (Coinflip.mk "01").flip (itemText i) = 1)).card = 32 := by
  have h1 : (Finset.range 60).filter (fun i => (Coinflip.mk "01").flip (itemText i) = 1) =
      ((List.range 60).filter (fun i => decide ((Coinflip.mk "01").flip (itemText i) = 1))).toFinset := by
    ext i
    simp
  rw [h1, List.toFinset_card_of_nodup (List.nodup_range.filter _)]
  decide +kernel

/-- The study is validated with one simulation, and exported with the salt of the byte 1. -/
theorem oneForm_exported (x : Bool) : ∃ (V : StudyEnv) (data : Frame ℝ) (s : Study) (cells : List StudyCell) (id : List Char), V.ext = studyExt ∧
    ArgsortOk V.argsort ∧ (∀ mde aa ab, Spec.PassesChecks V.tests mde aa ab) ∧ openStudy V (oneForm x) (studyRaw "profit") = .ok (data, s) ∧
    nunique (data.col "item_id") = 60 ∧ data.rows.length ≤ 2 ^ 51 ∧
    (∃ p : ℝ, 1 / 1000 ≤ p ∧ binomTest (((data.col "item_id").toFinset.filter (fun i => (Coinflip.mk "01").flip (V.ext.toStr i) = 1)).card)
      (data.col "item_id").toFinset.card = .ok p) ∧
    (∃ a mde aa ab, (runCells V data s cells).lookup id = some a ∧ a.2.mde = some mde ∧ a.2.aa = some aa ∧ a.2.ab = some ab ∧ aa ≠ [] ∧
      (a.1.design.preTop.val ≤ 0 ∧ a.1.design.preBottom.val ≤ 0) ∧ a.1.design.salt = none) ∧
    ∃ items file s1, exportStudy V binomTest noShuffle [1] data id "design.yaml" (runCells V data s cells) = (.ok (items, file), s1) := by
  obtain ⟨V, hV, ha, ht⟩ : ∃ V : StudyEnv, V.ext = studyExt ∧ ArgsortOk V.argsort ∧ V.tests = ⟨fun _ => .pinf, fun _ _ _ _ => .pinf, fun _ _ => .pinf⟩ :=
    ⟨⟨Rounding.exact ℝ, takeSampler _, studyExt, stableSorter ℝ, stableArgsort, TDist.logistic, fun _ => [], fun _ => true,
      ⟨fun _ => .pinf, fun _ _ _ _ => .pinf, fun _ _ => .pinf⟩, fun _ _ => noShuffle⟩, rfl, stableArgsort_ok, rfl⟩
  obtain ⟨data, s, h, hne, hn, hall⟩ := oneForm_opened x V hV ha
  obtain ⟨hprep, -⟩ := opened_entry h
  obtain ⟨hcol, hpos, hrows⟩ := studyRaw_data V hV (name := "profit") (by decide) hprep
  obtain ⟨e, he⟩ := List.exists_mem_of_ne_nil _ hne
  obtain ⟨hx, hst, hnb, hna, ht1, ht2, hpt, -, hq⟩ := hall e he
  have hnames : Spec.SimulationNames (oneForm x).metric "item_id" "treatment" := by
    show Spec.SimulationNames "profit" "item_id" "treatment"
    refine ⟨⟨by decide, ?_, by unfold Spec.NoOuterScore; decide⟩, by unfold Spec.NoOuterScore; decide, by decide, by decide, by decide⟩
    rintro ⟨a, b, h⟩
    have : ('_' : Char) ∈ "profit".toList := by rw [h]; simp
    revert this
    decide
  -- half of the items are treated in the simulation
  obtain ⟨draw, hdraw⟩ : ∃ draw : SimDraw, draw = ⟨0, List.range 60, noShuffle, (List.range 60).map (fun i => decide (i % 2 = 0))⟩ := ⟨_, rfl⟩
  obtain ⟨s', hs', hres⟩ := C118_validation_returns_partial V ha (oneForm x) (studyRaw "profit") data s h rfl (by show "profit" ≠ "time_period"; decide)
    hnames (by rw [hn]; norm_num) [(e.1, [draw])] (by simp) (by
      intro t htm
      rw [List.mem_singleton] at htm
      subst htm
      refine ⟨e, he, rfl, ?_, Or.inr ⟨hpt, hpos⟩⟩
      intro r hr
      rw [List.mem_singleton] at hr
      subst hr
      rw [hdraw]
      refine ⟨⟨hst, ⟨by rw [hnb]; simp, fun p hp => by rw [hnb]; have := List.mem_range.mp hp; exact_mod_cast this⟩, by rw [hna]; simp⟩, ?_⟩
      intro _ b
      have hr0 : V.R.rnd 0 = 0 := by simpa using V.R.intFix 0 (by norm_num)
      have hcount : ((List.range 60).map (fun i => decide (i % 2 = 0))).count b = 30 := by cases b <;> decide +kernel
      simp only [hcount, hq, zero_mul, hr0, Int.floor_zero]
      norm_num)
  obtain ⟨a, aa, ab, hl, haa, hab, hlen, -⟩ := hres _ (List.mem_singleton.mpr rfl)
  obtain ⟨cells, hcells⟩ : ∃ cells, cells = [StudyCell.validate false [(e.1, [draw])]] := ⟨_, rfl⟩
  have hrun : runCells V data s cells = s' := by
    rw [hcells]
    show (validateStudy V false _ s).2 = s'
    rw [hs']
  have hpass : ∀ mde aa ab, Spec.PassesChecks V.tests mde aa ab := by
    intro mde aa ab
    rw [ht]
    unfold Spec.PassesChecks Spec.AtLeast
    simp
  have hmem : (e.1, a) ∈ runCells V data s cells := by rw [hrun]; exact study_lookup_mem hl
  obtain ⟨e0, he0, hlat, -, -⟩ := reached_entry h cells hmem
  obtain ⟨-, -, -, -, k1, k2, -, k3, -⟩ := hall e0 he0
  obtain ⟨-, -, designs, -, -, hent⟩ := opened_entry h
  obtain ⟨mde, hm⟩ := Option.ne_none_iff_exists'.mp (hent e0 he0).2.2.2.1
  have hda : a.1.design = { e0.2.1.design with salt := a.1.design.salt } := congrArg SimConfig.design hlat.design
  have htrim : a.1.design.preTop.val ≤ 0 ∧ a.1.design.preBottom.val ≤ 0 := by
    rw [hda]
    exact ⟨k1.le, k2.le⟩
  have haane : aa ≠ [] := by rintro rfl; cases hlen
  have hnone : a.1.design.salt = none := by
    have h3 := C117_validated_kept V false [(e.1, [draw])] s
    rw [hs'] at h3
    have key : ∀ {l l' : Study}, List.Forall₂ (fun old new => new.1 = old.1 ∧ new.2.1 = old.2.1 ∧ (false = false → old.2.2.aa ≠ none → new = old) ∧
        (old.1 ∉ [(e.1, [draw])].map Prod.fst → new = old)) l l' → ∀ n ∈ l', ∃ o ∈ l, n.2.1 = o.2.1 := by
      intro l l' hf
      induction hf with
      | nil => intro n hn; cases hn
      | cons h1 _ ih =>
        intro n hn
        rcases List.mem_cons.mp hn with rfl | hn
        · exact ⟨_, List.mem_cons_self, h1.2.1⟩
        · obtain ⟨o, ho, e⟩ := ih n hn
          exact ⟨o, List.mem_cons_of_mem _ ho, e⟩
    obtain ⟨o, ho, eo⟩ := key h3 (e.1, a) (study_lookup_mem hl)
    have eo : a.1 = o.2.1 := eo
    rw [eo]
    exact (hall o ho).2.2.2.2.2.2.2.1
  have hflips : ∃ p : ℝ, 1 / 1000 ≤ p ∧ binomTest (((data.col "item_id").toFinset.filter (fun i => (Coinflip.mk "01").flip (V.ext.toStr i) = 1)).card)
      (data.col "item_id").toFinset.card = .ok p := by
    have e1 : ((data.col "item_id").toFinset.filter (fun i => (Coinflip.mk "01").flip (V.ext.toStr i) = 1)).card = 32 := by
      rw [hcol, hV, Finset.filter_image, Finset.card_image_of_injective _ (fun a b e => itemText_inj (by simpa using e))]
      exact oneForm_flips
    have e2 : (data.col "item_id").toFinset.card = 60 := by
      rw [hcol, Finset.card_image_of_injective _ (fun a b e => itemText_inj (by simpa using e)), Finset.card_range]
    rw [e1, e2]
    exact oneForm_split
  obtain ⟨items, file, s1, hexp⟩ := C118_export_returns V (oneForm x) (studyRaw "profit") data s h rfl cells (e.1, a) hmem mde aa ab (hlat.mde.trans hm) haa
    hab haane (hpass _ _ _) htrim binomTest noShuffle [1] (by simp) (by
      intro salt hsalt
      have hsalt : salt = "01" := by
        rcases hsalt with h | h
        · exact absurd (hnone.symm.trans h) (by simp)
        · rw [h.2]
          decide
      rw [hsalt]
      exact hflips) "design.yaml" (by decide)
  exact ⟨V, data, s, cells, e.1, hV, ha, hpass, h, hn, hrows.trans (by norm_num), hflips,
    ⟨a, mde, aa, ab, by rw [hrun]; exact hl, hlat.mde.trans hm, haa, hab, haane, htrim, hnone⟩, items, file, s1, hexp⟩

/-- C117 and C118 are not vacuous: the validated study is exported once, and once more with another random value. -/
example (x : Bool) : ∃ (V : StudyEnv) (data : Frame ℝ) (s : Study) (cells : List StudyCell) (id : List Char),
    openStudy V (oneForm x) (studyRaw "profit") = .ok (data, s) ∧
    ∃ items file s1, exportStudy V binomTest noShuffle [1] data id "design.yaml" (runCells V data s cells) = (.ok (items, file), s1) ∧
    ∃ items' file' s2, exportStudy V binomTest noShuffle [2] data id "again.yaml" (runCells V data s1 [.validate false []]) = (.ok (items', file'), s2) := by
  obtain ⟨V, data, s, cells, id, hV, ha, hpass, h, hn, hlen, hflips, ⟨a, mde, aa, ab, hl, hm, haa, hab, hne, htrim, hnone⟩, items, file, s1, hexp⟩ :=
    oneForm_exported x
  refine ⟨V, data, s, cells, id, h, items, file, s1, hexp, ?_⟩
  have hs1 : s1 = runCells V data s (cells ++ [.assign binomTest noShuffle [1] id "design.yaml"]) := by
    unfold runCells at hexp ⊢
    rw [List.foldl_append]
    show s1 = (exportStudy V _ _ _ data id "design.yaml" _).2
    rw [hexp]
  have hs2 : runCells V data s1 [.validate false []] =
      runCells V data s ((cells ++ [.assign binomTest noShuffle [1] id "design.yaml"]) ++ [.validate false []]) := by
    rw [hs1]
    unfold runCells
    rw [← List.foldl_append]
  obtain ⟨d, hd, hs1'⟩ : ∃ d, d = { a.1.design with salt := some "01" } ∧ s1.lookup id = some ({ a.1 with design := d }, a.2) := by
    rcases exportStudy_cases V binomTest noShuffle [1] data id "design.yaml" (runCells V data s cells) with ⟨x, hbad⟩ | ⟨a', rate, d, res, g1, -, -, g4, g5⟩
    · rw [hexp] at hbad; cases hbad
    · rw [hl] at g1
      cases g1
      rw [hexp] at g5
      obtain ⟨g6, g7⟩ := Prod.mk.inj g5
      obtain ⟨out, hout, -⟩ := Py.bind_eq_ok.mp g6.symm
      rw [hout] at g4
      obtain ⟨-, -, -, coin, -, k1, k2, -⟩ := performAssignment_ok g4
      refine ⟨d, ?_, ?_⟩
      · rw [k2, (chooseCoin_ok k1).2.2 (by rw [hnone]; rfl)]
        rfl
      · rw [g7]
        have := dictSet_lookup id (({ a.1 with design := d } : SimConfig), a.2) (runCells V data s cells) id
        rw [if_pos rfl] at this
        convert this
  have hmem1 := study_lookup_mem hs1'
  have hs12 : runCells V data s1 [.validate false []] = s1 := rfl
  rw [← hs12, hs2] at hmem1
  rw [hs2]
  exact C118_export_returns V (oneForm x) (studyRaw "profit") data s h rfl _ (id, ({ a.1 with design := d }, a.2)) hmem1 mde aa ab hm haa hab
    hne (hpass _ _ _) (by show d.preTop.val ≤ 0 ∧ d.preBottom.val ≤ 0; rw [hd]; exact htrim) binomTest noShuffle [2] (by simp) (by
      intro salt hsalt
      have hsalt : salt = "01" := by
        have hds : d.salt = some "01" := by rw [hd]
        rcases hsalt with h | h
        · exact (Option.some.inj (hds.symm.trans h)).symm
        · have h1 : d.salt.getD "" = "" := h.1
          rw [hds] at h1
          exact absurd h1 (by decide)
      rw [hsalt]
      exact hflips) "again.yaml" (by decide)

end Feedx
