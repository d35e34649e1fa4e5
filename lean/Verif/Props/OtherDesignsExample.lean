import Verif.Props.OtherDesigns

/-!
A concrete study for C141: sixty items over five weeks with values that grow from week to week.
-/

set_option linter.unusedSectionVars false
set_option linter.unusedSimpArgs false

namespace Feedx

/-- The row of an item in a week; the values are 1, 2, 3, ... by item in the first week, and grow by 1 every week. -/
def trendRow (name : String) (p : ℕ × ℕ) : Row ℝ := fun c =>
  if c = "id" then .str (itemText p.1) else if c = "day" then .time (p.2 * (7 * 86400000000000)) else if c = name then .num (p.1 + 1 + p.2) else .null

/-- Sixty items over five weeks, with the values in a column of the given name. -/
def trendRaw (name : String) : Frame ℝ where
  cols := ["id", "day", name]
  rows := (List.range 60 ×ˢ List.range 5).map (trendRow name)

theorem trendRaw_mem {name : String} {r : Row ℝ} (h : r ∈ (trendRaw name).rows) : ∃ i w, i < 60 ∧ w < 5 ∧ r = trendRow name (i, w) := by
  obtain ⟨⟨i, w⟩, hp, rfl⟩ := List.mem_map.mp h
  rw [List.mem_product, List.mem_range, List.mem_range] at hp
  exact ⟨i, w, hp.1, hp.2, rfl⟩

theorem mem_trendRaw {name : String} {i w : ℕ} (hi : i < 60) (hw : w < 5) : trendRow name (i, w) ∈ (trendRaw name).rows :=
  List.mem_map.mpr ⟨(i, w), List.mem_product.mpr ⟨List.mem_range.mpr hi, List.mem_range.mpr hw⟩, rfl⟩

theorem trendRow_value {name : String} (h1 : name ≠ "id") (h2 : name ≠ "day") (p : ℕ × ℕ) : trendRow name p name = .num (p.1 + 1 + p.2 : ℝ) := by
  simp [trendRow, h1, h2]

theorem trendRaw_usable {name : String} (h : name ∉ ["item_id", "date", "clicks", "impressions", "total_cost", "conversions", "total_conversion_value",
    "week_id", "week_start", "days_in_week", "id", "day"]) :
    Spec.UsableRaw studyExt (trendRaw name) "id" "day" "other" name 0 7 5 studyTime (studyValue name) := by
  have h1 : name ≠ "id" := fun e => h (by simp [e])
  have h2 : name ≠ "day" := fun e => h (by simp [e])
  refine ⟨by decide, fun _ hc => h (by simp only [List.mem_cons, List.not_mem_nil, or_false] at hc ⊢; tauto), ?_, ?_, ?_, ?_, ?_, ?_⟩
  · simp [trendRaw]
  · exact ⟨by decide, fun e => h1 e.symm, fun e => h2 e.symm⟩
  · intro r hr
    obtain ⟨i, w, -, -, rfl⟩ := trendRaw_mem hr
    rfl
  · intro r hr
    obtain ⟨i, w, -, -, rfl⟩ := trendRaw_mem hr
    unfold studyValue
    rw [trendRow_value h1 h2]
    rfl
  · intro t
    constructor
    · rintro ⟨r, hr, rfl⟩
      obtain ⟨i, w, -, hw, rfl⟩ := trendRaw_mem hr
      exact ⟨w, by omega, by omega, by change (w : ℤ) * (7 * 86400000000000) = _; omega⟩
    · rintro ⟨k, h0, hk, rfl⟩
      obtain ⟨n, rfl⟩ := Int.eq_ofNat_of_zero_le h0
      refine ⟨_, mem_trendRaw (i := 0) (w := n) (by norm_num) (by omega), ?_⟩
      change (n : ℤ) * (7 * 86400000000000) = _
      omega
  · refine Or.inr ⟨rfl, by norm_num, ?_⟩
    show List.Pairwise _ (List.map _ _)
    rw [List.pairwise_map]
    refine (List.Nodup.product List.nodup_range List.nodup_range).imp ?_
    rintro ⟨i, w⟩ ⟨i', w'⟩ hne ⟨e1, e2⟩
    apply hne
    have e1 : itemText i = itemText i' := e1
    have e2 : (w : ℤ) * (7 * 86400000000000) = (w' : ℤ) * (7 * 86400000000000) := e2
    rw [itemText_inj e1, show w = w' by omega]

theorem trendRaw_items (name : String) : ((trendRaw name).rows.map (fun q => studyExt.toStr (q "id"))).toFinset.card = 60 := by
  have : ((trendRaw name).rows.map (fun q => studyExt.toStr (q "id"))).toFinset = (Finset.range 60).image itemText := by
    ext x
    rw [List.mem_toFinset, List.mem_map, Finset.mem_image]
    constructor
    · rintro ⟨r, hr, rfl⟩
      obtain ⟨i, w, hi, -, rfl⟩ := trendRaw_mem hr
      exact ⟨i, Finset.mem_range.mpr hi, rfl⟩
    · rintro ⟨i, hi, rfl⟩
      exact ⟨_, mem_trendRaw (w := 0) (Finset.mem_range.mp hi) (by norm_num), rfl⟩
  rw [this, Finset.card_image_of_injective _ (fun _ _ => itemText_inj), Finset.card_range]

/-- The data is accepted, and has five weeks and sixty items. -/
theorem trendRaw_accepted (V : StudyEnv) (hV : V.ext = studyExt) {name : String} (h : name ∉ ["item_id", "date", "clicks", "impressions", "total_cost",
    "conversions", "total_conversion_value", "week_id", "week_start", "days_in_week", "id", "day"]) :
    ∃ data, prepareHistorical V.R V.rng V.ext V.sorter (trendRaw name) "id" "day" "other" name 1 [] = .ok data ∧ Spec.WeeksOf data 0 4 ∧
      nunique (data.col "item_id") = 60 := by
  have h1 : name ≠ "id" := fun e => h (by simp [e])
  have h2 : name ≠ "day" := fun e => h (by simp [e])
  have hc := trendRaw_items name
  rw [hV]
  obtain ⟨data, hdata, -, hw, hi, -⟩ := C96_accepted V.R V.rng studyExt V.sorter (trendRaw name) "id" "day" "other" name 1 0 7 5 studyTime
    (studyValue name) (trendRaw_usable h) (by norm_num) le_rfl (by rw [hc]; norm_num) (by rw [hc]; norm_num) [] (by simp) (Or.inr (by
      intro r hr
      obtain ⟨i, w, -, -, rfl⟩ := trendRaw_mem hr
      unfold studyValue
      rw [trendRow_value h1 h2]
      exact add_nonneg (add_nonneg (Nat.cast_nonneg _) zero_le_one) (Nat.cast_nonneg _)))
  have hn : nunique (data.col "item_id") = 60 := by
    rw [nunique_eq]
    have : (data.col "item_id").toFinset = (Finset.range 60).image (fun i => (.str (itemText i) : Cell ℝ)) := by
      ext x
      rw [List.mem_toFinset, hi rfl, Finset.mem_image]
      constructor
      · rintro ⟨r, hr, rfl⟩
        obtain ⟨i, w, hi, -, rfl⟩ := trendRaw_mem hr
        exact ⟨i, Finset.mem_range.mpr hi, rfl⟩
      · rintro ⟨i, hi, rfl⟩
        exact ⟨_, mem_trendRaw (w := 0) (Finset.mem_range.mp hi) (by norm_num), rfl⟩
    rw [this, Finset.erase_eq_of_notMem (by simp), Finset.card_image_of_injective _ (fun a b e => itemText_inj (by simpa using e)), Finset.card_range]
  have h4 : Spec.completeWeeks 7 5 = 5 := by decide
  rw [h4] at hw
  exact ⟨data, hdata, ⟨⟨(hw 0).mpr (by norm_num), fun w h => ((hw w).mp h).1⟩, (hw 4).mpr (by norm_num), fun w h => by have := ((hw w).mp h).2; omega⟩, hn⟩

theorem trend_week {i w : ℕ} (hi : i < 60) (hw : w < 5) :
    Spec.weekTotal studyExt (trendRaw "profit") "id" studyTime (studyValue "profit") (itemText i) (0 + (w : ℤ) * (7 * 86400000000000)) = (i + 1 + w : ℝ) := by
  unfold Spec.weekTotal
  change (List.map _ (List.filter _ (((List.range 60 ×ˢ List.range 5).map (trendRow "profit"))))).sum = _
  rw [List.filter_map, filter_of_count_one (a := (i, w))]
  · show studyValue "profit" (trendRow "profit" (i, w)) + 0 = _
    unfold studyValue
    rw [trendRow_value (by decide) (by decide), add_zero]
  · rw [List.countP_congr (q := fun p => decide (p = (i, w)))]
    · rw [← List.count_eq_one_of_mem (List.Nodup.product List.nodup_range List.nodup_range)
        (List.mem_product.mpr ⟨List.mem_range.mpr hi, List.mem_range.mpr hw⟩)]
      unfold List.count
      exact List.countP_congr (fun p _ => by simp)
    · rintro ⟨j, v⟩ -
      rw [decide_eq_true_eq]
      show decide (itemText j = itemText i ∧ 0 + (w : ℤ) * (7 * 86400000000000) ≤ (v : ℤ) * (7 * 86400000000000) ∧
        (v : ℤ) * (7 * 86400000000000) < 0 + (w : ℤ) * (7 * 86400000000000) + 7 * 86400000000000) = true ↔ _
      rw [decide_eq_true_eq]
      constructor
      · rintro ⟨h1, h2, h3⟩
        rw [itemText_inj h1, show v = w by omega]
      · intro e
        cases e
        exact ⟨rfl, by omega, by omega⟩
  · exact List.mem_product.mpr ⟨List.mem_range.mpr hi, List.mem_range.mpr hw⟩
  · refine decide_eq_true ⟨rfl, ?_, ?_⟩
    · show 0 + (w : ℤ) * (7 * 86400000000000) ≤ (w : ℤ) * (7 * 86400000000000)
      omega
    · show (w : ℤ) * (7 * 86400000000000) < _
      omega

/-- The average of the four weeks from a start week. -/
theorem trend_average {i : ℕ} (hi : i < 60) {lo : ℕ} (h : lo < 2) :
    Spec.rowsAverage studyExt (trendRaw "profit") "id" studyTime (studyValue "profit") 0 lo (lo + 4) (itemText i) = (i + 1 + (lo + 3 / 2) : ℝ) := by
  have key : ∀ k : ℕ, lo + k ≤ 5 → Spec.rowsTotal studyExt (trendRaw "profit") "id" studyTime (studyValue "profit") 0 lo (lo + k) (itemText i) =
      (k : ℝ) * (i + 1) + k * lo + k * (k - 1) / 2 := by
    intro k
    induction k with
    | zero => intro _; rw [Nat.cast_zero, add_zero, rowsTotal_self]; simp
    | succ k ih =>
      intro hk
      rw [Nat.cast_succ, ← add_assoc, rowsTotal_succ _ _ _ _ _ _ _ _ (by omega), ih (by omega)]
      have := trend_week hi (show lo + k < 5 by omega)
      rw [Nat.cast_add (R := ℤ), Nat.cast_add (R := ℝ)] at this
      rw [this]
      push_cast
      ring
  unfold Spec.rowsAverage
  have k4 := key 4 (by omega)
  rw [show ((lo : ℤ) + 4) = (lo : ℤ) + (4 : ℕ) by norm_num, k4]
  rw [show ((lo : ℤ) + (4 : ℕ) - lo : ℤ) = 4 by push_cast; ring]
  push_cast
  ring

theorem trend_raw (V : StudyEnv) (hV : V.ext = studyExt) (form : StudyForm) (hf : form.itemCol = "id" ∧ form.dateCol = "day" ∧ form.primary = "other" ∧
    form.primaryCol = "profit" ∧ form.fraction = 1) : Spec.RawStudy V form (trendRaw "profit") 0 7 5 studyTime (studyValue "profit") := by
  obtain ⟨h1, h2, h3, h4, h5⟩ := hf
  have hc := trendRaw_items "profit"
  refine ⟨?_, ?_, ?_, ?_, ?_⟩
  · rw [hV, h1, h2, h3, h4]
    exact trendRaw_usable (by decide)
  · rw [h5]; norm_num
  · rw [h5]
  · rw [h5, h1, hV, hc]; norm_num
  · rw [h1, hV, hc]; norm_num

theorem trend_ids {V : StudyEnv} (hV : V.ext = studyExt) {form : StudyForm} (hf : form.itemCol = "id" ∧ form.dateCol = "day" ∧ form.primary = "other" ∧
    form.primaryCol = "profit" ∧ form.fraction = 1) {data : Frame ℝ} {s : Study} (h : openStudy V form (trendRaw "profit") = .ok (data, s)) :
    ∀ i, i ∈ studyIds ↔ .str i ∈ data.col "item_id" := by
  obtain ⟨h1, h2⟩ := C126_items V form _ _ _ _ _ _ (trend_raw V hV form hf) data s h
  intro i
  unfold studyIds
  rw [List.mem_map]
  constructor
  · rintro ⟨j, hj, rfl⟩
    have := h2 hf.2.2.2.2 _ (mem_trendRaw (w := 0) (List.mem_range.mp hj) (by norm_num))
    rw [hV, hf.1] at this
    exact this
  · intro hi
    obtain ⟨q, hq, e⟩ := h1 _ hi
    obtain ⟨j, w, hj, -, rfl⟩ := trendRaw_mem hq
    rw [hV, hf.1] at e
    injection e with e
    exact ⟨j, List.mem_range.mpr hj, e.symm⟩

theorem trend_mean {lo : ℕ} (h : lo < 2) :
    Spec.mean (studyIds.map (Spec.rowsAverage studyExt (trendRaw "profit") "id" studyTime (studyValue "profit") 0 lo (lo + 4))) = 32 + lo := by
  have : studyIds.map (Spec.rowsAverage studyExt (trendRaw "profit") "id" studyTime (studyValue "profit") 0 lo (lo + 4)) =
      (List.range 60).map (fun i : ℕ => (i + 1 + (lo + 3 / 2) : ℝ)) := by
    unfold studyIds
    rw [List.map_map]
    exact List.map_congr_left (fun i hi => trend_average (List.mem_range.mp hi) h)
  rw [this]
  unfold Spec.mean
  rw [List.length_map, List.length_range]
  norm_num [List.range, List.range.loop]
  ring

/-- A form with traditional designs of four weeks that trim nothing, with the given pretests. -/
noncomputable def trendForm (pretests : List ℤ) : StudyForm := { oneForm false with pretests := pretests }

theorem mapM_length_eq {α β : Type} {f : α → Py β} {l : List α} {out : List β} (h : l.mapM f = .ok out) : l.length = out.length := by
  induction l generalizing out with
  | nil =>
    obtain rfl := Except.ok.inj (show Except.ok [] = _ from h)
    rfl
  | cons a l ih =>
    rw [List.mapM_cons] at h
    obtain ⟨b, -, h⟩ := Py.bind_eq_ok.mp h
    obtain ⟨bs, hbs, h⟩ := Py.bind_eq_ok.mp h
    obtain rfl := Except.ok.inj (show Except.ok (b :: bs) = _ from h)
    rw [List.length_cons, List.length_cons, ih hbs]

theorem dictSet_last {α β : Type} [DecidableEq α] (k : α) (v : β) (l : List (α × β)) : (k, v) ∈ dictSet k v l := by
  induction l with
  | nil => simp [dictSet]
  | cons p l ih =>
    obtain ⟨k', v'⟩ := p
    unfold dictSet
    split_ifs
    · exact List.mem_cons_self
    · exact List.mem_cons_of_mem _ ih

/-- The last design is in the session, whatever the ids are. -/
theorem estimated_last {V : StudyEnv} {data : Frame ℝ} {m : ℤ} {ds : List (Design ℝ)} {d : Design ℝ} {s : Study}
    (h : estimateDesigns V data m (ds ++ [d]) = .ok s) : ∃ e ∈ s, e.2.1.design = d := by
  unfold estimateDesigns at h
  obtain ⟨l, hl, h⟩ := Py.bind_eq_ok.mp h
  obtain rfl := Except.ok.inj h
  rw [List.zipIdx_append, List.mapM_append] at hl
  obtain ⟨l1, -, hl⟩ := Py.bind_eq_ok.mp hl
  obtain ⟨l2, hl2, hl⟩ := Py.bind_eq_ok.mp hl
  obtain rfl := Except.ok.inj hl
  obtain ⟨b, hb, hbe⟩ := mapM_image hl2 (a := (d, 0 + ds.length)) (by simp)
  obtain ⟨a, ha, hbe⟩ := Py.bind_eq_ok.mp hbe
  obtain ⟨id, hid, hbe⟩ := Py.bind_eq_ok.mp hbe
  obtain rfl := Except.ok.inj hbe
  have hlen : l2 = [(id, a)] := by
    have h1 : l2.length = 1 := by
      rw [← mapM_length_eq hl2]
      simp
    obtain ⟨x, rfl⟩ := List.length_eq_one_iff.mp h1
    rw [List.mem_singleton] at hb
    rw [← hb]
  subst hlen
  refine ⟨(id, a), ?_, ?_⟩
  · unfold dictOf
    rw [List.foldl_append]
    exact dictSet_last _ _ _
  · show a.1.design = d
    unfold analyseDesign at ha
    obtain ⟨a0, h0, ha⟩ := Py.bind_eq_ok.mp ha
    obtain ⟨u, -, ha⟩ := Py.bind_eq_ok.mp ha
    obtain rfl := Except.ok.inj ha
    show a0.1.design = d
    exact mkSimulation_design h0

/-- The sessions with pretests of no week only, or of one week and no week: the design without a pretest is in both, the start weeks are those after the longest pretest. -/
theorem trendForm_opened (V : StudyEnv) (hV : V.ext = studyExt) (ha : ArgsortOk V.argsort) (pretests : List ℤ) (hpre : pretests = [0] ∨ pretests = [1, 0]) :
    ∃ data s d, openStudy V (trendForm pretests) (trendRaw "profit") = .ok (data, s) ∧ nunique (data.col "item_id") = 60 ∧ (∃ e ∈ s, e.2.1.design = d) ∧
      mkDesign V.R (Spec.designOf ((oneForm false).candidates data) 4 0 (.float 0) (.float 0) (.float 0) none) = .ok d := by
  have hr0 : V.R.rnd 0 = 0 := by simpa using V.R.intFix 0 (by norm_num)
  obtain ⟨data, hdata, hw, hn⟩ := trendRaw_accepted V hV (name := "profit") (by decide)
  have hwanted : Spec.wanted ((trendForm pretests).candidates data) =
      pretests.map (fun q => Spec.designOf ((oneForm false).candidates data) 4 q (.float 0) (.float 0) (.float 0) none) := by
    rcases hpre with rfl | rfl <;>
      simp [Spec.wanted, Spec.wantedFor, Spec.designOf, StudyForm.candidates, StudyForm.metric, trendForm, oneForm, studyForm, PyNum.val]
  obtain ⟨designs, hd⟩ := (((C64_returns_iff V.R ((trendForm pretests).candidates data) (by
      intro t ht b hb
      simp only [StudyForm.candidates, trendForm, oneForm, studyForm, List.map_cons, List.map_nil, List.mem_singleton] at ht hb
      subst ht; subst hb
      simp [PyNum.val])).1 1 rfl).1).mpr (by
    intro p hp
    rw [hwanted] at hp
    obtain ⟨q, hq, rfl⟩ := List.mem_map.mp hp
    have hq : q = 0 ∨ q = 1 := by
      rcases hpre with rfl | rfl
      · exact .inl (List.mem_singleton.mp hq)
      · rcases List.mem_cons.mp hq with h | h
        · exact .inr h
        · exact .inl (List.mem_singleton.mp h)
    rcases hq with rfl | rfl <;>
      exact ⟨⟨by norm_num [Spec.designOf], by norm_num [Spec.designOf, StudyForm.candidates], by simp [PyNum.val, Spec.designOf], by simp [PyNum.val, Spec.designOf], by simp [PyNum.val, Spec.designOf], by simp [PyNum.val, hr0, Spec.designOf],
        by simp [PyNum.val, Spec.designOf], by simp [PyNum.val, Spec.designOf], fun hx => by cases hx⟩,
        by simp [Spec.itemsAfterPost, Spec.itemsAfterPre, PyNum.val, hr0, Spec.designOf, StudyForm.candidates, hn]⟩)
  obtain ⟨s, h, -⟩ := C116_every_design_estimated_partial V ha (trendForm pretests) (trendRaw "profit") data hdata rfl
    (by rintro ⟨-, h⟩; exact absurd (show "profit" = "time_period" from h) (by decide)) (by rw [hn]; norm_num) (fun _ => le_refl _) designs hd 0 4 hw
    (by simp [trendForm, oneForm]) (by rcases hpre with rfl | rfl <;> simp [trendForm])
    (by rcases hpre with rfl | rfl <;> simp [trendForm, oneForm])
  obtain ⟨w1, w2⟩ := C64_exactly_the_wanted_designs V.R _ designs hd
  rw [hwanted] at w1
  obtain ⟨-, -, designs', m, hg, -, he⟩ := openStudy_parts h
  rw [hd] at hg
  obtain rfl := Except.ok.inj hg
  rcases List.eq_nil_or_concat designs with rfl | ⟨ds, d, rfl⟩
  · rcases hpre with rfl | rfl <;> simp at w1
  refine ⟨data, s, d, h, hn, estimated_last (by rw [← List.concat_eq_append]; exact he), ?_⟩
  have : d.toDesignParams = Spec.designOf ((oneForm false).candidates data) 4 0 (.float 0) (.float 0) (.float 0) none := by
    have := congrArg List.getLast? w1
    rcases hpre with rfl | rfl <;> simpa using this
  rw [← this]
  exact (w2 d (by simp)).1

/-- The average of the design without pretest in a session. -/
theorem trendForm_average (V : StudyEnv) (hV : V.ext = studyExt) (ha : ArgsortOk V.argsort) {pretests : List ℤ} {data : Frame ℝ} {s : Study}
    (h : openStudy V (trendForm pretests) (trendRaw "profit") = .ok (data, s)) {e : List Char × (SimConfig × SimState)} (he : e ∈ s)
    (hu : Spec.Untrimmed e.2.1.design) (hx : e.2.1.design.isCrossover = false) (hp : e.2.1.design.pretest = 0) (hr : e.2.1.design.runtime = 4) :
    ∃ starts : List ℤ, starts.Nodup ∧ (∀ start, start ∈ starts ↔ (∀ p ∈ pretests, p ≤ start) ∧ start + 4 ≤ 5) ∧
      e.2.2.average = some (.fin (Spec.mean (starts.map (fun start =>
        Spec.mean (studyIds.map (Spec.rowsAverage studyExt (trendRaw "profit") "id" studyTime (studyValue "profit") 0 start (start + 4))))))) := by
  have A := trend_raw V hV (trendForm pretests) ⟨rfl, rfl, rfl, rfl, rfl⟩
  obtain ⟨starts, hst, hres⟩ := C126_plain V ha (trendForm pretests) _ 0 7 5 _ _ A data s h studyIds studyIds_nodup
    (trend_ids hV ⟨rfl, rfl, rfl, rfl, rfl⟩ h) e he hu hx hp
  have h5 : Spec.completeWeeks 7 5 = 5 := by decide
  refine ⟨starts, hst.1, fun start => ?_, ?_⟩
  · rw [hst.2 start, hr, h5]
    rfl
  · rw [(hres _ _ _ (fun _ => rfl) rfl rfl).1, hr, hV]
    rfl

/-- **C141, why the longest pretest has to be the same.**  With the values of sixty items growing from week to week, one design, without pretest, is in a session where it is
the only candidate and in a session with a further candidate that has a pretest; its average is 65/2 in the first one and 33 in the second one, because the first start week is
given by the longest pretest of all candidates. -/
theorem C141_longest_pretest_matters (V : StudyEnv) (hV : V.ext = studyExt) (ha : ArgsortOk V.argsort) :
    ∃ (form form' : StudyForm) (raw data : Frame ℝ) (s s' : Study), Spec.SamePreparation form form' ∧ Spec.AsksForLess form form' ∧
      openStudy V form raw = .ok (data, s) ∧ openStudy V form' raw = .ok (data, s') ∧
      ∃ e ∈ s, ∃ e' ∈ s', e'.2.1.design = e.2.1.design ∧ Spec.Untrimmed e.2.1.design ∧
        e.2.2.average = some (.fin (65 / 2)) ∧ e'.2.2.average = some (.fin 33) := by
  obtain ⟨data, s, d, h, hn, ⟨e, he, hd⟩, hmk⟩ := trendForm_opened V hV ha [0] (.inl rfl)
  obtain ⟨data', s', d', h', hn', ⟨e', he', hd'⟩, hmk'⟩ := trendForm_opened V hV ha [1, 0] (.inr rfl)
  obtain rfl : data' = data := by
    have k := (opened_entry h).1
    have k' := (opened_entry h').1
    exact Except.ok.inj (k'.symm.trans k)
  obtain rfl : d' = d := Except.ok.inj (hmk'.symm.trans hmk)
  have hpar := ((mkDesign_ok_iff V.R _ _).mp hmk).1
  have hf : d'.isCrossover = false ∧ d'.pretest = 0 ∧ d'.runtime = 4 ∧ Spec.Untrimmed d' := by
    obtain ⟨-, -, designs, hg, -, hall⟩ := opened_entry h
    have k := (C64_members V.R _ _ hg _).mp (hall e he).1
    rw [hd] at k
    obtain ⟨-, -, -, -, -, -, hrt, hpt, htop, hbot, hpost, -, hx⟩ := k
    simp only [StudyForm.candidates, trendForm, oneForm, studyForm, List.map_cons, List.map_nil, List.mem_singleton] at hrt hpt htop hbot hpost
    refine ⟨?_, hpt, hrt, by rw [htop]; simp [PyNum.val], by rw [hbot]; simp [PyNum.val], by rw [hpost]; simp [PyNum.val]⟩
    rcases hx with hx | hx
    · exact hx.1
    · have := hx.2.2.1
      simp [StudyForm.candidates, trendForm, oneForm, studyForm] at this
  obtain ⟨f1, f2, f3, f4⟩ := hf
  obtain ⟨l, hl, hmem, hav⟩ := trendForm_average V hV ha h he (by rw [hd]; exact f4) (by rw [hd]; exact f1) (by rw [hd]; exact f2) (by rw [hd]; exact f3)
  obtain ⟨l', hl', hmem', hav'⟩ := trendForm_average V hV ha h' he' (by rw [hd']; exact f4) (by rw [hd']; exact f1) (by rw [hd']; exact f2)
    (by rw [hd']; exact f3)
  refine ⟨trendForm [0], trendForm [1, 0], trendRaw "profit", data', s, s', ⟨rfl, rfl, rfl, rfl, rfl, rfl⟩,
    ⟨List.Subset.refl _, by simp [trendForm], List.Subset.refl _, List.Subset.refl _, List.Subset.refl _, id, id, fun _ => rfl, by simp [trendForm, oneForm]⟩,
    h, h', e, he, e', he', by rw [hd, hd'], by rw [hd]; exact f4, ?_, ?_⟩
  · have hp : l.Perm [0, 1] := (List.perm_ext_iff_of_nodup hl (by decide)).mpr fun x => by
      rw [hmem x]
      simp only [List.mem_cons, List.not_mem_nil, or_false, forall_eq]
      omega
    have m0 := trend_mean (lo := 0) (by norm_num)
    have m1 := trend_mean (lo := 1) (by norm_num)
    rw [hav, spec_mean_perm (hp.map _)]
    simp only [List.map_cons, List.map_nil]
    simp only [Nat.cast_zero, Nat.cast_one] at m0 m1
    rw [m0, m1]
    unfold Spec.mean
    norm_num
  · have hp : l'.Perm [1] := (List.perm_ext_iff_of_nodup hl' (by decide)).mpr fun x => by
      rw [hmem' x]
      simp only [List.mem_cons, List.not_mem_nil, or_false, forall_eq_or_imp, forall_eq]
      omega
    have m1 := trend_mean (lo := 1) (by norm_num)
    rw [hav', spec_mean_perm (hp.map _)]
    simp only [List.map_cons, List.map_nil]
    simp only [Nat.cast_one] at m1
    rw [m1]
    unfold Spec.mean
    norm_num

end Feedx
