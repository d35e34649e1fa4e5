import Verif.Props.RawEstimate

/-!
A concrete study for C126: sixty items over five weeks with the same value in every week.
-/

set_option linter.unusedSectionVars false
set_option linter.unusedSimpArgs false

namespace Feedx

theorem study_week {i w : ℕ} (hi : i < 60) (hw : w < 5) :
    Spec.weekTotal studyExt (studyRaw "profit") "id" studyTime (studyValue "profit") (itemText i) (0 + (w : ℤ) * (7 * 86400000000000)) = (i + 1 : ℝ) := by
  unfold Spec.weekTotal
  change (List.map _ (List.filter _ (((List.range 60 ×ˢ List.range 5).map (studyRow "profit"))))).sum = _
  rw [List.filter_map, filter_of_count_one (a := (i, w))]
  · show studyValue "profit" (studyRow "profit" (i, w)) + 0 = _
    unfold studyValue
    rw [studyRow_value (by decide) (by decide), add_zero]
  · rw [List.countP_congr (q := fun p => decide (p = (i, w)))]
    · rw [← List.count_eq_one_of_mem (List.Nodup.product List.nodup_range List.nodup_range)
        (List.mem_product.mpr ⟨List.mem_range.mpr hi, List.mem_range.mpr hw⟩)]
      unfold List.count
      exact List.countP_congr (fun p _ => by simp)
    · rintro ⟨j, v⟩ -
      rw [decide_eq_true_eq]
      show decide (itemText j = itemText i ∧ 0 + (w : ℤ) * (7 * 86400000000000) ≤ (v : ℤ) * (7 * 86400000000000) ∧
        (v : ℤ) * (7 * 86400000000000) < 0 + (w : ℤ) * (7 * 86400000000000) + 7 * 86400000000000) = true ↔ _
      rw [decide_eq_true_eq]
      constructor
      · rintro ⟨h1, h2, h3⟩
        rw [itemText_inj h1, show v = w by omega]
      · intro e
        cases e
        exact ⟨rfl, by omega, by omega⟩
  · exact List.mem_product.mpr ⟨List.mem_range.mpr hi, List.mem_range.mpr hw⟩
  · refine decide_eq_true ⟨rfl, ?_, ?_⟩
    · show 0 + (w : ℤ) * (7 * 86400000000000) ≤ (w : ℤ) * (7 * 86400000000000)
      omega
    · show (w : ℤ) * (7 * 86400000000000) < _
      omega

/-- Every average is the value of the item. -/
theorem study_average {i : ℕ} (hi : i < 60) {lo hi' : ℤ} (h0 : 0 ≤ lo) (h1 : lo < hi') (h2 : hi' ≤ 5) :
    Spec.rowsAverage studyExt (studyRaw "profit") "id" studyTime (studyValue "profit") 0 lo hi' (itemText i) = (i + 1 : ℝ) := by
  obtain ⟨k, hk⟩ := Int.eq_ofNat_of_zero_le (show 0 ≤ hi' - lo by omega)
  have hk : hi' = lo + k := by omega
  subst hk
  have key : ∀ k : ℕ, lo + k ≤ 5 → Spec.rowsTotal studyExt (studyRaw "profit") "id" studyTime (studyValue "profit") 0 lo (lo + k) (itemText i) =
      (k : ℝ) * (i + 1) := by
    intro k
    induction k with
    | zero => intro _; rw [Nat.cast_zero, add_zero, rowsTotal_self]; simp
    | succ k ih =>
      intro hk
      push_cast at hk
      obtain ⟨w, hw⟩ := Int.eq_ofNat_of_zero_le (show 0 ≤ lo + k by omega)
      rw [Nat.cast_succ, ← add_assoc, rowsTotal_succ _ _ _ _ _ _ _ _ (by omega), ih (by omega)]
      have := study_week hi (show w < 5 by omega)
      rw [hw, this]
      push_cast
      ring
  unfold Spec.rowsAverage
  rw [key k h2]
  have hk0 : (k : ℝ) ≠ 0 := by
    rw [Nat.cast_ne_zero]
    omega
  rw [show (lo + k - lo : ℤ) = (k : ℤ) by omega]
  push_cast
  field_simp

/-- The items of the study. -/
def studyIds : List String := (List.range 60).map itemText

theorem studyIds_nodup : studyIds.Nodup := List.nodup_range.map (fun _ _ h => itemText_inj h)

/-- The designer with one week of pretest. -/
noncomputable def oneWeekForm : StudyForm := { oneForm false with pretests := [1] }

theorem study_raw (V : StudyEnv) (hV : V.ext = studyExt) (form : StudyForm) (hf : form.itemCol = "id" ∧ form.dateCol = "day" ∧ form.primary = "other" ∧
    form.primaryCol = "profit" ∧ form.fraction = 1) : Spec.RawStudy V form (studyRaw "profit") 0 7 5 studyTime (studyValue "profit") := by
  obtain ⟨h1, h2, h3, h4, h5⟩ := hf
  have hc := studyRaw_items "profit"
  refine ⟨?_, ?_, ?_, ?_, ?_⟩
  · rw [hV, h1, h2, h3, h4]
    exact studyRaw_usable (by decide)
  · rw [h5]; norm_num
  · rw [h5]
  · rw [h5, h1, hV, hc]; norm_num
  · rw [h1, hV, hc]; norm_num

theorem study_ids {V : StudyEnv} (hV : V.ext = studyExt) {form : StudyForm} (hf : form.itemCol = "id" ∧ form.dateCol = "day" ∧ form.primary = "other" ∧
    form.primaryCol = "profit" ∧ form.fraction = 1) {data : Frame ℝ} {s : Study} (h : openStudy V form (studyRaw "profit") = .ok (data, s)) :
    ∀ i, i ∈ studyIds ↔ .str i ∈ data.col "item_id" := by
  obtain ⟨h1, h2⟩ := C126_items V form _ _ _ _ _ _ (study_raw V hV form hf) data s h
  intro i
  unfold studyIds
  rw [List.mem_map]
  constructor
  · rintro ⟨j, hj, rfl⟩
    have := h2 hf.2.2.2.2 _ (mem_studyRaw (w := 0) (List.mem_range.mp hj) (by norm_num))
    rw [hV, hf.1] at this
    exact this
  · intro hi
    obtain ⟨q, hq, e⟩ := h1 _ hi
    obtain ⟨j, w, hj, -, rfl⟩ := studyRaw_mem hq
    rw [hV, hf.1] at e
    injection e with e
    exact ⟨j, List.mem_range.mpr hj, e.symm⟩

theorem study_values {lo hi : ℤ} (h0 : 0 ≤ lo) (h1 : lo < hi) (h2 : hi ≤ 5) :
    studyIds.map (Spec.rowsAverage studyExt (studyRaw "profit") "id" studyTime (studyValue "profit") 0 lo hi) =
      (List.range 60).map (fun i : ℕ => (i + 1 : ℝ)) := by
  unfold studyIds
  rw [List.map_map]
  exact List.map_congr_left (fun i hi => study_average (List.mem_range.mp hi) h0 h1 h2)

theorem study_mean : Spec.mean ((List.range 60).map (fun i : ℕ => (i + 1 : ℝ))) = 61 / 2 := by
  unfold Spec.mean
  rw [List.length_map, List.length_range]
  norm_num [List.range, List.range.loop]

theorem mean_same {α : Type} {l : List α} {f : α → ℝ} {v : ℝ} (hl : l ≠ []) (h : ∀ x ∈ l, f x = v) : Spec.mean (l.map f) = v := by
  rw [List.map_congr_left h, List.map_const']
  unfold Spec.mean
  rw [List.sum_replicate, List.length_replicate, nsmul_eq_mul]
  have : (l.length : ℝ) ≠ 0 := by
    rw [Nat.cast_ne_zero]
    exact fun e => hl (List.length_eq_zero_iff.mp e)
  field_simp

theorem study_spread : Spec.sumSqDev ((List.range 60).map (fun i : ℕ => (i + 1 : ℝ))) ≠ 0 := by
  unfold Spec.sumSqDev
  rw [study_mean, List.map_map]
  norm_num [List.range, List.range.loop]

/-- C126 applies to a regular experiment: its average is the mean of 1, ..., 60. -/
theorem study_plain_estimate (V : StudyEnv) (hV : V.ext = studyExt) (ha : ArgsortOk V.argsort) :
    ∃ data s, openStudy V (oneForm false) (studyRaw "profit") = .ok (data, s) ∧ s ≠ [] ∧ ∀ e ∈ s, e.2.2.average = some (.fin (61 / 2)) := by
  obtain ⟨data, s, h, hs, -, hall⟩ := oneForm_opened false V hV ha
  refine ⟨data, s, h, hs, fun e he => ?_⟩
  obtain ⟨m1, m0, -, -, m2, m3, m4, -, m5⟩ := hall e he
  have A := study_raw V hV (oneForm false) ⟨rfl, rfl, rfl, rfl, rfl⟩
  obtain ⟨starts, hst, hres⟩ := C126_plain V ha (oneForm false) _ 0 7 5 _ _ A data s h studyIds studyIds_nodup
    (study_ids hV ⟨rfl, rfl, rfl, rfl, rfl⟩ h) e he ⟨m2, m3, m5⟩ m1 m4
  have hne : starts ≠ [] := by
    obtain ⟨-, -, -, -, -, -, -, -, -, -, -, -, -, hst'⟩ := opened_run A h he
    exact List.ne_nil_of_mem ((hst.2 0).mpr ((hst'.2 0).mp m0))
  rw [(hres _ _ _ (fun _ => rfl) rfl rfl).1]
  refine congrArg (fun v : ℝ => some (Fl.fin v)) (mean_same hne (fun start hs => ?_))
  obtain ⟨σ, s0, -, -, -, hmk, -, -, -, -, hpt, -⟩ := opened_run A h he
  obtain ⟨-, hvalid⟩ := (mkDesign_ok_iff V.R _ _).mp hmk
  obtain ⟨hleg, -⟩ := (validateDesign_ok_iff V.R _).mp hvalid
  obtain ⟨-, h1, h2⟩ := tried_nonneg hst hpt hleg.pretest_nonneg hs
  have := hleg.runtime_pos
  rw [hV]
  change Spec.mean (studyIds.map (Spec.rowsAverage studyExt (studyRaw "profit") "id" studyTime (studyValue "profit") 0 start
    (start + e.2.1.design.runtime))) = _
  rw [study_values h1 (by omega) (h2.trans (by decide)), study_mean]

/-- C126 applies to a crossover experiment: the items do not change from the first to the second half, so any effect is detectable. -/
theorem study_crossover_estimate (V : StudyEnv) (hV : V.ext = studyExt) (ha : ArgsortOk V.argsort) :
    ∃ data s, openStudy V (oneForm true) (studyRaw "profit") = .ok (data, s) ∧ s ≠ [] ∧ ∀ e ∈ s, e.2.2.mde = some (.fin 0) := by
  obtain ⟨data, s, h, hs, -, hall⟩ := oneForm_opened true V hV ha
  refine ⟨data, s, h, hs, fun e he => ?_⟩
  obtain ⟨m1, m0, -, -, m2, m3, m4, -, m5⟩ := hall e he
  have A := study_raw V hV (oneForm true) ⟨rfl, rfl, rfl, rfl, rfl⟩
  obtain ⟨σ, s0, -, -, -, hmk, -, -, -, -, hpt, -, -, hst'⟩ := opened_run A h he
  obtain ⟨-, hvalid⟩ := (mkDesign_ok_iff V.R _ _).mp hmk
  obtain ⟨hleg, -⟩ := (validateDesign_ok_iff V.R _).mp hvalid
  obtain ⟨wa, hwa, hw0, hw2, m, hm⟩ := hleg.crossover m1
  obtain ⟨starts, hst, hres⟩ := C126_crossover V ha (oneForm true) _ 0 7 5 _ _ A data s h studyIds studyIds_nodup
    (study_ids hV ⟨rfl, rfl, rfl, rfl, rfl⟩ h) e he ⟨m2, m3, m5⟩ m1 wa hwa
  have hne : starts ≠ [] := List.ne_nil_of_mem ((hst.2 0).mpr ((hst'.2 0).mp m0))
  rw [(hres _ _ _ _ (fun _ => rfl) (fun _ => rfl) rfl rfl).2.2]
  rw [mean_same hne (v := 0) (fun start hs => ?_), Real.sqrt_zero, zero_div, zero_mul]
  obtain ⟨-, h1, h2⟩ := tried_nonneg hst hpt hleg.pretest_nonneg hs
  have := hleg.runtime_pos
  have h2 : start + e.2.1.design.runtime ≤ 5 := h2.trans (by decide)
  rw [sumSqDev_constant (v := 0), zero_div]
  intro x hx
  obtain ⟨i, hi, rfl⟩ := List.mem_map.mp hx
  obtain ⟨j, hj, rfl⟩ := List.mem_map.mp hi
  have hj := List.mem_range.mp hj
  rw [hV]
  change Spec.rowsAverage studyExt (studyRaw "profit") "id" studyTime (studyValue "profit") 0 _ _ _ -
    Spec.rowsAverage studyExt (studyRaw "profit") "id" studyTime (studyValue "profit") 0 _ _ _ = 0
  rw [study_average hj (by omega) (by omega) (by omega), study_average hj (by omega) (by omega) (by omega), sub_self]

/-- The study with pretest weeks is opened. -/
theorem oneWeekForm_opened (V : StudyEnv) (hV : V.ext = studyExt) (ha : ArgsortOk V.argsort) :
    ∃ data s, openStudy V oneWeekForm (studyRaw "profit") = .ok (data, s) ∧ s ≠ [] ∧
      ∀ e ∈ s, e.2.1.design.isCrossover = false ∧ e.2.1.design.pretest = 1 ∧ e.2.1.design.runtime = 4 ∧ Spec.Untrimmed e.2.1.design := by
  have hr0 : V.R.rnd 0 = 0 := by simpa using V.R.intFix 0 (by norm_num)
  obtain ⟨data, hdata, hw, hn, -⟩ := studyRaw_accepted V hV (name := "profit") (by decide)
  obtain ⟨designs, hd⟩ := (((C64_returns_iff V.R (oneWeekForm.candidates data) (by
      intro t ht b hb
      simp only [StudyForm.candidates, oneWeekForm, oneForm, studyForm, List.map_cons, List.map_nil, List.mem_singleton] at ht hb
      subst ht; subst hb
      simp [PyNum.val])).1 1 rfl).1).mpr (by
    intro p hp
    simp only [Spec.wanted, Spec.wantedFor, StudyForm.candidates, oneWeekForm, oneForm, studyForm, List.map_cons, List.map_nil, List.flatMap_cons,
      List.flatMap_nil, List.append_nil, List.mem_append, PyNum.val, hn, Spec.designOf] at hp
    norm_num at hp
    subst hp
    exact ⟨⟨by norm_num, by norm_num, by simp [PyNum.val], by simp [PyNum.val], by simp [PyNum.val], by simp [PyNum.val, hr0],
      by simp [PyNum.val], by simp [PyNum.val], fun hx => by cases hx⟩,
      by simp [Spec.itemsAfterPost, Spec.itemsAfterPre, PyNum.val, hr0]⟩)
  obtain ⟨study, h, -, hent, -⟩ := C116_every_design_estimated_partial V ha oneWeekForm (studyRaw "profit") data hdata rfl
    (by rintro ⟨-, h⟩; exact absurd (show "profit" = "time_period" from h) (by decide)) (by rw [hn]; norm_num) (fun _ => le_refl _) designs hd 0 4 hw
    (by simp [oneWeekForm, oneForm]) (by simp [oneWeekForm]) (by simp [oneWeekForm, oneForm, studyForm])
  refine ⟨data, study, h, ?_, fun e he => ?_⟩
  · obtain ⟨-, -, designs', hd', hne', -⟩ := opened_entry h
    rw [hd] at hd'
    cases hd'
    refine hne' ?_
    rintro rfl
    have := (C64_exactly_the_wanted_designs V.R _ _ hd).1
    simp [Spec.wanted, Spec.wantedFor, StudyForm.candidates, oneWeekForm, oneForm, studyForm, PyNum.val] at this
  · obtain ⟨hde, -⟩ := hent e he
    obtain ⟨hmk, hnb, hpm, -, -, -, hrt, hpt, htop, hbot, hpost, -, hx⟩ := (C64_members V.R _ designs hd _).mp hde
    simp only [StudyForm.candidates, oneWeekForm, oneForm, studyForm, List.map_cons, List.map_nil, List.mem_singleton] at hrt hpt htop hbot hpost
    refine ⟨?_, hpt, hrt, by rw [htop]; simp [PyNum.val], by rw [hbot]; simp [PyNum.val], by rw [hpost]; simp [PyNum.val]⟩
    rcases hx with hx | hx
    · exact hx.1
    · have := hx.2.2.1
      simp [StudyForm.candidates, oneWeekForm, oneForm, studyForm] at this

/-- C126 applies to an experiment with pretest weeks: the values before the experiment explain everything. -/
theorem study_cuped_estimate (V : StudyEnv) (hV : V.ext = studyExt) (ha : ArgsortOk V.argsort) :
    ∃ data s, openStudy V oneWeekForm (studyRaw "profit") = .ok (data, s) ∧ s ≠ [] ∧
      ∀ e ∈ s, e.2.2.average = some (.fin (61 / 2)) ∧ e.2.2.mde = some (.fin 0) := by
  obtain ⟨data, s, h, hs, hall⟩ := oneWeekForm_opened V hV ha
  refine ⟨data, s, h, hs, fun e he => ?_⟩
  obtain ⟨m1, m2, m3, m4⟩ := hall e he
  have A := study_raw V hV oneWeekForm ⟨rfl, rfl, rfl, rfl, rfl⟩
  obtain ⟨starts, hst, hres⟩ := C126_cuped V ha oneWeekForm _ 0 7 5 _ _ A data s h studyIds studyIds_nodup
    (study_ids hV ⟨rfl, rfl, rfl, rfl, rfl⟩ h) e he m4 m1 (by rw [m2]; norm_num)
  have h1 : 1 ∈ starts := (hst.2 1).mpr ⟨by simp [oneWeekForm], by rw [m3]; decide⟩
  have hone : ∀ start ∈ starts, start = 1 := by
    intro start hs
    obtain ⟨a, b⟩ := (hst.2 start).mp hs
    have a := a 1 (by simp [oneWeekForm])
    have b : start + 4 ≤ 5 := by
      rw [m3] at b
      exact b.trans (by decide)
    omega
  have hne := List.ne_nil_of_mem h1
  obtain ⟨hr, -⟩ := hres (fun start => studyIds.map (Spec.rowsAverage V.ext (studyRaw "profit") "id" studyTime (studyValue "profit") 0 start (start + 4)))
    (fun start => studyIds.map (Spec.rowsAverage V.ext (studyRaw "profit") "id" studyTime (studyValue "profit") 0 (start - 1) start)) _ _
    (fun _ => by rw [m3]; rfl) (fun _ => by rw [m2]; rfl) rfl rfl
  rw [hV] at hr
  have hy : ∀ start ∈ starts, studyIds.map (Spec.rowsAverage studyExt (studyRaw "profit") "id" studyTime (studyValue "profit") 0 start (start + 4)) =
      (List.range 60).map (fun i : ℕ => (i + 1 : ℝ)) := fun start hs => by
    rw [hone start hs]
    exact study_values (by norm_num) (by norm_num) (by norm_num)
  have hx : ∀ start ∈ starts, studyIds.map (Spec.rowsAverage studyExt (studyRaw "profit") "id" studyTime (studyValue "profit") 0 (start - 1) start) =
      (List.range 60).map (fun i : ℕ => (i + 1 : ℝ)) := fun start hs => by
    rw [hone start hs]
    exact study_values (by norm_num) (by norm_num) (by norm_num)
  obtain ⟨r1, -, r3⟩ := hr (fun start hs => by rw [hx start hs]; exact study_spread)
  rw [r1, r3]
  constructor
  · exact congrArg (fun v : ℝ => some (Fl.fin v)) (mean_same hne (fun start hs => by rw [hy start hs, study_mean]))
  · rw [mean_same hne (v := 0) (fun start hs => ?_), Real.sqrt_zero, mul_zero, zero_div, zero_mul]
    rw [hy start hs, hx start hs]
    have : Spec.crossDev ((List.range 60).map (fun i : ℕ => (i + 1 : ℝ))) ((List.range 60).map (fun i : ℕ => (i + 1 : ℝ))) =
      Spec.sumSqDev ((List.range 60).map (fun i : ℕ => (i + 1 : ℝ))) := crossDev_self _
    rw [this, sq, mul_div_assoc, div_self study_spread, mul_one, sub_self, zero_div]

end Feedx
