import Verif.Props.DesignExample
import Verif.Props.DesignExport

/-!
A study whose only design cuts items before the assignment is estimated, validated and exported (C118).
-/

set_option linter.unusedSectionVars false
set_option linter.unusedSimpArgs false

namespace Feedx

/-- Only one design: a crossover over four weeks after one week of pretest, without the 5 % of the items with the highest and the lowest totals. -/
noncomputable def trimForm : StudyForm :=
  { studyForm "profit" with
    runtimes := [4], pretests := [1], preTops := [1 / 20], preBottoms := [1 / 20], crossoverAllowed := true, traditionalAllowed := false }

theorem trimForm_design {V : StudyEnv} (hR : V.R = Rounding.exact ℝ) {data : Frame ℝ} (hn : nunique (data.col "item_id") = 60) {designs : List (Design ℝ)}
    (hd : generateDesigns V.R (trimForm.candidates data) = .ok designs) :
    ∀ d ∈ designs, d.isCrossover = true ∧ d.runtime = 4 ∧ d.pretest = 1 ∧ d.nBefore = 60 ∧ d.nAfterPre = 54 ∧ 0 < d.preTop.val := by
  intro d hdm
  obtain ⟨hmk, hnb, hpm, -, -, -, hrt, hpt, htop, hbot, hpost, -, hx⟩ := (C64_members V.R _ designs hd d).mp hdm
  have hnb : d.nBefore = 60 := by
    rw [hnb]
    show ((nunique (data.col "item_id") : ℕ) : ℤ) = 60
    rw [hn]; rfl
  simp only [StudyForm.candidates, trimForm, studyForm, List.map_cons, List.map_nil, List.mem_singleton] at hrt hpt htop hbot hpost
  refine ⟨?_, hrt, hpt, hnb, ?_, by rw [htop]; simp [PyNum.val]⟩
  · rcases hx with hx | hx
    · have := hx.2.2
      simp [StudyForm.candidates, trimForm, studyForm] at this
    · exact hx.1
  · have := ((mkDesign_ok_iff V.R _ _).mp hmk).1
    rw [this]
    unfold deriveCounts Rounding.floorMul
    simp only [htop, hbot, hnb, hR, Rounding.exact, PyNum.val, id]
    norm_num

/-- The study is opened. -/
theorem trimForm_opened (V : StudyEnv) (hV : V.ext = studyExt) (hR : V.R = Rounding.exact ℝ) (ha : ArgsortOk V.argsort) :
    ∃ data s, openStudy V trimForm (studyRaw "profit") = .ok (data, s) ∧ s ≠ [] ∧ nunique (data.col "item_id") = 60 ∧
      ∀ e ∈ s, e.2.1.design.isCrossover = true ∧ 1 ∈ e.2.1.starts ∧ e.2.1.design.nBefore = 60 ∧ e.2.1.design.nAfterPre = 54 ∧
        0 < e.2.1.design.preTop.val := by
  obtain ⟨data, hdata, hw, hn, -⟩ := studyRaw_accepted V hV (name := "profit") (by decide)
  obtain ⟨designs, hd⟩ := (((C64_returns_iff V.R (trimForm.candidates data) (by
      intro t ht b hb
      simp only [StudyForm.candidates, trimForm, studyForm, List.map_cons, List.map_nil, List.mem_singleton] at ht hb
      subst ht; subst hb
      rw [hR]
      exact id)).1 1 rfl).1).mpr (by
    intro p hp
    simp only [Spec.wanted, Spec.wantedFor, StudyForm.candidates, trimForm, studyForm, List.map_cons, List.map_nil, List.flatMap_cons, List.flatMap_nil,
      List.append_nil, List.mem_append, PyNum.val, hn, Spec.designOf] at hp
    norm_num at hp
    obtain ⟨hev, rfl⟩ := hp
    rw [hR]
    refine ⟨⟨by norm_num, by norm_num, by simp [PyNum.val], by simp [PyNum.val], by simp [PyNum.val], ?_,
      by simp [PyNum.val], by simp [PyNum.val], fun _ => ⟨1, rfl, by norm_num, by norm_num, hev⟩⟩, ?_⟩
    · simp only [PyNum.val, Rounding.exact, id]
      norm_num
    · simp only [Spec.itemsAfterPost, Spec.itemsAfterPre, PyNum.val, Rounding.exact, id]
      norm_num)
  have hmem := trimForm_design hR hn hd
  obtain ⟨study, h, -, hent, -⟩ := C116_every_design_estimated_partial V ha trimForm (studyRaw "profit") data hdata rfl
    (by rintro ⟨-, h⟩; exact absurd (show "profit" = "time_period" from h) (by decide)) (by rw [hn]; norm_num) (fun _ => le_refl _) designs hd 0 4 hw
    (by simp [trimForm]) (by simp [trimForm]) (by simp [trimForm])
  refine ⟨data, study, h, ?_, hn, fun e he => ?_⟩
  · obtain ⟨-, -, designs', hd', hne', -⟩ := opened_entry h
    rw [hd] at hd'
    cases hd'
    refine hne' ?_
    rintro rfl
    have := (C64_exactly_the_wanted_designs V.R _ _ hd).1
    simp [Spec.wanted, Spec.wantedFor, StudyForm.candidates, trimForm, studyForm, PyNum.val, show Even (4 : ℤ) by decide] at this
  · obtain ⟨hde, -, -, hst, -⟩ := hent e he
    obtain ⟨m1, m2, m3, m4, m5, m6⟩ := hmem _ hde
    exact ⟨m1, (hst 1).mpr ⟨by simp [trimForm], by rw [m2]; norm_num⟩, m4, m5, m6⟩

/-- C118 is not vacuous for designs that cut items: the study is opened, validated with one simulation and exported with a table of 54 of the 60 items. -/
theorem trimForm_exported_take : ∃ (V : StudyEnv) (data : Frame ℝ) (s : Study) (cells : List StudyCell) (id : List Char),
    V.rng = takeSampler _ ∧ V.ext = studyExt ∧ V.argsort = stableArgsort ∧ (∀ l m, V.tests.t1 l m = .pinf) ∧
    openStudy V trimForm (studyRaw "profit") = .ok (data, s) ∧ nunique (data.col "item_id") = 60 ∧
    ∃ items file s1, exportStudy V (fun _ _ => .ok 1) noShuffle [1] data id "design.yaml" (runCells V data s cells) = (.ok (items, file), s1) ∧
      items.rows.length = 54 := by
  obtain ⟨V, hg, hV, hsort, ht, hR⟩ : ∃ V : StudyEnv, V.rng = takeSampler _ ∧ V.ext = studyExt ∧ V.argsort = stableArgsort ∧
      V.tests = ⟨fun _ => .pinf, fun _ _ _ _ => .pinf, fun _ _ => .pinf⟩ ∧ V.R = Rounding.exact ℝ :=
    ⟨⟨Rounding.exact ℝ, takeSampler _, studyExt, stableSorter ℝ, stableArgsort, TDist.logistic, fun _ => [], fun _ => true,
      ⟨fun _ => .pinf, fun _ _ _ _ => .pinf, fun _ _ => .pinf⟩, fun _ _ => noShuffle⟩, rfl, rfl, rfl, rfl, rfl⟩
  have ha : ArgsortOk V.argsort := by rw [hsort]; exact stableArgsort_ok
  obtain ⟨data, s, h, hne, hn, hall⟩ := trimForm_opened V hV hR ha
  obtain ⟨hprep, -⟩ := opened_entry h
  obtain ⟨-, -, hrows⟩ := studyRaw_data V hV (name := "profit") (by decide) hprep
  obtain ⟨e, he⟩ := List.exists_mem_of_ne_nil _ hne
  obtain ⟨hx, hst, hnb, hna, htop⟩ := hall e he
  have hnames : Spec.SimulationNames trimForm.metric "item_id" "treatment" := by
    show Spec.SimulationNames "profit" "item_id" "treatment"
    refine ⟨⟨by decide, ?_, by unfold Spec.NoOuterScore; decide⟩, by unfold Spec.NoOuterScore; decide, by decide, by decide, by decide⟩
    rintro ⟨a, b, h⟩
    have : ('_' : Char) ∈ "profit".toList := by rw [h]; simp
    revert this
    decide
  obtain ⟨draw, hdraw⟩ : ∃ draw : SimDraw, draw = ⟨1, List.range 60, noShuffle, (List.range 54).map (fun i => decide (i % 2 = 0))⟩ := ⟨_, rfl⟩
  obtain ⟨s', hs', hres⟩ := C118_validation_returns_partial V ha trimForm (studyRaw "profit") data s h rfl (by show "profit" ≠ "time_period"; decide)
    hnames (by rw [hn]; norm_num) [(e.1, [draw])] (by simp) (by
      intro t htm
      rw [List.mem_singleton] at htm
      subst htm
      refine ⟨e, he, rfl, ?_, Or.inl hx⟩
      intro r hr
      rw [List.mem_singleton] at hr
      subst hr
      rw [hdraw]
      refine ⟨⟨hst, ⟨by rw [hnb]; simp, fun p hp => by rw [hnb]; have := List.mem_range.mp hp; exact_mod_cast this⟩, by rw [hna]; simp⟩, ?_⟩
      intro hc
      rw [hx] at hc
      cases hc)
  obtain ⟨a, aa, ab, hl, haa, hab, hlen, -⟩ := hres _ (List.mem_singleton.mpr rfl)
  obtain ⟨cells, hcells⟩ : ∃ cells, cells = [StudyCell.validate false [(e.1, [draw])]] := ⟨_, rfl⟩
  have hrun : runCells V data s cells = s' := by
    rw [hcells]
    show (validateStudy V false _ s).2 = s'
    rw [hs']
  have hmem : (e.1, a) ∈ runCells V data s cells := by rw [hrun]; exact study_lookup_mem hl
  obtain ⟨e0, he0, hlat, -, -⟩ := reached_entry h cells hmem
  obtain ⟨-, -, designs, -, -, hent⟩ := opened_entry h
  obtain ⟨mde, hm⟩ := Option.ne_none_iff_exists'.mp (hent e0 he0).2.2.2.1
  have hda : a.1.design = { e0.2.1.design with salt := a.1.design.salt } := congrArg SimConfig.design hlat.design
  obtain ⟨kept, -, hk, -, hexp⟩ := C118_every_design_exported V trimForm (studyRaw "profit") data s h rfl (hrows.trans (by norm_num)) cells (e.1, a) hmem
    mde aa ab (hlat.mde.trans hm) haa hab (by rintro rfl; cases hlen) (by
      rw [ht]
      unfold Spec.PassesChecks Spec.AtLeast
      simp) noShuffle
  obtain ⟨items, file, s1, hx1, hx2⟩ := hexp (fun _ _ => .ok 1) [1] (by simp) (fun _ _ => ⟨1, by norm_num, rfl⟩) "design.yaml" (by decide)
  refine ⟨V, data, s, cells, e.1, hg, hV, hsort, fun _ _ => by rw [ht], h, hn, items, file, s1, hx1, ?_⟩
  have h54 : a.1.design.nAfterPre = 54 := by
    rw [hda]
    exact (hall e0 he0).2.2.2.1
  have hk : (kept.length : ℤ) = a.1.design.nAfterPre := hk
  rw [h54, ← hx2] at hk
  have : (items.col "item_id").length = items.rows.length := by simp [Frame.col]
  omega

/-- The same, without the generator. -/
theorem trimForm_exported : ∃ (V : StudyEnv) (data : Frame ℝ) (s : Study) (cells : List StudyCell) (id : List Char),
    V.ext = studyExt ∧ V.argsort = stableArgsort ∧ (∀ l m, V.tests.t1 l m = .pinf) ∧
    openStudy V trimForm (studyRaw "profit") = .ok (data, s) ∧ nunique (data.col "item_id") = 60 ∧
    ∃ items file s1, exportStudy V (fun _ _ => .ok 1) noShuffle [1] data id "design.yaml" (runCells V data s cells) = (.ok (items, file), s1) ∧
      items.rows.length = 54 := by
  obtain ⟨V, data, s, cells, id, -, h⟩ := trimForm_exported_take
  exact ⟨V, data, s, cells, id, h⟩

/-! ### A regular design with pretest weeks -/

/-- Only one design: a regular one over two weeks after one week of pretest, trimmed after the experiment. -/
noncomputable def pretestForm : StudyForm :=
  { studyForm "profit" with runtimes := [2], pretests := [1], postTrims := [1 / 20], crossoverAllowed := false }

/-- `C118_any_validation_partial` is not vacuous. -/
example : ∃ (V : StudyEnv) (data : Frame ℝ) (s : Study) (e : List Char × (SimConfig × SimState)) (draw : SimDraw),
    openStudy V pretestForm (studyRaw "profit") = .ok (data, s) ∧ e ∈ s ∧ e.2.1.design.isCrossover = false ∧ 0 < e.2.1.design.pretest ∧
    ((validateStudy V false [(e.1, [draw])] s).1 = .ok () ∨ (validateStudy V false [(e.1, [draw])] s).1 = .error .zeroDivision) := by
  obtain ⟨V, hV, ha, hR⟩ : ∃ V : StudyEnv, V.ext = studyExt ∧ ArgsortOk V.argsort ∧ V.R = Rounding.exact ℝ :=
    ⟨⟨Rounding.exact ℝ, takeSampler _, studyExt, stableSorter ℝ, stableArgsort, TDist.logistic, fun _ => [], fun _ => true,
      ⟨fun _ => .pinf, fun _ _ _ _ => .pinf, fun _ _ => .pinf⟩, fun _ _ => noShuffle⟩, rfl, stableArgsort_ok, rfl⟩
  obtain ⟨data, hdata, hw, hn, -⟩ := studyRaw_accepted V hV (name := "profit") (by decide)
  obtain ⟨designs, hd⟩ := (((C64_returns_iff V.R (pretestForm.candidates data) (by
      intro t ht b hb
      simp only [StudyForm.candidates, pretestForm, studyForm, List.map_cons, List.map_nil, List.mem_singleton] at ht hb
      subst ht; subst hb
      rw [hR]
      exact id)).1 1 rfl).1).mpr (by
    intro p hp
    simp only [Spec.wanted, Spec.wantedFor, StudyForm.candidates, pretestForm, studyForm, List.map_cons, List.map_nil, List.flatMap_cons, List.flatMap_nil,
      List.append_nil, List.mem_append, PyNum.val, hn, Spec.designOf] at hp
    norm_num at hp
    subst hp
    rw [hR]
    refine ⟨⟨by norm_num, by norm_num, by simp [PyNum.val], by simp [PyNum.val], by simp [PyNum.val], ?_,
      by simp only [PyNum.val]; norm_num, by simp only [PyNum.val]; norm_num, fun h => by cases h⟩, ?_⟩
    · simp only [PyNum.val, Rounding.exact, id]
      norm_num
    · simp only [Spec.itemsAfterPost, Spec.itemsAfterPre, PyNum.val, Rounding.exact, id]
      norm_num)
  have hmem : ∀ d ∈ designs, d.isCrossover = false ∧ d.runtime = 2 ∧ d.pretest = 1 ∧ d.nBefore = 60 ∧ d.nAfterPre = 60 ∧ d.postTrim.val = 1 / 20 := by
    intro d hdm
    obtain ⟨hmk, hnb, hpm, -, -, -, hrt, hpt, htop, hbot, hpost, -, hx⟩ := (C64_members V.R _ designs hd d).mp hdm
    have hnb : d.nBefore = 60 := by
      rw [hnb]
      show ((nunique (data.col "item_id") : ℕ) : ℤ) = 60
      rw [hn]; rfl
    simp only [StudyForm.candidates, pretestForm, studyForm, List.map_cons, List.map_nil, List.mem_singleton] at hrt hpt htop hbot hpost
    refine ⟨?_, hrt, hpt, hnb, ?_, by rw [hpost]; rfl⟩
    · rcases hx with hx | hx
      · exact hx.1
      · have := hx.2.2
        simp [StudyForm.candidates, pretestForm, studyForm] at this
    · have := ((mkDesign_ok_iff V.R _ _).mp hmk).1
      rw [this]
      unfold deriveCounts Rounding.floorMul
      simp only [htop, hbot, hnb, hR, Rounding.exact, PyNum.val, id]
      norm_num
  obtain ⟨s, h, -, hent, -⟩ := C116_every_design_estimated_partial V ha pretestForm (studyRaw "profit") data hdata rfl
    (by rintro ⟨-, h⟩; exact absurd (show "profit" = "time_period" from h) (by decide)) (by rw [hn]; norm_num) (fun h => by cases h) designs hd 0 4 hw
    (by simp [pretestForm]) (by simp [pretestForm]) (by simp [pretestForm])
  have hne : s ≠ [] := by
    obtain ⟨-, -, designs', hd', hne', -⟩ := opened_entry h
    rw [hd] at hd'
    cases hd'
    refine hne' ?_
    rintro rfl
    have := (C64_exactly_the_wanted_designs V.R _ _ hd).1
    simp [Spec.wanted, Spec.wantedFor, StudyForm.candidates, pretestForm, studyForm, PyNum.val] at this
  obtain ⟨e, he⟩ := List.exists_mem_of_ne_nil _ hne
  obtain ⟨hde, -, -, hst, -⟩ := hent e he
  obtain ⟨m1, m2, m3, m4, m5, m6⟩ := hmem _ hde
  have hnames : Spec.SimulationNames pretestForm.metric "item_id" "treatment" := by
    show Spec.SimulationNames "profit" "item_id" "treatment"
    refine ⟨⟨by decide, ?_, by unfold Spec.NoOuterScore; decide⟩, by unfold Spec.NoOuterScore; decide, by decide, by decide, by decide⟩
    rintro ⟨a, b, h⟩
    have : ('_' : Char) ∈ "profit".toList := by rw [h]; simp
    revert this
    decide
  obtain ⟨draw, hdraw⟩ : ∃ draw : SimDraw, draw = ⟨1, List.range 60, noShuffle, (List.range 60).map (fun i => decide (i % 2 = 0))⟩ := ⟨_, rfl⟩
  have hv := C118_any_validation_partial V ha pretestForm (studyRaw "profit") data s h rfl (by show "profit" ≠ "time_period"; decide)
    hnames (by rw [hn]; norm_num) [(e.1, [draw])] (by simp) (by
      intro t htm
      rw [List.mem_singleton] at htm
      subst htm
      refine ⟨e, he, rfl, ?_, fun _ h0 => by omega⟩
      intro r hr
      rw [List.mem_singleton] at hr
      subst hr
      rw [hdraw]
      refine ⟨⟨(hst 1).mpr ⟨by simp [pretestForm], by rw [m2]; norm_num⟩, ⟨by rw [m4]; simp, fun p hp => by
        rw [m4]; have := List.mem_range.mp hp; exact_mod_cast this⟩, by rw [m5]; simp⟩, ?_⟩
      intro _ b
      have hcount : ((List.range 60).map (fun i => decide (i % 2 = 0))).count b = 30 := by cases b <;> decide +kernel
      simp only [hcount, m6, hR, Rounding.exact, id]
      norm_num)
  refine ⟨V, data, s, e, draw, h, he, m1, by omega, ?_⟩
  rcases hv with ⟨s', hs', -⟩ | ⟨-, hv⟩
  · exact Or.inl (by rw [hs'])
  · exact Or.inr hv

end Feedx
