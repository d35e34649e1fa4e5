import Verif.Props.DesignSession
import Verif.Props.SimulateRepeat

/-!
The designer's validation and export cells return for accepted data (C118).
-/

set_option linter.unusedSectionVars false
set_option linter.unusedSimpArgs false

namespace Feedx

/-- An analysis of accepted data directly after the estimates. -/
theorem opened_accepted {V : StudyEnv} (ha : ArgsortOk V.argsort) {form : StudyForm} {raw data : Frame ℝ} {s : Study}
    (h : openStudy V form raw = .ok (data, s)) (hskip : form.skip = []) (hname : form.metric ≠ "time_period")
    (hsize : nunique (data.col "item_id") ≤ 2 ^ 51) {e : List Char × (SimConfig × SimState)} (he : e ∈ s) :
    mkDesign V.R e.2.1.design.toDesignParams = .ok e.2.1.design ∧ e.2.1.design.nBefore ≤ 2 ^ 51 ∧ e.2.1.design.primaryMetric = form.metric ∧
      e.2.1.itemCol = "item_id" ∧ e.2.1.weekCol = "week_id" ∧ e.2.1.periodCol = "time_period" ∧ e.2.1.treatCol = "treatment" ∧
      (∃ mde, e.2.2.mde = some mde ∧ ((∃ x, mde = .fin x) ∨ (mde = .nan ∧ e.2.1.design.isCrossover = false ∧ 0 < e.2.1.design.pretest ∧
        ⌊V.R.rnd (e.2.1.design.postTrim.val * e.2.1.design.nAfterPre)⌋ = 0))) ∧
      Spec.UsableHistory e.2.1.design "item_id" "week_id" "time_period" e.2.1.starts e.2.2.data ∧
      (Spec.PositiveMetric form.metric data → Spec.PositiveMetric form.metric e.2.2.data) := by
  unfold openStudy at h
  obtain ⟨data', hd, h⟩ := Py.bind_eq_ok.mp h
  obtain ⟨-, h⟩ := raiseIf_bind_ok.mp h
  obtain ⟨designs, hg, h⟩ := Py.bind_eq_ok.mp h
  obtain ⟨minStart, hms, h⟩ := Py.bind_eq_ok.mp h
  obtain ⟨st, hest, h⟩ := Py.bind_eq_ok.mp h
  cases h
  rw [hskip] at hd
  unfold estimateDesigns at hest
  obtain ⟨l, hl, hest⟩ := Py.bind_eq_ok.mp hest
  cases hest
  obtain ⟨p, hp, hpe⟩ := mapM_mem hl (dictOf_mem he)
  obtain ⟨a, hA, hpe⟩ := Py.bind_eq_ok.mp hpe
  obtain ⟨id, -, hpe⟩ := Py.bind_eq_ok.mp hpe
  cases hpe
  unfold analyseDesign at hA
  obtain ⟨a0, hs0, hA⟩ := Py.bind_eq_ok.mp hA
  obtain ⟨u, hu, hA⟩ := Py.bind_eq_ok.mp hA
  cases hA
  obtain ⟨hmk, hnb, hpm, hal, hpw, -, -, hpt, -⟩ := (C64_members V.R _ designs hg p.1).mp (List.fst_mem_of_mem_zipIdx hp)
  obtain ⟨c, s0⟩ := a0
  obtain ⟨last, hlast, hc, hs⟩ : ∃ last, IsGreatest {w : ℤ | .int w ∈ data.col "week_id"} last ∧
      c = ⟨p.1, "item_id", "week_id", "time_period", "treatment", minStart, last - p.1.runtime + 1, 1 / 10000⟩ ∧
      s0 = ⟨data, none, none, none, none, none, none⟩ := by
    unfold mkSimulation at hs0
    obtain ⟨-, hs0⟩ := raiseIf_bind_ok.mp hs0
    obtain ⟨-, hs0⟩ := raiseIf_bind_ok.mp hs0
    split at hs0
    · cases hs0
    · rename_i last hl
      cases hs0
      rw [List.max?_eq_some_iff] at hl
      exact ⟨last, ⟨ints_mem.mp hl.1, fun w hw => hl.2 w (ints_mem.mpr hw)⟩, rfl, rfl⟩
  obtain ⟨-, -, -, ⟨t0, -, hweeks⟩, hgap⟩ := C62_weekly_panel V.R V.rng V.ext V.sorter raw data form.itemCol form.dateCol form.primary
    form.primaryCol form.fraction hd
  have hin : ∀ start ∈ c.starts, ∀ w, start - p.1.pretest ≤ w → w < start + p.1.runtime → .int w ∈ data.col "week_id" := by
    intro start hst w h1 h2
    obtain ⟨first, longest, hf, -, -, hll, hmin⟩ := (C66_earliest_start form.runtimes form.pretests (ints (dropDup (data.col "week_id")))).1 minStart hms
    rw [ints_mem, mem_dropDup] at hf
    unfold SimConfig.starts at hst
    rw [mem_weekRange, hc] at hst
    simp only at hst
    have := hll p.1.pretest hpt
    exact hgap first w last (by omega) (by omega) hf hlast.1
  have hus := accepted_usable (starts := c.starts) hd hname hmk hnb hpm hin
  have hnle : p.1.nBefore ≤ 2 ^ 51 := by
    rw [hnb]
    change ((nunique (data.col "item_id") : ℕ) : ℤ) ≤ 2 ^ 51
    exact_mod_cast hsize
  have hcd : c.design = p.1 := by rw [hc]
  have halv : c.design.alpha.val = 1 / 20 := by rw [hcd, hal]; rfl
  have hpwv : c.design.power.val = 4 / 5 := by rw [hcd, hpw]; rfl
  have hret : (estimateMde V.R V.argsort V.tdist (V.shuffle p.2) c s0).1 = .ok () := hu
  have hmde : ∃ mde, (estimateMde V.R V.argsort V.tdist (V.shuffle p.2) c s0).2.mde = some mde ∧ ((∃ x, mde = .fin x) ∨
      (mde = .nan ∧ c.design.isCrossover = false ∧ 0 < c.design.pretest ∧ ⌊V.R.rnd (c.design.postTrim.val * c.design.nAfterPre)⌋ = 0)) := by
    rcases C100_formula V.R V.argsort ha V.tdist p.1.toDesignParams c (by rw [hcd]; exact hmk) (by rw [hcd]; exact hnle)
      (by rw [hpwv]; norm_num) (by rw [halv]; norm_num) (V.shuffle p.2) s0 (by
        rw [hs, show c.weekCol = "week_id" by rw [hc]]
        intro r hr
        obtain ⟨w, e, -⟩ := hweeks r hr
        exact Or.inr ⟨w, e⟩) hret with ⟨k, hkne, hk, hall⟩ | ⟨⟨start, hst, hx, hpr, items, kept, -, -, -, -, hlen, hg, -⟩, data', hres⟩
    · obtain ⟨mde, -, -, data', hres⟩ := hall _ _ _ rfl rfl rfl
      exact ⟨_, by rw [hres], Or.inl ⟨mde, rfl⟩⟩
    · refine ⟨.nan, by rw [hres], Or.inr ⟨rfl, hx, ?_, ?_⟩⟩
      · obtain ⟨r, -, -, x, -, h1, h2⟩ := hpr
        omega
      · rw [← hlen]
        simpa using hg
  have hkept := (kept_call (argsort := V.argsort) (D := V.tdist) (R := V.R) (c := c) (s := s0) (call := .estimate (V.shuffle p.2))
    (p := p.1.toDesignParams) (by rw [hcd]; exact hmk) trivial (by
      rw [hcd, hs, show c.itemCol = "item_id" by rw [hc], show c.weekCol = "week_id" by rw [hc], show c.periodCol = "time_period" by rw [hc]]
      exact hus)).1
  rw [hcd, show c.itemCol = "item_id" by rw [hc], show c.weekCol = "week_id" by rw [hc], show c.periodCol = "time_period" by rw [hc]] at hkept
  refine ⟨by rw [hcd]; exact hmk, by rw [hcd]; exact hnle, by rw [hcd]; exact hpm, by rw [hc], by rw [hc], by rw [hc], by rw [hc], hmde,
    by rw [hcd]; exact hkept, fun hpos => ?_⟩
  rcases hst : statsOfWeeks V.R V.argsort (V.shuffle p.2) c c.starts s0.data with ⟨r, f⟩
  have hdata : (estimateMde V.R V.argsort V.tdist (V.shuffle p.2) c s0).2.data = f := by
    unfold estimateMde
    rw [hst]
    cases r with
    | error x => rfl
    | ok l =>
      simp only
      split
      · rfl
      · split <;> rfl
  show Spec.PositiveMetric form.metric (estimateMde V.R V.argsort V.tdist (V.shuffle p.2) c s0).2.data
  rw [hdata]
  cases r with
  | error x =>
    unfold estimateMde at hret
    rw [hst] at hret
    cases hret
  | ok l =>
    have := positive_stats (c := c) hst (by
      rw [hcd, show p.1.primaryMetric = form.metric from hpm, hs]; exact hpos)
    rw [hcd, show p.1.primaryMetric = form.metric from hpm] at this
    exact this

/-- Validations that return for every analysis in the list. -/
theorem validateStudy_returns (V : StudyEnv) (targets : List (List Char × List SimDraw)) (s : Study) (hnd : (targets.map Prod.fst).Nodup)
    (h : ∀ t ∈ targets, ∃ a, s.lookup t.1 = some a ∧ a.2.aa = none ∧ (validateSim V.R V.argsort V.tdist a.1 t.2 a.2).1 = .ok ()) :
    ∃ s', validateStudy V false targets s = (.ok (), s') ∧ ∀ t ∈ targets, ∀ a, s.lookup t.1 = some a →
      s'.lookup t.1 = some (a.1, (validateSim V.R V.argsort V.tdist a.1 t.2 a.2).2) := by
  induction targets generalizing s with
  | nil => exact ⟨s, rfl, by simp⟩
  | cons t rest ih =>
    obtain ⟨id, draws⟩ := t
    obtain ⟨a, h1, h2, h3⟩ := h (id, draws) (by simp)
    have hone : validateOne V false draws id s = (.ok (), dictSet id (a.1, (validateSim V.R V.argsort V.tdist a.1 draws a.2).2) s) := by
      unfold validateOne Study.get
      rw [h1]
      have : falsePositiveRate a.1.design a.2 = .ok none := by
        unfold falsePositiveRate
        rw [h2]
      simp only [this, ne_eq, not_true_eq_false, and_false, if_false, h3]
    have hother : ∀ k, k ≠ id → (dictSet id (a.1, (validateSim V.R V.argsort V.tdist a.1 draws a.2).2) s).lookup k = s.lookup k := by
      intro k hk
      have := dictSet_lookup id (a.1, (validateSim V.R V.argsort V.tdist a.1 draws a.2).2) s k
      rw [if_neg hk] at this
      convert this
    rw [List.map_cons, List.nodup_cons] at hnd
    have hne : ∀ t ∈ rest, t.1 ≠ id := fun t ht e => hnd.1 (by rw [← e]; exact List.mem_map.mpr ⟨t, ht, rfl⟩)
    obtain ⟨s', hs', hall⟩ := ih (dictSet id (a.1, (validateSim V.R V.argsort V.tdist a.1 draws a.2).2) s) hnd.2 (by
      intro t ht
      rw [hother t.1 (hne t ht)]
      exact h t (by simp [ht]))
    refine ⟨s', ?_, ?_⟩
    · unfold validateStudy
      rw [hone]
      exact hs'
    · intro t ht b hb
      rcases List.mem_cons.mp ht with rfl | ht
      · rw [h1] at hb
        cases hb
        have hk := C117_validated_kept V false rest (dictSet id (a.1, (validateSim V.R V.argsort V.tdist a.1 draws a.2).2) s)
        rw [hs'] at hk
        have hl : (dictSet id (a.1, (validateSim V.R V.argsort V.tdist a.1 draws a.2).2) s).lookup id =
            some (a.1, (validateSim V.R V.argsort V.tdist a.1 draws a.2).2) := by
          have := dictSet_lookup id (a.1, (validateSim V.R V.argsort V.tdist a.1 draws a.2).2) s id
          rw [if_pos rfl] at this
          convert this
        rcases forall₂_lookup (fun _ _ h => h.1) hk id with ⟨n, -⟩ | ⟨x, y, m1, m2, -, -, -, m3⟩
        · rw [hl] at n; cases n
        · rw [hl] at m1
          cases m1
          show s'.lookup id = _
          rw [m2]
          have := m3 hnd.1
          simpa using this
      · exact hall t ht b (by rw [hother t.1 (hne t ht)]; exact hb)

/-- **C118, the validation cell.**  Right after the estimates of accepted data, the validation of any crossover designs, and of regular designs without
pretest if the values of the metric are positive, returns for all random choices (that leave two items in each group of a regular design); each of
them then has as many A/A and A/B results as simulations were wanted.  Missing: regular designs with pretest weeks, see C86. -/
theorem C118_validation_returns_partial (V : StudyEnv) (ha : ArgsortOk V.argsort) (form : StudyForm) (raw data : Frame ℝ) (s : Study)
    (h : openStudy V form raw = .ok (data, s)) (hskip : form.skip = []) (hname : form.metric ≠ "time_period")
    (hnames : Spec.SimulationNames form.metric "item_id" "treatment") (hsize : nunique (data.col "item_id") ≤ 2 ^ 51)
    (targets : List (List Char × List SimDraw)) (hnd : (targets.map Prod.fst).Nodup)
    (ht : ∀ t ∈ targets, ∃ e ∈ s, e.1 = t.1 ∧ (∀ r ∈ t.2, Spec.ValidDraw V.R e.2.1 r) ∧
      (e.2.1.design.isCrossover = true ∨ (e.2.1.design.pretest = 0 ∧ Spec.PositiveMetric form.metric data))) :
    ∃ s', validateStudy V false targets s = (.ok (), s') ∧ ∀ t ∈ targets, ∃ a aa ab, s'.lookup t.1 = some a ∧
      a.2.aa = some aa ∧ a.2.ab = some ab ∧ aa.length = t.2.length ∧ ab.length = t.2.length := by
  obtain ⟨_, hkeys, designs, _, _, hent⟩ := opened_entry h
  have hgood : ∀ t ∈ targets, ∃ a, s.lookup t.1 = some a ∧ a.2.aa = none ∧ (validateSim V.R V.argsort V.tdist a.1 t.2 a.2).1 = .ok () ∧
      ∃ aa ab, (validateSim V.R V.argsort V.tdist a.1 t.2 a.2).2.aa = some aa ∧ (validateSim V.R V.argsort V.tdist a.1 t.2 a.2).2.ab = some ab ∧
        aa.length = t.2.length ∧ ab.length = t.2.length := by
    intro t htm
    obtain ⟨e, he, hid, hdr, hx⟩ := ht t htm
    obtain ⟨h1, h2, h3, h4, h5, h6, h7, ⟨mde, h8, h8'⟩, h9, h10⟩ := opened_accepted ha h hskip hname hsize he
    obtain ⟨mde, rfl⟩ : ∃ x, mde = .fin x := by
      rcases h8' with h8' | ⟨-, hf, h0, -⟩
      · exact h8'
      · rcases hx with hx | ⟨hx, -⟩
        · rw [hf] at hx; cases hx
        · omega
    obtain ⟨k1, ⟨aa, ab, k2⟩, -⟩ := C86_validation_succeeds_partial (D := V.tdist) (c := e.2.1) ha e.2.1.design.toDesignParams h1 h2
      (by rw [h3, h4, h7]; exact hnames) e.2.2 mde h8 (by rw [h4, h5, h6]; exact h9) (by rw [h3]; exact hx.imp id fun hx => ⟨hx.1, h10 hx.2⟩)
      t.2 hdr
    refine ⟨e.2, ?_, (hent e he).2.2.2.2.2.1, k1, aa, ab, k2⟩
    rw [← hid]
    exact study_mem_lookup hkeys he
  obtain ⟨s', hs', hall⟩ := validateStudy_returns V targets s hnd (fun t ht => by
    obtain ⟨a, k1, k2, k3, -⟩ := hgood t ht
    exact ⟨a, k1, k2, k3⟩)
  refine ⟨s', hs', fun t ht => ?_⟩
  obtain ⟨a, k1, k2, k3, aa, ab, k4, k5, k6, k7⟩ := hgood t ht
  exact ⟨_, aa, ab, hall t ht a k1, k4, k5, k6, k7⟩

/-- Validations of which one raises `ZeroDivisionError` and none anything else. -/
theorem validateStudy_raises (V : StudyEnv) (targets : List (List Char × List SimDraw)) (s : Study) (hnd : (targets.map Prod.fst).Nodup)
    (h : ∀ t ∈ targets, ∃ a, s.lookup t.1 = some a ∧ a.2.aa = none ∧ ((validateSim V.R V.argsort V.tdist a.1 t.2 a.2).1 = .ok () ∨
      (validateSim V.R V.argsort V.tdist a.1 t.2 a.2).1 = .error .zeroDivision))
    (hbad : ∃ t ∈ targets, ∃ a, s.lookup t.1 = some a ∧ (validateSim V.R V.argsort V.tdist a.1 t.2 a.2).1 ≠ .ok ()) :
    (validateStudy V false targets s).1 = .error .zeroDivision := by
  induction targets generalizing s with
  | nil => obtain ⟨t, ht, -⟩ := hbad; simp at ht
  | cons t rest ih =>
    obtain ⟨id, draws⟩ := t
    obtain ⟨a, h1, h2, h3⟩ := h (id, draws) (by simp)
    have hone : validateOne V false draws id s = ((validateSim V.R V.argsort V.tdist a.1 draws a.2).1,
        dictSet id (a.1, (validateSim V.R V.argsort V.tdist a.1 draws a.2).2) s) := by
      unfold validateOne Study.get
      rw [h1]
      have : falsePositiveRate a.1.design a.2 = .ok none := by
        unfold falsePositiveRate
        rw [h2]
      simp only [this, ne_eq, not_true_eq_false, and_false, if_false]
    unfold validateStudy
    rcases h3 with h3 | h3
    · have hother : ∀ k, k ≠ id → (dictSet id (a.1, (validateSim V.R V.argsort V.tdist a.1 draws a.2).2) s).lookup k = s.lookup k := by
        intro k hk
        have := dictSet_lookup id (a.1, (validateSim V.R V.argsort V.tdist a.1 draws a.2).2) s k
        rw [if_neg hk] at this
        convert this
      rw [List.map_cons, List.nodup_cons] at hnd
      have hne : ∀ t ∈ rest, t.1 ≠ id := fun t ht e => hnd.1 (by rw [← e]; exact List.mem_map.mpr ⟨t, ht, rfl⟩)
      rw [hone, h3]
      refine ih _ hnd.2 ?_ ?_
      · intro t ht
        rw [hother t.1 (hne t ht)]
        exact h t (by simp [ht])
      · obtain ⟨t, ht, b, hb, hb'⟩ := hbad
        rcases List.mem_cons.mp ht with rfl | ht
        · rw [h1] at hb
          cases hb
          exact absurd h3 hb'
        · exact ⟨t, ht, b, by rw [hother t.1 (hne t ht)]; exact hb, hb'⟩
    · rw [hone, h3]

/-- **C118, the validation cell with any designs.**  Right after the estimates of accepted data, the validation of any designs (regular ones without pretest
weeks if the values of the metric are positive) returns, with all the results, or raises `ZeroDivisionError`, for all random choices (that leave two items
in each group of a regular design).  It returns unless one of the designs is a regular one with pretest weeks.  Missing: excluding that error, which does
occur (`C86_cuped_false`). -/
theorem C118_any_validation_partial (V : StudyEnv) (ha : ArgsortOk V.argsort) (form : StudyForm) (raw data : Frame ℝ) (s : Study)
    (h : openStudy V form raw = .ok (data, s)) (hskip : form.skip = []) (hname : form.metric ≠ "time_period")
    (hnames : Spec.SimulationNames form.metric "item_id" "treatment") (hsize : nunique (data.col "item_id") ≤ 2 ^ 51)
    (targets : List (List Char × List SimDraw)) (hnd : (targets.map Prod.fst).Nodup)
    (ht : ∀ t ∈ targets, ∃ e ∈ s, e.1 = t.1 ∧ (∀ r ∈ t.2, Spec.ValidDraw V.R e.2.1 r) ∧
      (e.2.1.design.isCrossover = false → e.2.1.design.pretest = 0 → Spec.PositiveMetric form.metric data)) :
    (∃ s', validateStudy V false targets s = (.ok (), s') ∧ ∀ t ∈ targets, ∃ a aa ab, s'.lookup t.1 = some a ∧
      a.2.aa = some aa ∧ a.2.ab = some ab ∧ aa.length = t.2.length ∧ ab.length = t.2.length) ∨
    ((∃ t ∈ targets, ∃ e ∈ s, e.1 = t.1 ∧ e.2.1.design.isCrossover = false ∧ 0 < e.2.1.design.pretest) ∧
      (validateStudy V false targets s).1 = .error .zeroDivision) := by
  obtain ⟨_, hkeys, designs, _, _, hent⟩ := opened_entry h
  have hgood : ∀ t ∈ targets, ∃ a, s.lookup t.1 = some a ∧ a.2.aa = none ∧
      (((validateSim V.R V.argsort V.tdist a.1 t.2 a.2).1 = .ok () ∧
        ∃ aa ab, (validateSim V.R V.argsort V.tdist a.1 t.2 a.2).2.aa = some aa ∧ (validateSim V.R V.argsort V.tdist a.1 t.2 a.2).2.ab = some ab ∧
          aa.length = t.2.length ∧ ab.length = t.2.length) ∨
      ((∃ e ∈ s, e.1 = t.1 ∧ e.2.1.design.isCrossover = false ∧ 0 < e.2.1.design.pretest) ∧
        (validateSim V.R V.argsort V.tdist a.1 t.2 a.2).1 = .error .zeroDivision)) := by
    intro t htm
    obtain ⟨e, he, hid, hdr, hx⟩ := ht t htm
    obtain ⟨h1, h2, h3, h4, h5, h6, h7, ⟨mde, h8, h8'⟩, h9, h10⟩ := opened_accepted ha h hskip hname hsize he
    refine ⟨e.2, ?_, (hent e he).2.2.2.2.2.1, ?_⟩
    · rw [← hid]
      exact study_mem_lookup hkeys he
    by_cases hc : e.2.1.design.isCrossover = false ∧ 0 < e.2.1.design.pretest
    · obtain ⟨⟨k1, aa, ab, k2, k3, k4, k5, -⟩ | k1, -⟩ := C86_cuped_partial (D := V.tdist) (c := e.2.1) ha e.2.1.design.toDesignParams h1 hc.1 hc.2 h2
        (by rw [h3, h4, h7]; exact hnames) e.2.2 mde h8 (h8'.imp id fun h => ⟨h.1, h.2.2.2⟩) (by rw [h4, h5, h6]; exact h9) t.2 hdr
      · exact Or.inl ⟨k1, aa, ab, k2, k3, k4, k5⟩
      · exact Or.inr ⟨⟨e, he, hid, hc⟩, k1⟩
    · have hx' : e.2.1.design.isCrossover = true ∨ (e.2.1.design.pretest = 0 ∧ Spec.PositiveMetric form.metric data) := by
        cases hcr : e.2.1.design.isCrossover with
        | true => exact Or.inl rfl
        | false =>
          have hp0 := (created_pretest h1).1
          have : e.2.1.design.pretest = 0 := by
            have hnp : ¬ 0 < e.2.1.design.pretest := fun h => hc ⟨hcr, h⟩
            omega
          exact Or.inr ⟨this, hx hcr this⟩
      obtain ⟨mde, rfl⟩ : ∃ x, mde = .fin x := h8'.resolve_right fun h => hc ⟨h.2.1, h.2.2.1⟩
      obtain ⟨k1, ⟨aa, ab, k2⟩, -⟩ := C86_validation_succeeds_partial (D := V.tdist) (c := e.2.1) ha e.2.1.design.toDesignParams h1 h2
        (by rw [h3, h4, h7]; exact hnames) e.2.2 mde h8 (by rw [h4, h5, h6]; exact h9) (by rw [h3]; exact hx'.imp id fun hx => ⟨hx.1, h10 hx.2⟩)
        t.2 hdr
      exact Or.inl ⟨k1, aa, ab, k2⟩
  by_cases hbad : ∃ t ∈ targets, ∃ a, s.lookup t.1 = some a ∧ (validateSim V.R V.argsort V.tdist a.1 t.2 a.2).1 ≠ .ok ()
  · refine Or.inr ⟨?_, validateStudy_raises V targets s hnd (fun t ht => ?_) hbad⟩
    · obtain ⟨t, htm, b, hb, hb'⟩ := hbad
      obtain ⟨a, k1, -, ⟨k3, -⟩ | ⟨k3, -⟩⟩ := hgood t htm
      · rw [hb] at k1
        cases k1
        exact absurd k3 hb'
      · exact ⟨t, htm, k3⟩
    · obtain ⟨a, k1, k2, k3⟩ := hgood t ht
      exact ⟨a, k1, k2, k3.imp (fun k => k.1) (fun k => k.2)⟩
  · push Not at hbad
    obtain ⟨s', hs', hall⟩ := validateStudy_returns V targets s hnd (fun t ht => by
      obtain ⟨a, k1, k2, -⟩ := hgood t ht
      exact ⟨a, k1, k2, hbad t ht a k1⟩)
    refine Or.inl ⟨s', hs', fun t ht => ?_⟩
    obtain ⟨a, k1, k2, ⟨k3, aa, ab, k4, k5, k6, k7⟩ | ⟨-, k3⟩⟩ := hgood t ht
    · exact ⟨_, aa, ab, hall t ht a k1, k4, k5, k6, k7⟩
    · rw [hbad t ht a k1] at k3
      cases k3

/-- **C118, the export cells.**  After any cells, a validated design that passes the five checks and cuts no items is exported whenever the random salt has
a byte, the file name ends in ".yaml", and the p-value of the sample ratio test of the items' coinflips, with the design's salt or else the random one, is
not below 1/1000. -/
theorem C118_export_returns (V : StudyEnv) (form : StudyForm) (raw data : Frame ℝ) (s : Study) (h : openStudy V form raw = .ok (data, s))
    (hskip : form.skip = []) (cells : List StudyCell) (e : List Char × (SimConfig × SimState)) (he : e ∈ runCells V data s cells)
    (mde : Fl ℝ) (aa ab : List TestResult) (hm : e.2.2.mde = some mde) (haa : e.2.2.aa = some aa) (hab : e.2.2.ab = some ab) (hne : aa ≠ [])
    (hpass : Spec.PassesChecks V.tests mde aa ab) (htrim : e.2.1.design.preTop.val ≤ 0 ∧ e.2.1.design.preBottom.val ≤ 0)
    (binom : ℕ → ℕ → Py ℝ) (σ : Shuffle) (bytes : List ℕ) (hbytes : bytes ≠ [])
    (hb : ∀ salt, (e.2.1.design.salt = some salt ∨ (e.2.1.design.salt.getD "" = "" ∧ salt = String.ofList (Md5.hex bytes))) →
      ∃ p, 1 / 1000 ≤ p ∧ binom (((data.col "item_id").toFinset.filter (fun i => (Coinflip.mk salt).flip (V.ext.toStr i) = 1)).card)
        (data.col "item_id").toFinset.card = .ok p) (fileName : String)
    (hy : ".yaml".toList.isSuffixOf fileName.toList = true) :
    ∃ items file s', exportStudy V binom σ bytes data e.1 fileName (runCells V data s cells) = (.ok (items, file), s') := by
  obtain ⟨hd, hkeys, designs, hg, _, hent⟩ := opened_entry h
  obtain ⟨e0, he0, hlat, hpair, -⟩ := reached_entry h cells he
  obtain ⟨hdm, hid, hth, -⟩ := hent e0 he0
  obtain ⟨hmk, -, -, hal, hpw, -⟩ := (C64_members V.R _ designs hg e0.2.1.design).mp hdm
  have hkeys' : ((runCells V data s cells).map Prod.fst).Nodup := by
    have hk : (runCells V data s cells).map Prod.fst = s.map Prod.fst := by
      have := C117_history V data s cells
      generalize runCells V data s cells = l at this
      clear * - this
      induction this with
      | nil => rfl
      | cons h _ ih => rw [List.map_cons, List.map_cons, ih, h.id]
    rw [hk]
    exact hkeys
  have hl := study_mem_lookup hkeys' he
  have hne' : ab ≠ [] := by
    rcases hpair with ⟨n, -⟩ | ⟨x, y, hx, hy, hlen⟩
    · rw [haa] at n; cases n
    · rw [haa] at hx; rw [hab] at hy
      cases hx; cases hy
      rintro rfl
      exact hne (List.length_eq_zero_iff.mp hlen)
  have hda : e.2.1.design = { e0.2.1.design with salt := e.2.1.design.salt } := congrArg SimConfig.design hlat.design
  have halpha : e.2.1.design.alpha.val = 1 / 20 := by rw [hda]; show e0.2.1.design.alpha.val = _; rw [hal]; rfl
  have hpower : e.2.1.design.power.val = 4 / 5 := by rw [hda]; show e0.2.1.design.power.val = _; rw [hpw]; rfl
  have hthr : e.2.1.threshold = 1 / 10000 := by rw [congrArg SimConfig.threshold hlat.design]; exact hth
  obtain ⟨b, hb1, hiff⟩ := C73_true_iff_five_checks (c := e.2.1) V.tests e.2.2 aa ab mde haa hab hm hne hne'
  rw [halpha, hpower, hthr] at hiff
  have hb2 : b = true := hiff.mpr hpass
  subst hb2
  obtain ⟨rate, hrate⟩ : ∃ r, falsePositiveRate e.2.1.design e.2.2 = .ok (some r) := by
    unfold falsePositiveRate significant resultColumn
    rw [haa]
    simp [raiseIf, bind, Except.bind, pure, Except.pure, hne]
  rw [hskip] at hd
  obtain ⟨hnull, hic, -⟩ := accepted_facts hd
  -- the coin
  obtain ⟨coin, hcoin⟩ : ∃ coin, chooseCoin e.2.1.design bytes = .ok coin := by
    unfold chooseCoin mkCoinflip coinflipOfBytes mkCoinflip
    by_cases hs : e.2.1.design.salt.getD "" ≠ ""
    · rw [if_pos hs, if_neg hs]
      exact ⟨_, rfl⟩
    · rw [if_neg hs, if_neg]
      · exact ⟨_, rfl⟩
      · intro hx
        have := congrArg String.toList hx
        obtain ⟨b, bs, rfl⟩ := List.exists_cons_of_ne_nil hbytes
        simp [Md5.hex] at this
  have hsalt := (chooseCoin_ok hcoin).1
  obtain ⟨p, hp, hpk⟩ := hb coin.salt (by
    obtain ⟨-, c1, c2⟩ := chooseCoin_ok hcoin
    by_cases hs : e.2.1.design.salt.getD "" = ""
    · exact Or.inr ⟨hs, c2 hs⟩
    · left
      rw [c1 hs]
      cases hx : e.2.1.design.salt with
      | none => rw [hx] at hs; exact absurd rfl hs
      | some x => rfl)
  have hcn : Cell.null ∉ data.col "item_id" := by
    intro hx
    obtain ⟨r, hr, hx⟩ := List.mem_map.mp hx
    exact hnull r hr hx
  obtain ⟨out, hout⟩ := (C57_returns V.R σ V.ext binom bytes data { e.2.1.design with salt := some coin.salt } "item_id" (some "week_id")
    "treatment_assignment" coin.salt rfl hsalt htrim hic (by decide) hcn p hpk).1 hp
  have hsame : performAssignment V.R σ V.ext binom bytes data e.2.1.design "item_id" (some "week_id") "treatment_assignment" =
      performAssignment V.R σ V.ext binom bytes data { e.2.1.design with salt := some coin.salt } "item_id" (some "week_id") "treatment_assignment" := by
    have hcoin' : chooseCoin { e.2.1.design with salt := some coin.salt } bytes = .ok coin := by
      unfold chooseCoin mkCoinflip
      simp [hsalt]
    have hnt : ¬ e.2.1.design.hasPreTrim := by unfold Design.hasPreTrim; push Not; exact htrim
    have hnt' : ¬ ({ e.2.1.design with salt := some coin.salt } : Design ℝ).hasPreTrim := hnt
    unfold performAssignment
    rw [hcoin, hcoin', if_neg (fun h => hnt h.1), if_neg (fun h => h.elim (fun h => h hic) (fun h => hnt h.1)), if_neg (by decide),
      if_neg (fun h => hnt' h.1), if_neg (fun h => h.elim (fun h => h hic) (fun h => hnt' h.1)), if_neg (by decide)]
    rfl
  have hget : Study.get (runCells V data s cells) e.1 = .ok e.2 := by
    unfold Study.get
    rw [hl]
  refine ⟨out, ({ e.2.1.design with salt := some coin.salt } : Design ℝ).asDict,
    dictSet e.1 ({ e.2.1 with design := { e.2.1.design with salt := some coin.salt } }, e.2.2) (runCells V data s cells), ?_⟩
  unfold exportStudy
  rw [hget]
  simp only [hrate, hb1, hsame, hout]
  simp only [raiseIf, bind, Except.bind, pure, Except.pure, hy]
  simp

end Feedx
