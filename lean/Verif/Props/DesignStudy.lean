import Verif.Proofs.DesignStudy
import Verif.Spec.DesignStudy
import Verif.Props.SummaryFormat

/-!
The workflow of the experiment designer: every candidate design is estimated (C116).
-/

set_option linter.unusedSectionVars false
set_option linter.unusedSimpArgs false

namespace Feedx

theorem mapM_first {α β γ δ : Type} {g : α × δ → Py (β × γ)} {f : α → Py β} {l : List (α × δ)} {out : List (β × γ)} (h : l.mapM g = .ok out)
    (hf : ∀ p ∈ l, ∀ e, g p = .ok e → f p.1 = .ok e.1) : (l.map Prod.fst).mapM f = .ok (out.map Prod.fst) := by
  induction l generalizing out with
  | nil => cases h; rfl
  | cons p l ih =>
    rw [List.mapM_cons] at h
    obtain ⟨b, hb, h⟩ := Py.bind_eq_ok.mp h
    obtain ⟨bs, hbs, h⟩ := Py.bind_eq_ok.mp h
    cases h
    rw [List.map_cons, List.mapM_cons, hf p (by simp) b hb, ih hbs (fun q hq => hf q (by simp [hq]))]
    rfl

theorem mapM_image {α β : Type} {f : α → Py β} {l : List α} {out : List β} (h : l.mapM f = .ok out) {a : α} (ha : a ∈ l) :
    ∃ b ∈ out, f a = .ok b := by
  have h := Py.mapM_ok h
  clear * - h ha
  induction h with
  | nil => cases ha
  | cons hx _ ih =>
    rcases List.mem_cons.mp ha with rfl | ha
    · exact ⟨_, by simp, hx⟩
    · obtain ⟨b, hb, e⟩ := ih ha
      exact ⟨b, by simp [hb], e⟩

/-- The first start week is found, and the start weeks are those from which the windows of all candidates fit. -/
theorem minStart_found {data : Frame ℝ} {runtimes pretests : List ℤ} {first last : ℤ} (hw : Spec.WeeksOf data first last)
    (hr : runtimes ≠ []) (hp : pretests ≠ []) (hfit : ∀ r ∈ runtimes, ∀ p ∈ pretests, r + p ≤ last - first + 1) :
    ∃ minStart, minStartWeek runtimes pretests (ints (dropDup (data.col "week_id"))) = .ok minStart ∧
      (∀ start, minStart ≤ start ↔ ∀ p ∈ pretests, first + p ≤ start) ∧ ∃ p ∈ pretests, minStart = first + p := by
  have hmem : ∀ w, w ∈ ints (dropDup (data.col "week_id")) ↔ .int w ∈ data.col "week_id" := fun w => by rw [ints_mem, mem_dropDup]
  obtain ⟨h1, h2, -⟩ := C66_earliest_start runtimes pretests (ints (dropDup (data.col "week_id")))
  obtain ⟨s, hs⟩ := h2.mpr ⟨hr, hp, List.ne_nil_of_mem ((hmem first).mpr hw.1.1), first, (hmem first).mpr hw.1.1, last, (hmem last).mpr hw.2.1, hfit⟩
  refine ⟨s, hs, ?_⟩
  obtain ⟨f, longest, hf, hfl, hl, hll, rfl⟩ := h1 s hs
  have : f = first := le_antisymm (hfl _ ((hmem first).mpr hw.1.1)) (hw.1.2 ((hmem f).mp hf))
  subst this
  refine ⟨fun start => ?_, longest, hl, rfl⟩
  constructor
  · intro h p hp
    have := hll p hp
    omega
  · intro h
    exact h longest hl

/-- The analysis of a design with accepted data is created; its start weeks are those from which the windows of all candidates fit, and there is one. -/
theorem simulation_created {V : StudyEnv} {form : StudyForm} {raw data : Frame ℝ}
    (hdata : prepareHistorical V.R V.rng V.ext V.sorter raw form.itemCol form.dateCol form.primary form.primaryCol form.fraction [] = .ok data)
    {first last : ℤ} (hw : Spec.WeeksOf data first last) {minStart : ℤ} (hmin : ∀ start, minStart ≤ start ↔ ∀ p ∈ form.pretests, first + p ≤ start)
    (d : Design ℝ) :
    ∃ c : SimConfig, c = ⟨d, "item_id", "week_id", "time_period", "treatment", minStart, last - d.runtime + 1, 1 / 10000⟩ ∧
      mkSimulation d data "item_id" "week_id" "time_period" "treatment" minStart (1 / 10000) = .ok (c, ⟨data, none, none, none, none, none, none⟩) ∧
      ∀ start, start ∈ c.starts ↔ Spec.MayStart form.pretests first last d start := by
  obtain ⟨hne, -, -, ⟨t0, -, hweeks⟩, hgap⟩ := C62_weekly_panel V.R V.rng V.ext V.sorter raw data form.itemCol form.dateCol form.primary
    form.primaryCol form.fraction hdata
  obtain ⟨-, -, hwc, -, -⟩ := accepted_facts hdata
  refine ⟨_, rfl, ?_, fun start => ?_⟩
  · unfold mkSimulation
    have h3 : (ints (data.col "week_id")).max? = some last := by
      rw [List.max?_eq_some_iff]
      exact ⟨ints_mem.mpr hw.2.1, fun w hw' => hw.2.2 (ints_mem.mp hw')⟩
    refine raiseIf_bind_ok.mpr ⟨not_not.mpr hwc, raiseIf_bind_ok.mpr ⟨?_, ?_⟩⟩
    · rw [Bool.not_eq_false, List.all_eq_true]
      intro x hx
      obtain ⟨r, hr, rfl⟩ := List.mem_map.mp hx
      obtain ⟨w, e, -⟩ := hweeks r hr
      rw [e]
    · rw [h3]
      rfl
  · unfold SimConfig.starts Spec.MayStart
    rw [mem_weekRange, ← hmin start]
    simp only
    constructor <;> rintro ⟨h1, h2⟩ <;> exact ⟨h1, by omega⟩

/-- The analysis of one design of accepted data. -/
theorem analyse_accepted {V : StudyEnv} (ha : ArgsortOk V.argsort) {form : StudyForm} {raw data : Frame ℝ}
    (hdata : prepareHistorical V.R V.rng V.ext V.sorter raw form.itemCol form.dateCol form.primary form.primaryCol form.fraction [] = .ok data)
    (hname : form.metric ≠ "time_period") (hsize : nunique (data.col "item_id") ≤ 2 ^ 51) {designs : List (Design ℝ)}
    (hdesigns : generateDesigns V.R (form.candidates data) = .ok designs) {first last : ℤ} (hw : Spec.WeeksOf data first last)
    (hfit : ∀ r ∈ form.runtimes, ∀ p ∈ form.pretests, r + p ≤ last - first + 1) {minStart : ℤ}
    (hmin : ∀ start, minStart ≤ start ↔ ∀ p ∈ form.pretests, first + p ≤ start)
    (hmax : ∃ p ∈ form.pretests, minStart = first + p) {d : Design ℝ} (hd : d ∈ designs) (σ : ℤ → Shuffle) :
    ∃ c s, analyseDesign V data minStart σ d = .ok (c, s) ∧
      (∃ s0, mkSimulation d data "item_id" "week_id" "time_period" "treatment" minStart (1 / 10000) = .ok (c, s0) ∧
        s = runSim V.R V.argsort V.tdist c s0 [.estimate σ]) ∧
      c = ⟨d, "item_id", "week_id", "time_period", "treatment", minStart, last - d.runtime + 1, 1 / 10000⟩ ∧
      (∀ start, start ∈ c.starts ↔ Spec.MayStart form.pretests first last d start) ∧
      s.aa = none ∧ s.ab = none ∧
      Spec.ReportsEstimate V.tdist V.R.rnd d data.rows c.starts s := by
  obtain ⟨hmk, hnb, hpm, hal, hpw, -, hrt, hpt, -⟩ := (C64_members V.R _ designs hdesigns d).mp hd
  obtain ⟨hne, -, -, ⟨t0, -, hweeks⟩, hgap⟩ := C62_weekly_panel V.R V.rng V.ext V.sorter raw data form.itemCol form.dateCol form.primary
    form.primaryCol form.fraction hdata
  obtain ⟨-, -, hwc, -, -⟩ := accepted_facts hdata
  obtain ⟨s0, hs0⟩ : ∃ s0 : SimState, s0 = ⟨data, none, none, none, none, none, none⟩ := ⟨_, rfl⟩
  obtain ⟨c, hc, hsim, hstarts⟩ := simulation_created hdata hw hmin d
  rw [← hs0] at hsim
  have hcd : c.design = d := by rw [hc]
  have hin : ∀ start ∈ c.starts, ∀ w, start - d.pretest ≤ w → w < start + d.runtime → .int w ∈ data.col "week_id" := by
    intro start hs w h1 h2
    obtain ⟨h3, h4⟩ := (hstarts start).mp hs
    have := h3 d.pretest hpt
    exact hgap first w last (by omega) (by omega) hw.1.1 hw.2.1
  have hu := accepted_usable (starts := c.starts) hdata hname hmk hnb hpm hin
  have hstne : c.starts ≠ [] := by
    obtain ⟨p, hp, e⟩ := hmax
    refine List.ne_nil_of_mem ((hstarts minStart).mpr ⟨(hmin minStart).mp (le_refl _), ?_⟩)
    have := hfit d.runtime hrt p hp
    omega
  have hnle : d.nBefore ≤ 2 ^ 51 := by
    rw [hnb]
    change ((nunique (data.col "item_id") : ℕ) : ℤ) ≤ 2 ^ 51
    exact_mod_cast hsize
  have hret := C100_returns V.R V.argsort ha V.tdist d.toDesignParams c (by rw [hcd]; exact hmk) (by rw [hcd]; exact hnle) σ s0 hstne
    (by rw [hcd, hs0, show c.itemCol = "item_id" by rw [hc], show c.weekCol = "week_id" by rw [hc], show c.periodCol = "time_period" by rw [hc]]
        exact hu)
  have halv : c.design.alpha.val = 1 / 20 := by rw [hcd, hal]; rfl
  have hpwv : c.design.power.val = 4 / 5 := by rw [hcd, hpw]; rfl
  have hform := C100_formula V.R V.argsort ha V.tdist d.toDesignParams c (by rw [hcd]; exact hmk) (by rw [hcd]; exact hnle)
    (by rw [hpwv]; norm_num) (by rw [halv]; norm_num) σ s0 (by
      rw [hs0, show c.weekCol = "week_id" by rw [hc]]
      intro r hr
      obtain ⟨w, e, -⟩ := hweeks r hr
      exact Or.inr ⟨w, e⟩) hret
  have hrun : analyseDesign V data minStart σ d = .ok (c, (estimateMde V.R V.argsort V.tdist σ c s0).2) := by
    unfold analyseDesign
    rw [hsim]
    simp only [bind, Except.bind, hret]
    rfl
  rcases hform with ⟨l, hlne, hl, hall⟩ | ⟨⟨start, hs, hconst⟩, data', hres⟩
  · obtain ⟨mde, hm1, hm2, data', hres⟩ := hall _ _ _ rfl rfl rfl
    refine ⟨c, (estimateMde V.R V.argsort V.tdist σ c s0).2, hrun, ⟨s0, hsim, rfl⟩, hc, hstarts, ?_, ?_, Or.inl ⟨Spec.mean (l.map Prod.fst),
      Real.sqrt (Spec.mean (l.map Prod.snd)), mde, ?_, ?_, ?_, ?_, ?_⟩⟩
    · rw [hres, hs0]
    · rw [hres, hs0]
    · refine ⟨l, hlne, ?_, rfl, rfl, ?_⟩
      · rw [hcd, hs0, show c.itemCol = "item_id" by rw [hc], show c.weekCol = "week_id" by rw [hc]] at hl
        exact hl
      · rintro n rfl
        rw [hcd] at hm1 hm2 halv hpwv
        rw [halv, hpwv, show (1 : ℝ) - 1 / 20 / 2 = 39 / 40 by norm_num] at hm1 hm2
        exact ⟨hm1, hm2⟩
    all_goals rw [hres]
  · refine ⟨c, (estimateMde V.R V.argsort V.tdist σ c s0).2, hrun, ⟨s0, hsim, rfl⟩, hc, hstarts, ?_, ?_, Or.inr ⟨⟨start, hs, ?_⟩, ?_⟩⟩
    · rw [hres, hs0]
    · rw [hres, hs0]
    · rw [hcd, hs0, show c.itemCol = "item_id" by rw [hc], show c.weekCol = "week_id" by rw [hc]] at hconst
      exact hconst
    · rw [hres]
      exact ⟨rfl, rfl, rfl, rfl⟩

/-- **C116.**  Once historical data is accepted with no check skipped, the candidate designs are generated and the data is long enough for the longest
pretest and runtime, the estimation of all of them succeeds: there is one analysis for every different design id, in the order of the designs, and
each has the average, standard deviation and minimum detectable effect of its design, from all the start weeks from which the windows of all
candidates lie in the data; all of them are nan instead if the design is a regular one with pretest weeks, without trimming at the end, and for one start
week the items have all the same pretest average.  (The metric's column is not called "time_period", see `C116_time_period_false`; there are at most
2^51 items.) -/
theorem C116_every_design_estimated_partial (V : StudyEnv) (ha : ArgsortOk V.argsort) (form : StudyForm) (raw data : Frame ℝ)
    (hdata : prepareHistorical V.R V.rng V.ext V.sorter raw form.itemCol form.dateCol form.primary form.primaryCol form.fraction [] = .ok data)
    (hskip : form.skip = []) (hname : ¬ (form.primary = "other" ∧ form.primaryCol = "time_period"))
    (hsize : nunique (data.col "item_id") ≤ 2 ^ 51) (hwash : form.crossoverAllowed = true → 1 ≤ form.washout)
    (designs : List (Design ℝ)) (hdesigns : generateDesigns V.R (form.candidates data) = .ok designs)
    (first last : ℤ) (hw : Spec.WeeksOf data first last) (hr : form.runtimes ≠ []) (hp : form.pretests ≠ [])
    (hfit : ∀ r ∈ form.runtimes, ∀ p ∈ form.pretests, r + p ≤ last - first + 1) :
    ∃ study, openStudy V form raw = .ok (data, study) ∧
      (∃ ids, designs.mapM (designId V.R V.fr V.printable) = .ok ids ∧ study.map Prod.fst = dropDup ids) ∧
      (∀ e ∈ study, e.2.1.design ∈ designs ∧ designId V.R V.fr V.printable e.2.1.design = .ok e.1 ∧ e.2.2.aa = none ∧
        (∀ start, start ∈ e.2.1.starts ↔ Spec.MayStart form.pretests first last e.2.1.design start) ∧
        Spec.ReportsEstimate V.tdist V.R.rnd e.2.1.design data.rows e.2.1.starts e.2.2) ∧
      ∀ d ∈ designs, (∀ d' ∈ designs, designId V.R V.fr V.printable d' = designId V.R V.fr V.printable d → d' = d) →
        ∃ e ∈ study, e.2.1.design = d := by
  have hname' : form.metric ≠ "time_period" := by
    unfold StudyForm.metric
    split
    · rename_i ho
      exact fun e => hname ⟨ho, e⟩
    · intro e
      obtain ⟨hall, -⟩ := cleanHistorical_parts (Py.bind_eq_ok.mp hdata).choose_spec.1
      rw [e] at hall
      revert hall
      decide
  obtain ⟨minStart, hms, hmin, hmax⟩ := minStart_found hw hr hp hfit
  have hone : ∀ p ∈ designs.zipIdx, ∃ e : List Char × (SimConfig × SimState), (do
      let a ← analyseDesign V data minStart (V.shuffle p.2) p.1
      let id ← designId V.R V.fr V.printable a.1.design
      return (id, a)) = .ok e ∧ e.2.1.design = p.1 ∧ designId V.R V.fr V.printable p.1 = .ok e.1 ∧ e.2.2.aa = none ∧
        (∀ start, start ∈ e.2.1.starts ↔ Spec.MayStart form.pretests first last e.2.1.design start) ∧
        Spec.ReportsEstimate V.tdist V.R.rnd e.2.1.design data.rows e.2.1.starts e.2.2 := by
    intro p hpm
    have hd : p.1 ∈ designs := List.fst_mem_of_mem_zipIdx hpm
    obtain ⟨c, s, h1, -, hc, h3, h4, -, h5⟩ := analyse_accepted ha hdata hname' hsize hdesigns hw hfit hmin hmax hd (V.shuffle p.2)
    have hcd : c.design = p.1 := by rw [hc]
    obtain ⟨hmk, -⟩ := (C64_members V.R _ designs hdesigns p.1).mp hd
    obtain ⟨id, hid⟩ := (C05_design_id_ignores_salt V.R V.fr V.printable p.1.toDesignParams p.1 hmk p.1.salt p.1.salt).2
    refine ⟨(id, (c, s)), ?_, hcd, hid, h4, by rw [hcd]; exact h3, by rw [hcd]; exact h5⟩
    rw [h1]
    simp only [bind, Except.bind, hcd]
    rw [hid]
    rfl
  obtain ⟨l, hl⟩ := Py.mapM_returns (l := designs.zipIdx) (f := fun p => do
      let a ← analyseDesign V data minStart (V.shuffle p.2) p.1
      let id ← designId V.R V.fr V.printable a.1.design
      return (id, a)) (fun p hpm => by
        obtain ⟨e, he, -⟩ := hone p hpm
        exact ⟨e, he⟩)
  have hlm := Py.mapM_ok hl
  have hids : designs.mapM (designId V.R V.fr V.printable) = .ok (l.map Prod.fst) := by
    have := mapM_first (f := designId V.R V.fr V.printable) hl (fun p hpm e he => by
      obtain ⟨e', h1, -, h3, -⟩ := hone p hpm
      rw [he] at h1
      cases h1
      exact h3)
    rwa [List.zipIdx_map_fst] at this
  have hmem : ∀ e ∈ l, e.2.1.design ∈ designs ∧ designId V.R V.fr V.printable e.2.1.design = .ok e.1 ∧ e.2.2.aa = none ∧
        (∀ start, start ∈ e.2.1.starts ↔ Spec.MayStart form.pretests first last e.2.1.design start) ∧
        Spec.ReportsEstimate V.tdist V.R.rnd e.2.1.design data.rows e.2.1.starts e.2.2 := by
    intro e he
    obtain ⟨p, hpm, hpe⟩ := mapM_mem hl he
    obtain ⟨e', h1, h2, h3, h4⟩ := hone p hpm
    rw [hpe] at h1
    cases h1
    exact ⟨h2 ▸ List.fst_mem_of_mem_zipIdx hpm, by rw [h2]; exact h3, h4⟩
  refine ⟨dictOf l, ?_, ⟨l.map Prod.fst, hids, dictOf_keys l⟩, fun e he => hmem e (dictOf_mem he), ?_⟩
  · unfold openStudy
    rw [hskip, hdata]
    simp only [bind, Except.bind]
    have hr : raiseIf PyErr.valueError (form.crossoverAllowed = true ∧ form.washout < 1) = .ok () :=
      raiseIf_ok.mpr (fun h => by have := hwash h.1; omega)
    rw [hr]
    simp only [hdesigns, hms]
    unfold estimateDesigns
    rw [hl]
    rfl
  · intro d hd hinj
    obtain ⟨hmk, -⟩ := (C64_members V.R _ designs hdesigns d).mp hd
    obtain ⟨id, hid⟩ := (C05_design_id_ignores_salt V.R V.fr V.printable d.toDesignParams d hmk d.salt d.salt).2
    have hid : designId V.R V.fr V.printable d = .ok id := hid
    have hin : id ∈ l.map Prod.fst := by
      obtain ⟨b, hb, e⟩ := mapM_image hids hd
      rw [hid] at e
      cases e
      exact hb
    have : id ∈ (dictOf l).map Prod.fst := by rw [dictOf_keys, mem_dropDup]; exact hin
    obtain ⟨e, he, rfl⟩ := List.mem_map.mp this
    obtain ⟨h1, h2, -⟩ := hmem e (dictOf_mem he)
    exact ⟨e, he, hinj _ h1 (h2.trans hid.symm)⟩

/-- **C116, full statement.**  Once historical data is accepted with no check skipped, the candidate designs are generated and the data is long enough for
the longest pretest and runtime, all designs can be estimated. -/
def C116_full : Prop :=
  ∀ (V : StudyEnv), ArgsortOk V.argsort → ∀ (form : StudyForm) (raw data : Frame ℝ),
    prepareHistorical V.R V.rng V.ext V.sorter raw form.itemCol form.dateCol form.primary form.primaryCol form.fraction [] = .ok data →
    form.skip = [] → nunique (data.col "item_id") ≤ 2 ^ 51 → (form.crossoverAllowed = true → 1 ≤ form.washout) →
    (generateDesigns V.R (form.candidates data)).Returns → form.runtimes ≠ [] → form.pretests ≠ [] →
    ∀ first last, Spec.WeeksOf data first last → (∀ r ∈ form.runtimes, ∀ p ∈ form.pretests, r + p ≤ last - first + 1) →
    (openStudy V form raw).Returns

/-- For another metric whose column is called "time_period", accepted data cannot be used: the first estimate raises `ValueError`. -/
theorem C116_time_period (V : StudyEnv) (form : StudyForm) (raw data : Frame ℝ)
    (hdata : prepareHistorical V.R V.rng V.ext V.sorter raw form.itemCol form.dateCol form.primary form.primaryCol form.fraction [] = .ok data)
    (hskip : form.skip = []) (hname : form.primary = "other" ∧ form.primaryCol = "time_period")
    (hwash : form.crossoverAllowed = true → 1 ≤ form.washout)
    (designs : List (Design ℝ)) (hdesigns : generateDesigns V.R (form.candidates data) = .ok designs) (hne : designs ≠ [])
    (first last : ℤ) (hw : Spec.WeeksOf data first last) (hr : form.runtimes ≠ []) (hp : form.pretests ≠ [])
    (hfit : ∀ r ∈ form.runtimes, ∀ p ∈ form.pretests, r + p ≤ last - first + 1) : openStudy V form raw = .error .valueError := by
  obtain ⟨minStart, hms, hmin, hmax⟩ := minStart_found hw hr hp hfit
  obtain ⟨d, rest, rfl⟩ := List.exists_cons_of_ne_nil hne
  obtain ⟨-, -, -, -, -, -, hrt, -⟩ := (C64_members V.R _ _ hdesigns d).mp (by simp)
  obtain ⟨c, hc, hsim, hstarts⟩ := simulation_created hdata hw hmin d
  have hcol : "time_period" ∈ data.cols := by
    have := (accepted_facts hdata).2.2.2.1
    rwa [hname.1, hname.2, show Spec.metricName "other" "time_period" = "time_period" from rfl] at this
  have hstne : c.starts ≠ [] := by
    obtain ⟨p, hp, e⟩ := hmax
    refine List.ne_nil_of_mem ((hstarts minStart).mpr ⟨(hmin minStart).mp (le_refl _), ?_⟩)
    have := hfit d.runtime hrt p hp
    omega
  have herr : analyseDesign V data minStart (V.shuffle 0) d = .error .valueError := by
    unfold analyseDesign
    rw [hsim]
    simp only [bind, Except.bind]
    have : (estimateMde V.R V.argsort V.tdist (V.shuffle 0) c ⟨data, none, none, none, none, none, none⟩).1 = .error .valueError := by
      unfold estimateMde
      obtain ⟨st, sts, hs⟩ := List.exists_cons_of_ne_nil hstne
      have hh : statsOfWeeks V.R V.argsort (V.shuffle 0) c c.starts data = (.error .valueError, data) := by
        rw [hs]
        unfold statsOfWeeks historicalTable pivotTimeAssignment
        rw [if_pos (by rw [hc]; exact hcol)]
      simp only [hh]
    rw [this]
  unfold openStudy
  rw [hskip, hdata]
  simp only [bind, Except.bind]
  have hr : raiseIf PyErr.valueError (form.crossoverAllowed = true ∧ form.washout < 1) = .ok () :=
    raiseIf_ok.mpr (fun h => by have := hwash h.1; omega)
  rw [hr]
  simp only [hdesigns, hms]
  unfold estimateDesigns
  rw [List.zipIdx_cons, List.mapM_cons]
  simp only [bind, Except.bind, herr]

end Feedx
