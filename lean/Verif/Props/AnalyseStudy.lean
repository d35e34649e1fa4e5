import Verif.Spec.AnalyseStudy
import Verif.Proofs.StudyItems
import Verif.Props.DesignSession
import Verif.Props.ReportRaw
import Verif.Props.FormatTable

/-!
From the designer to the analyser (C119).
-/

set_option linter.unusedSectionVars false
set_option linter.unusedSimpArgs false

namespace Feedx

/-! ### The form -/

theorem givenName_some (s : String) (h : s ≠ "") : givenName s = some s := by unfold givenName; rw [if_neg h]

theorem givenName_none : givenName "" = none := rfl

theorem form_metricNames (form : AnalyserForm) : preparedMetrics form.args = form.metricNames := by
  unfold preparedMetrics AnalyserForm.args AnalyserForm.metricNames
  by_cases h1 : form.clicks = "" <;> by_cases h2 : form.impressions = "" <;> by_cases h3 : form.totalCost = "" <;>
    by_cases h4 : form.conversions = "" <;> by_cases h5 : form.totalConversionValue = "" <;>
    simp [givenName, h1, h2, h3, h4, h5]

theorem form_sources (form : AnalyserForm) : (Spec.metricSources form.args).map Prod.snd = Spec.givenColumns form ++ form.others := by
  unfold Spec.metricSources Spec.requestedMetrics Spec.givenColumns AnalyserForm.args
  by_cases h1 : form.clicks = "" <;> by_cases h2 : form.impressions = "" <;> by_cases h3 : form.totalCost = "" <;>
    by_cases h4 : form.conversions = "" <;> by_cases h5 : form.totalConversionValue = "" <;>
    simp [givenName, h1, h2, h3, h4, h5, Function.comp_def]

theorem form_atLeastOne {form : AnalyserForm} {p : String × String} (h : p ∈ form.atLeastOne) :
    p.1 ∈ form.metricNames ∧ p ∈ [("clicks", "at_least_one_click"), ("impressions", "at_least_one_impression"), ("conversions", "at_least_one_conversion")] := by
  unfold AnalyserForm.atLeastOne at h
  obtain ⟨h1, h2⟩ := List.mem_filter.mp h
  exact ⟨by simpa using h2, h1⟩

theorem form_names {perf items assign : Frame ℝ} {E : Ext ℝ} {form : AnalyserForm} (hf : Spec.FormFits perf form)
    (hr : Spec.ReadBack E items assign form.itemCol form.treatCol) : Spec.NamesFit perf assign form.itemCol form.dateCol form.treatCol form.args where
  perfCols := by rw [form_sources]; exact hf.columns
  distinct := by rw [form_sources]; exact hf.distinct
  assignCols := hr.1
  different := hf.different
  other := fun c hc => ⟨(hf.others c hc).1, (hf.others c hc).2.1⟩
  sources := fun q hq => by rw [form_metricNames]; exact (form_atLeastOne hq).1
  new := by
    constructor
    · have : (form.args.atLeastOne.map Prod.snd).Sublist ["at_least_one_click", "at_least_one_impression", "at_least_one_conversion"] :=
        (List.filter_sublist (p := fun p : String × String => decide (p.1 ∈ form.metricNames)) (l := [("clicks", "at_least_one_click"),
          ("impressions", "at_least_one_impression"), ("conversions", "at_least_one_conversion")])).map Prod.snd
      exact this.nodup (by decide)
    · intro n hn
      obtain ⟨p, hp, rfl⟩ := List.mem_map.mp hn
      obtain ⟨-, hp⟩ := form_atLeastOne hp
      have hmem : p.2 ∈ ["at_least_one_click", "at_least_one_impression", "at_least_one_conversion"] := List.mem_map.mpr ⟨p, hp, rfl⟩
      refine ⟨?_, ?_, ?_⟩
      · rw [form_metricNames]
        intro hc
        unfold AnalyserForm.metricNames at hc
        rcases List.mem_append.mp hc with hc | hc
        · have : p.2 ∈ standardNames := by
            simp only [List.mem_append] at hc
            rcases hc with (((hc | hc) | hc) | hc) | hc <;> (split at hc <;> simp_all [standardNames])
          revert this
          simp only [List.mem_cons, List.not_mem_nil, or_false] at hmem
          rcases hmem with e | e | e <;> rw [e] <;> decide
        · exact (hf.others _ hc).2.2 hmem
      · simp only [List.mem_cons, List.not_mem_nil, or_false] at hmem
        rcases hmem with e | e | e <;> rw [e] <;> decide
      · simp only [List.mem_cons, List.not_mem_nil, or_false] at hmem
        rcases hmem with e | e | e <;> rw [e] <;> decide

/-- The metrics of the notebook can be analysed if all five standard metrics are given. -/
theorem notebookMetrics_fit {form : AnalyserForm} (h : Spec.AllGiven form) :
    Spec.MetricsFrom (preparedMetrics form.args ++ form.args.atLeastOne.map Prod.snd) notebookMetrics := by
  obtain ⟨h1, h2, h3, h4, h5⟩ := h
  have hn : form.metricNames = ["clicks", "impressions", "total_cost", "conversions", "total_conversion_value"] ++ form.others := by
    unfold AnalyserForm.metricNames
    simp [h1, h2, h3, h4, h5]
  have ha : form.args.atLeastOne.map Prod.snd = ["at_least_one_click", "at_least_one_impression", "at_least_one_conversion"] := by
    show form.atLeastOne.map Prod.snd = _
    unfold AnalyserForm.atLeastOne
    rw [hn]
    simp
  rw [form_metricNames, hn, ha]
  refine ⟨by simp [notebookMetrics], ?_⟩
  intro m hm
  simp only [notebookMetrics, List.mem_cons, List.not_mem_nil, or_false] at hm
  rcases hm with rfl | rfl | rfl | rfl | rfl | rfl | rfl | rfl | rfl | rfl | rfl <;>
    exact ⟨by simp, by simp, by intro q hq; first | (cases hq; done) | (cases hq; exact ⟨le_refl _, by norm_num⟩)⟩

/-! ### The exported design and table -/

/-- What the designer exported is a created design and a correct assignment table for it, also after the table was read back. -/
theorem exported_correct {V : StudyEnv} {form : StudyForm} {raw data : Frame ℝ} {cells : List StudyCell} {C : Checker ℝ} {items : Frame ℝ}
    {file : Dict (YVal ℝ)} (hext : C.ext = V.ext) (h : Spec.Exported V form raw data cells C.binom items file) (hskip : form.skip = [])
    (hsize : data.rows.length ≤ 2 ^ 51) {m : Dict (YVal ℝ)} (hm : m.Perm file) (dflt05 dflt08 : ℝ) :
    ∃ d salt, loadFromDict V.R dflt05 dflt08 m = .ok d ∧ mkDesign V.R d.toDesignParams = .ok d ∧ d.nAfterPre ≤ 2 ^ 51 ∧ d.primaryMetric = form.metric ∧
      (∃ designs, generateDesigns V.R (form.candidates data) = .ok designs ∧ ∃ d0 ∈ designs, d = { d0 with salt := some salt }) ∧ (∀ i ∈ items.col "item_id", ∃ q ∈ raw.rows, i = .str (V.ext.toStr (q form.itemCol))) ∧
      ∃ pvalue, Spec.CorrectAssignment C d items "item_id" "treatment_assignment" salt pvalue := by
  obtain ⟨s, σ, bytes, id, fileName, s', hopen, hexp⟩ := h
  obtain ⟨hprep, -, designs, hg, -, hent⟩ := opened_entry hopen
  rcases exportStudy_cases V C.binom σ bytes data id fileName (runCells V data s cells) with ⟨e, he⟩ | ⟨a, rate, d, res, h1, -, -, h4, h5⟩
  · rw [hexp] at he
    cases he
  · rw [hexp] at h5
    simp only [Prod.mk.injEq] at h5
    obtain ⟨h5, -⟩ := h5
    obtain ⟨it, hit, h5⟩ := Py.bind_eq_ok.mp h5.symm
    obtain ⟨-, h5⟩ := raiseIf_bind_ok.mp h5
    cases h5
    subst hit
    obtain ⟨e0, he0, hlat, -, -⟩ := reached_entry hopen cells (study_lookup_mem h1)
    obtain ⟨hdm, -⟩ := hent e0 he0
    obtain ⟨hmk, hnb, hpm, -⟩ := (C64_members V.R _ designs hg e0.2.1.design).mp hdm
    have hda : a.1.design = { e0.2.1.design with salt := a.1.design.salt } := congrArg SimConfig.design hlat.design
    have hmka : mkDesign V.R a.1.design.toDesignParams = .ok a.1.design := by
      obtain ⟨hdd, hval⟩ := (mkDesign_ok_iff V.R _ _).mp hmk
      rw [mkDesign_ok_iff]
      refine ⟨?_, ?_⟩
      · rw [hda]
        show _ = deriveCounts V.R { e0.2.1.design.toDesignParams with salt := a.1.design.salt }
        conv_lhs => rw [hdd]
        rfl
      · rw [hda]
        exact hval
    rw [hskip] at hprep
    obtain ⟨hcount, hitems⟩ := assigned_accepted hprep hmka (by rw [hda]; exact hnb) (by rw [hda]; exact hpm) hsize h4
    have hext' : performAssignment V.R σ C.ext C.binom bytes data a.1.design "item_id" (some "week_id") "treatment_assignment" = (d, .ok items) := by
      rw [hext]; exact h4
    obtain ⟨salt, pv, hca⟩ := correct_own_assignment (C := C) hsize hext' (by
      intro i hi j hj e
      obtain ⟨-, q, -, rfl⟩ := hitems i hi
      obtain ⟨-, q', -, rfl⟩ := hitems j hj
      rw [C.ext.toStr_str, C.ext.toStr_str] at e
      rw [e]) (by
      intro hc
      obtain ⟨-, q, -, e⟩ := hitems _ hc
      cases e) hcount
    obtain ⟨salt', -, hd'⟩ := C58_salt_set V.R σ V.ext C.binom bytes data items a.1.design d "item_id" (some "week_id") "treatment_assignment" h4
    have hmkd : mkDesign V.R d.toDesignParams = .ok d := by
      obtain ⟨hdd, hval⟩ := (mkDesign_ok_iff V.R _ _).mp hmka
      rw [mkDesign_ok_iff, hd']
      refine ⟨?_, hval⟩
      show _ = deriveCounts V.R { a.1.design.toDesignParams with salt := some salt' }
      conv_lhs => rw [hdd]
      rfl
    refine ⟨d, salt, ?_, hmkd, ?_, ?_, ⟨designs, hg, e0.2.1.design, hdm, ?_⟩, fun i hi => (hitems i hi).2, pv, hca⟩
    · have := C03_yaml_round_trip V.R d.toDesignParams d hmkd d.salt dflt05 dflt08 m hm
      exact this
    · rw [← hca.count]
      have : items.rows.length ≤ data.rows.length := by
        have hnd := (C57_each_eligible_item_once V.R σ V.ext C.binom bytes data items a.1.design d "item_id" (some "week_id") "treatment_assignment" hsize
          h4).2.2.1
        have := (List.subperm_of_subset hnd (fun i hi => (hitems i hi).1)).length_le
        simpa [Frame.col] using this
      exact_mod_cast this.trans hsize
    · rw [hd']
      show a.1.design.primaryMetric = _
      rw [hda]
      exact hpm
    · have e1 := hca.salted.1
      rw [hd'] at e1 ⊢
      have e2 : some salt' = some salt := e1
      rw [e2, hda]

/-- A table that was read back is a correct assignment table as well. -/
theorem readBack_correct {C : Checker ℝ} {d : Design ℝ} {items assign : Frame ℝ} {itemCol treatCol salt : String} {pvalue : ℝ}
    (hr : Spec.ReadBack C.ext items assign itemCol treatCol) (h : Spec.CorrectAssignment C d items "item_id" "treatment_assignment" salt pvalue) :
    Spec.CorrectAssignment C d assign itemCol treatCol salt pvalue := by
  have hp := hr.2
  have htext : (assign.rows.map (fun r => C.ext.toStr (r itemCol))).Perm (items.rows.map (fun r => C.ext.toStr (r "item_id"))) := by
    have := hp.map Prod.fst
    simpa [Function.comp_def] using this
  have hlen : assign.rows.length = items.rows.length := by simpa using hp.length_eq
  refine ⟨(htext.nodup_iff).mpr h.ids, by rw [hlen]; exact h.count, h.salted, ?_, ?_, h.ratio.2⟩
  · intro r hr'
    obtain ⟨q, hq, e⟩ := List.mem_map.mp (hp.mem_iff.mp (List.mem_map.mpr ⟨r, hr', rfl⟩))
    simp only [Prod.mk.injEq] at e
    rw [← e.1, ← e.2]
    exact h.treated q hq
  · have hc : assign.rows.countP (fun r => decide ((Coinflip.mk salt).flip (C.ext.toStr (r itemCol)) = 1)) =
        items.rows.countP (fun r => decide ((Coinflip.mk salt).flip (C.ext.toStr (r "item_id")) = 1)) := by
      have := htext.countP_eq (fun s => decide ((Coinflip.mk salt).flip s = 1))
      rw [List.countP_map, List.countP_map] at this
      exact this
    rw [hc, hlen]
    exact h.ratio.1

/-- **C119, the data is accepted.**  Whatever the user did in the designer notebook: once it has exported an assignment table and a design file, the
analyser loads the file (with its entries in any order) as one of the designs generated from what the user entered, now with a salt, and accepts the exported
table (read back in any order, with any column names) with every performance data of an experiment that was run according to this design. -/
theorem C119_data_accepted (V : StudyEnv) (form : StudyForm) (raw data : Frame ℝ) (cells : List StudyCell) (C : Checker ℝ) (hext : C.ext = V.ext)
    (items : Frame ℝ) (file : Dict (YVal ℝ)) (h : Spec.Exported V form raw data cells C.binom items file) (hskip : form.skip = [])
    (hsize : data.rows.length ≤ 2 ^ 51) (m : Dict (YVal ℝ)) (hm : m.Perm file) (dflt05 dflt08 : ℝ) :
    ∃ d, loadFromDict V.R dflt05 dflt08 m = .ok d ∧
      (∃ designs salt, generateDesigns V.R (form.candidates data) = .ok designs ∧ ∃ d0 ∈ designs, d = { d0 with salt := some salt }) ∧
      ∀ (analyser : AnalyserForm) (perf assign : Frame ℝ) (start : ℤ), Spec.ReadBack C.ext items assign analyser.itemCol analyser.treatCol →
        Spec.FormFits perf analyser → (∀ s ∈ analyser.skip, s ∈ Spec.registeredChecks) → C.ext.strptime analyser.startDate = some start →
        Spec.CorrectPerformance C.ext d perf analyser.itemCol analyser.dateCol analyser.args start →
        ∃ out, prepareStudy V.R dflt05 dflt08 C analyser m perf assign = .ok (d, out) := by
  obtain ⟨d, salt, hl, hmk, -, hpm, ⟨designs, hg, hd0⟩, -, pv, hca⟩ := exported_correct hext h hskip hsize hm dflt05 dflt08
  refine ⟨d, hl, ⟨designs, salt, hg, hd0⟩, fun analyser perf assign start hr hf hsk hst hp => ?_⟩
  obtain ⟨out, ho⟩ := C104_correct_run_accepted V.R _ d hmk C perf assign analyser.startDate analyser.itemCol analyser.dateCol analyser.treatCol
    analyser.args start salt pv hst (form_names hf hr) ⟨hp, readBack_correct hr hca⟩ hsk
  refine ⟨out, ?_⟩
  unfold prepareStudy
  rw [hl]
  simp only [bind, Except.bind, ho]
  rfl

theorem prepareStudy_ok {R : Rounding ℝ} {dflt05 dflt08 : ℝ} {C : Checker ℝ} {form : AnalyserForm} {m : Dict (YVal ℝ)} {perf assign out : Frame ℝ}
    {d d' : Design ℝ} (hl : loadFromDict R dflt05 dflt08 m = .ok d) (h : prepareStudy R dflt05 dflt08 C form m perf assign = .ok (d', out)) :
    d' = d ∧ prepareExperiment C perf assign d form.startDate form.itemCol form.dateCol form.treatCol form.args = .ok out := by
  unfold prepareStudy at h
  obtain ⟨x, hx, h⟩ := Py.bind_eq_ok.mp h
  rw [hl] at hx
  cases hx
  obtain ⟨y, hy, h⟩ := Py.bind_eq_ok.mp h
  cases h
  exact ⟨rfl, hy⟩

theorem analyseData_eq {R : Rounding ℝ} {argsort : List ℝ → List ℕ} {D : TDist} {p : DesignParams ℝ} {d : Design ℝ} (hd : mkDesign R p = .ok d)
    {C : Checker ℝ} {perf assign out : Frame ℝ} {startDate itemCol dateCol treatCol : String} {a : ExperimentArgs}
    (h : prepareExperiment C perf assign d startDate itemCol dateCol treatCol a = .ok out) (hn : Spec.NamesFit perf assign itemCol dateCol treatCol a)
    (metrics : List Metric) : analyseData R argsort D metrics (d, out) =
      (analyzeExperiment R argsort D d.toDesignParams metrics "week_id" "item_id" "treatment_assignment" (out.dropCol "time_period")).1 := by
  unfold prepareExperiment at h
  obtain ⟨f, hb, h⟩ := Py.bind_eq_ok.mp h
  obtain ⟨_, -, h⟩ := Py.bind_eq_ok.mp h
  obtain rfl : f = out := Except.ok.inj h
  obtain ⟨start, hst, hcol, -⟩ := C85_calendar_columns R p C perf assign f d hd startDate itemCol dateCol treatCol a hb
    (fun n hm hc => names_keep hn n hm (by simp only [List.mem_cons] at hc ⊢; tauto))
  unfold analyseData
  have h0 : raiseIf PyErr.keyError ("time_period" ∉ f.cols) = .ok () := raiseIf_ok.mpr (not_not.mpr hcol)
  simp only [h0, bind, Except.bind]

/-- **C119, crossovers are analysed.**  Once the designer has exported a crossover design, the analyser returns one result per metric, in the order of the
metrics, for every concluded experiment that was run according to it. -/
theorem C119_crossover_analysed (V : StudyEnv) (form : StudyForm) (raw data : Frame ℝ) (cells : List StudyCell) (C : Checker ℝ) (hext : C.ext = V.ext)
    (items : Frame ℝ) (file : Dict (YVal ℝ)) (h : Spec.Exported V form raw data cells C.binom items file) (hskip : form.skip = [])
    (hsize : data.rows.length ≤ 2 ^ 51) (m : Dict (YVal ℝ)) (hm : m.Perm file) (dflt05 dflt08 : ℝ) (d : Design ℝ)
    (hl : loadFromDict V.R dflt05 dflt08 m = .ok d) (hx : d.isCrossover = true) (analyser : AnalyserForm) (perf assign : Frame ℝ) (start : ℤ)
    (hrun : Spec.StudyRun C.ext d items perf assign analyser start) (argsort : List ℝ → List ℕ) (ha : ArgsortOk argsort) (D : TDist) (metrics : List Metric)
    (hmet : Spec.MetricsFrom (preparedMetrics analyser.args ++ analyser.args.atLeastOne.map Prod.snd) metrics)
    (hleft : ∀ m ∈ metrics, ∀ q, m.override = some q → Spec.EnoughLeft V.R q d.nAfterPre.toNat) :
    ∃ rows, prepareStudy V.R dflt05 dflt08 C analyser m perf assign >>= analyseData V.R argsort D metrics = .ok rows ∧
      rows.map Prod.fst = metrics.map Metric.name := by
  obtain ⟨d', salt, hl', hmk, hna, -, -, -, pv, hca⟩ := exported_correct hext h hskip hsize hm dflt05 dflt08
  rw [hl] at hl'
  cases hl'
  have hn := form_names hrun.names hrun.table
  obtain ⟨out, rows, ho, hr, hnames⟩ := C103_correct_crossover_analysed V.R argsort ha D _ d hmk (hna.trans (by norm_num)) hx C perf assign analyser.startDate
    analyser.itemCol analyser.dateCol analyser.treatCol analyser.args start salt pv hrun.date hn
    ⟨hrun.performance, readBack_correct hrun.table hca⟩ hrun.checked hrun.concluded metrics hmet hleft
  refine ⟨rows, ?_, hnames⟩
  unfold prepareStudy
  rw [hl]
  simp only [bind, Except.bind, ho, pure, Except.pure]
  rw [analyseData_eq hmk ho hn, hr]

/-- **C119, other designs are analysed.**  Once the designer has exported a design that is not a crossover, using the binomial test, the analyser returns one
result per metric, or raises `ZeroDivisionError`, for every concluded experiment that was run according to it.

Missing for the full statement: that it returns; a metric that is zero for all the control items makes it raise (`C119_division_false`). -/
theorem C119_regular_analysed_partial (V : StudyEnv) (form : StudyForm) (raw data : Frame ℝ) (cells : List StudyCell) (C : Checker ℝ) (hext : C.ext = V.ext)
    (hC : C.binom = binomTest) (items : Frame ℝ) (file : Dict (YVal ℝ)) (h : Spec.Exported V form raw data cells C.binom items file) (hskip : form.skip = [])
    (hsize : data.rows.length ≤ 2 ^ 51) (m : Dict (YVal ℝ)) (hm : m.Perm file) (dflt05 dflt08 : ℝ) (d : Design ℝ)
    (hl : loadFromDict V.R dflt05 dflt08 m = .ok d) (hx : d.isCrossover = false) (analyser : AnalyserForm) (perf assign : Frame ℝ) (start : ℤ)
    (hrun : Spec.StudyRun C.ext d items perf assign analyser start) (argsort : List ℝ → List ℕ) (ha : ArgsortOk argsort) (D : TDist) (metrics : List Metric)
    (hmet : Spec.MetricsFrom (preparedMetrics analyser.args ++ analyser.args.atLeastOne.map Prod.snd) metrics)
    (hleft : ∀ m ∈ metrics, ∀ q, m.override = some q → 50 < d.nAfterPre - 2 * ⌊V.R.rnd (q * (d.nAfterPre.toNat : ℝ))⌋) :
    ∃ out, prepareStudy V.R dflt05 dflt08 C analyser m perf assign = .ok (d, out) ∧
      ((∃ rows, analyseData V.R argsort D metrics (d, out) = .ok rows ∧ rows.map Prod.fst = metrics.map Metric.name) ∨
        ((∃ m ∈ metrics, m.denominator = none ∧ ¬ (d.pretest = 0 ∧
          Spec.ControlPositive d "item_id" "week_id" "treatment_assignment" (out.dropCol "time_period") m.column)) ∧
        analyseData V.R argsort D metrics (d, out) = .error .zeroDivision)) := by
  obtain ⟨d', salt, hl', hmk, hna, -, -, -, pv, hca⟩ := exported_correct hext h hskip hsize hm dflt05 dflt08
  rw [hl] at hl'
  cases hl'
  have hn := form_names hrun.names hrun.table
  obtain ⟨out, ho⟩ := C104_correct_run_accepted V.R _ d hmk C perf assign analyser.startDate analyser.itemCol analyser.dateCol analyser.treatCol
    analyser.args start salt pv hrun.date hn ⟨hrun.performance, readBack_correct hrun.table hca⟩
    (by intro s hs; rw [show analyser.args.skip = [] from hrun.checked] at hs; cases hs)
  refine ⟨out, ?_, ?_⟩
  · unfold prepareStudy
    rw [hl]
    simp only [bind, Except.bind, ho]
    rfl
  · rw [analyseData_eq hmk ho hn]
    exact C103_prepared_regular_analysed_partial V.R argsort ha D _ d hmk (hna.trans (by norm_num)) hx C hC perf assign out analyser.startDate
      analyser.itemCol analyser.dateCol analyser.treatCol analyser.args ho hrun.checked hrun.concluded hn.different
      (by rw [hn.assignCols]; simp) (by rw [hn.assignCols]; simp) (names_keep hn) metrics hmet hleft

/-- The items read back are the exported ones, and their groups are their coinflips. -/
theorem readBack_groups {C : Checker ℝ} {d : Design ℝ} {raw items assign : Frame ℝ} {col itemCol treatCol salt : String} {pvalue : ℝ}
    (hr : Spec.ReadBack C.ext items assign itemCol treatCol) (h : Spec.CorrectAssignment C d items "item_id" "treatment_assignment" salt pvalue)
    (hit : ∀ i ∈ items.col "item_id", ∃ q ∈ raw.rows, i = .str (C.ext.toStr (q col))) {ids : List String}
    (hids : ids.Perm (assign.rows.map (fun r => C.ext.toStr (r itemCol)))) :
    (ids.map Cell.str).Perm (items.col "item_id") ∧
      ∀ b, ∀ s ∈ ids, Spec.RawGroup C.ext assign itemCol treatCol b s ↔ Spec.FlippedTo salt b s := by
  have hp := hr.2
  have htext : (assign.rows.map (fun r => C.ext.toStr (r itemCol))).Perm (items.rows.map (fun r => C.ext.toStr (r "item_id"))) := by
    have := hp.map Prod.fst
    simpa [Function.comp_def] using this
  constructor
  · have h1 := (hids.trans htext).map (Cell.str (K := ℝ))
    refine h1.trans (List.Perm.of_eq ?_)
    rw [List.map_map]
    unfold Frame.col
    refine List.map_congr_left fun r hr' => ?_
    obtain ⟨q, -, e⟩ := hit (r "item_id") (List.mem_map.mpr ⟨r, hr', rfl⟩)
    simp only [Function.comp, e, C.ext.toStr_str]
  · have hc := readBack_correct hr h
    intro b s hs
    obtain ⟨r, hr', rfl⟩ := List.mem_map.mp (hids.mem_iff.mp hs)
    unfold Spec.FlippedTo
    constructor
    · rintro ⟨q, hq, e1, e2⟩
      rw [hc.treated q hq, e1] at e2
      have := Except.ok.inj e2
      cases b <;> simpa using this
    · intro e
      refine ⟨r, hr', rfl, ?_⟩
      rw [hc.treated r hr', e]
      cases b <;> rfl

/-- **C119, the report of a crossover.**  Each result is the crossover report, for the exported items, of what the performance data says about the metric: the
groups are given by the coinflips with the exported salt, and the values are totals per week of the rows of the raw table. -/
theorem C119_crossover_report (V : StudyEnv) (form : StudyForm) (raw data : Frame ℝ) (cells : List StudyCell) (C : Checker ℝ) (hext : C.ext = V.ext)
    (items : Frame ℝ) (file : Dict (YVal ℝ)) (h : Spec.Exported V form raw data cells C.binom items file) (hskip : form.skip = [])
    (hsize : data.rows.length ≤ 2 ^ 51) (m : Dict (YVal ℝ)) (hm : m.Perm file) (dflt05 dflt08 : ℝ) (d : Design ℝ)
    (hl : loadFromDict V.R dflt05 dflt08 m = .ok d) (hx : d.isCrossover = true) (analyser : AnalyserForm) (perf assign out : Frame ℝ) (start : ℤ)
    (hrun : Spec.StudyRun C.ext d items perf assign analyser start) (argsort : List ℝ → List ℕ) (D : TDist) (metrics : List Metric)
    (hmet : Spec.MetricsFrom (preparedMetrics analyser.args ++ analyser.args.atLeastOne.map Prod.snd) metrics) (rows : List (String × TestResult))
    (hp : prepareStudy V.R dflt05 dflt08 C analyser m perf assign = .ok (d, out)) (hrows : analyseData V.R argsort D metrics (d, out) = .ok rows)
    (v : String → Row ℝ → ℝ)
    (hv : ∀ c ∈ preparedMetrics analyser.args ++ analyser.args.atLeastOne.map Prod.snd, Spec.RawReads C.ext analyser.args c (v c)) :
    ∃ salt, d.salt = some salt ∧ ∃ ids : List String, (ids.map Cell.str).Perm (items.col "item_id") ∧
      List.Forall₂ (fun m e => e.1 = m.name ∧ Spec.CrossoverReportInto V.R argsort D d ids (Spec.FlippedTo salt)
        (fun c => Spec.rawWeekly C.ext perf analyser.itemCol analyser.dateCol start (v c))
        (fun c => c ∈ analyser.args.atLeastOne.map Prod.snd) m e.2) metrics rows := by
  obtain ⟨d', salt, hl', hmk, hna, -, -, hit, pv, hca⟩ := exported_correct hext h hskip hsize hm dflt05 dflt08
  rw [hl] at hl'
  cases hl'
  have hn := form_names hrun.names hrun.table
  obtain ⟨-, ho⟩ := prepareStudy_ok hl hp
  rw [analyseData_eq hmk ho hn] at hrows
  obtain ⟨start', hst, ids, hids, hres⟩ := C115_raw_crossover_stored V.R argsort D _ d hmk hx C perf assign out analyser.startDate analyser.itemCol
    analyser.dateCol analyser.treatCol analyser.args ho hrun.checked hrun.concluded hn metrics hmet rows hrows v hv
  rw [hrun.date] at hst
  cases hst
  obtain ⟨h1, h2⟩ := readBack_groups hrun.table hca (by rw [hext]; exact hit) hids
  refine ⟨salt, hca.salted.1, ids, h1, hres.imp fun m e hme => ⟨hme.1, ?_⟩⟩
  refine crossoverReport_transfer (g := id) (ids := ids) h2 (fun _ _ _ _ _ _ => rfl) (fun _ _ => Iff.rfl) ?_
  rw [List.map_id]
  exact hme.2

/-- **C119, the report of another design.**  Each result is the report, for the exported items, of what the performance data says about the metric: the
groups are given by the coinflips with the exported salt, and the values are totals per week of the rows of the raw table. -/
theorem C119_regular_report (V : StudyEnv) (form : StudyForm) (raw data : Frame ℝ) (cells : List StudyCell) (C : Checker ℝ) (hext : C.ext = V.ext)
    (items : Frame ℝ) (file : Dict (YVal ℝ)) (h : Spec.Exported V form raw data cells C.binom items file) (hskip : form.skip = [])
    (hsize : data.rows.length ≤ 2 ^ 51) (m : Dict (YVal ℝ)) (hm : m.Perm file) (dflt05 dflt08 : ℝ) (d : Design ℝ)
    (hl : loadFromDict V.R dflt05 dflt08 m = .ok d) (hx : d.isCrossover = false) (analyser : AnalyserForm) (perf assign out : Frame ℝ) (start : ℤ)
    (hrun : Spec.StudyRun C.ext d items perf assign analyser start) (argsort : List ℝ → List ℕ) (D : TDist) (metrics : List Metric)
    (hmet : Spec.MetricsFrom (preparedMetrics analyser.args ++ analyser.args.atLeastOne.map Prod.snd) metrics) (rows : List (String × TestResult))
    (hp : prepareStudy V.R dflt05 dflt08 C analyser m perf assign = .ok (d, out)) (hrows : analyseData V.R argsort D metrics (d, out) = .ok rows)
    (v : String → Row ℝ → ℝ)
    (hv : ∀ c ∈ preparedMetrics analyser.args ++ analyser.args.atLeastOne.map Prod.snd, Spec.RawReads C.ext analyser.args c (v c)) :
    ∃ salt, d.salt = some salt ∧ ∃ ids : List String, (ids.map Cell.str).Perm (items.col "item_id") ∧
      List.Forall₂ (fun m e => e.1 = m.name ∧ Spec.RegularReport V.R argsort D d ids (Spec.FlippedTo salt)
        (fun c => Spec.rawWeekly C.ext perf analyser.itemCol analyser.dateCol start (v c)) m e.2) metrics rows := by
  obtain ⟨d', salt, hl', hmk, hna, -, -, hit, pv, hca⟩ := exported_correct hext h hskip hsize hm dflt05 dflt08
  rw [hl] at hl'
  cases hl'
  have hn := form_names hrun.names hrun.table
  obtain ⟨-, ho⟩ := prepareStudy_ok hl hp
  rw [analyseData_eq hmk ho hn] at hrows
  obtain ⟨start', hst, ids, hids, hres⟩ := C115_raw_regular V.R argsort D _ d hmk hx C perf assign out analyser.startDate analyser.itemCol
    analyser.dateCol analyser.treatCol analyser.args ho hrun.checked hrun.concluded hn metrics hmet rows hrows v hv
  rw [hrun.date] at hst
  cases hst
  obtain ⟨h1, h2⟩ := readBack_groups hrun.table hca (by rw [hext]; exact hit) hids
  refine ⟨salt, hca.salted.1, ids, h1, hres.imp fun m e hme => ⟨hme.1, ?_⟩⟩
  refine regularReport_transfer (g := id) (ids := ids) h2 (fun _ _ _ _ _ _ => rfl) ?_
  rw [List.map_id]
  exact hme.2

/-- **C119, the tables.**  For the metrics of the notebook the projection is always shown, with one row for each of the five standard metrics; the table of
the results is shown if and only if some result has relative effects, and is refused with `TypeError` otherwise. -/
theorem C119_tables (R : Rounding ℝ) (general : ℕ → Fl ℝ → String) (rows : List (String × TestResult))
    (h : rows.map Prod.fst = notebookMetrics.map Metric.name) :
    (∃ shown, showProjection R general projectedNames rows = .ok shown ∧ shown.map (·.metric) = projectedNames) ∧
    ((showResults R general rows).Returns ↔ (∃ e ∈ rows, e.2.relativeDifference ≠ none) ∧ (∃ e ∈ rows, e.2.relativeLower ≠ none) ∧
      ∃ e ∈ rows, e.2.relativeUpper ≠ none) ∧
    (¬ (showResults R general rows).Returns → showResults R general rows = .error .typeError) := by
  have hnil : rows ≠ [] := by rintro rfl; simp [notebookMetrics] at h
  have hnd : ((rows.map ResultRow.ofTest).map (·.metric)).Nodup := by
    have e : (rows.map ResultRow.ofTest).map (·.metric) = rows.map Prod.fst := by
      rw [List.map_map]
      exact List.map_congr_left fun _ _ => rfl
    rw [e, h]
    simp [notebookMetrics]
  have hproj : ((rows.filter (fun r => decide (r.1 ∈ projectedNames))).map ResultRow.ofTest).map (·.metric) = projectedNames := by
    have e : ((rows.filter (fun r => decide (r.1 ∈ projectedNames))).map ResultRow.ofTest).map (·.metric) =
        (rows.map Prod.fst).filter (fun n => decide (n ∈ projectedNames)) := by
      rw [List.map_map, List.filter_map]
      exact List.map_congr_left fun _ _ => rfl
    rw [e, h]
    simp [notebookMetrics, projectedNames]
  obtain ⟨c1, -, c3, -⟩ := C90_returns R general {} (rows.map ResultRow.ofTest)
  have hall : ∀ f : TestResult → Option (Fl ℝ), ∀ g : ResultRow ℝ → Option (Fl ℝ), (∀ e, g (.ofTest e) = f e.2) →
      ((∃ r ∈ rows.map ResultRow.ofTest, g r ≠ none) ↔ ∃ e ∈ rows, f e.2 ≠ none) := by
    intro f g hfg
    simp only [List.mem_map, exists_exists_and_eq_and, hfg]
  have k1 := hall (·.relativeDifference) (·.relativeDifference) (fun _ => rfl)
  have k2 := hall (·.relativeLower) (·.relativeLower) (fun _ => rfl)
  have k3 := hall (·.relativeUpper) (·.relativeUpper) (fun _ => rfl)
  have hmap : rows.map ResultRow.ofTest ≠ [] := by simpa using hnil
  refine ⟨?_, ?_, ?_⟩
  · obtain ⟨shown, hs⟩ := (C90_returns R general { relative := false, absolute := false, yearly := true }
      ((rows.filter (fun r => decide (r.1 ∈ projectedNames))).map ResultRow.ofTest)).1.mpr
        ⟨(by intro e; rw [e] at hproj; cases hproj), by rw [hproj]; decide, by simp⟩
    exact ⟨shown, hs, (C90_rows R general _ _ shown hs).1.trans hproj⟩
  · unfold showResults
    rw [c1]
    constructor
    · rintro ⟨-, -, hr⟩
      obtain ⟨r1, r2, r3⟩ := hr rfl
      exact ⟨k1.mp r1, k2.mp r2, k3.mp r3⟩
    · rintro ⟨r1, r2, r3⟩
      exact ⟨hmap, hnd, fun _ => ⟨k1.mpr r1, k2.mpr r2, k3.mpr r3⟩⟩
  · intro hno
    unfold showResults at hno ⊢
    exact c3 hmap (fun hr => hno (c1.mpr ⟨hmap, hnd, hr⟩))

end Feedx
