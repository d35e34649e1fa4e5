import Verif.Proofs.Suffixes
import Verif.Props.FurtherColumns

/-!
Property C135: further columns of the assignment table that are called like columns of the prepared data.
-/

set_option linter.unusedSectionVars false
set_option linter.unusedSimpArgs false

namespace Feedx

section
variable {K : Type} [Field K] [LinearOrder K] [FloorRing K]

/-- **C135, different names.**  The merge with suffixes is that of `prepareExperiment` if no column of the assignment table is called like one of the data: whatever
`prepareExperiment` says about data (other than that it is outside the model) holds here as well. -/
theorem C135_different_names (C : Checker K) (perf assign : Frame K) (d : Design K) (startDate itemCol dateCol treatCol : String) (a : ExperimentArgs)
    (h : prepareExperiment C perf assign d startDate itemCol dateCol treatCol a ≠ .error .outOfModel) :
    prepareSuffixed C perf assign d startDate itemCol dateCol treatCol a = prepareExperiment C perf assign d startDate itemCol dateCol treatCol a := by
  have hb : buildExperiment C.ext perf assign d startDate itemCol dateCol treatCol a ≠ .error .outOfModel := by
    intro e
    apply h
    unfold prepareExperiment
    rw [e]
    rfl
  have key : buildSuffixed C.ext perf assign d startDate itemCol dateCol treatCol a =
      buildExperiment C.ext perf assign d startDate itemCol dateCol treatCol a := by
    unfold buildExperiment at hb ⊢
    unfold buildSuffixed
    cases e0 : cleanAssignment C.ext assign itemCol treatCol with
    | error e => rfl
    | ok b =>
    cases e1 : missingRows C.ext perf b itemCol dateCol with
    | error e => simp only [bind, Except.bind, e1]
    | ok missing =>
    cases e2 : standardize C.ext perf itemCol dateCol a.std (a.other.map (fun c => (c, c))) (a.other.map (fun c => (c, floatParse C.ext))) with
    | error e => simp only [bind, Except.bind, e1, e2]
    | ok f1 =>
    cases e3 : fillMissing (mergeMissing f1 missing) "item_id" "date" with
    | error e => simp only [bind, Except.bind, e1, e2, e3]
    | ok f2 =>
    cases e4 : addWeeks C.ext f2 "date" (some startDate) "week_id" "week_start" with
    | error e => simp only [bind, Except.bind, e1, e2, e3, e4]
    | ok f3 =>
    cases e5 : addTimePeriodColumn d.toDesignParams 0 "week_id" "time_period" f3 with
    | error e => simp only [bind, Except.bind, e1, e2, e3, e4, e5]
    | ok f4 =>
    cases e6 : addAtLeastOne a.atLeastOne f4 with
    | error e => simp only [bind, Except.bind, e1, e2, e3, e4, e5, e6]
    | ok f5 =>
    simp only [bind, Except.bind, e0, e1, e2, e3, e4, e5, e6] at hb ⊢
    refine mergeSuffixed_plain ?_
    by_contra ho
    obtain ⟨c, hc⟩ := List.exists_mem_of_ne_nil _ ho
    apply hb
    unfold mergeAssignment
    have : b.cols.any (fun c => decide (c ≠ "item_id" ∧ c ∈ f5.cols)) = true :=
      List.any_eq_true.mpr ⟨c, (mem_overlapping.mp hc).1, by simpa using (mem_overlapping.mp hc).2⟩
    simp only [bind, Except.bind, raiseIf, if_pos this]
  unfold prepareSuffixed prepareExperiment
  rw [key]

/-- **C135, refused names.**  Data is not accepted if a further column of the assignment table is called "date" or "week_id" (or "item_id" or
"treatment_assignment", while the columns of the items and assignments are called differently), or, unless the check that metrics are finite is skipped, like a
metric. -/
theorem C135_refused_names (C : Checker K) (perf assign assign' : Frame K) (d : Design K) (startDate itemCol dateCol treatCol : String) (a : ExperimentArgs)
    (h : Spec.FurtherColumns itemCol treatCol assign assign') (hs : Spec.NoSuffixedNames a) (c : String) (fc : Spec.Further assign' itemCol treatCol c)
    (hc : c ∈ ["item_id", "date", "week_id", "treatment_assignment"] ∨ (c ∈ preparedMetrics a ∧ "all_metrics_are_finite" ∉ a.skip)) (out : Frame K) :
    prepareSuffixed C perf assign' d startDate itemCol dateCol treatCol a ≠ .ok out := by
  intro ho
  have ho' := ho
  obtain ⟨f, -, -, k1, k2, k3, k4, k5⟩ := prepareSuffixed_further h hs ho
  unfold prepareSuffixed at ho'
  obtain ⟨g, eb, ho'⟩ := Py.bind_eq_ok.mp ho'
  obtain ⟨u, -, ho'⟩ := Py.bind_eq_ok.mp ho'
  obtain rfl : g = out := Except.ok.inj ho'
  unfold buildSuffixed at eb
  obtain ⟨b', ec, eb⟩ := Py.bind_eq_ok.mp eb
  obtain ⟨missing, e0, eb⟩ := Py.bind_eq_ok.mp eb
  obtain ⟨f1, e1, eb⟩ := Py.bind_eq_ok.mp eb
  obtain ⟨f2, e2, eb⟩ := Py.bind_eq_ok.mp eb
  obtain ⟨f3, e3, eb⟩ := Py.bind_eq_ok.mp eb
  obtain ⟨f4, e4, eb⟩ := Py.bind_eq_ok.mp eb
  obtain ⟨f5, e5, eb⟩ := Py.bind_eq_ok.mp eb
  have hne := cleaned_further h ec c fc
  have h5 := before_merge_cols e1 e2 e3 e4 e5
  have hf : ∀ c ∈ f5.cols, c ∈ Spec.preparedNames a := by
    intro c hc
    have := (h5 c).mp hc
    simp only [List.mem_append, List.mem_cons, List.not_mem_nil, or_false, Spec.preparedNames] at this ⊢
    tauto
  have hb' : c ∈ b'.cols := by
    unfold cleanAssignment at ec
    obtain ⟨-, ec⟩ := raiseIf_bind_ok.mp ec
    obtain ⟨-, ec⟩ := raiseIf_bind_ok.mp ec
    obtain ⟨-, ec⟩ := raiseIf_bind_ok.mp ec
    obtain ⟨rows, -, ec⟩ := Py.bind_eq_ok.mp ec
    rw [← Except.ok.inj ec]
    exact List.mem_map.mpr ⟨c, fc.1, rename_further fc⟩
  have hin : c ∈ g.cols ∧ c ∈ f5.cols := by
    refine ⟨?_, (h5 c).mpr ?_⟩
    · rcases hc with hc | ⟨hc, hsk⟩
      · simp only [List.mem_cons, List.not_mem_nil, or_false] at hc
        rcases hc with rfl | rfl | rfl | rfl
        exacts [k1, k2, k3, k4]
      · exact k5 hsk c hc
    · simp only [List.mem_append, List.mem_cons, List.not_mem_nil, or_false] at hc ⊢
      rcases hc with hc | ⟨hc, -⟩ <;> tauto
  unfold mergeSuffixed at eb
  obtain ⟨-, eb⟩ := raiseIf_bind_ok.mp eb
  replace eb := (Except.ok.inj eb).symm
  refine kept_name hs hf (hf c hin.2) ?_ (mem_overlapping.mpr ⟨hb', hne.1, hin.2⟩)
  have := hin.1
  rw [eb] at this
  exact this

/-- **C135, the prepared data.**  Whatever the further columns of the assignment table are called and contain: if the data is accepted with them, it is accepted
without them, and each column of the prepared data without them is a column of the prepared data with them, with the same cells in the same order, unless it is missing
there. -/
theorem C135_prepared_data (C : Checker K) (perf assign assign' out' : Frame K) (d : Design K) (startDate itemCol dateCol treatCol : String)
    (a : ExperimentArgs) (h : Spec.FurtherColumns itemCol treatCol assign assign') (hs : Spec.NoSuffixedNames a)
    (ho : prepareSuffixed C perf assign' d startDate itemCol dateCol treatCol a = .ok out') :
    ∃ out, prepareExperiment C perf assign d startDate itemCol dateCol treatCol a = .ok out ∧
      (∀ c ∈ out.cols, c ∈ out'.cols → out'.col c = out.col c) ∧
      ∀ c ∈ ["item_id", "date", "week_id", "treatment_assignment"], c ∈ out.cols ∧ c ∈ out'.cols := by
  obtain ⟨f, e, hp, k1, k2, k3, k4, -⟩ := prepareSuffixed_further h hs ho
  refine ⟨f, e, fun c hc hc' => hp.agree.col (List.mem_filter.mpr ⟨(hp.names c).mp hc, by simpa using hc'⟩), fun c hc => ⟨(hp.names c).mpr ?_, ?_⟩⟩
  · simp only [Spec.preparedNames, List.mem_append, List.mem_cons, List.not_mem_nil, or_false] at hc ⊢
    tauto
  · simp only [List.mem_cons, List.not_mem_nil, or_false] at hc
    rcases hc with rfl | rfl | rfl | rfl
    exacts [k1, k2, k3, k4]

end

/-- **C135, the report.**  Whatever the further columns of the assignment table are called and contain: if a report is returned, it is the report without them.  The
metrics are columns of the prepared data, and no column of the prepared data is called like another one with "_x" or "_y" appended. -/
theorem C135_report (R : Rounding ℝ) (dflt05 dflt08 : ℝ) (C : Checker ℝ) (form : AnalyserForm) (file : Dict (YVal ℝ)) (perf assign assign' : Frame ℝ)
    (argsort : List ℝ → List ℕ) (D : TDist) (metrics : List Metric) (h : Spec.FurtherColumns form.itemCol form.treatCol assign assign')
    (hs : Spec.NoSuffixedNames form.args) (hm : ∀ c ∈ metricColumns metrics, c ∈ Spec.preparedNames form.args) :
    (∀ rows, prepareStudySuffixed R dflt05 dflt08 C form file perf assign' >>= analyseData R argsort D metrics = .ok rows →
      prepareStudy R dflt05 dflt08 C form file perf assign >>= analyseData R argsort D metrics = .ok rows) ∧
    ∀ days, prepareStudySuffixed R dflt05 dflt08 C form file perf assign' >>= (fun p => daysPerPeriod p.2) = .ok days →
      prepareStudy R dflt05 dflt08 C form file perf assign >>= (fun p => daysPerPeriod p.2) = .ok days := by
  have key : ∀ p', prepareStudySuffixed R dflt05 dflt08 C form file perf assign' = .ok p' → ∃ f,
      prepareStudy R dflt05 dflt08 C form file perf assign = .ok (p'.1, f) ∧ MergedPair form.args f p'.2 ∧
      "item_id" ∈ p'.2.cols ∧ "date" ∈ p'.2.cols ∧ "week_id" ∈ p'.2.cols ∧ "treatment_assignment" ∈ p'.2.cols := by
    intro p' hp'
    unfold prepareStudySuffixed at hp'
    obtain ⟨d, ed, hp'⟩ := Py.bind_eq_ok.mp hp'
    obtain ⟨f', ef, hp'⟩ := Py.bind_eq_ok.mp hp'
    obtain rfl : (d, f') = p' := Except.ok.inj hp'
    obtain ⟨f, e, hp, k1, k2, k3, k4, -⟩ := prepareSuffixed_further h hs ef
    refine ⟨f, ?_, hp, k1, k2, k3, k4⟩
    unfold prepareStudy
    simp only [bind, Except.bind, ed, e, pure, Except.pure]
  have hmem : ∀ (f' : Frame ℝ), ∀ c ∈ Spec.preparedNames form.args, c ∈ f'.cols →
      c ∈ (Spec.preparedNames form.args).filter (fun c => decide (c ∈ f'.cols)) := fun f' c hc hc' => List.mem_filter.mpr ⟨hc, by simpa using hc'⟩
  constructor
  · intro rows hr
    obtain ⟨⟨d, f'⟩, ep, hr⟩ := Py.bind_eq_ok.mp hr
    obtain ⟨f, e, hp, k1, k2, k3, k4⟩ := key _ ep
    refine Py.bind_eq_ok.mpr ⟨_, e, ?_⟩
    unfold analyseData at hr ⊢
    obtain ⟨htp, hr⟩ := raiseIf_bind_ok.mp hr
    replace htp := not_not.mp htp
    have hmf := analysed_cols hr
    have htp' : "time_period" ∈ f.cols := (hp.names _).mpr (by simp [Spec.preparedNames])
    refine raiseIf_bind_ok.mpr ⟨not_not.mpr htp', ?_⟩
    rw [← hr]
    refine (analyzeExperiment_agree (dropCol_agree hp.agree "time_period") (hmem f' _ (by simp [Spec.preparedNames]) k1)
      (hmem f' _ (by simp [Spec.preparedNames]) k3) (hmem f' _ (by simp [Spec.preparedNames]) k4) (hmem f' _ (by simp [Spec.preparedNames]) htp) ?_ ?_).symm
    · intro c hc
      refine ⟨fun hc' => ?_, fun _ => hmf c hc⟩
      unfold Frame.dropCol at hc' ⊢
      simp only [List.mem_filter] at hc' ⊢
      exact ⟨(hp.names c).mpr (hm c hc), hc'.2⟩
    · intro c hc _
      exact hmem f' c (hm c hc) (List.mem_of_mem_filter (hmf c hc))
  · intro days hr
    obtain ⟨⟨d, f'⟩, ep, hr⟩ := Py.bind_eq_ok.mp hr
    obtain ⟨f, e, hp, k1, k2, k3, k4⟩ := key _ ep
    refine Py.bind_eq_ok.mpr ⟨_, e, ?_⟩
    rw [← hr]
    have htp : "time_period" ∈ f'.cols := by
      unfold daysPerPeriod at hr
      by_contra hn
      have := (raiseIf_bind_ok.mp hr).1
      simp [hn] at this
    exact (daysPerPeriod_agree hp.agree (hmem f' _ (by simp [Spec.preparedNames]) k2) (hmem f' _ (by simp [Spec.preparedNames]) htp)).symm

section
variable {K : Type} [Field K] [LinearOrder K] [FloorRing K]

/-- **C135, a column called "week_start".**  The data is also accepted if a further column of the assignment table is called "week_start", like the one column of the
prepared data that is not used; the other further columns have names of their own, and no further cell is missing. -/
theorem C135_week_start (C : Checker K) (perf assign assign' out : Frame K) (d : Design K) (startDate itemCol dateCol treatCol : String) (a : ExperimentArgs)
    (h : Spec.FurtherColumns itemCol treatCol assign assign') (hs : Spec.NoSuffixedNames a) (hwm : "week_start" ∉ preparedMetrics a)
    (hw : ∀ c, Spec.Further assign' itemCol treatCol c → (c ∈ Spec.preparedNames a → c = "week_start") ∧ c ≠ "week_start_x" ∧ c ≠ "week_start_y")
    (hn : ∀ s ∈ assign'.rows, ∀ c, Spec.Further assign' itemCol treatCol c → s c ≠ .null)
    (ho : prepareExperiment C perf assign d startDate itemCol dateCol treatCol a = .ok out) :
    ∃ out', prepareSuffixed C perf assign' d startDate itemCol dateCol treatCol a = .ok out' ∧
      ∀ c ∈ out.cols, c ≠ "week_start" → c ∈ out'.cols ∧ out'.col c = out.col c := by
  unfold prepareExperiment at ho
  obtain ⟨g, eb, ho⟩ := Py.bind_eq_ok.mp ho
  obtain ⟨u, hv, ho⟩ := Py.bind_eq_ok.mp ho
  obtain rfl : g = out := Except.ok.inj ho
  unfold buildExperiment at eb
  obtain ⟨b, ec, eb⟩ := Py.bind_eq_ok.mp eb
  obtain ⟨missing, e0, eb⟩ := Py.bind_eq_ok.mp eb
  obtain ⟨f1, e1, eb⟩ := Py.bind_eq_ok.mp eb
  obtain ⟨f2, e2, eb⟩ := Py.bind_eq_ok.mp eb
  obtain ⟨f3, e3, eb⟩ := Py.bind_eq_ok.mp eb
  obtain ⟨f4, e4, eb⟩ := Py.bind_eq_ok.mp eb
  obtain ⟨f5, e5, eb⟩ := Py.bind_eq_ok.mp eb
  have hne : ∀ c, Spec.Further assign' itemCol treatCol c → c ≠ "item_id" ∧ c ≠ "treatment_assignment" := by
    intro c fc
    constructor
    · rintro rfl
      exact absurd ((hw _ fc).1 (by simp [Spec.preparedNames])) (by decide)
    · rintro rfl
      exact absurd ((hw _ fc).1 (by simp [Spec.preparedNames])) (by decide)
  have hcl := cleanAssignment_further C.ext h hne
  rw [ec] at hcl
  cases ec' : cleanAssignment C.ext assign' itemCol treatCol with
  | error e => rw [ec'] at hcl; exact hcl.elim
  | ok b' =>
    rw [ec'] at hcl
    replace hcl : CleanPair C.ext itemCol treatCol assign' b b' := hcl
    have nb : b'.cols.Nodup := by
      unfold cleanAssignment at ec'
      obtain ⟨k, ec'⟩ := raiseIf_bind_ok.mp ec'
      obtain ⟨-, ec'⟩ := raiseIf_bind_ok.mp ec'
      obtain ⟨-, ec'⟩ := raiseIf_bind_ok.mp ec'
      obtain ⟨rows, -, ec'⟩ := Py.bind_eq_ok.mp ec'
      rw [← Except.ok.inj ec']
      exact not_not.mp k
    have h5 := before_merge_cols e1 e2 e3 e4 e5
    obtain ⟨f', em, hin, hnull⟩ := mergeSuffixed_accepts hcl hs h5 (before_merge_nodup e1 e2 e3 e4 e5) nb hw eb
    obtain ⟨g', eb', hp⟩ := mergeSuffixed_further hcl hs h5 em (hin _ (by simp [Spec.preparedNames]) (by decide))
    obtain rfl : g' = g := Except.ok.inj (eb'.symm.trans eb)
    have hmem : ∀ c ∈ Spec.preparedNames a, c ≠ "week_start" → c ∈ (Spec.preparedNames a).filter (fun c => decide (c ∈ f'.cols)) :=
      fun c hc hcw => List.mem_filter.mpr ⟨hc, by simpa using hin c hc hcw⟩
    have hnn : runCheck a.skip "no_nulls" (checkNulls f') = runCheck a.skip "no_nulls" (checkNulls g') := by
      by_cases hsk : "no_nulls" ∈ a.skip
      · simp [runCheck, checkNulls, raiseIf, hsk, bind, Except.bind]
      · have hg : checkNulls g' = .ok false := by
          unfold validateExperiment at hv
          obtain ⟨_, -, hv⟩ := Py.bind_eq_ok.mp hv
          obtain ⟨_, -, hv⟩ := Py.bind_eq_ok.mp hv
          obtain ⟨_, a3, -⟩ := Py.bind_eq_ok.mp hv
          obtain ⟨v, ev⟩ := runCheck_returned a3
          cases v with
          | false => exact ev
          | true => rw [ev] at a3; simp [runCheck, raiseIf, hsk, bind, Except.bind] at a3
        rw [hnull hn hg, hg]
    have hv' := validateExperiment_agree C hp.agree d startDate a.concluded a.canBeNegative a.skip
      (hmem "item_id" (by simp [Spec.preparedNames]) (by decide)) (hmem "date" (by simp [Spec.preparedNames]) (by decide))
      (hmem "week_id" (by simp [Spec.preparedNames]) (by decide)) (hmem "treatment_assignment" (by simp [Spec.preparedNames]) (by decide))
      (metrics := preparedMetrics a) (fun c hc => hmem c (by simp [Spec.preparedNames, hc]) (fun e => hwm (e ▸ hc))) hnn
    rw [hv] at hv'
    refine ⟨f', ?_, fun c hc hcw => ⟨hin c ((hp.names c).mp hc) hcw, hp.agree.col (hmem c ((hp.names c).mp hc) hcw)⟩⟩
    rw [← missingRows_rows C.ext perf hcl.rows itemCol dateCol] at e0
    unfold prepareSuffixed buildSuffixed
    simp only [bind, Except.bind, ec', e0, e1, e2, e3, e4, e5, em, hv', pure, Except.pure]

end

/-- **C135, the report with a column called "week_start".**  For such columns the report with them is the report without them. -/
theorem C135_week_start_report (R : Rounding ℝ) (dflt05 dflt08 : ℝ) (C : Checker ℝ) (form : AnalyserForm) (file : Dict (YVal ℝ)) (perf assign assign' : Frame ℝ)
    (argsort : List ℝ → List ℕ) (D : TDist) (metrics : List Metric) (h : Spec.FurtherColumns form.itemCol form.treatCol assign assign')
    (hs : Spec.NoSuffixedNames form.args) (hm : ∀ c ∈ metricColumns metrics, c ∈ Spec.preparedNames form.args ∧ c ≠ "week_start")
    (hwm : "week_start" ∉ preparedMetrics form.args)
    (hw : ∀ c, Spec.Further assign' form.itemCol form.treatCol c →
      (c ∈ Spec.preparedNames form.args → c = "week_start") ∧ c ≠ "week_start_x" ∧ c ≠ "week_start_y")
    (hn : ∀ s ∈ assign'.rows, ∀ c, Spec.Further assign' form.itemCol form.treatCol c → s c ≠ .null) (rows : List (String × TestResult)) :
    prepareStudySuffixed R dflt05 dflt08 C form file perf assign' >>= analyseData R argsort D metrics = .ok rows ↔
      prepareStudy R dflt05 dflt08 C form file perf assign >>= analyseData R argsort D metrics = .ok rows := by
  refine ⟨(C135_report R dflt05 dflt08 C form file perf assign assign' argsort D metrics h hs (fun c hc => (hm c hc).1)).1 rows, fun hr => ?_⟩
  obtain ⟨⟨d, f⟩, ep, hr⟩ := Py.bind_eq_ok.mp hr
  unfold prepareStudy at ep
  obtain ⟨d', ed, ep⟩ := Py.bind_eq_ok.mp ep
  obtain ⟨f0, ef, ep⟩ := Py.bind_eq_ok.mp ep
  cases ep
  obtain ⟨f', ef', hk⟩ := C135_week_start C perf assign assign' f d form.startDate form.itemCol form.dateCol form.treatCol form.args h hs hwm hw hn ef
  obtain ⟨f0, e0, hp, k1, k2, k3, k4, -⟩ := prepareSuffixed_further h hs ef'
  obtain rfl : f0 = f := Except.ok.inj (e0.symm.trans ef)
  refine Py.bind_eq_ok.mpr ⟨(d, f'), ?_, ?_⟩
  · unfold prepareStudySuffixed
    simp only [bind, Except.bind, ed, ef', pure, Except.pure]
  have hin : ∀ c ∈ Spec.preparedNames form.args, c ≠ "week_start" → c ∈ f'.cols := fun c hc hcw => (hk c ((hp.names c).mpr hc) hcw).1
  have hmem : ∀ c ∈ Spec.preparedNames form.args, c ≠ "week_start" → c ∈ (Spec.preparedNames form.args).filter (fun c => decide (c ∈ f'.cols)) :=
    fun c hc hcw => List.mem_filter.mpr ⟨hc, by simpa using hin c hc hcw⟩
  unfold analyseData at hr ⊢
  obtain ⟨-, hr⟩ := raiseIf_bind_ok.mp hr
  refine raiseIf_bind_ok.mpr ⟨not_not.mpr (hin _ (by simp [Spec.preparedNames]) (by decide)), ?_⟩
  rw [← hr]
  refine analyzeExperiment_agree (dropCol_agree hp.agree "time_period") (hmem "item_id" (by simp [Spec.preparedNames]) (by decide))
    (hmem "week_id" (by simp [Spec.preparedNames]) (by decide)) (hmem "treatment_assignment" (by simp [Spec.preparedNames]) (by decide))
    (hmem "time_period" (by simp [Spec.preparedNames]) (by decide)) ?_ ?_
  · intro c hc
    unfold Frame.dropCol
    simp only [List.mem_filter]
    exact and_congr_left fun _ => ⟨fun _ => (hp.names c).mpr (hm c hc).1, fun _ => hin c (hm c hc).1 (hm c hc).2⟩
  · intro c hc _
    exact hmem c (hm c hc).1 (hm c hc).2

/-- The names of the crossover study. -/
theorem reportForm_suffixes : Spec.NoSuffixedNames reportForm.args ∧
    (∀ c ∈ metricColumns notebookMetrics, c ∈ Spec.preparedNames reportForm.args ∧ c ≠ "week_start") ∧ "week_start" ∉ preparedMetrics reportForm.args := by
  unfold Spec.NoSuffixedNames
  exact ⟨by decide +kernel, by decide +kernel, by decide +kernel⟩

/-- The exported table with the columns named by the user, and two further ones with the same cell in all rows; the first is called "week_start". -/
def weekLabelled (x : Cell ℝ) (items : Frame ℝ) : Frame ℝ where
  cols := ["week_start", "id", "t", "label"]
  rows := items.rows.map (fun r c => if c = "week_start" ∨ c = "label" then x else if c = "id" then r "item_id" else r "treatment_assignment")

theorem weekLabelled_further (x : Cell ℝ) (items : Frame ℝ) : Spec.FurtherColumns "id" "t" (renamed items) (weekLabelled x items) where
  narrow := rfl
  different := by decide
  nodup := by simp [weekLabelled]
  item := by simp [weekLabelled]
  treat := by simp [weekLabelled]
  rows := by
    unfold renamed weekLabelled
    rw [List.forall₂_map_left_iff, List.forall₂_map_right_iff]
    exact List.forall₂_same.mpr fun r _ => ⟨by simp, by simp⟩

/-- The crossover study gets the same report with these columns: the assignment table and the data have a column "week_start" in common. -/
theorem weekLabelled_report (argsort : List ℝ → List ℕ) (ha : ArgsortOk argsort) (D : TDist) :
    ∃ (V : StudyEnv) (C : Checker ℝ) (items : Frame ℝ) (file : Dict (YVal ℝ)) (rows : List (String × TestResult)),
      prepareStudy V.R (1 / 20) (4 / 5) C reportForm file reportPerf (renamed items) >>= analyseData V.R argsort D notebookMetrics = .ok rows ∧
      prepareStudySuffixed V.R (1 / 20) (4 / 5) C reportForm file reportPerf (weekLabelled (.str "a") items) >>= analyseData V.R argsort D notebookMetrics =
        .ok rows ∧
      rows.length = 11 := by
  obtain ⟨V, C, items, file, -, rows, -, hr, hl, -, -⟩ := labelled_report argsort ha D
  have hw : ∀ c, Spec.Further (weekLabelled (.str "a") items) "id" "t" c → c = "week_start" ∨ c = "label" := by
    rintro c ⟨h1, h2, h3⟩
    simp only [weekLabelled, List.mem_cons, List.not_mem_nil, or_false] at h1
    tauto
  refine ⟨V, C, items, file, rows, hr, ?_, hl⟩
  refine (C135_week_start_report V.R (1 / 20) (4 / 5) C reportForm file reportPerf (renamed items) (weekLabelled (.str "a") items) argsort D notebookMetrics
    (weekLabelled_further _ _) reportForm_suffixes.1 reportForm_suffixes.2.1 reportForm_suffixes.2.2 (fun c hc => ?_) (fun s hs c hc => ?_) rows).mpr hr
  · rcases hw c hc with rfl | rfl
    · exact ⟨fun _ => rfl, by decide, by decide⟩
    · exact ⟨fun h => absurd h (by decide +kernel), by decide, by decide⟩
  · obtain ⟨r, -, rfl⟩ := List.mem_map.mp hs
    rcases hw c hc with rfl | rfl <;> simp

/-- A further column called "clicks". -/
def clicksLabelled (x : Cell ℝ) (items : Frame ℝ) : Frame ℝ where
  cols := ["id", "t", "clicks"]
  rows := items.rows.map (fun r c => if c = "clicks" then x else if c = "id" then r "item_id" else r "treatment_assignment")

theorem clicksLabelled_further (x : Cell ℝ) (items : Frame ℝ) : Spec.FurtherColumns "id" "t" (renamed items) (clicksLabelled x items) where
  narrow := rfl
  different := by decide
  nodup := by simp [clicksLabelled]
  item := by simp [clicksLabelled]
  treat := by simp [clicksLabelled]
  rows := by
    unfold renamed clicksLabelled
    rw [List.forall₂_map_left_iff, List.forall₂_map_right_iff]
    exact List.forall₂_same.mpr fun r _ => ⟨by simp, by simp⟩

/-- The data of the crossover study is not accepted with such a column. -/
example (C : Checker ℝ) (perf : Frame ℝ) (d : Design ℝ) (x : Cell ℝ) (items out : Frame ℝ) :
    prepareSuffixed C perf (clicksLabelled x items) d "2024-01-08" "id" "date" "t" reportForm.args ≠ .ok out :=
  C135_refused_names C perf (renamed items) (clicksLabelled x items) d "2024-01-08" "id" "date" "t" reportForm.args (clicksLabelled_further x items)
    reportForm_suffixes.1 "clicks" ⟨by simp [clicksLabelled], by decide, by decide⟩ (Or.inr ⟨by decide +kernel, by decide +kernel⟩) out

/-- The condition on the names is needed: the data has columns "week_start" and "week_start_y", the assignment table too.  After the merge, "week_start_y" is the
assignment table's column "week_start". -/
example : (mergeSuffixed (K := ℚ) ⟨["item_id", "week_start", "week_start_y"], [fun c => if c = "item_id" then .str "i" else .int 1]⟩
    ⟨["item_id", "week_start", "week_start_y"], [fun c => if c = "item_id" then .str "i" else .int 2]⟩).map (fun f => f.col "week_start_y") = .ok [.int 2] := by
  decide +kernel

end Feedx
