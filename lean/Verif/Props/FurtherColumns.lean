import Verif.Proofs.FurtherColumns
import Verif.Props.Experiment

/-!
Property C134: further columns of the assignment table.
-/

set_option linter.unusedSectionVars false
set_option linter.unusedSimpArgs false

namespace Feedx

section
variable {K : Type} [Field K] [LinearOrder K] [FloorRing K]

theorem validate_further {C : Checker K} {d : Design K} {itemCol treatCol startDate : String} {a : ExperimentArgs} {assign' f f' : Frame K}
    (hb : BuiltPair C.ext itemCol treatCol a assign' f f') (hn : checkNulls f' = checkNulls f) :
    validateExperiment C f' d "item_id" "date" "week_id" "treatment_assignment" (preparedMetrics a) startDate a.concluded a.canBeNegative a.skip =
      validateExperiment C f d "item_id" "date" "week_id" "treatment_assignment" (preparedMetrics a) startDate a.concluded a.canBeNegative a.skip := by
  have hmem : ∀ c, c ∈ Spec.preparedNames a → c ∈ f.cols := fun c hc => (hb.names c).mpr hc
  exact validateExperiment_agree C hb.agree d startDate a.concluded a.canBeNegative a.skip (hmem _ (by simp [Spec.preparedNames]))
    (hmem _ (by simp [Spec.preparedNames])) (hmem _ (by simp [Spec.preparedNames])) (hmem _ (by simp [Spec.preparedNames]))
    (fun c hc => hmem _ (by simp [Spec.preparedNames, hc])) (by rw [hn])

/-- **C134, the prepared data.**  Further columns of the assignment table without missing cells are carried over, and change nothing else: the same errors are
raised, and the prepared data has the same rows in the same order, each with the further cells of a row of the assignment table for its item. -/
theorem C134_prepared_data_partial (C : Checker K) (perf assign assign' : Frame K) (d : Design K) (startDate itemCol dateCol treatCol : String)
    (a : ExperimentArgs) (h : Spec.FurtherColumns itemCol treatCol assign assign')
    (hf : ∀ c, Spec.Further assign' itemCol treatCol c → c ∉ Spec.preparedNames a)
    (hn : ∀ s ∈ assign'.rows, ∀ c, Spec.Further assign' itemCol treatCol c → s c ≠ .null) :
    Spec.SameOutcome (fun out out' =>
        (∀ c, c ∈ out'.cols ↔ c ∈ out.cols ∨ Spec.Further assign' itemCol treatCol c) ∧
        List.Forall₂ (fun r r' : Row K => ∀ c ∈ out.cols, r' c = r c) out.rows out'.rows ∧
        ∀ r ∈ out'.rows, ∃ s ∈ assign'.rows, r "item_id" = .str (C.ext.toStr (s itemCol)) ∧
          ∀ c, Spec.Further assign' itemCol treatCol c → r c = s c)
      (prepareExperiment C perf assign d startDate itemCol dateCol treatCol a)
      (prepareExperiment C perf assign' d startDate itemCol dateCol treatCol a) := by
  unfold prepareExperiment
  refine (buildExperiment_further C.ext perf d startDate dateCol a h hf).bind fun f f' hb => ?_
  rw [validate_further hb (checkNulls_further hb hn)]
  exact bind_sameOutcome fun _ _ => ⟨hb.names', hb.rows, hb.source⟩

/-- **C134, a missing cell.**  The check for missing values looks at all columns: data that is accepted with just the items and assignments is refused if the
assignment table has a further column with a missing cell, unless this check is skipped. -/
theorem C134_missing_cell (C : Checker K) (perf assign assign' out : Frame K) (d : Design K) (startDate itemCol dateCol treatCol : String)
    (a : ExperimentArgs) (h : Spec.FurtherColumns itemCol treatCol assign assign')
    (hf : ∀ c, Spec.Further assign' itemCol treatCol c → c ∉ Spec.preparedNames a)
    (hk : ∀ n ∈ a.atLeastOne.map Prod.snd, n ≠ "item_id" ∧ n ≠ "date")
    (ho : prepareExperiment C perf assign d startDate itemCol dateCol treatCol a = .ok out) (hs : "no_nulls" ∉ a.skip)
    (hn : ∃ s ∈ assign'.rows, ∃ c, Spec.Further assign' itemCol treatCol c ∧ s c = .null) :
    prepareExperiment C perf assign' d startDate itemCol dateCol treatCol a = .error .valueError := by
  obtain ⟨s, hs', c, fc, hsc⟩ := hn
  have hb := buildExperiment_further C.ext perf d startDate dateCol a h hf
  have hitems := (C61_exactly_assigned_items C perf assign out d startDate itemCol dateCol treatCol a ho h.different (by rw [h.narrow]; simp)
    (by rw [h.narrow]; simp) hk).1
  unfold prepareExperiment at ho ⊢
  obtain ⟨f, ef, ho⟩ := Py.bind_eq_ok.mp ho
  obtain ⟨u, hv, ho⟩ := Py.bind_eq_ok.mp ho
  obtain rfl : f = out := Except.ok.inj ho
  cases ef' : buildExperiment C.ext perf assign' d startDate itemCol dateCol treatCol a with
  | error e => rw [ef, ef'] at hb; exact hb.elim
  | ok f' =>
    rw [ef, ef'] at hb
    replace hb : BuiltPair C.ext itemCol treatCol a assign' f f' := hb
    obtain ⟨s0, hs0, e0⟩ := forall₂_mem_right h.rows hs'
    have hin : (.str (C.ext.toStr (s itemCol)) : Cell K) ∈ f.col "item_id" := (hitems _).mpr ⟨s0, hs0, by rw [e0.1]⟩
    obtain ⟨r0, hr0, hri⟩ := List.mem_map.mp hin
    obtain ⟨r, hr, hrc⟩ := hb.used s hs' ⟨r0, hr0, hri⟩
    have hnull : checkNulls f' = .ok true := by
      unfold checkNulls
      refine congrArg _ (List.any_eq_true.mpr ⟨r, hr, List.any_eq_true.mpr ⟨c, (hb.names' c).mpr (Or.inr fc), ?_⟩⟩)
      rw [hrc c fc, hsc]
      rfl
    unfold validateExperiment at hv ⊢
    obtain ⟨u1, v1, hv⟩ := Py.bind_eq_ok.mp hv
    obtain ⟨u2, v2, -⟩ := Py.bind_eq_ok.mp hv
    have v3 : runCheck a.skip "no_nulls" (checkNulls f') = .error .valueError := by
      rw [hnull]
      simp [runCheck, raiseIf, hs, bind, Except.bind]
    simp only [bind, Except.bind, v1, v2, v3]

end

/-- **C134, the report.**  The days per period and the results of the analysis are the same whatever further columns without missing cells the assignment table has,
for metrics that are not among them. -/
theorem C134_report_partial (R : Rounding ℝ) (dflt05 dflt08 : ℝ) (C : Checker ℝ) (form : AnalyserForm) (file : Dict (YVal ℝ)) (perf assign assign' : Frame ℝ)
    (argsort : List ℝ → List ℕ) (D : TDist) (metrics : List Metric) (h : Spec.FurtherColumns form.itemCol form.treatCol assign assign')
    (hf : ∀ c, Spec.Further assign' form.itemCol form.treatCol c → c ∉ Spec.preparedNames form.args ∧ c ∉ metricColumns metrics)
    (hn : ∀ s ∈ assign'.rows, ∀ c, Spec.Further assign' form.itemCol form.treatCol c → s c ≠ .null) :
    prepareStudy R dflt05 dflt08 C form file perf assign' >>= analyseData R argsort D metrics =
      prepareStudy R dflt05 dflt08 C form file perf assign >>= analyseData R argsort D metrics ∧
    prepareStudy R dflt05 dflt08 C form file perf assign' >>= (fun p => daysPerPeriod p.2) =
      prepareStudy R dflt05 dflt08 C form file perf assign >>= (fun p => daysPerPeriod p.2) := by
  unfold prepareStudy
  cases hd : loadFromDict R dflt05 dflt08 file with
  | error e => exact ⟨rfl, rfl⟩
  | ok d =>
    have hb := buildExperiment_further C.ext perf d form.startDate form.dateCol form.args h (fun c fc => (hf c fc).1)
    unfold prepareExperiment
    cases ef : buildExperiment C.ext perf assign d form.startDate form.itemCol form.dateCol form.treatCol form.args with
    | error e =>
      cases ef' : buildExperiment C.ext perf assign' d form.startDate form.itemCol form.dateCol form.treatCol form.args with
      | error e' =>
        rw [ef, ef'] at hb
        obtain rfl : e = e' := hb
        simp only [bind, Except.bind, ef, ef', and_self]
      | ok f' => rw [ef, ef'] at hb; exact hb.elim
    | ok f =>
      cases ef' : buildExperiment C.ext perf assign' d form.startDate form.itemCol form.dateCol form.treatCol form.args with
      | error e' => rw [ef, ef'] at hb; exact hb.elim
      | ok f' =>
        rw [ef, ef'] at hb
        replace hb : BuiltPair C.ext form.itemCol form.treatCol form.args assign' f f' := hb
        have hv := validate_further (d := d) (startDate := form.startDate) hb (checkNulls_further hb hn)
        have hmem : ∀ c, c ∈ Spec.preparedNames form.args → c ∈ f.cols := fun c hc => (hb.names c).mpr hc
        have htp : "time_period" ∈ f.cols := hmem _ (by simp [Spec.preparedNames])
        have hdays : daysPerPeriod f' = daysPerPeriod f := daysPerPeriod_agree hb.agree (hmem _ (by simp [Spec.preparedNames])) htp
        have han : analyseData R argsort D metrics (d, f') = analyseData R argsort D metrics (d, f) := by
          unfold analyseData
          simp only [hb.agree.cols _ htp]
          rw [analyzeExperiment_agree (dropCol_agree hb.agree "time_period") (hmem _ (by simp [Spec.preparedNames]))
            (hmem _ (by simp [Spec.preparedNames])) (hmem _ (by simp [Spec.preparedNames])) htp ?_ ?_]
          · intro c hc
            unfold Frame.dropCol
            simp only [List.mem_filter, hb.names' c]
            constructor
            · rintro ⟨hc' | fc, h2⟩
              · exact ⟨hc', h2⟩
              · exact absurd hc (hf c fc).2
            · rintro ⟨hc', h2⟩
              exact ⟨Or.inl hc', h2⟩
          · intro c _ hc
            exact List.mem_of_mem_filter hc
        cases hvf : validateExperiment C f d "item_id" "date" "week_id" "treatment_assignment" (preparedMetrics form.args) form.startDate form.args.concluded
            form.args.canBeNegative form.args.skip with
        | error e =>
          rw [hvf] at hv
          simp only [bind, Except.bind, ef, ef', hv, hvf, and_self]
        | ok u =>
          rw [hvf] at hv
          simp only [bind, Except.bind, ef, ef', hv, hvf, pure, Except.pure, han, hdays, and_self]

/-- The exported table with a further column in front, which has the same cell in all rows. -/
def labelled (x : Cell ℝ) (items : Frame ℝ) : Frame ℝ where
  cols := ["label", "id", "t"]
  rows := items.rows.map (fun r c => if c = "label" then x else if c = "id" then r "item_id" else r "treatment_assignment")

theorem labelled_further (x : Cell ℝ) (items : Frame ℝ) : Spec.FurtherColumns "id" "t" (renamed items) (labelled x items) where
  narrow := rfl
  different := by decide
  nodup := by simp [labelled]
  item := by simp [labelled]
  treat := by simp [labelled]
  rows := by
    unfold renamed labelled
    rw [List.forall₂_map_left_iff, List.forall₂_map_right_iff]
    exact List.forall₂_same.mpr fun r _ => ⟨by simp, by simp⟩

theorem labelled_only {x : Cell ℝ} {items : Frame ℝ} {c : String} (h : Spec.Further (labelled x items) "id" "t" c) : c = "label" := by
  obtain ⟨h1, h2, h3⟩ := h
  simp only [labelled, List.mem_cons, List.not_mem_nil, or_false] at h1
  tauto

theorem labelled_fresh {x : Cell ℝ} {items : Frame ℝ} {c : String} (h : Spec.Further (labelled x items) "id" "t" c) :
    c ∉ Spec.preparedNames reportForm.args ∧ c ∉ metricColumns notebookMetrics := by
  rw [labelled_only h]
  exact ⟨by decide +kernel, by simp [metricColumns, notebookMetrics]⟩

/-- The crossover study is analysed, and a further column "label" without missing cells changes nothing. -/
theorem labelled_report (argsort : List ℝ → List ℕ) (ha : ArgsortOk argsort) (D : TDist) :
    ∃ (V : StudyEnv) (C : Checker ℝ) (items : Frame ℝ) (file : Dict (YVal ℝ)) (out : Design ℝ × Frame ℝ) (rows : List (String × TestResult)),
      prepareStudy V.R (1 / 20) (4 / 5) C reportForm file reportPerf (renamed items) = .ok out ∧
      prepareStudy V.R (1 / 20) (4 / 5) C reportForm file reportPerf (renamed items) >>= analyseData V.R argsort D notebookMetrics = .ok rows ∧
      rows.length = 11 ∧ items.rows ≠ [] ∧
      prepareStudy V.R (1 / 20) (4 / 5) C reportForm file reportPerf (labelled (.str "a") items) >>= analyseData V.R argsort D notebookMetrics = .ok rows := by
  obtain ⟨V, data, cells, C, items, file, d, h1, h2, h3, h4, h5, h6, h7, h8, -, -, -, h9⟩ := oneForm_run true
  obtain ⟨rows, hr, hn⟩ := C119_crossover_analysed V (oneForm true) (studyRaw "profit") data cells C h1 items file h3 rfl h4 file.reverse file.reverse_perm (1 / 20)
    (4 / 5) d h5 h6 reportForm reportPerf (renamed items) 0 h9 argsort ha D notebookMetrics (notebookMetrics_fit reportForm_given) (by
      intro m hm q hq
      rw [notebook_override hm hq, h8]
      exact enoughLeft_zero V.R (by norm_num))
  obtain ⟨out, ho, -⟩ := Py.bind_eq_ok.mp hr
  refine ⟨V, C, items, file.reverse, out, rows, ho, hr, ?_, ?_, ?_⟩
  · have := congrArg List.length hn
    simpa [notebookMetrics] using this
  · intro hnil
    unfold prepareStudy at ho
    obtain ⟨d', -, ho⟩ := Py.bind_eq_ok.mp ho
    obtain ⟨f, ho, -⟩ := Py.bind_eq_ok.mp ho
    unfold prepareExperiment at ho
    obtain ⟨f, ho, -⟩ := Py.bind_eq_ok.mp ho
    obtain ⟨start, a', missing, f1, f2, f5, -, ea, hb⟩ := buildExperiment_ok ho
    refine (missingRows_ok hb.missing_ok).2.2.1 ?_
    have := (cleanAssignment_ok (by decide) (by simp [renamed, reportForm]) (by simp [renamed, reportForm]) ea).2.2
    rw [show (renamed items).rows = [] by simp [renamed, hnil]] at this
    exact List.forall₂_nil_left_iff.mp this
  · rw [(C134_report_partial V.R (1 / 20) (4 / 5) C reportForm file.reverse reportPerf (renamed items) (labelled (.str "a") items) argsort D notebookMetrics
      (labelled_further _ _) (fun c => labelled_fresh) ?_).1]
    · exact hr
    · intro s hs c hc
      rw [labelled_only hc]
      obtain ⟨r, -, rfl⟩ := List.mem_map.mp hs
      simp

/-- **C134 is false of the code without the condition on missing cells**: the same study is refused if the cells of the further column are missing. -/
theorem C134_report_false (argsort : List ℝ → List ℕ) (ha : ArgsortOk argsort) (D : TDist) :
    ¬ ∀ (R : Rounding ℝ) (dflt05 dflt08 : ℝ) (C : Checker ℝ) (form : AnalyserForm) (file : Dict (YVal ℝ)) (perf assign assign' : Frame ℝ) (metrics : List Metric),
      Spec.FurtherColumns form.itemCol form.treatCol assign assign' →
      (∀ c, Spec.Further assign' form.itemCol form.treatCol c → c ∉ Spec.preparedNames form.args ∧ c ∉ metricColumns metrics) →
      prepareStudy R dflt05 dflt08 C form file perf assign' >>= analyseData R argsort D metrics =
        prepareStudy R dflt05 dflt08 C form file perf assign >>= analyseData R argsort D metrics := by
  intro hall
  obtain ⟨V, C, items, file, out, rows, ho, hr, -, hne, -⟩ := labelled_report argsort ha D
  have h1 := hall V.R (1 / 20) (4 / 5) C reportForm file reportPerf (renamed items) (labelled .null items) notebookMetrics (labelled_further _ _)
    (fun c => labelled_fresh)
  rw [hr] at h1
  unfold prepareStudy at ho h1
  obtain ⟨d, ed, ho⟩ := Py.bind_eq_ok.mp ho
  obtain ⟨f, ho, -⟩ := Py.bind_eq_ok.mp ho
  obtain ⟨r, hr0⟩ := List.exists_mem_of_ne_nil _ hne
  have h2 := C134_missing_cell C reportPerf (renamed items) (labelled .null items) f d reportForm.startDate reportForm.itemCol reportForm.dateCol
    reportForm.treatCol reportForm.args (labelled_further _ _) (fun c hc => (labelled_fresh hc).1) (by decide +kernel) ho (by decide +kernel)
    ⟨_, List.mem_map.mpr ⟨r, hr0, rfl⟩, "label", ⟨by simp [labelled], by decide, by decide⟩, by simp⟩
  rw [ed] at h1
  simp only [bind, Except.bind, h2] at h1
  cases h1

end Feedx
