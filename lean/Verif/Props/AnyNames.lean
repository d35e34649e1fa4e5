import Verif.Proofs.AnyNames
import Verif.Props.ItemNames

/-!
C138: the report of metrics of which no step depends on the order of the items does not depend on what the items are called, in whatever order the names are.
-/

set_option linter.unusedSectionVars false

namespace Feedx

theorem BuiltNamed.renamed {K : Type} [Field K] [LinearOrder K] {ρ : String → String} {a : ExperimentArgs} {f g f' : Frame K} (h : BuiltNamed ρ a f g)
    (hs : Spec.SameRows g f') : Spec.TableRenamed ρ f f' :=
  ⟨hs.cols.trans h.table.1, g.rows, hs.rows.symm, h.table.2⟩

/-- **C138.**  Give the items of an experiment new names, different ones for different items, in the performance data and in the assignment table.  With the check of
the salt skipped, the session of the analyser opens with both names or with neither.  The design is the same, the prepared data has the same rows in some order
except for the names, and the table of the days per period is the same.  With metrics of which nothing is trimmed, and with metrics without a
denominator in a regular experiment without pretest weeks, whatever is trimmed of them, the analysis returns the same report or fails in both cases.  (No new metric may be called "week_id" or "date".) -/
theorem C138_session (ρ : String → String) (hρ : Function.Injective ρ) (R : Rounding ℝ) (dflt05 dflt08 : ℝ) (C : Checker ℝ) (argsort : List ℝ → List ℕ)
    (ha : ArgsortOk argsort) (D : TDist) (form : AnalyserForm) (file : Dict (YVal ℝ)) (perf perf' assign assign' : Frame ℝ)
    (h : Spec.RawNamed C.ext form.itemCol ρ perf perf') (h' : Spec.RawNamed C.ext form.itemCol ρ assign assign') (hne : form.itemCol ≠ form.dateCol)
    (hnt : form.itemCol ≠ form.treatCol) (hmem : form.itemCol ∈ assign.cols) (hnames : ∀ p ∈ form.args.atLeastOne, p.2 ≠ "week_id" ∧ p.2 ≠ "date")
    (hskip : "coinflip_salt_validation" ∈ form.skip) :
    Spec.BothReturn
      (fun p p' => p'.1 = p.1 ∧ Spec.TableRenamed ρ p.2 p'.2 ∧ daysPerPeriod p'.2 = daysPerPeriod p.2 ∧
        ∀ metrics : List Metric, (∀ m ∈ metrics, Spec.OrderFreeMetric p.1.toDesignParams m) →
          ∀ rows, analyseData R argsort D metrics p' = .ok rows ↔ analyseData R argsort D metrics p = .ok rows)
      (prepareStudy R dflt05 dflt08 C form file perf assign) (prepareStudy R dflt05 dflt08 C form file perf' assign') := by
  unfold prepareStudy
  refine (Spec.SameOutcome.refl (P := fun a b => b = a) (fun _ => rfl) _).both.bind fun d d' e => ?_
  cases e
  refine (prepareExperiment_renamed (d := d) (s := form.startDate) (a := form.args) hρ h h' hne hnt hmem hnames hskip).bind fun f f' hf => ?_
  obtain ⟨g, hg, hs⟩ := hf
  exact ⟨rfl, hg.renamed hs, (daysPerPeriod_sameRows hs).trans hg.days, fun metrics hq rows => hg.analysis_renamed hρ hs R ha D hq rows⟩

/-- **C138, with all checks.**  If the session opens with the old and with the new names, whatever checks are skipped, then the design and the days per period are
the same, the data has the same rows except for the names, and such metrics have the same report. -/
theorem C138_both_open (ρ : String → String) (hρ : Function.Injective ρ) (R : Rounding ℝ) (dflt05 dflt08 : ℝ) (C : Checker ℝ) (argsort : List ℝ → List ℕ)
    (ha : ArgsortOk argsort) (D : TDist) (form : AnalyserForm) (file : Dict (YVal ℝ)) (perf perf' assign assign' : Frame ℝ) (p p' : Design ℝ × Frame ℝ)
    (h : Spec.RawNamed C.ext form.itemCol ρ perf perf') (h' : Spec.RawNamed C.ext form.itemCol ρ assign assign') (hne : form.itemCol ≠ form.dateCol)
    (hnt : form.itemCol ≠ form.treatCol) (hmem : form.itemCol ∈ assign.cols)
    (ho : prepareStudy R dflt05 dflt08 C form file perf assign = .ok p) (ho' : prepareStudy R dflt05 dflt08 C form file perf' assign' = .ok p') :
    p'.1 = p.1 ∧ Spec.TableRenamed ρ p.2 p'.2 ∧ daysPerPeriod p'.2 = daysPerPeriod p.2 ∧
      ∀ metrics : List Metric, (∀ m ∈ metrics, Spec.OrderFreeMetric p.1.toDesignParams m) →
        ∀ rows, analyseData R argsort D metrics p' = .ok rows ↔ analyseData R argsort D metrics p = .ok rows := by
  unfold prepareStudy prepareExperiment at ho ho'
  obtain ⟨d, hd, ho⟩ := Py.bind_eq_ok.mp ho
  obtain ⟨d', hd', ho'⟩ := Py.bind_eq_ok.mp ho'
  rw [hd] at hd'
  cases hd'
  obtain ⟨f, hf, ho⟩ := Py.bind_eq_ok.mp ho
  obtain ⟨f', hf', ho'⟩ := Py.bind_eq_ok.mp ho'
  obtain ⟨g, hg, hf⟩ := Py.bind_eq_ok.mp hf
  obtain ⟨g', hg', hf'⟩ := Py.bind_eq_ok.mp hf'
  obtain ⟨-, -, hf⟩ := Py.bind_eq_ok.mp hf
  obtain ⟨-, -, hf'⟩ := Py.bind_eq_ok.mp hf'
  cases hf
  cases hf'
  cases ho
  cases ho'
  have key := buildExperiment_renamed (d := d) (s := form.startDate) (a := form.args) hρ h h' hne hnt hmem
  rw [hg, hg'] at key
  obtain ⟨k, hk, hs⟩ : ∃ k, BuiltNamed ρ form.args f k ∧ Spec.SameRows k f' := key
  exact ⟨rfl, hk.renamed hs, (daysPerPeriod_sameRows hs).trans hk.days, fun metrics hq rows => hk.analysis_renamed hρ hs R ha D hq rows⟩

/-! ### A concrete study -/

/-- The text read backwards. -/
def backwards (s : String) : String := String.ofList s.toList.reverse

theorem backwards_injective : Function.Injective backwards := by
  intro a b h
  unfold backwards at h
  have := String.ofList_injective h
  exact String.toList_inj.mp (List.reverse_injective this)

/-- The names read backwards are in another order. -/
example : "a2" < "b1" ∧ backwards "b1" < backwards "a2" := by decide +kernel

/-- The metrics of the notebook, with nothing trimmed. -/
noncomputable def wholeMetrics : List Metric := notebookMetrics.map (fun m => { m with override := some 0 })

/-- The study of sixty items, analysed with nothing trimmed and the check of the salt skipped: the eleven results are the same if the names of all items are read
backwards. -/
example (argsort : List ℝ → List ℕ) (ha : ArgsortOk argsort) (D : TDist) :
    ∃ (V : StudyEnv) (C : Checker ℝ) (items : Frame ℝ) (file : Dict (YVal ℝ)) (rows : List (String × TestResult)),
      rows.length = 11 ∧
      prepareStudy V.R (1 / 20) (4 / 5) C { reportForm with skip := ["coinflip_salt_validation"] } file reportPerf (renamed items) >>=
        analyseData V.R argsort D wholeMetrics = .ok rows ∧
      prepareStudy V.R (1 / 20) (4 / 5) C { reportForm with skip := ["coinflip_salt_validation"] } file
        (renamedRaw C.ext "id" backwards reportPerf) (renamedRaw C.ext "id" backwards (renamed items)) >>=
        analyseData V.R argsort D wholeMetrics = .ok rows := by
  obtain ⟨V, data, cells, C, items, file, d, h1, h2, h3, h4, h5, h6, h7, h8, -, -, -, h9⟩ := oneForm_run true
  have hfit := notebookMetrics_fit reportForm_given
  obtain ⟨rows, hr, hn⟩ := C119_crossover_analysed V (oneForm true) (studyRaw "profit") data cells C h1 items file h3 rfl h4 file.reverse file.reverse_perm (1 / 20)
    (4 / 5) d h5 h6 reportForm reportPerf (renamed items) 0 h9 argsort ha D wholeMetrics (by
      refine ⟨by simp [wholeMetrics, notebookMetrics], fun m hm => ?_⟩
      obtain ⟨m', hm', rfl⟩ := List.mem_map.mp hm
      obtain ⟨k1, k2, -⟩ := hfit.2 m' hm'
      exact ⟨k1, k2, fun q hq => by cases hq; norm_num⟩) (by
      intro m hm q hq
      obtain ⟨m', hm', rfl⟩ := List.mem_map.mp hm
      cases hq
      rw [h8]
      exact enoughLeft_zero V.R (by norm_num))
  obtain ⟨out, ho, hr⟩ := Py.bind_eq_ok.mp hr
  have h1 := C137_session V.R (1 / 20) (4 / 5) C reportForm file.reverse reportPerf (renamed items) out ["coinflip_salt_validation"] true ho
    (fun x hx => by cases hx) (by decide) (fun _ => rfl)
  have h1 : prepareStudy V.R (1 / 20) (4 / 5) C { reportForm with skip := ["coinflip_salt_validation"] } file.reverse reportPerf (renamed items) = .ok out := h1
  refine ⟨V, C, items, file.reverse, rows, ?_, by rw [h1]; exact hr, ?_⟩
  · have := congrArg List.length hn
    simpa [wholeMetrics, notebookMetrics] using this
  have key := C138_session backwards backwards_injective V.R (1 / 20) (4 / 5) C argsort ha D
    { reportForm with skip := ["coinflip_salt_validation"] } file.reverse reportPerf _ (renamed items) _ (renamedRaw_named _ _ _ _) (renamedRaw_named _ _ _ _)
    (by decide) (by decide) (by simp [renamed, reportForm]) (by decide) (by simp)
  rw [h1] at key
  revert key
  show Spec.BothReturn _ _ (prepareStudy V.R (1 / 20) (4 / 5) C { reportForm with skip := ["coinflip_salt_validation"] } file.reverse
        (renamedRaw C.ext "id" backwards reportPerf) (renamedRaw C.ext "id" backwards (renamed items))) → _
  cases prepareStudy V.R (1 / 20) (4 / 5) C { reportForm with skip := ["coinflip_salt_validation"] } file.reverse
        (renamedRaw C.ext "id" backwards reportPerf) (renamedRaw C.ext "id" backwards (renamed items)) with
  | error e => intro key; exact key.elim
  | ok p' =>
    intro key
    obtain ⟨-, -, -, key⟩ : _ ∧ _ ∧ _ ∧ _ := key
    refine (key wholeMetrics (fun m hm => ?_) rows).mpr hr
    obtain ⟨m', -, rfl⟩ := List.mem_map.mp hm
    exact .inl rfl

/-- Profit and clicks, with a twentieth of the items trimmed at each end. -/
noncomputable def trimmedMetrics : List Metric := [⟨"profit", "profit", none, some (1 / 20)⟩, ⟨"clicks", "clicks", none, some (1 / 20)⟩]

/-- The regular study of sixty items without pretest weeks, analysed with a twentieth trimmed at each end: the session opens with the names read backwards as well, and
the report is the same. -/
example (argsort : List ℝ → List ℕ) (ha : ArgsortOk argsort) (D : TDist) :
    ∃ (V : StudyEnv) (C : Checker ℝ) (items : Frame ℝ) (file : Dict (YVal ℝ)) (p p' : Design ℝ × Frame ℝ),
      prepareStudy V.R (1 / 20) (4 / 5) C { reportForm with skip := ["coinflip_salt_validation"] } file reportPerf (renamed items) = .ok p ∧
      prepareStudy V.R (1 / 20) (4 / 5) C { reportForm with skip := ["coinflip_salt_validation"] } file
        (renamedRaw C.ext "id" backwards reportPerf) (renamedRaw C.ext "id" backwards (renamed items)) = .ok p' ∧
      p.1.nAfterPre = 60 ∧ ∀ rows, analyseData V.R argsort D trimmedMetrics p' = .ok rows ↔ analyseData V.R argsort D trimmedMetrics p = .ok rows := by
  obtain ⟨V, data, cells, C, items, file, d, h1, h2, h3, h4, h5, h6, h7, h8, -, -, -, h9⟩ := oneForm_run false
  have hr0 : V.R.rnd 0 = 0 := by simpa using V.R.intFix 0 (by norm_num)
  obtain ⟨out, ho, -⟩ := C119_regular_analysed_partial V (oneForm false) (studyRaw "profit") data cells C h1 h2 items file h3 rfl h4 file.reverse file.reverse_perm
    (1 / 20) (4 / 5) d h5 h6 reportForm reportPerf (renamed items) 0 h9 argsort ha D notebookMetrics (notebookMetrics_fit reportForm_given) (by
      intro m hm q hq
      rw [notebook_override hm hq, h8, zero_mul, hr0]
      norm_num)
  have h1 := C137_session V.R (1 / 20) (4 / 5) C reportForm file.reverse reportPerf (renamed items) (d, out) ["coinflip_salt_validation"] true ho
    (fun x hx => by cases hx) (by decide) (fun _ => rfl)
  have h1 : prepareStudy V.R (1 / 20) (4 / 5) C { reportForm with skip := ["coinflip_salt_validation"] } file.reverse reportPerf (renamed items) = .ok (d, out) := h1
  have key := C138_session backwards backwards_injective V.R (1 / 20) (4 / 5) C argsort ha D
    { reportForm with skip := ["coinflip_salt_validation"] } file.reverse reportPerf _ (renamed items) _ (renamedRaw_named _ _ _ _) (renamedRaw_named _ _ _ _)
    (by decide) (by decide) (by simp [renamed, reportForm]) (by decide) (by simp)
  rw [h1] at key
  cases e : prepareStudy V.R (1 / 20) (4 / 5) C { reportForm with skip := ["coinflip_salt_validation"] } file.reverse
        (renamedRaw C.ext "id" backwards reportPerf) (renamedRaw C.ext "id" backwards (renamed items)) with
  | error x => exact (by have := e ▸ key; exact this : False).elim
  | ok p' =>
    refine ⟨V, C, items, file.reverse, (d, out), p', h1, e, h8, ?_⟩
    have key : Spec.BothReturn _ (.ok (d, out)) (.ok p') := e ▸ key
    obtain ⟨-, -, -, key⟩ : _ ∧ _ ∧ _ ∧ _ := key
    refine key trimmedMetrics (fun m hm => .inr ⟨?_, h6, h7⟩)
    simp only [trimmedMetrics, List.mem_cons, List.not_mem_nil, or_false] at hm
    rcases hm with rfl | rfl <;> rfl

end Feedx
