import Verif.Proofs.ItemNameBuild
import Verif.Props.LaxerChecks
import Verif.Props.FurtherColumns

/-!
C136: the report of an experiment does not depend on what the items are called.
-/

set_option linter.unusedSectionVars false

namespace Feedx

section
variable {K : Type} [Field K] [LinearOrder K]

/-- **C136, the data.**  Give the items of an experiment new names, in the performance data and in the assignment table, that sort like the old ones (with a common
prefix, say).  With the check of the salt skipped, the data is accepted in both cases, or refused with the same error; and the prepared tables are the same except
for the names. -/
theorem C136_prepared_data [IsStrictOrderedRing K] [FloorRing K] (ρ : String → String) (hρ : StrictMono ρ) (C : Checker K)
    (perf perf' assign assign' : Frame K) (d : Design K) (s itemCol dateCol treatCol : String) (a : ExperimentArgs)
    (h : Spec.RawNamed C.ext itemCol ρ perf perf') (h' : Spec.RawNamed C.ext itemCol ρ assign assign') (hne : itemCol ≠ dateCol) (hnt : itemCol ≠ treatCol)
    (hmem : itemCol ∈ assign.cols) (hskip : "coinflip_salt_validation" ∈ a.skip) :
    Spec.SameOutcome (Spec.TableNamed ρ) (prepareExperiment C perf assign d s itemCol dateCol treatCol a)
      (prepareExperiment C perf' assign' d s itemCol dateCol treatCol a) :=
  (prepareExperiment_named hρ h h' hne hnt hmem hskip).imp fun _ _ _ _ hf => hf.table

end

/-- **C136.**  Give the items of an experiment new names that sort like the old ones, in the performance data and in the assignment table.  With the check of the
salt skipped, the session of the analyser opens with both or fails with the same error in both.  The design is the same, the data is the same except for the names,
the table of the days per period is the same, and the analysis (with any metrics) returns the same report or raises the same error. -/
theorem C136_session (ρ : String → String) (hρ : StrictMono ρ) (R : Rounding ℝ) (dflt05 dflt08 : ℝ) (C : Checker ℝ) (argsort : List ℝ → List ℕ) (D : TDist)
    (form : AnalyserForm) (file : Dict (YVal ℝ)) (perf perf' assign assign' : Frame ℝ) (metrics : List Metric)
    (h : Spec.RawNamed C.ext form.itemCol ρ perf perf') (h' : Spec.RawNamed C.ext form.itemCol ρ assign assign') (hne : form.itemCol ≠ form.dateCol)
    (hnt : form.itemCol ≠ form.treatCol) (hmem : form.itemCol ∈ assign.cols) (hskip : "coinflip_salt_validation" ∈ form.skip) :
    Spec.SameOutcome
      (fun p p' => p'.1 = p.1 ∧ Spec.TableNamed ρ p.2 p'.2 ∧ daysPerPeriod p'.2 = daysPerPeriod p.2 ∧
        analyseData R argsort D metrics p' = analyseData R argsort D metrics p)
      (prepareStudy R dflt05 dflt08 C form file perf assign) (prepareStudy R dflt05 dflt08 C form file perf' assign') := by
  unfold prepareStudy
  refine (Spec.SameOutcome.refl (P := fun a b => b = a) (fun _ => rfl) _).bind fun d d' e => ?_
  cases e
  refine (prepareExperiment_named (d := d) (s := form.startDate) (a := form.args) hρ h h' hne hnt hmem hskip).bind fun f f' hf => ?_
  exact ⟨rfl, hf.table, hf.days, hf.analysis hρ R argsort D metrics d⟩

/-- **C136, with all checks.**  If the session opens with the old and with the new names, whatever checks are skipped, then the design is the same, the data is the
same except for the names, and so are the days per period and the report. -/
theorem C136_both_open (ρ : String → String) (hρ : StrictMono ρ) (R : Rounding ℝ) (dflt05 dflt08 : ℝ) (C : Checker ℝ) (argsort : List ℝ → List ℕ) (D : TDist)
    (form : AnalyserForm) (file : Dict (YVal ℝ)) (perf perf' assign assign' : Frame ℝ) (metrics : List Metric) (p p' : Design ℝ × Frame ℝ)
    (h : Spec.RawNamed C.ext form.itemCol ρ perf perf') (h' : Spec.RawNamed C.ext form.itemCol ρ assign assign') (hne : form.itemCol ≠ form.dateCol)
    (hnt : form.itemCol ≠ form.treatCol) (hmem : form.itemCol ∈ assign.cols)
    (ho : prepareStudy R dflt05 dflt08 C form file perf assign = .ok p) (ho' : prepareStudy R dflt05 dflt08 C form file perf' assign' = .ok p') :
    p'.1 = p.1 ∧ Spec.TableNamed ρ p.2 p'.2 ∧ daysPerPeriod p'.2 = daysPerPeriod p.2 ∧
      analyseData R argsort D metrics p' = analyseData R argsort D metrics p := by
  unfold prepareStudy prepareExperiment at ho ho'
  obtain ⟨d, hd, ho⟩ := Py.bind_eq_ok.mp ho
  obtain ⟨d', hd', ho'⟩ := Py.bind_eq_ok.mp ho'
  rw [hd] at hd'
  cases hd'
  obtain ⟨f, hf, ho⟩ := Py.bind_eq_ok.mp ho
  obtain ⟨f', hf', ho'⟩ := Py.bind_eq_ok.mp ho'
  obtain ⟨g, hg, hf⟩ := Py.bind_eq_ok.mp hf
  obtain ⟨g', hg', hf'⟩ := Py.bind_eq_ok.mp hf'
  obtain ⟨-, -, hf⟩ := Py.bind_eq_ok.mp hf
  obtain ⟨-, -, hf'⟩ := Py.bind_eq_ok.mp hf'
  cases hf
  cases hf'
  cases ho
  cases ho'
  have key := buildExperiment_named (d := d) (s := form.startDate) (a := form.args) hρ h h' hne hnt hmem
  rw [hg, hg'] at key
  have key : BuiltNamed ρ form.args f f' := key
  exact ⟨rfl, key.table, key.days, key.analysis hρ R argsort D metrics d⟩

/-- **C136, only the salt can tell.**  If the session opens with the old names, then with the new ones it opens or raises a `ValueError`, and it can raise one only
if the check of the salt is not skipped. -/
theorem C136_salt (ρ : String → String) (hρ : StrictMono ρ) (R : Rounding ℝ) (dflt05 dflt08 : ℝ) (C : Checker ℝ) (form : AnalyserForm)
    (file : Dict (YVal ℝ)) (perf perf' assign assign' : Frame ℝ) (p : Design ℝ × Frame ℝ)
    (h : Spec.RawNamed C.ext form.itemCol ρ perf perf') (h' : Spec.RawNamed C.ext form.itemCol ρ assign assign') (hne : form.itemCol ≠ form.dateCol)
    (hnt : form.itemCol ≠ form.treatCol) (hmem : form.itemCol ∈ assign.cols)
    (ho : prepareStudy R dflt05 dflt08 C form file perf assign = .ok p) :
    (∃ p', prepareStudy R dflt05 dflt08 C form file perf' assign' = .ok p') ∨
      (prepareStudy R dflt05 dflt08 C form file perf' assign' = .error .valueError ∧ "coinflip_salt_validation" ∉ form.skip) := by
  unfold prepareStudy at ho ⊢
  obtain ⟨d, hd, ho⟩ := Py.bind_eq_ok.mp ho
  obtain ⟨f, hf, ho⟩ := Py.bind_eq_ok.mp ho
  have hreg : ∀ x ∈ form.skip, x ∈ Spec.registeredChecks := by
    unfold prepareExperiment validateExperiment at hf
    obtain ⟨g, -, hf⟩ := Py.bind_eq_ok.mp hf
    obtain ⟨_, hv, -⟩ := Py.bind_eq_ok.mp hf
    obtain ⟨_, hv, -⟩ := Py.bind_eq_ok.mp hv
    intro x hx
    unfold assertChecksExist raiseIf at hv
    split at hv
    · cases hv
    · rename_i hn
      by_contra hc
      exact hn (List.any_eq_true.mpr ⟨x, hx, decide_eq_true (fun k => hc ((mem_checkNames x).mp k))⟩)
  have h1 := C137_experiment C perf assign f d form.startDate form.itemCol form.dateCol form.treatCol form.args ("coinflip_salt_validation" :: form.skip) []
    form.concluded hf (fun x hx => List.mem_cons_of_mem _ hx) (by
      intro x hx
      rcases List.mem_cons.mp hx with rfl | hx
      · decide
      · exact hreg x hx) (fun c hc => hc) (Or.inl rfl) id
  have key := prepareExperiment_named (d := d) (s := form.startDate)
    (a := { form.args with skip := "coinflip_salt_validation" :: form.skip, canBeNegative := [], concluded := form.concluded }) hρ h h' hne hnt hmem
    List.mem_cons_self
  rw [h1] at key
  cases e' : prepareExperiment C perf' assign' d form.startDate form.itemCol form.dateCol form.treatCol
      { form.args with skip := "coinflip_salt_validation" :: form.skip, canBeNegative := [], concluded := form.concluded } with
  | error e => rw [e'] at key; exact key.elim
  | ok f' =>
    have h2 := C137_fewer_skipped C perf' assign' f' d form.startDate form.itemCol form.dateCol form.treatCol _ form.skip e'
    have h2 : prepareExperiment C perf' assign' d form.startDate form.itemCol form.dateCol form.treatCol form.args = .ok f' ∨
        prepareExperiment C perf' assign' d form.startDate form.itemCol form.dateCol form.treatCol form.args = .error .valueError := h2
    rw [hd]
    rcases h2 with h2 | h2
    · exact Or.inl ⟨(d, f'), by simp only [bind, Except.bind, h2]; rfl⟩
    · refine Or.inr ⟨by simp only [bind, Except.bind, h2], fun hs => ?_⟩
      have k2 := prepareExperiment_named (d := d) (s := form.startDate) (a := form.args) hρ h h' hne hnt hmem hs
      rw [hf, h2] at k2
      exact k2.elim

/-! ### A concrete study -/

/-- A common prefix keeps the order of the names. -/
theorem prefix_strictMono (p : String) : StrictMono (fun s => p ++ s) := by
  intro a b h
  rw [String.lt_iff_toList_lt] at *
  simp only [String.toList_append]
  exact List.append_left_lt h

/-- The raw table with the new names. -/
def renamedRaw {K : Type} (E : Ext K) (itemCol : String) (ρ : String → String) (raw : Frame K) : Frame K :=
  ⟨raw.cols, raw.rows.map (fun r x => if x = itemCol then .str (ρ (E.toStr (r x))) else r x)⟩

theorem renamedRaw_named {K : Type} (E : Ext K) (itemCol : String) (ρ : String → String) (raw : Frame K) :
    Spec.RawNamed E itemCol ρ raw (renamedRaw E itemCol ρ raw) := by
  refine ⟨rfl, ?_⟩
  show List.Forall₂ _ raw.rows (raw.rows.map _)
  rw [List.forall₂_map_right_iff, List.forall₂_same]
  intro r _
  exact ⟨fun x hx => if_neg hx, by simp only [if_true, E.toStr_str]⟩

/-- The study of sixty items, analysed with the check of the salt skipped: the eleven results are the same if all items get a prefix. -/
example (argsort : List ℝ → List ℕ) (ha : ArgsortOk argsort) (D : TDist) :
    ∃ (V : StudyEnv) (C : Checker ℝ) (items : Frame ℝ) (file : Dict (YVal ℝ)) (rows : List (String × TestResult)),
      rows.length = 11 ∧
      prepareStudy V.R (1 / 20) (4 / 5) C { reportForm with skip := ["coinflip_salt_validation"] } file reportPerf (renamed items) >>=
        analyseData V.R argsort D notebookMetrics = .ok rows ∧
      prepareStudy V.R (1 / 20) (4 / 5) C { reportForm with skip := ["coinflip_salt_validation"] } file
        (renamedRaw C.ext "id" (fun s => "sku-" ++ s) reportPerf) (renamedRaw C.ext "id" (fun s => "sku-" ++ s) (renamed items)) >>=
        analyseData V.R argsort D notebookMetrics = .ok rows := by
  obtain ⟨V, C, items, file, out, rows, ho, hr, hl, -, -⟩ := labelled_report argsort ha D
  have h1 := C137_session V.R (1 / 20) (4 / 5) C reportForm file reportPerf (renamed items) out ["coinflip_salt_validation"] true ho
    (fun x hx => by cases hx) (by decide) (fun _ => rfl)
  rw [ho] at hr
  have h1 : prepareStudy V.R (1 / 20) (4 / 5) C { reportForm with skip := ["coinflip_salt_validation"] } file reportPerf (renamed items) = .ok out := h1
  refine ⟨V, C, items, file, rows, hl, by rw [h1]; exact hr, ?_⟩
  have key := C136_session (fun s => "sku-" ++ s) (prefix_strictMono "sku-") V.R (1 / 20) (4 / 5) C argsort D
    { reportForm with skip := ["coinflip_salt_validation"] } file reportPerf _ (renamed items) _ notebookMetrics (renamedRaw_named _ _ _ _) (renamedRaw_named _ _ _ _)
    (by decide) (by decide) (by simp [renamed, reportForm]) (by simp)
  rw [h1] at key
  revert key
  show Spec.SameOutcome _ _ (prepareStudy V.R (1 / 20) (4 / 5) C { reportForm with skip := ["coinflip_salt_validation"] } file
        (renamedRaw C.ext "id" (fun s => "sku-" ++ s) reportPerf) (renamedRaw C.ext "id" (fun s => "sku-" ++ s) (renamed items))) → _
  cases prepareStudy V.R (1 / 20) (4 / 5) C { reportForm with skip := ["coinflip_salt_validation"] } file
        (renamedRaw C.ext "id" (fun s => "sku-" ++ s) reportPerf) (renamedRaw C.ext "id" (fun s => "sku-" ++ s) (renamed items)) with
  | error e => intro key; exact key.elim
  | ok p' =>
    intro key
    obtain ⟨-, -, -, key⟩ : _ ∧ _ ∧ _ ∧ _ := key
    exact key.trans hr

/-- The check of the salt can tell the names: two items that pass all checks pass them with the prefix "x", but not with the prefix "y", unless this check is
skipped. -/
example : validateExperiment exampleChecker goodExperiment { saltedDesign with runtime := 1, nAfterPre := 2 } "item_id" "date" "week_id"
      "t" ["clicks"] "2024-01-08" true [] [] = .ok () ∧
    validateExperiment exampleChecker (namedFrame (fun s => "x" ++ s) goodExperiment) { saltedDesign with runtime := 1, nAfterPre := 2 } "item_id" "date" "week_id"
      "t" ["clicks"] "2024-01-08" true [] [] = .ok () ∧
    validateExperiment exampleChecker (namedFrame (fun s => "y" ++ s) goodExperiment) { saltedDesign with runtime := 1, nAfterPre := 2 } "item_id" "date" "week_id"
      "t" ["clicks"] "2024-01-08" true [] [] = .error .valueError ∧
    validateExperiment exampleChecker (namedFrame (fun s => "y" ++ s) goodExperiment) { saltedDesign with runtime := 1, nAfterPre := 2 } "item_id" "date" "week_id"
      "t" ["clicks"] "2024-01-08" true [] ["coinflip_salt_validation"] = .ok () := by
  decide +kernel

end Feedx
