import Verif.Props.Validate
import Verif.Props.Calendar

/-!
C137: skipping checks never has accepted data refused, nor changed.
-/

set_option linter.unusedSectionVars false

namespace Feedx

section
variable {K : Type} [Field K] [LinearOrder K]

theorem unit_bind_laxer {x x' : Py Unit} {k k' : Unit → Py Unit} (h : x >>= k = .ok ()) (hx : x = .ok () → x' = .ok ())
    (hk : k () = .ok () → k' () = .ok ()) : x' >>= k' = .ok () := by
  obtain ⟨u, hu, h⟩ := Py.bind_eq_ok.mp h
  exact Py.bind_eq_ok.mpr ⟨(), hx hu, hk h⟩

theorem runCheck_laxer {skip skip' : List String} {name : String} {c c' : Py Bool} (h : runCheck skip name c = .ok ()) (hs : ∀ s ∈ skip, s ∈ skip')
    (hc : ∀ b, c = .ok b → ∃ b', c' = .ok b' ∧ (b' = true → b = true)) : runCheck skip' name c' = .ok () := by
  obtain ⟨b, hb, hn⟩ := runCheck_ok.mp h
  obtain ⟨b', hb', hi⟩ := hc b hb
  unfold runCheck
  rw [hb']
  show raiseIf _ _ = _
  rw [raiseIf, if_neg]
  rintro ⟨h1, h2⟩
  exact h2 (hs _ (hn (hi h1)))

theorem assertChecksExist_registered {skip : List String} (h : ∀ s ∈ skip, s ∈ Spec.registeredChecks) : assertChecksExist skip = .ok () := by
  unfold assertChecksExist
  rw [raiseIf, if_neg]
  rw [List.any_eq_true]
  rintro ⟨s, hs, e⟩
  exact of_decide_eq_true e ((mem_checkNames s).mpr (h s hs))

theorem checkNonNegative_sublist {f : Frame K} {l l' : List String} (hl : l'.Sublist l) (h : checkNonNegative f l = .ok false) :
    checkNonNegative f l' = .ok false := by
  induction hl with
  | slnil => rfl
  | @cons l1 l2 m _ ih =>
    unfold checkNonNegative at h
    obtain ⟨-, h⟩ := raiseIf_bind_ok.mp h
    obtain ⟨-, h⟩ := raiseIf_bind_ok.mp h
    split at h
    · cases h
    · exact ih h
  | @cons_cons l1 l2 m _ ih =>
    unfold checkNonNegative at h ⊢
    obtain ⟨h1, h⟩ := raiseIf_bind_ok.mp h
    obtain ⟨h2, h⟩ := raiseIf_bind_ok.mp h
    refine raiseIf_bind_ok.mpr ⟨h1, raiseIf_bind_ok.mpr ⟨h2, ?_⟩⟩
    split at h
    · cases h
    · rename_i h3
      rw [if_neg h3]
      exact ih h

theorem runNonNegative_laxer {f : Frame K} {metrics can can' skip skip' : List String} (h : runNonNegative f metrics can skip = .ok ())
    (hs : ∀ s ∈ skip, s ∈ skip') (hcan : ∀ c ∈ can, c ∈ can') (hstrict : can' = can ∨ "all_metrics_are_non_negative" ∉ skip) :
    runNonNegative f metrics can' skip' = .ok () := by
  unfold runNonNegative at h ⊢
  simp only at h ⊢
  by_cases he' : (metrics.filter (fun m => decide (m ∉ can'))).isEmpty = true
  · rw [if_pos he']
  rw [if_neg he']
  have hsub : (metrics.filter (fun m => decide (m ∉ can'))).Sublist (metrics.filter (fun m => decide (m ∉ can))) := by
    refine List.monotone_filter_right _ fun m hm => ?_
    simp only [decide_eq_true_eq] at hm ⊢
    exact fun hc => hm (hcan m hc)
  have he : ¬ (metrics.filter (fun m => decide (m ∉ can))).isEmpty = true := by
    intro he
    rw [List.isEmpty_iff] at he
    rw [he] at hsub
    exact he' (by rw [List.sublist_nil.mp hsub]; rfl)
  rw [if_neg he] at h
  rcases hstrict with rfl | hstrict
  · exact runCheck_laxer h hs fun b hb => ⟨b, hb, id⟩
  · obtain ⟨b, hb, hn⟩ := runCheck_ok.mp h
    have : b = false := by
      cases b with
      | false => rfl
      | true => exact absurd (hn rfl) hstrict
    subst this
    rw [checkNonNegative_sublist hsub hb]
    exact runCheck_laxer (c := .ok false) (skip := skip') (by simp [runCheck, raiseIf, bind, Except.bind]) (fun s hs => hs) fun b hb => ⟨b, hb, id⟩

theorem checkDateRange_laxer {E : Ext K} {f : Frame K} {d : Design K} {dateCol s : String} {concluded concluded' : Bool}
    (hcon : concluded' = true → concluded = true) {b : Bool} (h : checkDateRange E f d dateCol s concluded = .ok b) :
    ∃ b', checkDateRange E f d dateCol s concluded' = .ok b' ∧ (b' = true → b = true) := by
  unfold checkDateRange at h ⊢
  cases hst : E.strptime s with
  | none => rw [hst] at h; cases h
  | some start =>
    rw [hst] at h
    simp only at h ⊢
    obtain ⟨h1, h⟩ := raiseIf_bind_ok.mp h
    obtain ⟨h2, h⟩ := raiseIf_bind_ok.mp h
    simp only [raiseIf, if_neg h1, if_neg h2]
    by_cases h3 : (minTime (f.col dateCol)).any (fun t => decide (t > start - d.pretest * 7 * dayNs)) = true
    · rw [if_pos h3] at h
      cases h
      exact ⟨true, by simp only [h3, bind, Except.bind]; rfl, fun _ => rfl⟩
    · rw [if_neg h3] at h
      by_cases hc' : concluded' = true
      · rw [if_pos (hcon hc')] at h
        refine ⟨b, ?_, id⟩
        simp only [bind, Except.bind, if_neg h3, if_pos hc']
        exact h
      · refine ⟨false, ?_, fun h => by cases h⟩
        simp only [bind, Except.bind, if_neg h3, if_neg hc']
        rfl

theorem validateExperiment_laxer {C : Checker K} {f : Frame K} {d : Design K} {itemCol dateCol weekCol treatCol : String} {metrics : List String}
    {s : String} {concluded concluded' : Bool} {can can' skip skip' : List String}
    (h : validateExperiment C f d itemCol dateCol weekCol treatCol metrics s concluded can skip = .ok ())
    (hs : ∀ x ∈ skip, x ∈ skip') (hreg : ∀ x ∈ skip', x ∈ Spec.registeredChecks) (hcan : ∀ c ∈ can, c ∈ can')
    (hstrict : can' = can ∨ "all_metrics_are_non_negative" ∉ skip) (hcon : concluded' = true → concluded = true) :
    validateExperiment C f d itemCol dateCol weekCol treatCol metrics s concluded' can' skip' = .ok () := by
  unfold validateExperiment at h ⊢
  obtain ⟨-, -, h⟩ := Py.bind_eq_ok.mp h
  refine Py.bind_eq_ok.mpr ⟨(), assertChecksExist_registered hreg, ?_⟩
  have same : ∀ c : Py Bool, ∀ b, c = .ok b → ∃ b', c = .ok b' ∧ (b' = true → b = true) := fun c b hb => ⟨b, hb, id⟩
  refine unit_bind_laxer h (fun h0 => runCheck_laxer h0 hs (same _)) fun h => ?_
  refine unit_bind_laxer h (fun h0 => runCheck_laxer h0 hs (same _)) fun h => ?_
  refine unit_bind_laxer h (fun h0 => runCheck_laxer h0 hs (same _)) fun h => ?_
  refine unit_bind_laxer h (fun h0 => runCheck_laxer h0 hs (same _)) fun h => ?_
  refine unit_bind_laxer h (fun h0 => runCheck_laxer h0 hs (same _)) fun h => ?_
  refine unit_bind_laxer h (fun h0 => runCheck_laxer h0 hs (same _)) fun h => ?_
  refine unit_bind_laxer h (fun h0 => runNonNegative_laxer h0 hs hcan hstrict) fun h => ?_
  refine unit_bind_laxer h (fun h0 => runCheck_laxer h0 hs (same _)) fun h => ?_
  refine unit_bind_laxer h (fun h0 => runCheck_laxer h0 hs (fun b hb => checkDateRange_laxer hcon hb)) fun h => ?_
  refine unit_bind_laxer h (fun h0 => runCheck_laxer h0 hs (same _)) fun h => ?_
  refine unit_bind_laxer h (fun h0 => runCheck_laxer h0 hs (same _)) fun h => ?_
  exact runCheck_laxer h hs (same _)

/-- **C137, the performance history.**  If the preparation accepts the history, then it accepts it with further checks skipped, and returns the same table. -/
theorem C137_history [FloorRing K] (R : Rounding K) (rng : Sampler (Cell K)) (E : Ext K) (S : DateSorter K) (raw out : Frame K)
    (itemCol dateCol primary primaryCol : String) (fraction : K) (skip skip' : List String)
    (h : prepareHistorical R rng E S raw itemCol dateCol primary primaryCol fraction skip = .ok out) (hs : ∀ x ∈ skip, x ∈ skip')
    (hreg : ∀ x ∈ skip', x ∈ Spec.registeredChecks) :
    prepareHistorical R rng E S raw itemCol dateCol primary primaryCol fraction skip' = .ok out := by
  unfold prepareHistorical at h ⊢
  obtain ⟨p, hp, h⟩ := Py.bind_eq_ok.mp h
  obtain ⟨u, hv, h⟩ := Py.bind_eq_ok.mp h
  refine Py.bind_eq_ok.mpr ⟨p, hp, Py.bind_eq_ok.mpr ⟨u, ?_, h⟩⟩
  unfold validateHistorical at hv ⊢
  obtain ⟨-, -, hv⟩ := Py.bind_eq_ok.mp hv
  refine Py.bind_eq_ok.mpr ⟨(), assertChecksExist_registered hreg, ?_⟩
  have same : ∀ c : Py Bool, ∀ b, c = .ok b → ∃ b', c = .ok b' ∧ (b' = true → b = true) := fun c b hb => ⟨b, hb, id⟩
  refine unit_bind_laxer hv (fun h0 => runCheck_laxer h0 hs (same _)) fun hv => ?_
  refine unit_bind_laxer hv (fun h0 => runCheck_laxer h0 hs (same _)) fun hv => ?_
  refine unit_bind_laxer hv (fun h0 => runCheck_laxer h0 hs (same _)) fun hv => ?_
  refine unit_bind_laxer hv (fun h0 => runCheck_laxer h0 hs (same _)) fun hv => ?_
  refine unit_bind_laxer hv (fun h0 => runCheck_laxer h0 hs (same _)) fun hv => ?_
  exact runCheck_laxer hv hs (same _)

/-- **C137, the data of an experiment.**  If the preparation accepts the data, then it accepts it, and returns the same table, with further checks skipped, with
the experiment declared not to be concluded, and with further columns allowed to be negative (unless the check of negative values is already skipped). -/
theorem C137_experiment (C : Checker K) (perf assign out : Frame K) (d : Design K) (s itemCol dateCol treatCol : String) (a : ExperimentArgs)
    (skip' can' : List String) (concluded' : Bool) (h : prepareExperiment C perf assign d s itemCol dateCol treatCol a = .ok out)
    (hs : ∀ x ∈ a.skip, x ∈ skip') (hreg : ∀ x ∈ skip', x ∈ Spec.registeredChecks) (hcan : ∀ c ∈ a.canBeNegative, c ∈ can')
    (hstrict : can' = a.canBeNegative ∨ "all_metrics_are_non_negative" ∉ a.skip) (hcon : concluded' = true → a.concluded = true) :
    prepareExperiment C perf assign d s itemCol dateCol treatCol { a with skip := skip', canBeNegative := can', concluded := concluded' } = .ok out := by
  unfold prepareExperiment at h ⊢
  obtain ⟨f, hf, h⟩ := Py.bind_eq_ok.mp h
  obtain ⟨u, hv, h⟩ := Py.bind_eq_ok.mp h
  exact Py.bind_eq_ok.mpr ⟨f, hf, Py.bind_eq_ok.mpr ⟨u, validateExperiment_laxer hv hs hreg hcan hstrict hcon, h⟩⟩

theorem runCheck_stricter {skip skip' : List String} {name : String} {c : Py Bool} (h : runCheck skip' name c = .ok ()) :
    runCheck skip name c = .ok () ∨ runCheck skip name c = .error .valueError := by
  obtain ⟨b, rfl, -⟩ := runCheck_ok.mp h
  unfold runCheck
  show raiseIf _ _ = _ ∨ raiseIf _ _ = _
  unfold raiseIf
  split
  · exact Or.inr rfl
  · exact Or.inl rfl

theorem unit_bind_stricter {x x' : Py Unit} {k k' : Unit → Py Unit} (h : x' >>= k' = .ok ()) (hx : x' = .ok () → x = .ok () ∨ x = .error .valueError)
    (hk : k' () = .ok () → k () = .ok () ∨ k () = .error .valueError) : x >>= k = .ok () ∨ x >>= k = .error .valueError := by
  obtain ⟨u, hu, h⟩ := Py.bind_eq_ok.mp h
  rcases hx hu with e | e
  · rw [e]; exact hk h
  · rw [e]; exact Or.inr rfl

theorem validateExperiment_stricter {C : Checker K} {f : Frame K} {d : Design K} {itemCol dateCol weekCol treatCol : String} {metrics : List String}
    {s : String} {concluded : Bool} {can skip skip' : List String}
    (h : validateExperiment C f d itemCol dateCol weekCol treatCol metrics s concluded can skip' = .ok ()) :
    validateExperiment C f d itemCol dateCol weekCol treatCol metrics s concluded can skip = .ok () ∨
      validateExperiment C f d itemCol dateCol weekCol treatCol metrics s concluded can skip = .error .valueError := by
  unfold validateExperiment at h ⊢
  refine unit_bind_stricter h (fun _ => ?_) fun h => ?_
  · unfold assertChecksExist raiseIf
    split
    · exact Or.inr rfl
    · exact Or.inl rfl
  refine unit_bind_stricter h (fun h0 => runCheck_stricter h0) fun h => ?_
  refine unit_bind_stricter h (fun h0 => runCheck_stricter h0) fun h => ?_
  refine unit_bind_stricter h (fun h0 => runCheck_stricter h0) fun h => ?_
  refine unit_bind_stricter h (fun h0 => runCheck_stricter h0) fun h => ?_
  refine unit_bind_stricter h (fun h0 => runCheck_stricter h0) fun h => ?_
  refine unit_bind_stricter h (fun h0 => runCheck_stricter h0) fun h => ?_
  refine unit_bind_stricter h (fun h0 => ?_) fun h => ?_
  · unfold runNonNegative at h0 ⊢
    simp only at h0 ⊢
    split at h0
    · rename_i he
      rw [if_pos he]
      exact Or.inl rfl
    · rename_i he
      rw [if_neg he]
      exact runCheck_stricter h0
  refine unit_bind_stricter h (fun h0 => runCheck_stricter h0) fun h => ?_
  refine unit_bind_stricter h (fun h0 => runCheck_stricter h0) fun h => ?_
  refine unit_bind_stricter h (fun h0 => runCheck_stricter h0) fun h => ?_
  refine unit_bind_stricter h (fun h0 => runCheck_stricter h0) fun h => ?_
  exact runCheck_stricter h

/-- **C137, fewer checks skipped.**  If the preparation accepts the data with some checks skipped, then with any other list of skipped checks it returns the same
table or refuses the data with a `ValueError`: never another table, and never another error. -/
theorem C137_fewer_skipped (C : Checker K) (perf assign out : Frame K) (d : Design K) (s itemCol dateCol treatCol : String) (a : ExperimentArgs)
    (skip : List String) (h : prepareExperiment C perf assign d s itemCol dateCol treatCol a = .ok out) :
    prepareExperiment C perf assign d s itemCol dateCol treatCol { a with skip := skip } = .ok out ∨
      prepareExperiment C perf assign d s itemCol dateCol treatCol { a with skip := skip } = .error .valueError := by
  unfold prepareExperiment at h ⊢
  obtain ⟨f, hf, h⟩ := Py.bind_eq_ok.mp h
  obtain ⟨u, hv, h⟩ := Py.bind_eq_ok.mp h
  have hf' : buildExperiment C.ext perf assign d s itemCol dateCol treatCol { a with skip := skip } = .ok f := hf
  rw [hf']
  rcases validateExperiment_stricter (skip := skip) hv with e | e
  · exact Or.inl (Py.bind_eq_ok.mpr ⟨f, rfl, Py.bind_eq_ok.mpr ⟨(), e, h⟩⟩)
  · refine Or.inr ?_
    show (validateExperiment C f d "item_id" "date" "week_id" "treatment_assignment" (preparedMetrics a) s a.concluded a.canBeNegative skip >>= _) = _
    rw [e]
    rfl

end

/-- **C137, the session of the analyser.**  If the session opens, then it opens with further checks skipped and with the experiment declared not to be concluded:
with the same design and the same data, so with the same tables and the same report. -/
theorem C137_session (R : Rounding ℝ) (dflt05 dflt08 : ℝ) (C : Checker ℝ) (form : AnalyserForm) (file : Dict (YVal ℝ)) (perf assign : Frame ℝ)
    (p : Design ℝ × Frame ℝ) (skip' : List String) (concluded' : Bool) (h : prepareStudy R dflt05 dflt08 C form file perf assign = .ok p)
    (hs : ∀ x ∈ form.skip, x ∈ skip') (hreg : ∀ x ∈ skip', x ∈ Spec.registeredChecks) (hcon : concluded' = true → form.concluded = true) :
    prepareStudy R dflt05 dflt08 C { form with skip := skip', concluded := concluded' } file perf assign = .ok p := by
  unfold prepareStudy at h ⊢
  obtain ⟨d, hd, h⟩ := Py.bind_eq_ok.mp h
  obtain ⟨f, hf, h⟩ := Py.bind_eq_ok.mp h
  exact Py.bind_eq_ok.mpr ⟨d, hd, Py.bind_eq_ok.mpr ⟨f, C137_experiment C perf assign f d _ _ _ _ form.args skip' [] concluded' hf hs hreg
    (fun c hc => hc) (Or.inl rfl) hcon, h⟩⟩

/-- The example run, which passes all checks, is accepted with all of them skipped and before it is concluded, with a column that may be negative. -/
example {K : Type} [Field K] [LinearOrder K] [IsStrictOrderedRing K] [FloorRing K] (R : Rounding K) (x : Bool) :
    ∃ out, prepareExperiment (runChecker K) (runPerf K) (runAssign K) (sixtyDesign K x) "2024-01-08" "id" "day" "t" runArgs = .ok out ∧
      prepareExperiment (runChecker K) (runPerf K) (runAssign K) (sixtyDesign K x) "2024-01-08" "id" "day" "t"
        { runArgs with skip := Spec.registeredChecks, canBeNegative := ["clicks"], concluded := false } = .ok out := by
  obtain ⟨out, ho⟩ := run_prepared R x
  exact ⟨out, ho, C137_experiment _ _ _ _ _ _ _ _ _ _ _ _ _ ho (fun s hs => by cases hs) (fun s hs => hs) (fun s hs => by cases hs) (Or.inr (by decide))
    (fun h => by cases h)⟩

/-- A further skipped check can have refused data accepted: the experiment of one week, with a design of two. -/
example : validateExperiment exampleChecker goodExperiment { saltedDesign with runtime := 2, nAfterPre := 2 } "item_id" "date" "week_id"
      "t" ["clicks"] "2024-01-08" true [] [] = .error .valueError ∧
    validateExperiment exampleChecker goodExperiment { saltedDesign with runtime := 2, nAfterPre := 2 } "item_id" "date" "week_id"
      "t" ["clicks"] "2024-01-08" true [] ["experiment_dates_match_design"] = .ok () ∧
    validateExperiment exampleChecker goodExperiment { saltedDesign with runtime := 2, nAfterPre := 2 } "item_id" "date" "week_id"
      "t" ["clicks"] "2024-01-08" false [] [] = .ok () := by
  decide +kernel

end Feedx
