import Verif.Spec.Summary
import Verif.Props.DesignId
import Verif.Props.SimulateValidate

/-!
Property C92: the summary of a simulation analysis.
-/

set_option linter.unusedSectionVars false
set_option linter.unnecessarySeqFocus false

namespace Feedx

variable {R : Rounding ℝ} {argsort : List ℝ → List ℕ} {D : TDist} {c : SimConfig} {fr : ℝ → List Char} {printable : Char → Bool}
  {X : RobustnessTests}

/-- The summary while no validation has returned. -/
theorem summary_unvalidated {s : SimState} {id : List Char} (hid : designId R fr printable c.design = .ok id) (h : s.aa = none) :
    summaryDict R fr printable X c s = .ok (String.ofList id, designDict c.design ++
      [("minimum_detectable_effect", .ofOption .flt s.mde), ("relative_minimum_detectable_effect", .ofOption .flt s.relativeMde),
       ("simulated_false_positive_rate", .null), ("simulated_power_at_minimum_detectable_effect", .null),
       ("null_p_value_robustness_check_pass", .null), ("power_robustness_check_pass", .null),
       ("false_positive_rate_robustness_check_pass", .null), ("aa_point_estimate_robustness_check_pass", .null),
       ("ab_point_estimate_robustness_check_pass", .null), ("all_robustness_checks_pass", .null)]) := by
  unfold summaryDict allChecksPass robustnessChecks aboveThreshold falsePositiveRate simulatedPower nullPValue powerPValue falsePositivePValue
    aaPointPValue abPointPValue
  rw [hid]
  simp only [h]
  rfl

/-- The summary of a validated analysis. -/
theorem summary_validated {s : SimState} {id : List Char} (hid : designId R fr printable c.design = .ok id) {aa ab : List TestResult} {m : Fl ℝ}
    (h1 : s.aa = some aa) (h2 : s.ab = some ab) (hm : s.mde = some m) (hne : aa ≠ []) (hne' : ab ≠ []) {b : Bool}
    (hb : allChecksPass X c s = .ok (some b)) :
    summaryDict R fr printable X c s = .ok (String.ofList id, designDict c.design ++
      [("minimum_detectable_effect", .flt m), ("relative_minimum_detectable_effect", .ofOption .flt s.relativeMde),
       ("simulated_false_positive_rate",
        .flt (.fin (((aa.countP (fun r => Fl.lt r.pValue (.fin c.design.alpha.val)) : ℕ) : ℝ) / (aa.length : ℝ)))),
       ("simulated_power_at_minimum_detectable_effect",
        .flt (.fin (((ab.countP (fun r => Fl.lt r.pValue (.fin c.design.alpha.val)) : ℕ) : ℝ) / (ab.length : ℝ)))),
       ("null_p_value_robustness_check_pass", .bool (Fl.le (.fin c.threshold) (X.ks (aa.map TestResult.pValue)))),
       ("power_robustness_check_pass", .bool (Fl.le (.fin c.threshold)
        (X.binom (ab.countP (fun r => Fl.lt r.pValue (.fin c.design.alpha.val))) ab.length c.design.power.val "less"))),
       ("false_positive_rate_robustness_check_pass", .bool (Fl.le (.fin c.threshold)
        (X.binom (aa.countP (fun r => Fl.lt r.pValue (.fin c.design.alpha.val))) aa.length c.design.alpha.val "greater"))),
       ("aa_point_estimate_robustness_check_pass", .bool (Fl.le (.fin c.threshold) (X.t1 (aa.map TestResult.absoluteDifference) (.fin 0)))),
       ("ab_point_estimate_robustness_check_pass", .bool (Fl.le (.fin c.threshold) (X.t1 (ab.map TestResult.absoluteDifference) m))),
       ("all_robustness_checks_pass", .bool b)]) := by
  unfold summaryDict
  rw [hid, hb]
  unfold aboveThreshold falsePositiveRate simulatedPower nullPValue powerPValue falsePositivePValue
    aaPointPValue abPointPValue abResults significant resultColumn
  simp only [h1, h2, hm]
  simp only [raiseIf, bind, Except.bind, hne, hne', pure, Except.pure, if_false, Option.map_some, SVal.ofOption, List.countP_map, List.length_map]
  rfl

/-- After validations with at least one simulation each, present results are not empty. -/
theorem results_nonempty (s : SimState) (hs : s.aa = none) (calls : List SimCall) (hc : ∀ draws, SimCall.validate draws ∈ calls → draws ≠ [])
    (aa : List TestResult) (h : (runSim R argsort D c s calls).aa = some aa) : aa ≠ [] := by
  have main : ∀ (calls : List SimCall) (s : SimState), (∀ aa, s.aa = some aa → aa ≠ []) →
      (∀ draws, SimCall.validate draws ∈ calls → draws ≠ []) → ∀ aa, (runSim R argsort D c s calls).aa = some aa → aa ≠ [] := by
    intro calls
    induction calls with
    | nil => intro s h1 _ aa h2; exact h1 aa h2
    | cons x rest ih =>
      intro s h1 h2 aa h3
      refine ih _ ?_ (fun d hd => h2 d (List.mem_cons_of_mem _ hd)) aa h3
      intro aa' h4
      cases x with
      | estimate σ =>
        unfold runCall at h4
        rcases estimate_cases (R := R) (argsort := argsort) (D := D) (c := c) σ s with ⟨-, data, m1, m2, a, sd, e⟩ | ⟨-, data, -, e⟩
        · rw [e] at h4; exact h1 aa' h4
        · rw [e] at h4; exact h1 aa' h4
      | validate draws =>
        unfold runCall at h4
        rcases validate_cases (R := R) (argsort := argsort) (D := D) (c := c) draws s with ⟨-, -, data, aa, ab, l1, -, e⟩ | ⟨-, data, -, e⟩
        · rw [e] at h4
          cases h4
          have := h2 draws (by simp)
          intro hn
          rw [hn] at l1
          exact this (List.length_eq_zero_iff.mp l1.symm)
        · rw [e] at h4; exact h1 aa' h4
  exact main calls s (fun aa h => by rw [hs] at h; cases h) hc aa h

/-- **C92.**  After any sequence of calls on a new object whose validations had at least one simulation, `summary_dict` returns the id of the design and
the 23 named entries; the two entries of the estimation are `None` exactly while no estimate has returned, and the eight entries of the
validation exactly while no validation has returned. -/
theorem C92_entries (design : Design ℝ) (data : Frame ℝ) (itemCol weekCol periodCol treatCol : String) (minStart : ℤ)
    (threshold : ℝ) (s : SimState) (h : mkSimulation design data itemCol weekCol periodCol treatCol minStart threshold = .ok (c, s))
    (p : DesignParams ℝ) (hd : mkDesign R p = .ok c.design) (calls : List SimCall) (hc : ∀ draws, SimCall.validate draws ∈ calls → draws ≠ []) :
    ∃ id dict, summaryDict R fr printable X c (runSim R argsort D c s calls) = .ok (id, dict) ∧
      designId R fr printable c.design = .ok id.toList ∧
      dict.map Prod.fst = Spec.designNames ++ Spec.effectNames ++ Spec.validationNames ∧
      (∀ n ∈ Spec.effectNames, dict.lookup n = some .null ↔ ¬ ∃ before σ after, calls = before ++ .estimate σ :: after ∧
        (runCall R argsort D c (runSim R argsort D c s before) (.estimate σ)).1 = .ok ()) ∧
      (∀ n ∈ Spec.validationNames, dict.lookup n = some .null ↔ ¬ ∃ before draws after, calls = before ++ .validate draws :: after ∧
        (runCall R argsort D c (runSim R argsort D c s before) (.validate draws)).1 = .ok ()) := by
  obtain ⟨id, hid⟩ := (C05_design_id_ignores_salt R fr printable p c.design hd c.design.salt none).2
  have hid : designId R fr printable c.design = .ok id := hid
  have hp := C72_presence (R := R) (argsort := argsort) (D := D) design data itemCol weekCol periodCol treatCol minStart threshold s h calls
  rw [← hp.1, ← hp.2]
  have hio := C72_results_in_order (R := R) (argsort := argsort) (D := D) design data itemCol weekCol periodCol treatCol minStart threshold s h calls
  have hne := results_nonempty (R := R) (argsort := argsort) (D := D) (c := c) s (new_object h).2.2.2.2.2.1 calls hc
  set s' := runSim R argsort D c s calls
  rcases hio.simulations with ⟨h1, h2⟩ | ⟨hm, aa, ab, h1, h2, hl⟩
  · refine ⟨_, _, summary_unvalidated hid h1, by simp [hid], rfl, ?_, ?_⟩
    · intro n hn
      have hrel := hio.relative
      simp only [Spec.effectNames, List.mem_cons, List.not_mem_nil, or_false] at hn
      rcases hn with rfl | rfl
      · rcases hmde : s'.mde with _ | m <;> simp [designDict, List.lookup, SVal.ofOption]
      · rcases hmde : s'.relativeMde with _ | m <;> rw [hmde] at hrel <;> simp at hrel <;> simp [designDict, List.lookup, SVal.ofOption, hrel]
    · intro n hn
      rw [h1]
      simp only [Spec.validationNames, List.mem_cons, List.not_mem_nil, or_false] at hn
      rcases hn with rfl | rfl | rfl | rfl | rfl | rfl | rfl | rfl <;> simp [designDict, List.lookup]
  · obtain ⟨m, hm⟩ := Option.isSome_iff_exists.mp hm
    have hne1 := hne aa h1
    have hne2 : ab ≠ [] := by
      intro hn; rw [hn] at hl; exact hne1 (List.length_eq_zero_iff.mp hl)
    obtain ⟨b, hb, -⟩ := C73_true_iff_five_checks X s' aa ab m h1 h2 hm hne1 hne2
    refine ⟨_, _, summary_validated hid h1 h2 hm hne1 hne2 hb, by simp [hid], rfl, ?_, ?_⟩
    · intro n hn
      have hrel := hio.relative
      rw [hm] at hrel ⊢
      simp only [Spec.effectNames, List.mem_cons, List.not_mem_nil, or_false] at hn
      rcases hn with rfl | rfl
      · simp [designDict, List.lookup]
      · rcases hmde : s'.relativeMde with _ | m' <;> rw [hmde] at hrel <;> simp at hrel <;> simp [designDict, List.lookup, SVal.ofOption]
    · intro n hn
      rw [h1]
      simp only [Spec.validationNames, List.mem_cons, List.not_mem_nil, or_false] at hn
      rcases hn with rfl | rfl | rfl | rfl | rfl | rfl | rfl | rfl <;> simp [designDict, List.lookup]

/-- **C92, design entries.**  Every returned summary holds the parameters of the design under their names, and not the salt. -/
theorem C92_design_entries (s : SimState) (id : String) (dict : List (String × SVal ℝ))
    (h : summaryDict R fr printable X c s = .ok (id, dict)) :
    dict.lookup "n_items_before_trimming" = some (.num (.int c.design.nBefore)) ∧
    dict.lookup "n_items_after_pre_trim" = some (.num (.int c.design.nAfterPre)) ∧
    dict.lookup "n_items_after_post_trim" = some (.num (.int c.design.nAfterPost)) ∧
    dict.lookup "runtime_weeks" = some (.num (.int c.design.runtime)) ∧
    dict.lookup "pretest_weeks" = some (.num (.int c.design.pretest)) ∧
    dict.lookup "primary_metric" = some (.str c.design.primaryMetric) ∧
    dict.lookup "is_crossover" = some (.bool c.design.isCrossover) ∧
    dict.lookup "pre_trim_top_percentile" = some (.num c.design.preTop) ∧
    dict.lookup "pre_trim_bottom_percentile" = some (.num c.design.preBottom) ∧
    dict.lookup "post_trim_percentile" = some (.num c.design.postTrim) ∧
    dict.lookup "alpha" = some (.num c.design.alpha) ∧ dict.lookup "power" = some (.num c.design.power) ∧
    (c.design.washout = none → dict.lookup "crossover_washout_weeks" = some .null) ∧
    (∀ w, c.design.washout = some w → dict.lookup "crossover_washout_weeks" = some (.num (.int w))) ∧
    dict.lookup "coinflip_salt" = none ∧
    dict.lookup "minimum_detectable_effect" = some (match s.mde with | none => .null | some m => .flt m) ∧
    dict.lookup "relative_minimum_detectable_effect" = some (match s.relativeMde with | none => .null | some m => .flt m) := by
  unfold summaryDict at h
  obtain ⟨i, -, h⟩ := Py.bind_eq_ok.mp h
  obtain ⟨x1, -, h⟩ := Py.bind_eq_ok.mp h
  obtain ⟨x2, -, h⟩ := Py.bind_eq_ok.mp h
  obtain ⟨x3, -, h⟩ := Py.bind_eq_ok.mp h
  obtain ⟨x4, -, h⟩ := Py.bind_eq_ok.mp h
  obtain ⟨x5, -, h⟩ := Py.bind_eq_ok.mp h
  obtain ⟨x6, -, h⟩ := Py.bind_eq_ok.mp h
  obtain ⟨x7, -, h⟩ := Py.bind_eq_ok.mp h
  obtain ⟨x8, -, h⟩ := Py.bind_eq_ok.mp h
  cases h
  refine ⟨rfl, rfl, rfl, rfl, rfl, rfl, rfl, rfl, rfl, rfl, rfl, rfl, fun hw => ?_, fun w hw => ?_, rfl, ?_, ?_⟩
  · simp [designDict, List.lookup, hw, SVal.ofOption]
  · simp [designDict, List.lookup, hw, SVal.ofOption]
  · cases s.mde <;> rfl
  · cases s.relativeMde <;> rfl

/-- **C92, validated entries.**  With the results `aa` and `ab` of at least one simulation, the shown rates are the shares of p-values below alpha and the
overall check is the conjunction of the five shown checks. -/
theorem C92_validated_entries (s : SimState) (aa ab : List TestResult) (m : Fl ℝ) (h1 : s.aa = some aa) (h2 : s.ab = some ab)
    (hm : s.mde = some m) (hne : aa ≠ []) (hne' : ab ≠ []) (id : String) (dict : List (String × SVal ℝ))
    (h : summaryDict R fr printable X c s = .ok (id, dict)) :
    dict.lookup "simulated_false_positive_rate" =
      some (.flt (.fin ((aa.countP (fun r => Fl.lt r.pValue (.fin c.design.alpha.val)) : ℝ) / aa.length))) ∧
    dict.lookup "simulated_power_at_minimum_detectable_effect" =
      some (.flt (.fin ((ab.countP (fun r => Fl.lt r.pValue (.fin c.design.alpha.val)) : ℝ) / ab.length))) ∧
    ∃ b1 b2 b3 b4 b5 : Bool,
      dict.lookup "null_p_value_robustness_check_pass" = some (.bool b1) ∧ dict.lookup "power_robustness_check_pass" = some (.bool b2) ∧
      dict.lookup "false_positive_rate_robustness_check_pass" = some (.bool b3) ∧
      dict.lookup "aa_point_estimate_robustness_check_pass" = some (.bool b4) ∧
      dict.lookup "ab_point_estimate_robustness_check_pass" = some (.bool b5) ∧
      dict.lookup "all_robustness_checks_pass" = some (.bool (b1 && b2 && b3 && b4 && b5)) ∧
      (b1 = true ↔ Spec.AtLeast c.threshold (X.ks (aa.map TestResult.pValue))) ∧
      (b2 = true ↔ Spec.AtLeast c.threshold
        (X.binom (ab.countP (fun r => Fl.lt r.pValue (.fin c.design.alpha.val))) ab.length c.design.power.val "less")) ∧
      (b3 = true ↔ Spec.AtLeast c.threshold
        (X.binom (aa.countP (fun r => Fl.lt r.pValue (.fin c.design.alpha.val))) aa.length c.design.alpha.val "greater")) ∧
      (b4 = true ↔ Spec.AtLeast c.threshold (X.t1 (aa.map TestResult.absoluteDifference) (.fin 0))) ∧
      (b5 = true ↔ Spec.AtLeast c.threshold (X.t1 (ab.map TestResult.absoluteDifference) m)) := by
  obtain ⟨i, hid, -⟩ := Py.bind_eq_ok.mp (by simpa only [summaryDict] using h)
  obtain ⟨b, hb, hiff⟩ := C73_true_iff_five_checks X s aa ab m h1 h2 hm hne hne'
  rw [summary_validated hid h1 h2 hm hne hne' hb] at h
  cases h
  refine ⟨rfl, rfl, _, _, _, _, _, rfl, rfl, rfl, rfl, rfl, ?_, atLeast_iff _ _, atLeast_iff _ _, atLeast_iff _ _, atLeast_iff _ _, atLeast_iff _ _⟩
  have : b = (Fl.le (.fin c.threshold) (X.ks (aa.map TestResult.pValue)) &&
    Fl.le (.fin c.threshold) (X.binom (ab.countP (fun r => Fl.lt r.pValue (.fin c.design.alpha.val))) ab.length c.design.power.val "less") &&
    Fl.le (.fin c.threshold) (X.binom (aa.countP (fun r => Fl.lt r.pValue (.fin c.design.alpha.val))) aa.length c.design.alpha.val "greater") &&
    Fl.le (.fin c.threshold) (X.t1 (aa.map TestResult.absoluteDifference) (.fin 0)) &&
    Fl.le (.fin c.threshold) (X.t1 (ab.map TestResult.absoluteDifference) m)) := by
    rw [Bool.eq_iff_iff, hiff]
    simp only [Bool.and_eq_true, atLeast_iff, and_assoc]
  rw [this]
  rfl

/-- **C92.**  After a validation with no simulations at all (`n_simulations=0`) the summary raises `KeyError`. -/
theorem C92_without_simulations_raises (p : DesignParams ℝ) (hd : mkDesign R p = .ok c.design) (s : SimState) (h1 : s.aa = some []) :
    summaryDict R fr printable X c s = .error .keyError := by
  obtain ⟨id, hid⟩ := (C05_design_id_ignores_salt R fr printable p c.design hd c.design.salt none).2
  have hid : designId R fr printable c.design = .ok id := hid
  unfold summaryDict
  rw [hid]
  unfold falsePositiveRate significant resultColumn
  simp [h1, raiseIf, bind, Except.bind]

/-- **C92.**  The summary does not depend on the salt stored in the design. -/
theorem C92_salt_not_shown (p : DesignParams ℝ) (hd : mkDesign R p = .ok c.design) (s : SimState) (salt : Option String) :
    summaryDict R fr printable X { c with design := { c.design with salt := salt } } s = summaryDict R fr printable X c s := by
  have := (C05_design_id_ignores_salt R fr printable p c.design hd salt c.design.salt).1
  have : designId R fr printable { c.design with salt := salt } = designId R fr printable c.design := this
  unfold summaryDict
  show (designId R fr printable { c.design with salt := salt } >>= _) = _
  rw [this]
  rfl

/-- C92 is not vacuous: the object of `simConfig_created` before any call, and after an estimate and a validation with two simulations. -/
example (R : Rounding ℝ) (D : TDist) (σ : ℤ → Shuffle) (τ : Shuffle) (fr : ℝ → List Char) (printable : Char → Bool) (X : RobustnessTests) :
    (∃ id dict, summaryDict R fr printable X simConfig simState = .ok (id, dict) ∧ dict.lookup "minimum_detectable_effect" = some .null) ∧
    ∃ id dict, summaryDict R fr printable X simConfig
      (runSim R stableArgsort D simConfig simState [.estimate σ, .validate [alternatingDraw τ, alternatingDraw τ]]) = .ok (id, dict) ∧
      dict.lookup "minimum_detectable_effect" ≠ some .null ∧ dict.lookup "all_robustness_checks_pass" ≠ some .null := by
  obtain ⟨id, dict, h1, -, -, h2, -⟩ := C92_entries (R := R) (argsort := stableArgsort) (D := D) (c := simConfig) (fr := fr)
    (printable := printable) (X := X) _ _ _ _ _ _ _ _ simState simConfig_created simParams (simDesign_created R) [] (by simp)
  obtain ⟨id', dict', h1', -, -, h2', h3'⟩ := C92_entries (R := R) (argsort := stableArgsort) (D := D) (c := simConfig) (fr := fr)
    (printable := printable) (X := X) _ _ _ _ _ _ _ _ simState simConfig_created simParams (simDesign_created R)
    [.estimate σ, .validate [alternatingDraw τ, alternatingDraw τ]] (by simp)
  have hp := C72_presence (R := R) (argsort := stableArgsort) (D := D) (c := simConfig) _ _ _ _ _ _ _ _ simState simConfig_created
    [.estimate σ, .validate [alternatingDraw τ, alternatingDraw τ]]
  obtain ⟨aa, ab, m, e1, -, e3, -, -⟩ := simulated_state R D σ τ
  refine ⟨⟨id, dict, h1, (h2 _ (by simp [Spec.effectNames])).mpr (by simp)⟩, id', dict', h1', ?_, ?_⟩
  · rw [Ne, h2' _ (by simp [Spec.effectNames]), not_not, ← hp.1, e3]; rfl
  · rw [Ne, h3' _ (by simp [Spec.validationNames]), not_not, ← hp.2, e1]; rfl

end Feedx
