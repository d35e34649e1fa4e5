import Verif.Model.DeepDive
import Verif.Props.SimulateRepeat

/-!
Property C98: the deep dive plot of the simulations.
-/

set_option linter.unusedSectionVars false
set_option linter.unusedSimpArgs false

namespace Feedx
open Fl

variable {R : Rounding ℝ} {argsort : List ℝ → List ℕ} {D : TDist} {c : SimConfig}

/-- What the plot shows in each state. -/
theorem deepDive_cases (s : SimState) :
    (s.aa = none → deepDive c s = .error .valueError) ∧
    (s.aa = some [] → deepDive c s = .error .keyError) ∧
    (∀ aa ab m, s.aa = some aa → aa ≠ [] → s.ab = some ab → ab ≠ [] → s.mde = some m →
      deepDive c s = .ok ⟨aa.map TestResult.absoluteDifference, .fin 0, ab.map TestResult.absoluteDifference, m,
        aa.map TestResult.pValue, ab.map TestResult.pValue⟩) := by
  refine ⟨fun h => ?_, fun h => ?_, fun aa ab m h1 h2 h3 h4 h5 => ?_⟩
  · unfold deepDive falsePositiveRate
    rw [h]
    exact Py.bind_eq_error.mpr (Or.inr ⟨none, rfl, raiseIf_bind_err.mpr (Or.inl ⟨rfl, rfl⟩)⟩)
  · unfold deepDive falsePositiveRate
    rw [h]
    exact Py.bind_eq_error.mpr (Or.inl (by simp [significant, resultColumn, raiseIf, bind, Except.bind]))
  · have hrate : ∃ x, falsePositiveRate c.design s = .ok (some x) := by
      unfold falsePositiveRate
      rw [h1]
      simp [significant, resultColumn, raiseIf, bind, Except.bind, h2, pure, Except.pure]
    obtain ⟨x, hx⟩ := hrate
    have hc : ∀ {α : Type} (l : List TestResult) (f : TestResult → α), l ≠ [] → resultColumn l f = .ok (l.map f) := by
      intro α l f hl
      exact raiseIf_bind_ok.mpr ⟨hl, rfl⟩
    have hab : abResults s = .ok ab := by unfold abResults; rw [h3]
    unfold deepDive
    refine Py.bind_eq_ok.mpr ⟨_, hx, raiseIf_bind_ok.mpr ⟨by simp, Py.bind_eq_ok.mpr ⟨aa, by rw [h1], Py.bind_eq_ok.mpr ⟨_, hc aa _ h2,
      Py.bind_eq_ok.mpr ⟨ab, hab, Py.bind_eq_ok.mpr ⟨_, hc ab _ h4, Py.bind_eq_ok.mpr ⟨m, by rw [h5], Py.bind_eq_ok.mpr ⟨_, hc aa _ h2,
      Py.bind_eq_ok.mpr ⟨_, hc ab _ h4, rfl⟩⟩⟩⟩⟩⟩⟩⟩⟩

/-- A history without a validation that returned. -/
def Spec.NoValidationReturned (R : Rounding ℝ) (argsort : List ℝ → List ℕ) (D : TDist) (c : SimConfig) (s : SimState) (calls : List SimCall) : Prop :=
  ∀ pre draws post, calls = pre ++ .validate draws :: post → (validateSim R argsort D c draws (runSim R argsort D c s pre)).1 ≠ .ok ()

theorem noValidation_tail {s : SimState} {call : SimCall} {rest : List SimCall}
    (h : Spec.NoValidationReturned R argsort D c s (call :: rest)) :
    Spec.NoValidationReturned R argsort D c (runCall R argsort D c s call).2 rest := by
  intro pre draws post e
  exact h (call :: pre) draws post (by rw [e]; rfl)

/-- Without a returned validation the simulation results stay as they are. -/
theorem results_kept {s : SimState} {calls : List SimCall} (h : Spec.NoValidationReturned R argsort D c s calls) :
    (runSim R argsort D c s calls).aa = s.aa ∧ (runSim R argsort D c s calls).ab = s.ab := by
  induction calls generalizing s with
  | nil => exact ⟨rfl, rfl⟩
  | cons call rest ih =>
    obtain ⟨h1, h2⟩ := ih (noValidation_tail h)
    have h3 : (runCall R argsort D c s call).2.aa = s.aa ∧ (runCall R argsort D c s call).2.ab = s.ab := by
      cases call with
      | estimate σ =>
        show (estimateMde R argsort D σ c s).2.aa = _ ∧ (estimateMde R argsort D σ c s).2.ab = _
        rcases estimate_cases (R := R) (argsort := argsort) (D := D) (c := c) σ s with ⟨-, data, m1, m2, a, sd, e⟩ | ⟨e, data, -, e'⟩
        · rw [e]; exact ⟨rfl, rfl⟩
        · rw [e']; exact ⟨rfl, rfl⟩
      | validate draws =>
        show (validateSim R argsort D c draws s).2.aa = _ ∧ (validateSim R argsort D c draws s).2.ab = _
        rcases validate_cases (R := R) (argsort := argsort) (D := D) (c := c) draws s with ⟨h4, -⟩ | ⟨e, data, -, e'⟩
        · exact absurd h4 (h [] draws rest rfl)
        · rw [e']; exact ⟨rfl, rfl⟩
    exact ⟨h1.trans h3.1, h2.trans h3.2⟩

/-- The state after a returned validation. -/
theorem validated_state {s : SimState} {draws : List SimDraw} (h : (validateSim R argsort D c draws s).1 = .ok ()) :
    ∃ aa ab m, (validateSim R argsort D c draws s).2.aa = some aa ∧ (validateSim R argsort D c draws s).2.ab = some ab ∧
      aa.length = draws.length ∧ ab.length = draws.length ∧ s.mde = some m ∧ (validateSim R argsort D c draws s).2.mde = some m := by
  rcases validate_cases (R := R) (argsort := argsort) (D := D) (c := c) draws s with ⟨-, hm, data, aa, ab, h1, h2, e⟩ | ⟨x, data, h', -⟩
  · obtain ⟨m, hm⟩ := Option.isSome_iff_exists.mp hm
    exact ⟨aa, ab, m, by rw [e], by rw [e], h1, h2, hm, by rw [e]; exact hm⟩
  · rw [h] at h'; cases h'

theorem mde_kept_some {s : SimState} {calls : List SimCall} (h : s.mde.isSome) : (runSim R argsort D c s calls).mde.isSome := by
  induction calls generalizing s with
  | nil => exact h
  | cons call rest ih =>
    refine ih ?_
    cases call with
    | estimate σ =>
      show (estimateMde R argsort D σ c s).2.mde.isSome
      rcases estimate_cases (R := R) (argsort := argsort) (D := D) (c := c) σ s with ⟨-, data, m1, m2, a, sd, e⟩ | ⟨e, data, -, e'⟩
      · rw [e]; rfl
      · rw [e']; exact h
    | validate draws =>
      show (validateSim R argsort D c draws s).2.mde.isSome
      rcases validate_cases (R := R) (argsort := argsort) (D := D) (c := c) draws s with ⟨-, -, data, aa, ab, -, -, e⟩ | ⟨e, data, -, e'⟩
      · rw [e]; exact h
      · rw [e']; exact h

/-- The last returned validation of a history. -/
theorem last_validation {s : SimState} {calls : List SimCall} (h : ¬ Spec.NoValidationReturned R argsort D c s calls) :
    ∃ pre draws post, calls = pre ++ .validate draws :: post ∧
      (validateSim R argsort D c draws (runSim R argsort D c s pre)).1 = .ok () ∧
      Spec.NoValidationReturned R argsort D c (validateSim R argsort D c draws (runSim R argsort D c s pre)).2 post := by
  induction calls generalizing s with
  | nil =>
    exact absurd (fun pre draws post e => by simp at e) h
  | cons call rest ih =>
    by_cases hr : Spec.NoValidationReturned R argsort D c (runCall R argsort D c s call).2 rest
    · cases call with
      | estimate σ =>
        refine absurd ?_ h
        intro pre draws post e
        cases pre with
        | nil => simp at e
        | cons x pre =>
          simp only [List.cons_append, List.cons.injEq] at e
          obtain ⟨rfl, e⟩ := e
          exact hr pre draws post e
      | validate draws =>
        by_cases hd : (validateSim R argsort D c draws s).1 = .ok ()
        · exact ⟨[], draws, rest, rfl, hd, hr⟩
        · refine absurd ?_ h
          intro pre draws' post e
          cases pre with
          | nil =>
            simp only [List.nil_append, List.cons.injEq, SimCall.validate.injEq] at e
            obtain ⟨rfl, -⟩ := e
            exact hd
          | cons x pre =>
            simp only [List.cons_append, List.cons.injEq] at e
            obtain ⟨rfl, e⟩ := e
            exact hr pre draws' post e
    · obtain ⟨pre, draws, post, e, h1, h2⟩ := ih hr
      exact ⟨call :: pre, draws, post, by rw [e]; rfl, h1, h2⟩

/-- **C98, needs a validation.**  After any sequence of calls on a new object, the plot refuses with
`ValueError` if and only if no validation has returned.  Errors of matplotlib itself while it bins the values are not part of the model. -/
theorem C98_needs_validation (design : Design ℝ) (data : Frame ℝ) (itemCol weekCol periodCol treatCol : String) (minStart : ℤ) (threshold : ℝ)
    (s : SimState) (h : mkSimulation design data itemCol weekCol periodCol treatCol minStart threshold = .ok (c, s)) (calls : List SimCall) :
    deepDive c (runSim R argsort D c s calls) = .error .valueError ↔ Spec.NoValidationReturned R argsort D c s calls := by
  constructor
  · intro hv
    by_contra hn
    obtain ⟨pre, draws, post, rfl, h1, h2⟩ := last_validation hn
    obtain ⟨aa, ab, m, e1, e2, l1, l2, hm, e3⟩ := validated_state h1
    obtain ⟨k1, k2⟩ := results_kept h2
    have hst : runSim R argsort D c s (pre ++ .validate draws :: post) =
        runSim R argsort D c (validateSim R argsort D c draws (runSim R argsort D c s pre)).2 post := by
      rw [runSim_append]; rfl
    rw [hst] at hv
    rw [e1] at k1
    rw [e2] at k2
    obtain ⟨m', hm'⟩ := Option.isSome_iff_exists.mp (mde_kept_some (R := R) (argsort := argsort) (D := D) (c := c) (calls := post)
      (by rw [e3]; rfl : (validateSim R argsort D c draws (runSim R argsort D c s pre)).2.mde.isSome))
    by_cases ha : aa = []
    · subst ha
      rw [(deepDive_cases _).2.1 k1] at hv
      cases hv
    · have hb : ab ≠ [] := by
        rintro rfl
        apply ha
        apply List.length_eq_zero_iff.mp
        simp at l2
        omega
      rw [(deepDive_cases _).2.2 aa ab m' k1 ha k2 hb hm'] at hv
      cases hv
  · intro hn
    refine (deepDive_cases _).1 ?_
    rw [(results_kept hn).1, (new_object h).2.2.2.2.2.1]

/-- **C98, shows the last validation.**  The histograms show the effects and p-values of the A/A and A/B results of the last validation that
returned, one value per simulation; the lines are at zero and at the current minimum detectable effect. -/
theorem C98_shows_last_validation (s : SimState) (pre post : List SimCall) (draws : List SimDraw) (hne : draws ≠ [])
    (h1 : (validateSim R argsort D c draws (runSim R argsort D c s pre)).1 = .ok ())
    (h2 : Spec.NoValidationReturned R argsort D c (validateSim R argsort D c draws (runSim R argsort D c s pre)).2 post) :
    ∃ d aa ab, deepDive c (runSim R argsort D c s (pre ++ .validate draws :: post)) = .ok d ∧
      (validateSim R argsort D c draws (runSim R argsort D c s pre)).2.aa = some aa ∧
      (validateSim R argsort D c draws (runSim R argsort D c s pre)).2.ab = some ab ∧
      aa.length = draws.length ∧ ab.length = draws.length ∧
      d.aaEffects = aa.map TestResult.absoluteDifference ∧ d.abEffects = ab.map TestResult.absoluteDifference ∧
      d.aaPValues = aa.map TestResult.pValue ∧ d.abPValues = ab.map TestResult.pValue ∧ d.zeroLine = .fin 0 ∧
      some d.effectLine = (runSim R argsort D c s (pre ++ .validate draws :: post)).mde := by
  obtain ⟨aa, ab, m, e1, e2, l1, l2, hm, e3⟩ := validated_state h1
  obtain ⟨k1, k2⟩ := results_kept h2
  have hst : runSim R argsort D c s (pre ++ .validate draws :: post) =
      runSim R argsort D c (validateSim R argsort D c draws (runSim R argsort D c s pre)).2 post := by
    rw [runSim_append]; rfl
  rw [e1] at k1
  rw [e2] at k2
  obtain ⟨m', hm'⟩ := Option.isSome_iff_exists.mp (mde_kept_some (R := R) (argsort := argsort) (D := D) (c := c) (calls := post)
    (by rw [e3]; rfl : (validateSim R argsort D c draws (runSim R argsort D c s pre)).2.mde.isSome))
  have hd : draws.length ≠ 0 := fun h => hne (List.length_eq_zero_iff.mp h)
  rw [hst]
  exact ⟨_, aa, ab, (deepDive_cases _).2.2 aa ab m' k1 (by rintro rfl; exact hd l1.symm) k2 (by rintro rfl; exact hd l2.symm) hm', e1, e2, l1, l2,
    rfl, rfl, rfl, rfl, rfl, hm'.symm⟩

/-- **C98, without simulations.**  When the last validation that returned had no simulations (`n_simulations=0`), the plot raises `KeyError`; such
a validation returns whenever an effect was estimated before. -/
theorem C98_without_simulations_raises (s : SimState) (pre post : List SimCall) (hm : (runSim R argsort D c s pre).mde.isSome)
    (h2 : Spec.NoValidationReturned R argsort D c (validateSim R argsort D c [] (runSim R argsort D c s pre)).2 post) :
    (validateSim R argsort D c [] (runSim R argsort D c s pre)).1 = .ok () ∧
      deepDive c (runSim R argsort D c s (pre ++ .validate [] :: post)) = .error .keyError := by
  obtain ⟨m, hm⟩ := Option.isSome_iff_exists.mp hm
  have h1 : (validateSim R argsort D c [] (runSim R argsort D c s pre)).1 = .ok () := by
    unfold validateSim
    rw [hm]
    rfl
  refine ⟨h1, ?_⟩
  obtain ⟨aa, ab, m, e1, -, l1, -⟩ := validated_state h1
  obtain rfl : aa = [] := List.length_eq_zero_iff.mp l1
  have hst : runSim R argsort D c s (pre ++ .validate [] :: post) =
      runSim R argsort D c (validateSim R argsort D c [] (runSim R argsort D c s pre)).2 post := by
    rw [runSim_append]; rfl
  rw [hst]
  exact (deepDive_cases _).2.1 ((results_kept h2).1.trans e1)

/-- **C98, the line of the planted effect, no later estimate.**  The second line is at the effect that was planted in the A/B simulations
when no estimate was made after the validation.  Missing: later estimates, see `C98_effect_line_settled_partial` and
`C98_effect_line_false`. -/
theorem C98_effect_line_partial (s : SimState) (pre post : List SimCall) (draws : List SimDraw) (hne : draws ≠ [])
    (h1 : (validateSim R argsort D c draws (runSim R argsort D c s pre)).1 = .ok ())
    (h2 : Spec.NoValidationReturned R argsort D c (validateSim R argsort D c draws (runSim R argsort D c s pre)).2 post)
    (h3 : ∀ call ∈ post, ∀ σ, call ≠ .estimate σ) :
    ∃ d, deepDive c (runSim R argsort D c s (pre ++ .validate draws :: post)) = .ok d ∧
      some d.effectLine = (runSim R argsort D c s pre).mde := by
  obtain ⟨d, aa, ab, hd, -, -, -, -, -, -, -, -, -, he⟩ := C98_shows_last_validation s pre post draws hne h1 h2
  refine ⟨d, hd, ?_⟩
  obtain ⟨aa, ab, m, -, -, -, -, hm, e3⟩ := validated_state h1
  rw [he, runSim_append, hm, ← e3]
  show (runSim R argsort D c (validateSim R argsort D c draws (runSim R argsort D c s pre)).2 post).mde = _
  clear he hd h1 h2 e3
  generalize (validateSim R argsort D c draws (runSim R argsort D c s pre)).2 = t
  induction post generalizing t with
  | nil => rfl
  | cons call rest ih =>
    refine (ih (fun x hx => h3 x (by simp [hx])) _).trans ?_
    cases call with
    | estimate σ => exact absurd rfl (h3 (.estimate σ) (by simp) σ)
    | validate draws' =>
      show (validateSim R argsort D c draws' t).2.mde = _
      rcases validate_cases (R := R) (argsort := argsort) (D := D) (c := c) draws' t with ⟨-, -, data, aa, ab, -, -, e⟩ | ⟨e, data, -, e'⟩
      · rw [e]
      · rw [e']

/-- **C98, the line of the planted effect, no first trimming.**  On usable data and for designs that trim no items before the experiment, the
second line is at the planted effect whatever calls follow. -/
theorem C98_effect_line_settled_partial (p : DesignParams ℝ) (hd : mkDesign R p = .ok c.design) (hn : c.design.nBefore ≤ 2 ^ 51)
    (hz : c.design.nAfterPre = c.design.nBefore) (s : SimState)
    (hu : Spec.UsableHistory c.design c.itemCol c.weekCol c.periodCol c.starts s.data) (σ : ℤ → Shuffle)
    (h0 : (estimateMde R argsort D σ c s).1 = .ok ()) (pre post : List SimCall) (draws : List SimDraw) (hne : draws ≠ [])
    (hv : ∀ call ∈ pre ++ .validate draws :: post, Spec.ValidStarts c call)
    (h1 : (validateSim R argsort D c draws (runSim R argsort D c s (.estimate σ :: pre))).1 = .ok ())
    (h2 : Spec.NoValidationReturned R argsort D c (validateSim R argsort D c draws (runSim R argsort D c s (.estimate σ :: pre))).2 post) :
    ∃ d, deepDive c (runSim R argsort D c s (.estimate σ :: (pre ++ .validate draws :: post))) = .ok d ∧
      some d.effectLine = (runSim R argsort D c s (.estimate σ :: pre)).mde := by
  obtain ⟨d, aa, ab, hdd, -, -, -, -, -, -, -, -, -, he⟩ := C98_shows_last_validation s (.estimate σ :: pre) post draws hne h1 h2
  refine ⟨d, hdd, ?_⟩
  rw [he, C97_effect_settled p hd hn hz s hu σ h0 pre (fun x hx => hv x (by simp [hx]))]
  exact C97_effect_settled p hd hn hz s hu σ h0 (pre ++ .validate draws :: post) hv

/-- C98 is not vacuous: a deep dive of two simulations, followed by another estimate. -/
example (R : Rounding ℝ) (D : TDist) (σ : ℤ → Shuffle) (τ : Shuffle) :
    ∃ d, deepDive simConfig (runSim R stableArgsort D simConfig simState
        [.estimate σ, .validate [alternatingDraw τ, alternatingDraw τ], .estimate σ]) = .ok d ∧
      d.abEffects.length = 2 ∧ some d.effectLine = (estimateMde R stableArgsort D σ simConfig simState).2.mde := by
  obtain ⟨aa, ab, m, h1, h2, h3, h4, h5⟩ := simulated_state R D σ τ
  have hest := (C71_estimation_succeeds (D := D) (c := simConfig) stableArgsort_ok simParams (simDesign_created R) (by decide)
    σ simState (by rw [simConfig_starts]; simp) simData_usable).1
  have hval : (validateSim R stableArgsort D simConfig [alternatingDraw τ, alternatingDraw τ]
      (runSim R stableArgsort D simConfig simState [.estimate σ])).1 = .ok () := by
    rcases validate_cases (R := R) (argsort := stableArgsort) (D := D) (c := simConfig) [alternatingDraw τ, alternatingDraw τ]
      (runSim R stableArgsort D simConfig simState [.estimate σ]) with ⟨h, -⟩ | ⟨x, data, -, e'⟩
    · exact h
    · exfalso
      have : (validateSim R stableArgsort D simConfig [alternatingDraw τ, alternatingDraw τ]
        (runSim R stableArgsort D simConfig simState [.estimate σ])).2.aa = some aa := h1
      rw [e'] at this
      have h6 := (results_kept (R := R) (argsort := stableArgsort) (D := D) (c := simConfig) (s := simState) (calls := [.estimate σ])
        (by intro pre draws post e; cases pre <;> simp at e)).1
      rw [show ({ runSim R stableArgsort D simConfig simState [.estimate σ] with data := data } : SimState).aa =
        (runSim R stableArgsort D simConfig simState [.estimate σ]).aa from rfl, h6] at this
      cases this
  have hnv : Spec.NoValidationReturned R stableArgsort D simConfig (validateSim R stableArgsort D simConfig [alternatingDraw τ, alternatingDraw τ]
      (runSim R stableArgsort D simConfig simState [.estimate σ])).2 [.estimate σ] := by
    intro pre draws post e
    cases pre <;> simp at e
  obtain ⟨d, aa', ab', g1, -, g3, -, g5, -, g7, -⟩ := C98_shows_last_validation simState [.estimate σ] [.estimate σ]
    [alternatingDraw τ, alternatingDraw τ] (by simp) hval hnv
  obtain ⟨d', k1, k2⟩ := C98_effect_line_settled_partial simParams (simDesign_created R) (by decide) rfl simState simData_usable σ hest []
    [.estimate σ] [alternatingDraw τ, alternatingDraw τ] (by simp) (by
      intro call hc
      simp only [List.nil_append, List.mem_cons, List.not_mem_nil, or_false] at hc
      rcases hc with rfl | rfl
      · intro r hr
        simp only [List.mem_cons, List.not_mem_nil, or_false, or_self] at hr
        rw [hr, simConfig_starts]
        simp [alternatingDraw]
      · trivial) hval hnv
  refine ⟨d, g1, by rw [g7]; simpa using g5, ?_⟩
  have : d = d' := by
    have := g1.symm.trans k1
    simpa using this
  rw [this]
  exact k2

/-- `C98_without_simulations_raises` is not vacuous: one estimate and a validation without simulations. -/
example (R : Rounding ℝ) (D : TDist) (σ : ℤ → Shuffle) :
    deepDive simConfig (runSim R stableArgsort D simConfig simState [.estimate σ, .validate []]) = .error .keyError := by
  have hest := (C71_estimation_succeeds (D := D) (c := simConfig) stableArgsort_ok simParams (simDesign_created R) (by decide)
    σ simState (by rw [simConfig_starts]; simp) simData_usable).1
  have hm : (runSim R stableArgsort D simConfig simState [.estimate σ]).mde.isSome := by
    show (estimateMde R stableArgsort D σ simConfig simState).2.mde.isSome
    rcases estimate_cases (R := R) (argsort := stableArgsort) (D := D) (c := simConfig) σ simState with ⟨-, data, m1, m2, a, sd, e⟩ | ⟨x, data, h, -⟩
    · rw [e]; rfl
    · rw [hest] at h; cases h
  exact (C98_without_simulations_raises simState [.estimate σ] [] hm (by intro pre draws post e; cases pre <;> simp at e)).2

end Feedx
