import Verif.Props.NullPValuesDetect
import Verif.Props.PointEstimates
import Verif.Props.SimulateRepeat
import Verif.Model.Summary

/-!
C112: the order of the simulations does not matter.
-/

namespace Feedx

open Fl

/-- The statistical tests of the robustness checks are SciPy's. -/
def Spec.ExactTests (D : TDist) (X : RobustnessTests) : Prop := Spec.ExactKs X ∧ Spec.ExactBinomial X ∧ Spec.ExactT D X

/-- Both absent, or the same results in some order. -/
def Spec.Reordered (o o' : Option (List TestResult)) : Prop :=
  (o = none ∧ o' = none) ∨ ∃ l l', o = some l ∧ o' = some l' ∧ l.Perm l'

variable {R : Rounding ℝ} {argsort : List ℝ → List ℕ} {D : TDist} {X : RobustnessTests} {c : SimConfig} {s : SimState}

theorem ksTest_perm {l l' : List (Fl ℝ)} (h : l.Perm l') : ksTest l = ksTest l' := by
  classical
  unfold ksTest
  by_cases hn : nan ∈ l
  · rw [if_pos hn, if_pos (h.mem_iff.mp hn)]
  · rw [if_neg hn, if_neg (fun h' => hn (h.mem_iff.mpr h')), h.length_eq, ks_perm (h.map uniformCdf)]

theorem flTotal_perm {l l' : List (Fl ℝ)} (h : l.Perm l') : flTotal l = flTotal l' := by
  unfold flTotal
  have : LeftCommutative (fun a b : Fl ℝ => a + b) := ⟨fun a b d => by
    rw [← add_assoc', add_comm' a b, add_assoc']⟩
  exact h.foldr_eq _

theorem oneSampleT_perm {l l' : List (Fl ℝ)} (h : l.Perm l') (m : Fl ℝ) : oneSampleT D l m = oneSampleT D l' m := by
  have hm : flMean l = flMean l' := by
    unfold flMean
    rw [flTotal_perm h, h.length_eq]
  have hv : flVar l = flVar l' := by
    unfold flVar
    rw [hm, flTotal_perm (h.map _), h.length_eq]
  unfold oneSampleT
  rw [hm, hv, h.length_eq]

theorem resultColumn_perm {α β : Type} {l l' : List TestResult} (h : l.Perm l') (f : TestResult → α) (g : List α → β)
    (hg : ∀ a b : List α, a.Perm b → g a = g b) : (resultColumn l f).map g = (resultColumn l' f).map g := by
  unfold resultColumn
  by_cases hl : l = []
  · subst hl
    obtain rfl := h.nil_eq
    rfl
  · have hl' : l' ≠ [] := by
      rintro rfl
      exact hl h.eq_nil
    simp only [raiseIf, hl, hl', if_false, bind, Except.bind, pure, Except.pure, Except.map]
    rw [hg _ _ (h.map f)]

theorem significant_perm {l l' : List TestResult} (h : l.Perm l') (a : ℝ) : significant l a = significant l' a := by
  have e : ∀ l : List TestResult, significant l a =
      (resultColumn l TestResult.pValue).map (fun p => (p.countP (fun x => Fl.lt x (.fin a)), p.length)) := by
    intro l
    unfold significant
    cases resultColumn l TestResult.pValue <;> rfl
  rw [e, e]
  exact resultColumn_perm h _ _ (fun a b hab => by rw [hab.countP_eq, hab.length_eq])

theorem nullPValue_perm (hX : Spec.ExactKs X) {s' : SimState} (haa : Spec.Reordered s.aa s'.aa) : nullPValue X s' = nullPValue X s := by
  unfold nullPValue
  rcases haa with ⟨h1, h2⟩ | ⟨l, l', h1, h2, hp⟩
  · rw [h1, h2]
  · rw [h1, h2]
    have e : ∀ l : List TestResult, (do let p ← resultColumn l TestResult.pValue; return some (X.ks p) : Py (Option (Fl ℝ))) =
        (resultColumn l TestResult.pValue).map (fun p => some (X.ks p)) := by
      intro l
      cases resultColumn l TestResult.pValue <;> rfl
    simp only
    rw [e, e]
    exact (resultColumn_perm hp _ _ (fun a b hab => by rw [hX, hX, ksTest_perm hab])).symm

theorem aaPointPValue_perm (hX : Spec.ExactT D X) {s' : SimState} (haa : Spec.Reordered s.aa s'.aa) : aaPointPValue X s' = aaPointPValue X s := by
  unfold aaPointPValue
  rcases haa with ⟨h1, h2⟩ | ⟨l, l', h1, h2, hp⟩
  · rw [h1, h2]
  · rw [h1, h2]
    have e : ∀ l : List TestResult, (do let p ← resultColumn l TestResult.absoluteDifference; return some (X.t1 p (.fin 0)) : Py (Option (Fl ℝ))) =
        (resultColumn l TestResult.absoluteDifference).map (fun p => some (X.t1 p (.fin 0))) := by
      intro l
      cases resultColumn l TestResult.absoluteDifference <;> rfl
    simp only
    rw [e, e]
    exact (resultColumn_perm hp _ _ (fun a b hab => by rw [hX, hX, oneSampleT_perm hab])).symm

theorem abPointPValue_perm (hX : Spec.ExactT D X) {s' : SimState} (haa : Spec.Reordered s.aa s'.aa) (hab : Spec.Reordered s.ab s'.ab)
    (hm : s'.mde = s.mde) : abPointPValue X s' = abPointPValue X s := by
  unfold abPointPValue abResults
  rcases haa with ⟨h1, h2⟩ | ⟨l, l', h1, h2, -⟩
  · rw [h1, h2]
  · rw [h1, h2, hm]
    rcases hab with ⟨h3, h4⟩ | ⟨k, k', h3, h4, hp⟩
    · rw [h3, h4]
    · rw [h3, h4]
      cases s.mde with
      | none =>
        simp only [bind, Except.bind]
        have := resultColumn_perm hp TestResult.absoluteDifference (fun _ => ()) (fun _ _ _ => rfl)
        cases h5 : resultColumn k TestResult.absoluteDifference <;> cases h6 : resultColumn k' TestResult.absoluteDifference <;>
          (rewrite [h5, h6] at this; first | rfl | (cases this; done) | (cases this; rfl))
      | some m =>
        have e : ∀ l : List TestResult, (do let p ← resultColumn l TestResult.absoluteDifference; return some (X.t1 p m) : Py (Option (Fl ℝ))) =
            (resultColumn l TestResult.absoluteDifference).map (fun p => some (X.t1 p m)) := by
          intro l
          cases resultColumn l TestResult.absoluteDifference <;> rfl
        show (do let p ← resultColumn k' TestResult.absoluteDifference; return some (X.t1 p m) : Py (Option (Fl ℝ))) =
          (do let p ← resultColumn k TestResult.absoluteDifference; return some (X.t1 p m) : Py (Option (Fl ℝ)))
        rw [e, e]
        exact (resultColumn_perm hp _ _ (fun a b hab => by rw [hX, hX, oneSampleT_perm hab])).symm

theorem rates_perm {s' : SimState} (d : Design ℝ) (haa : Spec.Reordered s.aa s'.aa) (hab : Spec.Reordered s.ab s'.ab) :
    falsePositiveRate d s' = falsePositiveRate d s ∧ simulatedPower d s' = simulatedPower d s ∧
    falsePositivePValue X d s' = falsePositivePValue X d s ∧ powerPValue X d s' = powerPValue X d s := by
  unfold falsePositiveRate simulatedPower falsePositivePValue powerPValue abResults
  rcases haa with ⟨h1, h2⟩ | ⟨l, l', h1, h2, hp⟩
  · rw [h1, h2]
    exact ⟨rfl, rfl, rfl, rfl⟩
  · rw [h1, h2]
    simp only
    rw [significant_perm hp]
    rcases hab with ⟨h3, h4⟩ | ⟨k, k', h3, h4, hq⟩
    · rw [h3, h4]
      exact ⟨rfl, rfl, rfl, rfl⟩
    · rw [h3, h4]
      refine ⟨rfl, ?_, rfl, ?_⟩ <;> simp only [bind, Except.bind] <;> rw [significant_perm hq]

/-- **C112.**  Results of the same simulations in another order: the rates, every check, the overall verdict and the whole summary are the
same. -/
theorem C112_reordered_results (fr : ℝ → List Char) (printable : Char → Bool) (hX : Spec.ExactTests D X) (s' : SimState)
    (haa : Spec.Reordered s.aa s'.aa) (hab : Spec.Reordered s.ab s'.ab) (hm : s'.mde = s.mde) (hr : s'.relativeMde = s.relativeMde) :
    falsePositiveRate c.design s' = falsePositiveRate c.design s ∧ simulatedPower c.design s' = simulatedPower c.design s ∧
    robustnessChecks X c s' = robustnessChecks X c s ∧ allChecksPass X c s' = allChecksPass X c s ∧
    summaryDict R fr printable X c s' = summaryDict R fr printable X c s := by
  obtain ⟨hk, hb, ht⟩ := hX
  obtain ⟨r1, r2, r3, r4⟩ := rates_perm (X := X) c.design haa hab
  have n1 := nullPValue_perm hk haa
  have n2 := aaPointPValue_perm ht haa
  have n3 := abPointPValue_perm ht haa hab hm
  have hc : robustnessChecks X c s' = robustnessChecks X c s := by
    unfold robustnessChecks
    rw [n1, n2, n3, r3, r4]
  have ha : allChecksPass X c s' = allChecksPass X c s := by
    unfold allChecksPass
    rw [hc]
  refine ⟨r1, r2, hc, ha, ?_⟩
  unfold summaryDict
  rw [n1, n2, n3, r1, r2, r3, r4, ha, hm, hr]

/-! ### Running the simulations in another order -/

theorem simulateAll_forall {e : Fl ℝ} {draws : List SimDraw} {f f' : Frame ℝ} {l : List (TestResult × TestResult)}
    (h : simulateAll R argsort D c e draws f = (.ok l, f')) :
    (draws = [] ∨ c.starts ≠ []) ∧ List.Forall₂ (fun r x => (simulateOnce R argsort D c e r f).1 = .ok x) draws l := by
  induction draws generalizing f f' l with
  | nil =>
    rw [simulateAll] at h
    cases h
    exact ⟨Or.inl rfl, List.Forall₂.nil⟩
  | cons r rest ih =>
    rw [simulateAll] at h
    split_ifs at h with h0
    · cases h
    rcases h1 : simulateOnce R argsort D c e r f with ⟨x, g⟩
    rw [h1] at h
    cases x with
    | error y => cases h
    | ok y =>
      simp only at h
      rcases h2 : simulateAll R argsort D c e rest g with ⟨z, g'⟩
      rw [h2] at h
      cases z with
      | error y => cases h
      | ok z =>
        simp only [Prod.mk.injEq, Except.ok.injEq] at h
        obtain ⟨rfl, -⟩ := h
        have hs := same_of_simulateOnce h1
        obtain ⟨-, h3⟩ := ih h2
        refine ⟨Or.inr h0, List.Forall₂.cons (by rw [h1]) ?_⟩
        refine h3.imp fun r x hx => ?_
        rw [← simulateOnce_same hs]
        exact hx

theorem simulateAll_of_forall {e : Fl ℝ} {draws : List SimDraw} {f : Frame ℝ} {l : List (TestResult × TestResult)}
    (h0 : draws = [] ∨ c.starts ≠ []) (h : List.Forall₂ (fun r x => (simulateOnce R argsort D c e r f).1 = .ok x) draws l) :
    ∃ f', simulateAll R argsort D c e draws f = (.ok l, f') := by
  induction draws generalizing f l with
  | nil =>
    cases h
    exact ⟨f, rfl⟩
  | cons r rest ih =>
    obtain ⟨x, l, h1, h2, rfl⟩ : ∃ x l', (simulateOnce R argsort D c e r f).1 = .ok x ∧
        List.Forall₂ (fun r x => (simulateOnce R argsort D c e r f).1 = .ok x) rest l' ∧ l = x :: l' := by
      cases h with
      | cons h1 h2 => exact ⟨_, _, h1, h2, rfl⟩
    have hne : c.starts ≠ [] := by
      rcases h0 with h | h
      · cases h
      · exact h
    rcases h3 : simulateOnce R argsort D c e r f with ⟨q, g⟩
    rw [h3] at h1
    obtain rfl : q = .ok x := h1
    have hs := same_of_simulateOnce h3
    obtain ⟨f', h4⟩ := ih (f := g) (Or.inr hne) (h2.imp fun r x hx => by
      rw [simulateOnce_same hs]
      exact hx)
    refine ⟨f', ?_⟩
    rw [simulateAll, if_neg hne, h3]
    simp only
    rw [h4]

/-- **C112.**  Running the same simulations in another order: the validation returns as well, with the same results in another order, and
the summary of the analysis is the same. -/
theorem C112_reordered_simulations (fr : ℝ → List Char) (printable : Char → Bool) (hX : Spec.ExactTests D X) (draws draws' : List SimDraw)
    (hp : draws.Perm draws') (h : (validateSim R argsort D c draws s).1 = .ok ()) :
    (validateSim R argsort D c draws' s).1 = .ok () ∧
    Spec.Reordered (validateSim R argsort D c draws s).2.aa (validateSim R argsort D c draws' s).2.aa ∧
    Spec.Reordered (validateSim R argsort D c draws s).2.ab (validateSim R argsort D c draws' s).2.ab ∧
    allChecksPass X c (validateSim R argsort D c draws' s).2 = allChecksPass X c (validateSim R argsort D c draws s).2 ∧
    summaryDict R fr printable X c (validateSim R argsort D c draws' s).2 = summaryDict R fr printable X c (validateSim R argsort D c draws s).2 := by
  unfold validateSim at h ⊢
  cases hm : s.mde with
  | none =>
    rw [hm] at h
    cases h
  | some e =>
    rw [hm] at h
    simp only at h ⊢
    rcases h1 : simulateAll R argsort D c e draws s.data with ⟨q, f⟩
    rw [h1] at h
    cases q with
    | error x => cases h
    | ok l =>
      obtain ⟨h0, hall⟩ := simulateAll_forall h1
      obtain ⟨l', hall', hp'⟩ := List.perm_comp_forall₂ hp.symm hall
      have h0' : draws' = [] ∨ c.starts ≠ [] := by
        rcases h0 with h0 | h0
        · left
          subst h0
          exact hp.nil_eq.symm
        · exact Or.inr h0
      obtain ⟨f', h2⟩ := simulateAll_of_forall h0' hall'
      rw [h2]
      simp only
      have ha : Spec.Reordered (some (l.map Prod.fst)) (some (l'.map Prod.fst)) := Or.inr ⟨_, _, rfl, rfl, (hp'.map _).symm⟩
      have hb : Spec.Reordered (some (l.map Prod.snd)) (some (l'.map Prod.snd)) := Or.inr ⟨_, _, rfl, rfl, (hp'.map _).symm⟩
      obtain ⟨-, -, -, h3, h4⟩ := C112_reordered_results (R := R) (c := c) (s := { s with data := f, aa := some (l.map Prod.fst), ab := some (l.map Prod.snd) })
        fr printable hX { s with data := f', aa := some (l'.map Prod.fst), ab := some (l'.map Prod.snd) } ha hb rfl rfl
      rw [hm] at h3 h4
      exact ⟨trivial, ha, hb, h3, h4⟩

/-! ### Examples -/

/-- SciPy's tests. -/
noncomputable def scipyTests (D : TDist) : RobustnessTests := ⟨ksTest, binomTail, oneSampleT D⟩

theorem scipyTests_ok (D : TDist) : Spec.ExactTests D (scipyTests D) := ⟨fun _ => rfl, fun _ _ _ _ => rfl, fun _ _ => rfl⟩

/-- Simulations of the two-week crossover with two different shuffles, in both orders. -/
example (R : Rounding ℝ) (D : TDist) (σ : ℤ → Shuffle) (τ υ : Shuffle) :
    ∃ s, (validateSim R stableArgsort D (twoWeekConfig true) [hundredDraw 0 τ, hundredDraw 0 υ] s).1 = .ok () ∧
      allChecksPass (scipyTests D) (twoWeekConfig true) (validateSim R stableArgsort D (twoWeekConfig true) [hundredDraw 0 υ, hundredDraw 0 τ] s).2 =
        allChecksPass (scipyTests D) (twoWeekConfig true) (validateSim R stableArgsort D (twoWeekConfig true) [hundredDraw 0 τ, hundredDraw 0 υ] s).2 := by
  obtain ⟨h1, h2⟩ := C71_estimation_succeeds (D := D) (c := twoWeekConfig true) stableArgsort_ok _ (twoWeekDesign_created R true) (by decide)
    σ ⟨twoWeekData, none, none, none, none, none, none⟩ (by rw [twoWeek_starts]; simp) (twoWeekData_usable true)
  obtain ⟨e, he⟩ := estimate_finite (D := D) (c := twoWeekConfig true) stableArgsort_ok (twoWeekDesign_created R true) (by decide) (Or.inl rfl)
    (by show (0 : ℝ) < 8 / 10 ∧ (8 / 10 : ℝ) < 1; norm_num) (by show (0 : ℝ) < 1 / 10 ∧ (1 / 10 : ℝ) < 1; norm_num) (by decide)
    (s := ⟨twoWeekData, none, none, none, none, none, none⟩) (twoWeekData_usable true) h1
  have hv := (C86_validation_succeeds_partial (argsort := stableArgsort) (D := D) (c := twoWeekConfig true) stableArgsort_ok _ (twoWeekDesign_created R true)
    (by decide) clicks_names _ e he h2 (Or.inl rfl) [hundredDraw 0 τ, hundredDraw 0 υ] (by
      intro r hr
      rcases List.mem_cons.mp hr with rfl | hr
      · exact hundredDraw_valid R true τ
      · rw [List.mem_singleton.mp hr]
        exact hundredDraw_valid R true υ)).1
  exact ⟨_, hv, (C112_reordered_simulations (fun _ => []) (fun _ => true) (scipyTests_ok D) _ _ (List.Perm.swap _ _ _) hv).2.2.2.1⟩

end Feedx
