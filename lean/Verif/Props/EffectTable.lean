import Verif.Model.EffectTable
import Verif.Props.EffectPlot
import Verif.Props.FormatTable

/-!
Property C77 for the results of analyses: metrics without a relative effect, and results that can always be drawn.
-/

namespace Feedx

open Fl

/-- The numbers of a result as they are drawn: a missing number counts as nan. -/
def Spec.drawnResult {K : Type} (r : ResultRow K) : EffectRow K :=
  ⟨r.metric, r.relativeDifference.getD .nan, r.relativeLower.getD .nan, r.relativeUpper.getD .nan, r.isSignificant⟩

/-- **C77 (part): when results are drawn.**  A table of results is drawn exactly if one row is for the primary metric, some metric has a relative
effect with a lower and an upper bound, and the three groups of results can be drawn.  Without a row for the primary metric (or with several) it
raises `ValueError`; with one, but no relative effect in the table, `TypeError`; otherwise `ValueError`. -/
theorem C77_results_partial {K : Type} [Field K] [LinearOrder K] [IsStrictOrderedRing K] (lower : String → String) (primary : String)
    (rows : List (ResultRow K)) :
    ((plotResults lower primary rows).Returns ↔ rows.countP (fun r => decide (lower r.metric = lower primary)) = 1 ∧
      (∃ r ∈ rows, r.relativeDifference ≠ none) ∧ (∃ r ∈ rows, r.relativeLower ≠ none) ∧ (∃ r ∈ rows, r.relativeUpper ≠ none) ∧
      ∀ g ∈ Spec.effectGroups lower primary (rows.map Spec.drawnResult), Spec.Drawable (g.map (EffectRow.bar 0))) ∧
    (rows.countP (fun r => decide (lower r.metric = lower primary)) ≠ 1 → plotResults lower primary rows = .error .valueError) ∧
    (rows.countP (fun r => decide (lower r.metric = lower primary)) = 1 →
      ((∀ r ∈ rows, r.relativeDifference = none) ∨ (∀ r ∈ rows, r.relativeLower = none) ∨ (∀ r ∈ rows, r.relativeUpper = none)) →
      plotResults lower primary rows = .error .typeError) ∧
    ((∃ r ∈ rows, r.relativeDifference ≠ none) → (∃ r ∈ rows, r.relativeLower ≠ none) → (∃ r ∈ rows, r.relativeUpper ≠ none) →
      ¬ (plotResults lower primary rows).Returns → plotResults lower primary rows = .error .valueError) := by
  have hcount : (rows.map Spec.drawnResult).countP (fun r => decide (lower r.metric = lower primary)) =
      rows.countP (fun r => decide (lower r.metric = lower primary)) := by
    rw [List.countP_map]; rfl
  have hmap : rows.map EffectRow.ofResult = rows.map Spec.drawnResult := rfl
  have hnone : ∀ g : ResultRow K → Option (Fl K), (rows.all (fun r => (g r).isNone) = true ↔ ∀ r ∈ rows, g r = none) := by
    intro g; simp
  have hnone' : ∀ g : ResultRow K → Option (Fl K), ((∃ r ∈ rows, g r ≠ none) ↔ ¬ ∀ r ∈ rows, g r = none) := by
    intro g; push Not; rfl
  obtain ⟨d1, d2⟩ := C77_drawn_iff_partial lower primary (rows.map Spec.drawnResult)
  rw [hcount] at d1
  rw [hnone', hnone', hnone']
  unfold plotResults
  rw [hmap]
  by_cases hc : rows.countP (fun r => decide (lower r.metric = lower primary)) = 1
  · have hr : raiseIf PyErr.valueError (rows.countP (fun r => decide (lower r.metric = lower primary)) ≠ 1) = .ok () := by
      rw [raiseIf_ok]; simpa using hc
    rw [hr]
    by_cases hn : (∀ r ∈ rows, r.relativeDifference = none) ∨ (∀ r ∈ rows, r.relativeLower = none) ∨ (∀ r ∈ rows, r.relativeUpper = none)
    · have hr' : raiseIf PyErr.typeError (rows.all (fun r => r.relativeDifference.isNone) = true ∨ rows.all (fun r => r.relativeLower.isNone) = true ∨
          rows.all (fun r => r.relativeUpper.isNone) = true) = .error .typeError := by
        rw [raiseIf_err, hnone, hnone, hnone]; exact ⟨hn, rfl⟩
      rw [hr']
      refine ⟨⟨fun ⟨_, h⟩ => (by cases h), fun ⟨_, a, b, c, _⟩ => ?_⟩, fun h => absurd hc h, fun _ _ => rfl, fun a b c => ?_⟩
      all_goals exact absurd hn (by tauto)
    · have hr' : raiseIf PyErr.typeError (rows.all (fun r => r.relativeDifference.isNone) = true ∨ rows.all (fun r => r.relativeLower.isNone) = true ∨
          rows.all (fun r => r.relativeUpper.isNone) = true) = .ok () := by rw [raiseIf_ok, hnone, hnone, hnone]; exact hn
      rw [hr']
      show ((plotEffects lower primary (rows.map Spec.drawnResult)).Returns ↔ _) ∧ (_ → plotEffects lower primary (rows.map Spec.drawnResult) = _) ∧
        (_ → _ → plotEffects lower primary (rows.map Spec.drawnResult) = _) ∧
        (_ → _ → _ → ¬ (plotEffects lower primary (rows.map Spec.drawnResult)).Returns → plotEffects lower primary (rows.map Spec.drawnResult) = _)
      rw [d1]
      refine ⟨?_, fun h => absurd hc h, fun _ h => absurd h hn, fun _ _ _ h => d2 (by rw [d1]; exact h)⟩
      push Not at hn
      have h1 : ¬ ∀ r ∈ rows, r.relativeDifference = none := by push Not; exact hn.1
      have h2 : ¬ ∀ r ∈ rows, r.relativeLower = none := by push Not; exact hn.2.1
      have h3 : ¬ ∀ r ∈ rows, r.relativeUpper = none := by push Not; exact hn.2.2
      exact ⟨fun ⟨a, b⟩ => ⟨a, h1, h2, h3, b⟩, fun ⟨a, _, _, _, b⟩ => ⟨a, b⟩⟩
  · have hr : raiseIf PyErr.valueError (rows.countP (fun r => decide (lower r.metric = lower primary)) ≠ 1) = .error .valueError := by
      rw [raiseIf_err]; exact ⟨hc, rfl⟩
    rw [hr]
    exact ⟨⟨fun ⟨_, h⟩ => (by cases h), fun h => absurd h.1 hc⟩, fun _ => rfl, fun h => absurd h hc, fun _ _ _ _ => rfl⟩

/-- **C77, full statement for analysed experiments.**  The results of an analysis can be drawn. -/
def C77_results_full : Prop :=
  ∀ (R : Rounding ℝ) (argsort : List ℝ → List ℕ), ArgsortOk argsort → ∀ (D : TDist) (values1 values2 : List ℝ) (alpha : ℝ) (r : TestResult)
    (lower : String → String) (metric : String),
    pairedTest R argsort D values1 values2 0 none none "two-sided" alpha = .ok r →
    (plotResults lower metric [.ofTest (metric, r)]).Returns

/-- **C77: the code violates it.**  A metric that is negative in the control group (such as a profit) has no relative effect, and a table that has
only such metrics cannot be drawn: `TypeError`. -/
theorem C77_no_relative_effect_false (lower : String → String) (metric : String) (D : TDist) (R : Rounding ℝ) (argsort : List ℝ → List ℕ)
    (ha : ArgsortOk argsort) :
    ¬ C77_results_full ∧
    ∀ (values1 values2 : List ℝ) (alpha : ℝ), 2 ≤ values1.length → values1.length ≤ 2 ^ 53 → values1.length = values2.length →
      (∀ v ∈ values2, v < 0) →
      ∃ r, pairedTest R argsort D values1 values2 0 none none "two-sided" alpha = .ok r ∧
        plotResults lower metric [.ofTest (metric, r)] = .error .typeError := by
  have main : ∀ (values1 values2 : List ℝ) (alpha : ℝ), 2 ≤ values1.length → values1.length ≤ 2 ^ 53 → values1.length = values2.length →
      (∀ v ∈ values2, v < 0) →
      ∃ r, pairedTest R argsort D values1 values2 0 none none "two-sided" alpha = .ok r ∧
        plotResults lower metric [.ofTest (metric, r)] = .error .typeError := by
    intro values1 values2 alpha h1 h2 h3 h4
    obtain ⟨r, hr, he⟩ := (C90_no_relative_effect_false (fun _ _ => "") metric D R argsort ha).2 values1 values2 alpha h1 h2 h3 h4
    refine ⟨r, hr, ?_⟩
    refine (C77_results_partial lower metric [.ofTest (metric, r)]).2.2.1 (by simp [ResultRow.ofTest]) ?_
    by_contra hn
    push Not at hn
    have := ((C90_returns R (fun _ _ => "") {} [.ofTest (metric, r)]).1.mpr (by simpa using hn))
    obtain ⟨_, h⟩ := this
    rw [he] at h
    cases h
  refine ⟨fun h => ?_, main⟩
  obtain ⟨r, hr, he⟩ := main [-1, -2] [-2, -3] (1/20) (by simp) (by norm_num) rfl (by simp)
  obtain ⟨_, h'⟩ := h R argsort ha D _ _ _ r lower metric hr
  rw [he] at h'
  cases h'

/-- A result whose relative effect is the one of the averages `m1` and `m2`, with the interval the analysis computes for it, and whose control average
is significantly larger than zero at the same level. -/
def Spec.SignificantControl (D : TDist) (r : ResultRow ℝ) : Prop :=
  ∃ m1 m2 s1 s2 rho df alpha lower upper, 0 ≤ m1 ∧ 0 ≤ m2 ∧ |rho| ≤ 1 ∧ 0 < df ∧ 0 < alpha ∧ alpha < 1 ∧
    (D.ppf df (1 - alpha / 2) * s2) ^ 2 < m2 ^ 2 ∧ r.relativeDifference = some (fin (m1 / m2 - 1)) ∧
    relativeCI D (fin m1) (fin m2) (fin s1) (fin s2) (fin rho) (fin df) "two-sided" alpha = .ok (lower, upper) ∧
    r.relativeLower = some lower ∧ r.relativeUpper = some upper

/-- **C77 (part): results with a control average that is significantly positive.**  A table of such results with one row for the primary metric is
drawn. -/
theorem C77_significant_control_partial (D : TDist) (lower : String → String) (primary : String) (rows : List (ResultRow ℝ))
    (h1 : rows.countP (fun r => decide (lower r.metric = lower primary)) = 1) (hs : ∀ r ∈ rows, Spec.SignificantControl D r) :
    (plotResults lower primary rows).Returns := by
  have hfin : ∀ r ∈ rows, ∃ l v u, r.relativeLower = some (fin l) ∧ r.relativeDifference = some (fin v) ∧ r.relativeUpper = some (fin u) ∧
      l ≤ v ∧ v ≤ u := by
    intro r hr
    obtain ⟨m1, m2, s1, s2, rho, df, alpha, lo, up, a1, a2, a3, a4, a5, a6, a7, a8, a9, a10, a11⟩ := hs r hr
    have a7' : (Spec.critical (D.ppf df) "two-sided" alpha * s2) ^ 2 < m2 ^ 2 := by
      unfold Spec.critical; rw [if_pos rfl]; exact a7
    obtain ⟨lo', up', e, hc⟩ := contains_sig D (s1 := s1) (Or.inl rfl) a1 a2 a3 a4 a5 a6 a7'
    rw [a9] at e
    cases e
    have e := a9
    rw [relativeCI_known (Or.inl rfl) a1 a2, crit_eq D a4 a5 a6] at e
    rw [ratioBounds_sig a3 (by nlinarith)] at e
    simp only [String.reduceEq, if_false, fin_sub, Except.ok.injEq, Prod.mk.injEq] at e
    obtain ⟨rfl, rfl⟩ := e
    obtain ⟨c1, c2⟩ := hc
    rw [le_fin, decide_eq_true_eq] at c1 c2
    exact ⟨_, _, _, a10, a8, a11, c1, c2⟩
  have hne : ∃ r, r ∈ rows := by
    rw [List.countP_eq_length_filter, List.length_eq_one_iff] at h1
    obtain ⟨r, hr⟩ := h1
    exact ⟨r, (List.mem_filter.mp (hr ▸ List.mem_singleton_self r)).1⟩
  obtain ⟨r0, hr0⟩ := hne
  obtain ⟨l, v, u, e1, e2, e3, -⟩ := hfin r0 hr0
  rw [(C77_results_partial lower primary rows).1]
  refine ⟨h1, ⟨r0, hr0, by simp [e2]⟩, ⟨r0, hr0, by simp [e1]⟩, ⟨r0, hr0, by simp [e3]⟩, ?_⟩
  have h1' : (rows.map Spec.drawnResult).countP (fun r => decide (lower r.metric = lower primary)) = 1 := by
    rw [List.countP_map]; exact h1
  refine ((C77_drawn_iff_partial lower primary (rows.map Spec.drawnResult)).1.mp
    (C77_finite_bounds_partial lower primary _ h1' fun r hr => ?_)).2
  obtain ⟨q, hq, rfl⟩ := List.mem_map.mp hr
  obtain ⟨l, v, u, e1, e2, e3, h⟩ := hfin q hq
  exact ⟨l, v, u, by simp [Spec.drawnResult, e1], by simp [Spec.drawnResult, e2], by simp [Spec.drawnResult, e3], h⟩

/-- The theorem is not vacuous: averages 11 and 10 with small standard errors. -/
example (D : TDist) : ∃ r : ResultRow ℝ, r.metric = "clicks" ∧ Spec.SignificantControl D r := by
  obtain ⟨alpha, h0, h1, ha⟩ := exists_level D (df := 9) (t := 2) (by norm_num) (by norm_num)
  have hs : (Spec.critical (D.ppf 9) "two-sided" alpha * 1) ^ 2 < (10 : ℝ) ^ 2 := by
    unfold Spec.critical; rw [if_pos rfl, ha]; norm_num
  obtain ⟨l, u, e, -⟩ := contains_sig D (m1 := 11) (s1 := 1) (rho := 0) (Or.inl rfl) (by norm_num) (by norm_num) (by norm_num) (by norm_num) h0 h1 hs
  exact ⟨⟨"clicks", true, alpha, fin 0, fin 1, fin 0, fin 2, some (fin (11 / 10 - 1)), some l, some u, 10⟩, rfl,
    11, 10, 1, 1, 0, 9, alpha, l, u, by norm_num, by norm_num, by norm_num, by norm_num, h0, h1, by rw [ha]; norm_num, rfl, e, rfl, rfl⟩

end Feedx
