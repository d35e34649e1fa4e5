import Verif.Props.Analysis

/-!
C41 (what each row is computed from) and C84 (missing periods are refused).
-/

namespace Feedx

open Fl

/-- **C41.**  Each row of the table is the single-metric analysis of the data pivoted once: with the metric's own column, denominator and
trimming override, and the design's other settings. -/
theorem C41_rows_are_single_analyses (R : Rounding ℝ) (argsort : List ℝ → List ℕ) (D : TDist) (d : DesignParams ℝ)
    (metrics : List Metric) (weekCol itemCol treatmentCol : String) (f : Frame ℝ) (rows : List (String × TestResult))
    (h : (analyzeExperiment R argsort D d metrics weekCol itemCol treatmentCol f).1 = .ok rows) :
    ∃ piv, (pivotTimeAssignment d 0 (metricColumns metrics) itemCol weekCol (some treatmentCol) "time_period" f).1 = .ok piv ∧
      List.Forall₂ (fun m row => row.1 = m.name ∧
        analyzeSingleMetric R argsort D piv (metricColumns metrics) [itemCol, treatmentCol] d m.column m.denominator treatmentCol
          m.override = .ok row.2) metrics rows := by
  unfold analyzeExperiment at h
  split at h
  · cases h
  generalize hp : pivotTimeAssignment d 0 (metricColumns metrics) itemCol weekCol (some treatmentCol) "time_period" f = p at h
  obtain ⟨p1, p2⟩ := p
  cases p1 with
  | error e => cases h
  | ok piv =>
    refine ⟨piv, rfl, (mapM_ok h).imp ?_⟩
    intro m row hr
    obtain ⟨r, hr1, e⟩ := Py.bind_eq_ok.mp hr
    cases e
    exact ⟨rfl, hr1⟩

/-- The periods the analysis of a design needs: both test periods of a crossover, otherwise the test period and, if there are pretest
weeks, the pretest period. -/
def Spec.NeededPeriods (d : DesignParams ℝ) : List String :=
  if d.isCrossover then ["test_1", "test_2"] else if 0 < d.pretest then ["test", "pretest"] else ["test"]

/-- **C84.**  The analysis of one metric never proceeds without a period the design needs: it returns only if every needed period is in
the pivoted data, and raises `ValueError` for a known metric when one is missing. -/
theorem C84_needed_periods (R : Rounding ℝ) (argsort : List ℝ → List ℕ) (D : TDist) (piv : Pivoted ℝ) (metrics : List String)
    (itemCol treatmentCol : String) (d : DesignParams ℝ) (metric : String) (denominator : Option String) (override : Option ℝ)
    (hi : ¬ Spec.Reserved itemCol) (ht : ¬ Spec.Reserved treatmentCol) (hm : metric ∈ metrics)
    (hden : ∀ m, denominator = some m → m ∈ metrics) :
    (∀ r, analyzeSingleMetric R argsort D piv metrics [itemCol, treatmentCol] d metric denominator treatmentCol override = .ok r →
      ∀ p ∈ Spec.NeededPeriods d, Cell.str p ∈ piv.periods) ∧
    ((∃ p ∈ Spec.NeededPeriods d, Cell.str p ∉ piv.periods) →
      analyzeSingleMetric R argsort D piv metrics [itemCol, treatmentCol] d metric denominator treatmentCol override =
        .error .valueError) := by
  have key : (∃ p ∈ Spec.NeededPeriods d, Cell.str p ∉ piv.periods) →
      analyzeSingleMetric R argsort D piv metrics [itemCol, treatmentCol] d metric denominator treatmentCol override =
        .error .valueError := by
    rintro ⟨p, hp, hmiss⟩
    unfold analyzeSingleMetric
    by_cases hclash : ([itemCol, treatmentCol].any (fun c => decide (Cell.str c ∈ piv.periods)) = true)
    · have : metricSubset piv metrics [itemCol, treatmentCol] metric = .error .valueError := by
        unfold metricSubset
        rw [raiseIf_bind_err]
        exact Or.inr ⟨not_not.mpr hm, raiseIf_bind_err.mpr (Or.inl ⟨hclash, rfl⟩)⟩
      rw [this]
      rfl
    · have hret : ∀ m ∈ metrics, ∃ f, metricSubset piv metrics [itemCol, treatmentCol] m = .ok f := by
        intro m hm
        exact ⟨_, raiseIf_bind_ok.mpr ⟨not_not.mpr hm, raiseIf_bind_ok.mpr ⟨hclash, rfl⟩⟩⟩
      obtain ⟨f, hf⟩ := hret _ hm
      have hne : p ≠ itemCol ∧ p ≠ treatmentCol ∧ p ≠ "" ∧ p ∈ requiredColumns d treatmentCol := by
        unfold Spec.Reserved at hi ht
        push Not at hi ht
        unfold Spec.NeededPeriods at hp
        unfold requiredColumns
        split at hp
        · rename_i hd
          simp only [List.mem_cons, List.not_mem_nil, or_false] at hp
          rcases hp with rfl | rfl
          · exact ⟨fun e => by simp_all, fun e => by simp_all, by decide, by simp [hd]⟩
          · exact ⟨fun e => by simp_all, fun e => by simp_all, by decide, by simp [hd]⟩
        · rename_i hd
          split at hp
          · rename_i hpre
            simp only [List.mem_cons, List.not_mem_nil, or_false] at hp
            rcases hp with rfl | rfl
            · exact ⟨fun e => by simp_all, fun e => by simp_all, by decide, by simp [hd]⟩
            · exact ⟨fun e => by simp_all, fun e => by simp_all, by decide, by simp [hd, hpre]⟩
          · simp only [List.mem_cons, List.not_mem_nil, or_false] at hp
            subst hp
            exact ⟨fun e => by simp_all, fun e => by simp_all, by decide, by simp [hd]⟩
      obtain ⟨n1, n2, n3, hreq⟩ := hne
      have hnot : p ∉ f.cols := by
        rw [mem_period_cols hf n1 n2 n3]; exact hmiss
      rw [hf]
      cases denominator with
      | none =>
        show (raiseIf _ _ >>= fun _ => _) = _
        rw [raiseIf_bind_err]
        refine Or.inl ⟨?_, rfl⟩
        rw [List.any_eq_true]
        exact ⟨p, hreq, by simp [hnot]⟩
      | some m' =>
        obtain ⟨g, hg⟩ := hret _ (hden m' rfl)
        simp only [hg]
        show (raiseIf _ _ >>= fun _ => _) = _
        rw [raiseIf_bind_err]
        refine Or.inl ⟨?_, rfl⟩
        rw [List.any_eq_true]
        exact ⟨p, hreq, by simp [hnot]⟩
  refine ⟨fun r hr p hp => ?_, key⟩
  by_contra hmiss
  rw [key ⟨p, hp, hmiss⟩] at hr
  cases hr

/-- C84 is not vacuous: the small table has the test period its design needs and the analysis returns; with pretest weeks in the design
the same table is refused. -/
example (R : Rounding ℝ) (argsort : List ℝ → List ℕ) (D : TDist) :
    analyzeSingleMetric R argsort D smallPivot ["clicks"] ["item_id", "treatment_assignment"]
      { tenPercentParams with pretest := 2 } "clicks" none "treatment_assignment" none = .error .valueError := by
  refine (C84_needed_periods R argsort D smallPivot ["clicks"] "item_id" "treatment_assignment" _ "clicks" none none
    (by unfold Spec.Reserved; decide) (by unfold Spec.Reserved; decide) (by simp) (by simp)).2 ⟨"pretest", ?_, ?_⟩
  · simp [Spec.NeededPeriods, tenPercentParams]
  · simp [smallPivot]

end Feedx
