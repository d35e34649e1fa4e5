import Verif.Proofs.ScalingSim

/-!
C129: the estimate and the validation of a design do not depend on the unit of the primary metric.
-/

set_option linter.unusedSectionVars false
set_option maxHeartbeats 1000000

namespace Feedx

open Fl

section units
variable {c : ℝ}

theorem runCall_scale (hc : 0 < c) (R : Rounding ℝ) (argsort : List ℝ → List ℕ) (hs : Spec.SortsInUnits argsort c) (D : TDist)
    {C : SimConfig} (hC : SimNames C) (hi : C.itemCol ∉ ["test", "pretest", "test_1", "test_2"])
    (ht : C.treatCol ∉ ["test", "pretest", "test_1", "test_2"]) (call : SimCall) {s s' : SimState} (h : Spec.StudyTimes c C.design.primaryMetric s s') :
    (runCall R argsort D C s' call).1 = (runCall R argsort D C s call).1 ∧
      Spec.StudyTimes c C.design.primaryMetric (runCall R argsort D C s call).2 (runCall R argsort D C s' call).2 := by
  cases call with
  | estimate σ => exact estimateMde_scale hc R argsort hs D σ hC h
  | validate draws => exact validateSim_scale hc R argsort hs D draws hC hi ht h

theorem runSim_scale (hc : 0 < c) (R : Rounding ℝ) (argsort : List ℝ → List ℕ) (hs : Spec.SortsInUnits argsort c) (D : TDist)
    {C : SimConfig} (hC : SimNames C) (hi : C.itemCol ∉ ["test", "pretest", "test_1", "test_2"])
    (ht : C.treatCol ∉ ["test", "pretest", "test_1", "test_2"]) (calls : List SimCall) {s s' : SimState} (h : Spec.StudyTimes c C.design.primaryMetric s s') :
    Spec.StudyTimes c C.design.primaryMetric (runSim R argsort D C s calls) (runSim R argsort D C s' calls) := by
  induction calls generalizing s s' with
  | nil => exact h
  | cons call rest ih => exact ih (runCall_scale hc R argsort hs D hC hi ht call h).2

theorem resultColumn_units {α : Type} {l l' : List TestResult} (h : List.Forall₂ (Spec.ReportTimes c) l l') (g : TestResult → α)
    (hg : ∀ r r', Spec.ReportTimes c r r' → g r' = g r) : resultColumn l' g = resultColumn l g := by
  unfold resultColumn
  rw [rel_map_eq h g g hg]
  cases h <;> rfl

theorem resultColumn_times {l l' : List TestResult} (h : List.Forall₂ (Spec.ReportTimes c) l l') :
    resultColumn l' TestResult.absoluteDifference = (resultColumn l TestResult.absoluteDifference).map (List.map (fun x => fin c * x)) := by
  unfold resultColumn
  rw [rel_map_eq h (fun r => fin c * r.absoluteDifference) TestResult.absoluteDifference fun r r' e => e.absoluteDifference]
  cases h with
  | nil => rfl
  | cons h1 h2 =>
    simp only [raiseIf, List.cons_ne_nil, if_false, List.map_cons]
    show Except.ok _ = Except.ok _
    rw [List.map_cons, List.map_map]; rfl

theorem significant_units {l l' : List TestResult} (h : List.Forall₂ (Spec.ReportTimes c) l l') (a : ℝ) : significant l' a = significant l a := by
  unfold significant
  rw [resultColumn_units h _ fun r r' e => e.pValue]

section rates
variable {metric : String} {s s' : SimState} (h : Spec.StudyTimes c metric s s') (X : RobustnessTests) (d : Design ℝ)
include h

theorem abResults_times : Spec.SameOutcome (List.Forall₂ (Spec.ReportTimes c)) (abResults s) (abResults s') := by
  unfold abResults
  have := h.ab
  cases hx : s.ab <;> cases hx' : s'.ab <;> rw [hx, hx'] at this
  · rfl
  · cases this
  · cases this
  · cases this with | some e => exact e

theorem falsePositiveRate_units : falsePositiveRate d s' = falsePositiveRate d s := by
  unfold falsePositiveRate
  have := h.aa
  cases hx : s.aa <;> cases hx' : s'.aa <;> rw [hx, hx'] at this
  · cases this
  · cases this
  · cases this with | some e => simp only [significant_units e]

theorem falsePositivePValue_units : falsePositivePValue X d s' = falsePositivePValue X d s := by
  unfold falsePositivePValue
  have := h.aa
  cases hx : s.aa <;> cases hx' : s'.aa <;> rw [hx, hx'] at this
  · cases this
  · cases this
  · cases this with | some e => simp only [significant_units e]

theorem nullPValue_units : nullPValue X s' = nullPValue X s := by
  unfold nullPValue
  have := h.aa
  cases hx : s.aa <;> cases hx' : s'.aa <;> rw [hx, hx'] at this
  · cases this
  · cases this
  · cases this with | some e => simp only [resultColumn_units e _ fun r r' e => e.pValue]

theorem simulatedPower_units : simulatedPower d s' = simulatedPower d s := by
  unfold simulatedPower
  have := h.aa
  have hb := abResults_times h
  revert hb
  generalize abResults s = B
  generalize abResults s' = B'
  intro hb
  cases hx : s.aa <;> cases hx' : s'.aa <;> rw [hx, hx'] at this
  · cases this
  · cases this
  · cases B <;> cases B'
    · show Except.error _ = Except.error _; rw [show _ = _ from hb]
    · exact hb.elim
    · exact hb.elim
    · show (significant _ _ >>= _) = (significant _ _ >>= _); rw [significant_units hb]

theorem powerPValue_units : powerPValue X d s' = powerPValue X d s := by
  unfold powerPValue
  have := h.aa
  have hb := abResults_times h
  revert hb
  generalize abResults s = B
  generalize abResults s' = B'
  intro hb
  cases hx : s.aa <;> cases hx' : s'.aa <;> rw [hx, hx'] at this
  · cases this
  · cases this
  · cases B <;> cases B'
    · show Except.error _ = Except.error _; rw [show _ = _ from hb]
    · exact hb.elim
    · exact hb.elim
    · show (significant _ _ >>= _) = (significant _ _ >>= _); rw [significant_units hb]

theorem aaPointPValue_units (ht : Spec.MeansInUnits X.t1 c) : aaPointPValue X s' = aaPointPValue X s := by
  unfold aaPointPValue
  have := h.aa
  cases hx : s.aa <;> cases hx' : s'.aa <;> rw [hx, hx'] at this
  · cases this
  · cases this
  · cases this with
    | some e =>
      simp only [resultColumn_times e]
      cases resultColumn _ TestResult.absoluteDifference with
      | error e => rfl
      | ok l =>
        show Except.ok _ = Except.ok _
        have := ht l (fin 0)
        rw [fin_mul, mul_zero] at this
        rw [this]

theorem abPointPValue_units (ht : Spec.MeansInUnits X.t1 c) : abPointPValue X s' = abPointPValue X s := by
  unfold abPointPValue
  have := h.aa
  have hb := abResults_times h
  rw [h.mde]
  revert hb
  generalize abResults s = B
  generalize abResults s' = B'
  intro hb
  cases hx : s.aa <;> cases hx' : s'.aa <;> rw [hx, hx'] at this
  · cases this
  · cases this
  · cases B <;> cases B'
    · show Except.error _ = Except.error _; rw [show _ = _ from hb]
    · exact hb.elim
    · exact hb.elim
    · rename_i l l'
      show (resultColumn l' _ >>= _) = (resultColumn l _ >>= _)
      rw [resultColumn_times hb]
      cases resultColumn l TestResult.absoluteDifference with
      | error e => rfl
      | ok v =>
        cases s.mde with
        | none => rfl
        | some m =>
          show Except.ok _ = Except.ok _
          rw [ht v m]

theorem allChecksPass_units (C : SimConfig) (ht : Spec.MeansInUnits X.t1 c) : allChecksPass X C s' = allChecksPass X C s := by
  unfold allChecksPass robustnessChecks
  rw [nullPValue_units h, powerPValue_units h, falsePositivePValue_units h, aaPointPValue_units h X ht, abPointPValue_units h X ht]

end rates

/-- **C129.**  Take two histories that are the same except for the unit of the primary metric: one has the values of the other times a number `c > 0` (say,
cents instead of euros).  The designer creates a study of the same design from both, or from neither.  After any sequence of estimates and validations with
the same random draws: the minimum detectable effect, the average and the standard deviation of the second study, and the results of its simulated
experiments, are those of the first one in the new unit; the relative minimum detectable effect is the same; the next call, whichever it is, returns in both
or raises the same error in both; and the false positive rate, the power and the verdict of the robustness checks are the same.  The design may trim items
before and after the experiment and may be a crossover. -/
theorem C129_design_units (hc : 0 < c) (R : Rounding ℝ) (argsort : List ℝ → List ℕ) (hsort : Spec.SortsInUnits argsort c) (D : TDist) (X : RobustnessTests)
    (ht1 : Spec.MeansInUnits X.t1 c) (design : Design ℝ) {data data' : Frame ℝ} (hdata : Spec.ColumnTimes c design.primaryMetric data data')
    (itemCol weekCol periodCol treatCol : String) (minStart : ℤ) (threshold : ℝ) (hnames : design.primaryMetric ∉ [itemCol, weekCol, periodCol])
    (hitem : itemCol ∉ ["test", "pretest", "test_1", "test_2"]) (htreat : treatCol ∉ ["test", "pretest", "test_1", "test_2"]) :
    Spec.SameOutcome (fun study study' => study'.1 = study.1 ∧ ∀ calls : List SimCall,
        let s := runSim R argsort D study.1 study.2 calls
        let s' := runSim R argsort D study'.1 study'.2 calls
        Spec.StudyTimes c design.primaryMetric s s' ∧
        (∀ call, (runCall R argsort D study'.1 s' call).1 = (runCall R argsort D study.1 s call).1) ∧
        falsePositiveRate design s' = falsePositiveRate design s ∧ simulatedPower design s' = simulatedPower design s ∧
        allChecksPass X study'.1 s' = allChecksPass X study.1 s)
      (mkSimulation design data itemCol weekCol periodCol treatCol minStart threshold)
      (mkSimulation design data' itemCol weekCol periodCol treatCol minStart threshold) := by
  simp only [List.mem_cons, List.not_mem_nil, or_false, not_or] at hnames
  obtain ⟨n1, n2, n3⟩ := hnames
  have hrows : List.Forall₂ (RowTimes c design.primaryMetric) data.rows data'.rows := hdata.2
  have hweek : data'.col weekCol = data.col weekCol := rows_map hrows (fun r => r weekCol) fun r r' hr => hr.1 weekCol (Ne.symm n2)
  unfold mkSimulation
  rw [hdata.1, hweek]
  refine (Spec.SameOutcome.raiseIf Iff.rfl).bind fun _ _ _ => (Spec.SameOutcome.raiseIf Iff.rfl).bind fun _ _ _ => ?_
  cases (ints (data.col weekCol)).max? with
  | none => rfl
  | some last =>
    refine ⟨rfl, fun calls => ?_⟩
    have hC : SimNames ⟨design, itemCol, weekCol, periodCol, treatCol, minStart, last - design.runtime + 1, threshold⟩ :=
      ⟨Ne.symm n1, Ne.symm n2, Ne.symm n3⟩
    have h0 : Spec.StudyTimes c design.primaryMetric ⟨data, none, none, none, none, none, none⟩ ⟨data', none, none, none, none, none, none⟩ :=
      ⟨hdata, rfl, rfl, rfl, rfl, Option.Rel.none, Option.Rel.none⟩
    have hrun := runSim_scale hc R argsort hsort D hC hitem htreat calls h0
    exact ⟨hrun, fun call => (runCall_scale hc R argsort hsort D hC hitem htreat call hrun).1, falsePositiveRate_units hrun design,
      simulatedPower_units hrun design, allChecksPass_units hrun X _ ht1⟩

end units

end Feedx
