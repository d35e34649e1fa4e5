import Verif.Props.DesignUnits
import Verif.Props.ReportUnitsExample
import Verif.Props.SimulateValidate

/-!
A concrete case for C129: a crossover design that trims items, and its history with clicks counted in hundredths.
-/

set_option linter.unusedSectionVars false

namespace Feedx

open Fl

theorem twoWeek_study : mkSimulation (twoWeekDesign true) twoWeekData "item_id" "week_id" "time_period" "treatment_assignment" 0 (1 / 20) =
    .ok (twoWeekConfig true, ⟨twoWeekData, none, none, none, none, none, none⟩) := by
  have h1 : "week_id" ∈ twoWeekData.cols := by decide
  have h2 : ((twoWeekData.col "week_id").all (fun c => match c with | .int _ => true | _ => false)) = true := by decide +kernel
  have h3 : (ints (twoWeekData.col "week_id")).max? = some 1 := by decide +kernel
  unfold mkSimulation
  simp only [raiseIf, h1, not_true_eq_false, if_false, h2, Bool.true_eq_false, h3]
  rfl

/-- A test of means whose p-value is that of the t statistic only compares means: the t statistic has no unit. -/
theorem tStatistic_units {c : ℝ} (hc : 0 < c) (p : Fl ℝ → ℕ → Fl ℝ) : Spec.MeansInUnits (fun l m =>
    p ((flMean l - m) / ((flMean (l.map (fun x => (x - flMean l).sq))).sqrt / (fin (l.length : ℝ)).sqrt)) l.length) c := by
  intro l m
  have h : (l.map (fun x => fin c * x)).map (fun x => (x - fin c * flMean l).sq) = (l.map (fun x => (x - flMean l).sq)).map (fun x => fin (c * c) * x) := by
    rw [List.map_map, List.map_map]
    refine List.map_congr_left fun x _ => ?_
    simp only [Function.comp, sc_sub hc, sc_sq hc]
  simp only [flMean_scale hc, h, flMean_scale (mul_pos hc hc), sc_sqrt hc, sc_sub hc, List.length_map]
  rw [sc_div_right hc (flMean _).sqrt, sc_div_same hc]

/-- `C129_design_units` is not vacuous: with clicks counted in hundredths the designer creates the study too, estimates and validates the design, and the
estimated effect is a hundred times as large, while the relative effect is the same.  (Any random draws; `t1` is any test that compares means only.) -/
example (R : Rounding ℝ) (D : TDist) (σ : ℤ → Shuffle) (τ : Shuffle) (X : RobustnessTests) (ht1 : Spec.MeansInUnits X.t1 100) :
    ∃ s s' : SimState, mkSimulation (twoWeekDesign true) (timesColumn 100 "clicks" twoWeekData) "item_id" "week_id" "time_period" "treatment_assignment" 0
          (1 / 20) = .ok (twoWeekConfig true, ⟨timesColumn 100 "clicks" twoWeekData, none, none, none, none, none, none⟩) ∧
      s = runSim R stableArgsort D (twoWeekConfig true) ⟨twoWeekData, none, none, none, none, none, none⟩ [.estimate σ, .validate [hundredDraw 0 τ]] ∧
      s' = runSim R stableArgsort D (twoWeekConfig true) ⟨timesColumn 100 "clicks" twoWeekData, none, none, none, none, none, none⟩
        [.estimate σ, .validate [hundredDraw 0 τ]] ∧
      (runCall R stableArgsort D (twoWeekConfig true) ⟨timesColumn 100 "clicks" twoWeekData, none, none, none, none, none, none⟩ (.estimate σ)).1 = .ok () ∧
      (∃ x, s.mde = some x ∧ s'.mde = some (.fin 100 * x)) ∧ (∃ y, s.relativeMde = some y ∧ s'.relativeMde = some y) ∧
      (∃ r r', s.ab = some [r] ∧ s'.ab = some [r'] ∧ Spec.ReportTimes 100 r r') ∧
      allChecksPass X (twoWeekConfig true) s' = allChecksPass X (twoWeekConfig true) s := by
  have h100 : (0 : ℝ) < 100 := by norm_num
  have key := C129_design_units h100 R stableArgsort (stableArgsort_units h100) D X ht1 (twoWeekDesign true)
    (timesColumn_spec 100 (twoWeekDesign true).primaryMetric twoWeekData) "item_id" "week_id" "time_period" "treatment_assignment" 0 (1 / 20)
    (by decide) (by decide) (by decide)
  rw [twoWeek_study] at key
  have hm : (twoWeekDesign true).primaryMetric = "clicks" := rfl
  rw [hm] at key
  obtain ⟨c', s0', hmk⟩ : ∃ c' s0', mkSimulation (twoWeekDesign true) (timesColumn 100 "clicks" twoWeekData) "item_id" "week_id" "time_period"
      "treatment_assignment" 0 (1 / 20) = .ok (c', s0') := by
    revert key
    cases mkSimulation (twoWeekDesign true) (timesColumn 100 "clicks" twoWeekData) "item_id" "week_id" "time_period" "treatment_assignment" 0 (1 / 20) with
    | error e => exact fun h => h.elim
    | ok p => exact fun _ => ⟨p.1, p.2, rfl⟩
  rw [hmk] at key
  obtain ⟨hc', key⟩ := key
  simp only at hc'
  subst hc'
  have hs0 : s0' = ⟨timesColumn 100 "clicks" twoWeekData, none, none, none, none, none, none⟩ := by
    unfold mkSimulation at hmk
    obtain ⟨_, hmk⟩ := raiseIf_bind_ok.mp hmk
    obtain ⟨_, hmk⟩ := raiseIf_bind_ok.mp hmk
    cases hl : (ints ((timesColumn 100 "clicks" twoWeekData).col "week_id")).max? with
    | none => rw [hl] at hmk; cases hmk
    | some l => rw [hl] at hmk; exact ((Prod.mk.inj (Except.ok.inj hmk)).2).symm
  subst hs0
  obtain ⟨he, hv⟩ := twoWeek_validates R D σ τ
  have k0 := (key []).2.1 (.estimate σ)
  have k2 := (key [.estimate σ, .validate [hundredDraw 0 τ]])
  simp only at k2
  have hS : runSim R stableArgsort D (twoWeekConfig true) ⟨twoWeekData, none, none, none, none, none, none⟩ [.estimate σ, .validate [hundredDraw 0 τ]] =
      (validateSim R stableArgsort D (twoWeekConfig true) [hundredDraw 0 τ]
        (estimateMde R stableArgsort D σ (twoWeekConfig true) ⟨twoWeekData, none, none, none, none, none, none⟩).2).2 := rfl
  refine ⟨_, _, hmk, rfl, rfl, k0.trans he, ?_, ?_, ?_, k2.2.2.2.2⟩
  all_goals
    obtain ⟨hT, -⟩ := k2
    rw [hS] at hT ⊢
    obtain ⟨aa, ab, m, hva, hvb, hla, hlb, hsm, hvm⟩ := validated_state hv
  · refine ⟨m, hvm, ?_⟩
    rw [hT.mde, hvm]; rfl
  · have hrel : ∃ y, (validateSim R stableArgsort D (twoWeekConfig true) [hundredDraw 0 τ]
        (estimateMde R stableArgsort D σ (twoWeekConfig true) ⟨twoWeekData, none, none, none, none, none, none⟩).2).2.relativeMde = some y := by
      rcases validate_cases (R := R) (argsort := stableArgsort) (D := D) (c := twoWeekConfig true) [hundredDraw 0 τ]
        (estimateMde R stableArgsort D σ (twoWeekConfig true) ⟨twoWeekData, none, none, none, none, none, none⟩).2 with ⟨-, -, data, aa', ab', -, -, h⟩ | ⟨e, _, h, -⟩
      · rcases estimate_cases (R := R) (argsort := stableArgsort) (D := D) (c := twoWeekConfig true) σ ⟨twoWeekData, none, none, none, none, none, none⟩ with
          ⟨-, data', m1, m2, a, sd, h'⟩ | ⟨e, _, h', -⟩
        · exact ⟨m2, by rw [h, h']⟩
        · rw [he] at h'; cases h'
      · rw [hv] at h; cases h
    obtain ⟨y, hy⟩ := hrel
    exact ⟨y, hy, by rw [hT.relativeMde, hy]⟩
  · obtain ⟨r, rfl⟩ := List.length_eq_one_iff.mp hlb
    have hab := hT.ab
    rw [hvb] at hab
    cases hx : (runSim R stableArgsort D (twoWeekConfig true) ⟨timesColumn 100 "clicks" twoWeekData, none, none, none, none, none, none⟩
      [.estimate σ, .validate [hundredDraw 0 τ]]).ab with
    | none => rw [hx] at hab; cases hab
    | some l =>
      rw [hx] at hab
      cases hab with
      | some h =>
        cases h with
        | cons h1 h2 => cases h2; exact ⟨_, _, hvb, rfl, h1⟩

end Feedx
