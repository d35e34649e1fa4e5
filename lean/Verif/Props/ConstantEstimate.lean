import Verif.Props.EstimateAnalysis
import Verif.Props.SimulateValidate

/-!
A metric that is constant before the experiment: the estimate is nan, and so are the simulated experiments (C86, C100).
-/

set_option linter.unusedSectionVars false
set_option linter.unusedSimpArgs false

namespace Feedx

/-- All items have two clicks in the first week, and 1, 2, ..., 100 clicks in the second one. -/
noncomputable def flatClicks (w : ℤ) (i : ℕ) : ℝ := if w = 0 then 2 else (i : ℝ) + 1

/-- A new object with this data. -/
noncomputable def flatState : SimState := ⟨clickData flatClicks, none, none, none, none, none, none⟩

theorem flat_usable :
    Spec.UsableHistory (untrimmedDesign false) "item_id" "week_id" "time_period" [1] (clickData flatClicks) :=
  click_usable rfl rfl (by decide) ⟨"test", by decide⟩

theorem flat_returns (R : Rounding ℝ) (D : TDist) (σ : ℤ → Shuffle) :
    (estimateMde R stableArgsort D σ (untrimmedConfig false) flatState).1 = .ok () :=
  C100_returns R stableArgsort stableArgsort_ok D (untrimmedParams false) (untrimmedConfig false) (untrimmedDesign_created R false)
    (by show (100 : ℤ) ≤ 2 ^ 51; norm_num) σ flatState (by rw [untrimmed_starts]; simp) (by rw [untrimmed_starts]; exact flat_usable)

/-- `C100_cuped_constant` is not vacuous: with this data everything that is estimated is nan. -/
theorem flat_estimate (R : Rounding ℝ) (D : TDist) (σ : ℤ → Shuffle) :
    ∃ data, (estimateMde R stableArgsort D σ (untrimmedConfig false) flatState).2 = { flatState with
      data := data, average := some .nan, sd := some .nan, mde := some .nan, relativeMde := some .nan } := by
  obtain ⟨hpw, hal⟩ := untrimmed_levels false
  refine C100_cuped_constant R stableArgsort stableArgsort_ok D (untrimmedParams false) (untrimmedConfig false) (untrimmedDesign_created R false)
    (by show (100 : ℤ) ≤ 2 ^ 51; norm_num) hpw hal σ flatState (click_weeks flatClicks) (flat_returns R D σ) rfl 1
    (by rw [untrimmed_starts]; simp) ?_ rfl rfl rfl 2 ?_
  · exact ⟨clickRow flatClicks 0 0, click_mem (Or.inl rfl) (by omega), by simp [untrimmedConfig, twoWeekConfig, clickRow],
      0, by simp [untrimmedConfig, twoWeekConfig, clickRow], by decide, by decide⟩
  · intro items hitems item hi
    rw [(lists_perm hitems (click_items (v := flatClicks) (d := untrimmedDesign false) (start := 1) ⟨"test", by decide⟩)).mem_iff] at hi
    obtain ⟨i, hi', rfl⟩ := List.mem_map.mp hi
    have h := click_average flatClicks i (List.mem_range.mp hi') 0 (Or.inl rfl)
    have e : flatClicks 0 i = 2 := if_pos rfl
    rw [e] at h
    exact h

/-- `C86_cuped_partial` is not vacuous for estimates that are nan: the simulated experiment without effect raises or returns, and in the second case
the one with effect has no estimate. -/
example (R : Rounding ℝ) (D : TDist) (σ : ℤ → Shuffle) (τ : Shuffle) : ∃ s, s = (estimateMde R stableArgsort D σ (untrimmedConfig false) flatState).2 ∧
    s.mde = some .nan ∧
    (((validateSim R stableArgsort D (untrimmedConfig false) [hundredDraw 1 τ] s).1 = .ok () ∧
      ∃ ab, (validateSim R stableArgsort D (untrimmedConfig false) [hundredDraw 1 τ] s).2.ab = some [ab] ∧ Spec.NoEstimate ab 100) ∨
      (validateSim R stableArgsort D (untrimmedConfig false) [hundredDraw 1 τ] s).1 = .error .zeroDivision) := by
  obtain ⟨data, hres⟩ := flat_estimate R D σ
  have hst : (untrimmedConfig false).starts = [1] := untrimmed_starts false
  have hu := (C71_estimation_succeeds (D := D) (c := untrimmedConfig false) stableArgsort_ok _ (untrimmedDesign_created R false)
    (by show (100 : ℤ) ≤ 2 ^ 51; norm_num) σ flatState (by rw [hst]; simp) (by rw [hst]; exact flat_usable)).2
  refine ⟨_, rfl, by rw [hres], ?_⟩
  have hz : ∀ n : ℝ, ⌊R.rnd ((untrimmedConfig false).design.postTrim.val * n)⌋ = 0 := fun n => rnd_zero_floor R n
  have key := (C86_cuped_partial (D := D) stableArgsort_ok _ (untrimmedDesign_created R false) rfl (by decide)
    (by show (100 : ℤ) ≤ 2 ^ 51; norm_num) clicks_names _ .nan (by rw [hres]) (Or.inr ⟨rfl, hz _⟩) hu [hundredDraw 1 τ] (by
      intro r hr
      simp only [List.mem_singleton] at hr
      subst hr
      obtain ⟨h1, h2⟩ := hundredDraw_valid R false τ
      refine ⟨⟨by rw [hst]; simp [hundredDraw], h1.boot, h1.coins⟩, fun _ b => ?_⟩
      rw [hz]
      have : (hundredDraw 1 τ).coins.count b = 50 := by
        show ((List.range 100).map (fun i => decide (i % 2 = 0))).count b = 50
        cases b <;> decide +kernel
      rw [this]
      norm_num)).1
  refine key.imp ?_ id
  rintro ⟨k1, aa, ab, -, k2, -, k3, k4⟩
  obtain ⟨r, rfl⟩ := List.length_eq_one_iff.mp k3
  exact ⟨k1, r, k2, k4 rfl r (by simp) 100 rfl⟩

end Feedx
