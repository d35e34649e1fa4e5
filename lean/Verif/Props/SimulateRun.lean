import Verif.Proofs.SimulateRun
import Verif.Props.Effect
import Verif.Props.TTest

/-!
C71: the estimation succeeds on usable data; and a concrete history of calls for C71-C73.
-/

set_option linter.unusedSectionVars false
set_option linter.unusedSimpArgs false

namespace Feedx
open Fl

variable {R : Rounding ℝ} {argsort : List ℝ → List ℕ} {D : TDist} {c : SimConfig}

/-- **C71.**  On historical data that is complete, has the needed columns and has rows in every period, the estimation returns for every
created design (with at most 2^51 items), and leaves the data fit for further calls. -/
theorem C71_estimation_succeeds (ha : ArgsortOk argsort) (p : DesignParams ℝ) (hd : mkDesign R p = .ok c.design)
    (hn : c.design.nBefore ≤ 2 ^ 51) (σ : ℤ → Shuffle) (s : SimState) (hne : c.starts ≠ [])
    (hu : Spec.UsableHistory c.design c.itemCol c.weekCol c.periodCol c.starts s.data) :
    (estimateMde R argsort D σ c s).1 = .ok () ∧
      Spec.UsableHistory c.design c.itemCol c.weekCol c.periodCol c.starts (estimateMde R argsort D σ c s).2.data := by
  have key : ∀ (l : List ℤ) (f : Frame ℝ), (∀ x ∈ l, x ∈ c.starts) →
      Spec.UsableHistory c.design c.itemCol c.weekCol c.periodCol c.starts f →
      ∃ ss f', statsOfWeeks R argsort σ c l f = (.ok ss, f') ∧ ss.length = l.length ∧ (∀ x ∈ ss, (x.size : ℤ) = c.design.nAfterPost) ∧
        Spec.UsableHistory c.design c.itemCol c.weekCol c.periodCol c.starts f' := by
    intro l
    induction l with
    | nil => intro f _ hf; exact ⟨[], f, rfl, rfl, by simp, hf⟩
    | cons start rest ih =>
      intro f hl hf
      obtain ⟨w, f1, st, h1, h2, h3, h4, -⟩ := usable_week (σ := σ start) ha hd hn (hl start (by simp)) hf
      obtain ⟨ss, f2, h5, h6, h7, h8⟩ := ih f1 (fun x hx => hl x (by simp [hx])) h4
      refine ⟨st :: ss, f2, ?_, by simp [h6], ?_, h8⟩
      · rw [statsOfWeeks, h1]
        simp only [h2, h5]
      · intro x hx
        rcases List.mem_cons.mp hx with rfl | hx
        · exact h3
        · exact h7 x hx
  obtain ⟨ss, f', h1, h2, h3, h4⟩ := key c.starts s.data (fun _ h => h) hu
  unfold estimateMde
  rw [h1]
  simp only
  obtain ⟨x, t, rfl⟩ : ∃ x t, ss = x :: t := by
    cases ss with
    | nil => exact absurd (List.length_eq_zero_iff.mp (by simpa using h2.symm)) hne
    | cons x t => exact ⟨x, t, rfl⟩
  have hav : ∃ a, averageStats (x :: t) = .ok a := by
    unfold averageStats
    refine ⟨_, raiseIf_bind_ok.mpr ⟨?_, rfl⟩⟩
    intro hany
    obtain ⟨y, hy, hne⟩ := List.any_eq_true.mp hany
    have a := h3 y hy
    have b := h3 x (by simp)
    simp at hne
    omega
  obtain ⟨a, hav⟩ := hav
  rw [hav]
  simp only
  have hm : ∃ m, mdeOf D c.design a.1 a.2.1 a.2.2 = .ok m := by
    unfold mdeOf pairedMde indMde mdeFromStats criticalT
    by_cases hx : c.design.isCrossover = true
    · rw [if_pos hx]; exact ⟨_, rfl⟩
    · rw [if_neg hx]; exact ⟨_, rfl⟩
  obtain ⟨m, hm⟩ := hm
  rw [hm]
  exact ⟨rfl, h4⟩

/-! ### A concrete history of calls -/

/-- A design with the smallest number of items, one week and no trimming. -/
noncomputable def simParams : DesignParams ℝ := { tenPercentParams with nBefore := 51, runtime := 1 }

/-- See `simParams`. -/
noncomputable def simDesign : Design ℝ := { simParams with nAfterPre := 51, nAfterPost := 51 }

theorem simDesign_created (R : Rounding ℝ) : mkDesign R simParams = .ok simDesign := by
  have h0 : R.rnd 0 = 0 := by simpa using R.intFix 0 (by norm_num)
  have hf : ∀ n : ℤ, R.floorMul 0 n = 0 := by
    intro n
    unfold Rounding.floorMul
    rw [zero_mul, h0]; simp
  have hd : deriveCounts R simParams = simDesign := by
    unfold deriveCounts
    have e1 : simParams.preTop.val = 0 := rfl
    have e2 : simParams.preBottom.val = 0 := rfl
    have e3 : simParams.postTrim.val = 0 := rfl
    simp only [e1, e2, e3, hf]
    rfl
  rw [mkDesign_ok_iff]
  refine ⟨hd.symm, (validateDesign_ok_iff R _).mpr ⟨?_, by decide⟩⟩
  have e1 : simDesign.preTop.val = 0 := rfl
  have e2 : simDesign.preBottom.val = 0 := rfl
  have e3 : simDesign.postTrim.val = 0 := rfl
  refine ⟨by decide, by decide, by rw [e1], by rw [e2], by rw [e3], ?_, by rw [e3]; norm_num, fun _ => ⟨e1, e2⟩, fun h => ?_⟩
  · rw [e1, e2, add_zero, h0]; norm_num
  · exact absurd h (by decide)

/-- Item `i` has `i + 1` clicks in week 0. -/
noncomputable def simRow (i : ℕ) : Row ℝ := fun c =>
  if c = "item_id" then .int (i : ℤ) else if c = "week_id" then .int 0 else if c = "clicks" then .num ((i : ℝ) + 1) else .null

/-- 51 items in one week. -/
noncomputable def simData : Frame ℝ := ⟨["item_id", "week_id", "clicks"], (List.range 51).map simRow⟩

/-- The object for this data. -/
noncomputable def simConfig : SimConfig := ⟨simDesign, "item_id", "week_id", "time_period", "treatment_assignment", 0, 0, 1 / 20⟩

/-- The new object. -/
noncomputable def simState : SimState := ⟨simData, none, none, none, none, none, none⟩

theorem simConfig_created : mkSimulation simDesign simData "item_id" "week_id" "time_period" "treatment_assignment" 0 (1 / 20) =
    .ok (simConfig, simState) := by
  have hcol : simData.col "week_id" = List.replicate 51 (.int 0) := by
    simp [Frame.col, simData, simRow, List.map_map, Function.comp_def]
  unfold mkSimulation
  rw [hcol]
  refine raiseIf_bind_ok.mpr ⟨by simp [simData], raiseIf_bind_ok.mpr ⟨by simp, ?_⟩⟩
  have : (ints (List.replicate 51 (Cell.int 0 : Cell ℝ))).max? = some 0 := by
    set_option maxRecDepth 10000 in rfl
  rw [this]
  rfl

theorem simConfig_starts : simConfig.starts = [0] := by decide

theorem simData_usable : Spec.UsableHistory simDesign "item_id" "week_id" "time_period" simConfig.starts simData := by
  have hrow : ∀ r ∈ simData.rows, ∃ i : ℕ, i < 51 ∧ r = simRow i := by
    intro r hr
    obtain ⟨i, hi, rfl⟩ := List.mem_map.mp hr
    exact ⟨i, List.mem_range.mp hi, rfl⟩
  have hmem : ∀ i, i < 51 → simRow i ∈ simData.rows := fun i hi => List.mem_map.mpr ⟨i, List.mem_range.mpr hi, rfl⟩
  have htl : Spec.timeline simDesign.toDesignParams 0 = [("pretest", 0, 0), ("test", 0, 1)] := by decide
  rw [simConfig_starts]
  refine ⟨⟨?_, ?_, ?_⟩, by simp [simData, simDesign, simParams, tenPercentParams], ?_⟩
  · intro r hr
    obtain ⟨i, -, rfl⟩ := hrow r hr
    exact Or.inr ⟨0, by simp [simRow]⟩
  · intro r hr
    obtain ⟨i, -, rfl⟩ := hrow r hr
    exact Or.inr ⟨(i : ℝ) + 1, by simp [simRow, simDesign, simParams, tenPercentParams, Cell.toFl]⟩
  · intro start hs
    simp only [List.mem_singleton] at hs
    subst hs
    refine ⟨(List.range 51).map (fun i : ℕ => .int (i : ℤ)), ?_, ?_, ?_⟩
    · exact List.nodup_range.map (fun a b h => by simpa using h)
    · rw [List.length_map, List.length_range]; rfl
    · intro x
      rw [List.mem_map]
      constructor
      · rintro ⟨i, hi, rfl⟩
        exact ⟨by simp, simRow i, hmem i (List.mem_range.mp hi), by simp [simRow], 0, by simp [simRow], "test", 0, 1, by rw [htl]; simp, by omega,
          by omega⟩
      · rintro ⟨-, r, hr, rfl, -⟩
        obtain ⟨i, hi, rfl⟩ := hrow r hr
        exact ⟨i, List.mem_range.mpr hi, by simp [simRow]⟩
  · intro start hs label lo hi hmem' hlt
    simp only [List.mem_singleton] at hs
    subst hs
    rw [htl] at hmem'
    simp only [List.mem_cons, Prod.mk.injEq, List.not_mem_nil, or_false] at hmem'
    rcases hmem' with ⟨-, rfl, rfl⟩ | ⟨-, rfl, rfl⟩
    · omega
    · exact ⟨simRow 0, hmem 0 (by omega), by simp [simRow], 0, by simp [simRow], by omega, by omega⟩

/-- C71 is not vacuous: all hypotheses of both theorems hold for this design and data, with any rounding and sorting. -/
example (R : Rounding ℝ) (D : TDist) (σ : ℤ → Shuffle) :
    (estimateMde R stableArgsort D σ simConfig simState).1 = .ok () ∧
    (estimateMde R stableArgsort D σ simConfig simState).1 ≠ .error .runtimeError :=
  ⟨(C71_estimation_succeeds stableArgsort_ok simParams (simDesign_created R) (by decide) σ simState
      (by rw [simConfig_starts]; simp) simData_usable).1,
    C71_count_checks_unreachable stableArgsort_ok simParams (simDesign_created R) (by decide) σ simState simData_usable.complete⟩

end Feedx
