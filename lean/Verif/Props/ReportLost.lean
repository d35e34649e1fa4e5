import Verif.Props.ReportTotals
import Verif.Props.EndToEndGroups

/-!
Properties C38 and C115 are violated for metrics held as integers: a crossover analysis may drop the fractions of the values in the second test period.
-/

namespace Feedx
open Fl

/-- A crossover design of 64 items, with two test periods of two weeks. -/
noncomputable def lostParams : DesignParams ℝ := { sixtyParams ℝ true with nBefore := 64, runtime := 4, pretest := 0, washout := some 0 }

/-- See `lostParams`. -/
noncomputable def lostDesign : Design ℝ := { lostParams with nAfterPre := 64, nAfterPost := 64 }

theorem lostDesign_created (R : Rounding ℝ) : mkDesign R lostParams = .ok lostDesign := by
  have h0 : R.rnd 0 = 0 := by simpa using R.intFix 0 (by norm_num)
  have hf : ∀ n : ℤ, R.floorMul 0 n = 0 := by
    intro n
    unfold Rounding.floorMul
    rw [zero_mul, h0]; simp
  rw [mkDesign_ok_iff]
  constructor
  · unfold deriveCounts lostDesign
    have h1 : lostParams.preTop.val = 0 := rfl
    have h2 : lostParams.preBottom.val = 0 := rfl
    have h3 : lostParams.postTrim.val = 0 := rfl
    simp only [h1, h2, h3, hf]
    rfl
  · rw [validateDesign_ok_iff]
    refine ⟨⟨(by decide : (0 : ℤ) < 4), (by decide : (0 : ℤ) ≤ 0), le_refl _, le_refl _, le_refl _, ?_, ?_,
      by simp [lostDesign, lostParams, sixtyParams, PyNum.val], ?_⟩, (by decide : (50 : ℤ) < 64)⟩
    · show R.rnd (0 + 0) < 1
      rw [zero_add, h0]; exact zero_lt_one
    · show (0 : ℝ) < 1 / 2
      norm_num
    · intro _
      exact ⟨0, rfl, le_refl _, by decide, by decide⟩

/-- The days with clicks of 64 items in four weeks.  The items of group 1 have one such day every week.  Those of group 0, which are treated in the second
half, have no such day until the last week, and then one. -/
def lostData : Frame ℝ where
  cols := ["id", "week", "t", "any"]
  rows := (List.range 256).map (fun (j : ℕ) c => if c = "id" then .int ((j / 4 : ℕ) : ℤ) else if c = "week" then .int ((j % 4 : ℕ) : ℤ)
    else if c = "t" then .int ((j / 4 % 2 : ℕ) : ℤ) else .int (if j / 4 % 2 = 1 ∨ j % 4 = 3 then 1 else 0))

theorem lostData_items (c : Cell ℝ) : (∃ r ∈ lostData.rows, r "id" = c) ↔ ∃ k : ℕ, k < 64 ∧ c = .int k := by
  unfold lostData
  simp only [List.mem_map, List.mem_range]
  constructor
  · rintro ⟨r, ⟨j, hj, rfl⟩, rfl⟩
    exact ⟨j / 4, by omega, by simp⟩
  · rintro ⟨k, hk, rfl⟩
    exact ⟨_, ⟨4 * k, by omega, rfl⟩, by simp⟩

theorem lostData_experiment : Spec.ExperimentData lostDesign "id" "week" "t" ["any"] lostData := by
  classical
  refine ⟨by simp [lostData], by decide, by decide, ?_, ?_, ?_, ?_, ?_, ?_⟩
  · intro r hr
    obtain ⟨j, -, rfl⟩ := List.mem_map.mp hr
    refine ⟨((j % 4 : ℕ) : ℤ), by simp, ?_, ?_⟩
    · show -(0 : ℤ) ≤ _
      omega
    · show _ < (4 : ℤ)
      omega
  · intro w h1 h2
    have h1 : -(0 : ℤ) ≤ w := h1
    have h2 : w < (4 : ℤ) := h2
    refine ⟨_, List.mem_map.mpr ⟨w.toNat, by rw [List.mem_range]; omega, rfl⟩, ?_⟩
    simp only [show ("week" = "id") = False by decide, if_false, if_true]
    congr 1
    omega
  · intro r hr
    obtain ⟨j, -, rfl⟩ := List.mem_map.mp hr
    exact fun e => by cases e
  · refine ⟨fun c => match c with | .int z => decide (z % 2 = 1) | _ => false, ?_⟩
    intro r hr
    obtain ⟨j, -, rfl⟩ := List.mem_map.mp hr
    show (Cell.int ((j / 4 % 2 : ℕ) : ℤ) : Cell ℝ) = .int (if decide (((j / 4 : ℕ) : ℤ) % 2 = 1) = true then 1 else 0)
    congr 1
    by_cases h : ((j / 4 : ℕ) : ℤ) % 2 = 1
    · simp only [h, decide_true, if_true]
      omega
    · simp only [h, decide_false, Bool.false_eq_true, if_false]
      omega
  · have e : Spec.itemsOf lostData "id" (fun _ => True) = (List.range 64).toFinset.image (fun i : ℕ => (Cell.int (i : ℤ) : Cell ℝ)) := by
      ext c
      unfold Spec.itemsOf
      simp only [decide_true, List.filter_true, List.mem_toFinset, List.mem_map, lostData_items, Finset.mem_image, List.mem_range]
      constructor
      · rintro ⟨k, hk, rfl⟩
        exact ⟨k, hk, rfl⟩
      · rintro ⟨k, hk, rfl⟩
        exact ⟨k, hk, rfl⟩
    rw [e, Finset.card_image_of_injective]
    · rfl
    · intro x y h
      exact_mod_cast Cell.int.inj h
  · intro c hc r hr
    obtain rfl := List.mem_singleton.mp hc
    obtain ⟨j, -, rfl⟩ := List.mem_map.mp hr
    exact ⟨_, rfl⟩

theorem lostData_group (b : Bool) (k : ℕ) (hk : k < 64) : Spec.InGroup lostData "id" "t" b (.int k) ↔ k % 2 = if b then 1 else 0 := by
  unfold Spec.InGroup lostData
  simp only [List.mem_map, List.mem_range]
  constructor
  · rintro ⟨r, ⟨j, hj, rfl⟩, e1, e2⟩
    simp only [if_true, Cell.int.injEq, show ("t" = "id") = False by decide, show ("t" = "week") = False by decide, if_false] at e1 e2
    cases b <;> simp at e2 ⊢ <;> omega
  · intro h
    refine ⟨_, ⟨4 * k, by omega, rfl⟩, ?_, ?_⟩
    · simp
    · simp only [if_true, Cell.int.injEq, show ("t" = "id") = False by decide, show ("t" = "week") = False by decide, if_false]
      cases b <;> simp at h ⊢ <;> omega

/-- The days with clicks of an item in the weeks `lo, ..., hi - 1`, by computation. -/
def lostTotal (lo hi k : ℕ) : ℤ :=
  (((List.range 256).filter (fun j => decide (j / 4 = k) && (decide (lo ≤ j % 4) && decide (j % 4 < hi)))).map
    (fun j => if j / 4 % 2 = 1 ∨ j % 4 = 3 then (1 : ℤ) else 0)).sum

theorem lostData_weekly (lo hi k : ℕ) : Spec.weeklyValue lostData "id" "week" "any" lo hi (.int k) = lostTotal lo hi k / ((hi - lo : ℤ) : ℝ) := by
  classical
  unfold Spec.weeklyValue lostTotal
  congr 1
  unfold lostData
  rw [List.filter_map, List.map_map]
  have e : ((List.range 256).filter ((fun r : Row ℝ => decide (r "id" = .int k ∧ ∃ w : ℤ, r "week" = .int w ∧ (lo : ℤ) ≤ w ∧ w < hi)) ∘
      (fun (j : ℕ) c => if c = "id" then .int ((j / 4 : ℕ) : ℤ) else if c = "week" then .int ((j % 4 : ℕ) : ℤ)
        else if c = "t" then .int ((j / 4 % 2 : ℕ) : ℤ) else .int (if j / 4 % 2 = 1 ∨ j % 4 = 3 then 1 else 0)))) =
      (List.range 256).filter (fun j => decide (j / 4 = k) && (decide (lo ≤ j % 4) && decide (j % 4 < hi))) := by
    refine List.filter_congr fun j _ => ?_
    rw [← Bool.decide_and, ← Bool.decide_and]
    refine decide_eq_decide.mpr ?_
    simp only [if_true, Cell.int.injEq, show ("week" = "id") = False by decide, if_false, exists_eq_left']
    omega
  rw [e]
  generalize (List.range 256).filter (fun j => decide (j / 4 = k) && (decide (lo ≤ j % 4) && decide (j % 4 < hi))) = l
  induction l with
  | nil => simp
  | cons j l ih =>
    simp only [List.map_cons, List.sum_cons, ih, Int.cast_add]
    congr 1

theorem lostTotal_values : ∀ k < 64, lostTotal 0 2 k = (if k % 2 = 1 then 2 else 0) ∧ lostTotal 2 4 k = (if k % 2 = 1 then 2 else 1) := by
  decide +kernel

/-- The metric of the example: the days with clicks, of which the fraction 1/64 is trimmed at each end. -/
noncomputable def lostMetric : Metric := ⟨"any", "any", none, some (1 / 64)⟩

theorem lostData_item (k : ℕ) (hk : k < 64) : Spec.crossoverItem lostDesign lostData "id" "week" "t" "any" (.int k) =
    ⟨k % 2 = 1, if k % 2 = 1 then 1 else 0, if k % 2 = 1 then 1 else 1 / 2⟩ := by
  obtain ⟨e1, e2⟩ := lostTotal_values k hk
  have h1 := lostData_weekly 0 2 k
  have h2 := lostData_weekly 2 4 k
  rw [e1] at h1
  rw [e2] at h2
  unfold Spec.crossoverItem Spec.crossoverOf
  rw [Spec.CrossoverItem.mk.injEq]
  refine ⟨propext (lostData_group true k hk), ?_, ?_⟩
  · show Spec.weeklyValue lostData "id" "week" "any" ((0 : ℕ) : ℤ) ((2 : ℕ) : ℤ) _ = _
    rw [h1]
    split <;> norm_num
  · show Spec.weeklyValue lostData "id" "week" "any" ((2 : ℕ) : ℤ) ((4 : ℕ) : ℤ) _ = _
    rw [h2]
    split <;> norm_num

theorem lost_kept {R : Rounding ℝ} {argsort : List ℝ → List ℕ} (ha : ArgsortOk argsort) {D : TDist} {v1 v2 : List ℝ} {r : TestResult} (hl : v1.length = 64)
    (h : pairedTest R argsort D v1 v2 (1 / 64) none none "two-sided" (1 / 20) = .ok r) :
    ∃ kept : List (ℝ × ℝ), kept.Sublist (v1.zip v2) ∧ kept.length = 62 ∧
      r.absoluteDifference = fin ((kept.map (fun p => p.1 - p.2)).sum / 62) := by
  have hlen : v1.length = v2.length := by
    unfold pairedTest at h
    obtain ⟨h0, -⟩ := raiseIf_bind_ok.mp h
    exact not_not.mp h0
  obtain ⟨g, kept, ss, hg, ⟨hsub, low, high, hperm, k1, k2, -⟩, -, hd, -⟩ := C83_paired_test_reports R argsort ha D v1 v2 _ _ _ r h
  have hg1 : g = 1 := by
    rw [hl] at hg
    have e : (1 / 64 : ℝ) * ((64 : ℕ) : ℝ) = ((1 : ℤ) : ℝ) := by norm_num
    rw [e, R.intFix 1 (by norm_num)] at hg
    simpa using hg
  have hk : kept.length = 62 := by
    have := hperm.length_eq
    rw [List.length_append, List.length_append, k1, k2, hg1, List.length_zip, ← hlen, hl] at this
    omega
  refine ⟨kept, hsub, hk, ?_⟩
  rw [hd]
  unfold Spec.mean
  rw [List.length_map, List.length_map, hk, ← sub_div]
  congr 2
  clear * -
  induction kept with
  | nil => simp
  | cons p l ih => simp only [List.map_cons, List.sum_cons, ← ih]; ring

theorem lostData_length {items : List (Cell ℝ)} (hit : Spec.ListsAll lostData "id" items) : items.length = 64 := by
  classical
  have e : items.toFinset = Spec.itemsOf lostData "id" (fun _ => True) := by
    ext c
    unfold Spec.itemsOf
    simp only [decide_true, List.filter_true, List.mem_toFinset, List.mem_map]
    exact hit.2 c
  have h : _ = (64 : ℤ) := lostData_experiment.count
  rw [← e, List.toFinset_card_of_nodup hit.1] at h
  exact_mod_cast h

theorem lostData_perm {items : List (Cell ℝ)} (hit : Spec.ListsAll lostData "id" items) : items.Perm ((List.range 64).map (fun k : ℕ => .int k)) := by
  refine (List.perm_ext_iff_of_nodup hit.1 ?_).mpr ?_
  · exact List.nodup_range.map fun x y h => by exact_mod_cast Cell.int.inj h
  · intro c
    rw [hit.2, lostData_items]
    simp only [List.mem_map, List.mem_range]
    exact ⟨fun ⟨k, hk, e⟩ => ⟨k, hk, e.symm⟩, fun ⟨k, hk, e⟩ => ⟨k, hk, e.symm⟩⟩

theorem lostMetric_fits : Spec.MetricsFrom ["any"] [lostMetric] := by
  refine ⟨by simp, fun m hm => ?_⟩
  obtain rfl := List.mem_singleton.mp hm
  refine ⟨by simp [lostMetric], by simp [lostMetric], ?_⟩
  intro q hq
  cases hq
  norm_num

/-- What is reported, and what should be. -/
theorem lost_analysis (R : Rounding ℝ) (argsort : List ℝ → List ℕ) (ha : ArgsortOk argsort) (D : TDist) :
    ∃ r, (analyzeExperiment R argsort D lostDesign.toDesignParams [lostMetric] "week" "id" "t" lostData).1 = .ok [(lostMetric.name, r)] ∧
      r.absoluteDifference = fin 0 ∧
      ∀ items, Spec.ListsAll lostData "id" items → ∀ r', Spec.ReportsCrossover R argsort D lostDesign lostData "id" "week" "t" items lostMetric r' →
        ∃ x, 0 < x ∧ r'.absoluteDifference = fin x := by
  have hm := lostMetric_fits
  obtain ⟨rows, hrows, hnames⟩ := C103_crossover_analysed R argsort ha D _ _ (lostDesign_created R) (by show (64 : ℤ) ≤ 2 ^ 53; norm_num) rfl "id" "week" "t" ["any"]
    lostData lostData_experiment [lostMetric] hm (by
      intro m hm q hq
      obtain rfl := List.mem_singleton.mp hm
      cases hq
      unfold Spec.EnoughLeft
      have e : (1 / 64 : ℝ) * ((lostDesign.nAfterPre.toNat : ℕ) : ℝ) = ((1 : ℤ) : ℝ) := by
        have : lostDesign.nAfterPre.toNat = 64 := rfl
        rw [this]
        norm_num
      rw [e, R.intFix 1 (by norm_num), Int.floor_intCast]
      show 2 * 1 + 1 < ((64 : ℕ) : ℤ)
      norm_num)
  obtain ⟨items, hit, h2⟩ := C115_crossover_stored R argsort D _ _ (lostDesign_created R) rfl "id" "week" "t" ["any"] lostData lostData_experiment [lostMetric] hm
    rows hrows
  have hof : ∀ {items : List (Cell ℝ)}, Spec.ListsAll lostData "id" items → ∀ c ∈ items, ∃ k : ℕ, k < 64 ∧ c = .int k :=
    fun hit c hc => (lostData_items c).mp ((hit.2 c).mp hc)
  cases h2 with
  | @cons _ e _ rows' h1 h2 =>
    cases h2
    obtain ⟨n, r⟩ := e
    obtain ⟨e1, s, v1, v2, hs, harr, hr⟩ := h1
    obtain rfl : n = lostMetric.name := e1
    refine ⟨r, hrows, ?_, ?_⟩
    · have hr : pairedTest R argsort D v1 v2 (1 / 64) none none "two-sided" (1 / 20) = .ok r := hr
      obtain ⟨e1, e2⟩ := harr.1 (by show (1 / 64 : ℝ) ≠ 0; norm_num)
      have hlose : Spec.LosesFractions (Spec.IntegerColumn lostData "any") lostDesign items (Spec.weeklyValue lostData "id" "week" "any") := by
        refine ⟨?_, ?_⟩
        · intro r hr
          obtain ⟨j, -, rfl⟩ := List.mem_map.mp hr
          exact ⟨_, rfl⟩
        · intro i hi
          obtain ⟨k, hk, rfl⟩ := hof hit i hi
          have := congrArg Spec.CrossoverItem.first (lostData_item k hk)
          refine ⟨if k % 2 = 1 then 1 else 0, ?_⟩
          refine Eq.trans this ?_
          split <;> simp
      have hd := hs.1 hlose
      have s1 : s 1 = 1 := drops_whole (hd 1) ⟨1, by simp⟩
      have s2 : s (1 / 2) = 0 := by
        obtain ⟨n, en, h1, h2, -⟩ := hd (1 / 2)
        rw [en] at h1 ⊢
        have h3 : |(n : ℝ)| < 1 := lt_of_le_of_lt h1 (by norm_num [abs_of_pos])
        have h4 : |n| < 1 := by exact_mod_cast h3
        rw [Int.abs_lt_one_iff.mp h4, Int.cast_zero]
      have hz : ∀ x ∈ v1.zip v2, x.1 - x.2 = 0 := by
        rw [e1, e2, List.map_map, List.map_map, List.zip_map', ]
        intro x hx
        obtain ⟨i, hi, rfl⟩ := List.mem_map.mp hx
        obtain ⟨k, hk, rfl⟩ := hof hit i hi
        have ei := lostData_item k hk
        unfold Spec.crossoverItem at ei
        have em : lostMetric.column = "any" := rfl
        simp only [Function.comp, em, ei, Spec.CrossoverItem.stored, Spec.CrossoverItem.treated, Spec.CrossoverItem.untreated]
        by_cases h : k % 2 = 1
        · simp [h, s1]
        · simp only [h, if_false, s2]
          norm_num
      obtain ⟨kept, hsub, -, hd⟩ := lost_kept ha (by rw [e1, List.length_map, List.length_map]; exact lostData_length hit) hr
      rw [hd]
      have h0 : kept.map (fun p => p.1 - p.2) = kept.map (fun _ => (0 : ℝ)) := List.map_congr_left fun x hx => hz x (hsub.subset hx)
      rw [h0]
      simp
    · clear hrows hnames hit harr hr hs
      rintro items hit r' ⟨v1, v2, harr, hr⟩
      have hr : pairedTest R argsort D v1 v2 (1 / 64) none none "two-sided" (1 / 20) = .ok r' := hr
      obtain ⟨e1, e2⟩ := harr.1 (by show (1 / 64 : ℝ) ≠ 0; norm_num)
      obtain ⟨kept, hsub, hk, hd⟩ := lost_kept ha (by rw [e1, List.length_map, List.length_map]; exact lostData_length hit) hr
      refine ⟨_, ?_, hd⟩
      have hval : ∀ k : ℕ, k < 64 → ∀ i : Spec.CrossoverItem, i = Spec.crossoverItem lostDesign lostData "id" "week" "t" "any" (.int k) →
          i.treated 0 0 - i.untreated 0 0 = if k % 2 = 1 then 0 else 1 / 2 := by
        rintro k hk i rfl
        rw [lostData_item k hk]
        by_cases h : k % 2 = 1 <;> simp [h, Spec.CrossoverItem.treated, Spec.CrossoverItem.untreated]
      have ez : v1.zip v2 = items.map (fun c => ((Spec.crossoverItem lostDesign lostData "id" "week" "t" "any" c).treated 0 0,
          (Spec.crossoverItem lostDesign lostData "id" "week" "t" "any" c).untreated 0 0)) := by
        rw [e1, e2, List.map_map, List.map_map, List.zip_map']
        rfl
      have hpos : ∀ x ∈ v1.zip v2, 0 ≤ x.1 - x.2 := by
        rw [ez]
        intro x hx
        obtain ⟨i, hi, rfl⟩ := List.mem_map.mp hx
        obtain ⟨k, hk, rfl⟩ := hof hit i hi
        dsimp only
        rw [hval k hk _ rfl]
        split <;> norm_num
      classical
      have hcount : (v1.zip v2).countP (fun x => decide (x.1 - x.2 = 0)) = 32 := by
        rw [ez, List.countP_map, (lostData_perm hit).countP_eq, List.countP_map]
        have : (List.range 64).countP (fun k => decide (k % 2 = 1)) = 32 := by decide +kernel
        rw [← this]
        refine List.countP_congr fun k hk => ?_
        simp only [Function.comp, decide_eq_true_eq]
        rw [hval k (List.mem_range.mp hk) _ rfl]
        by_cases h : k % 2 = 1 <;> simp [h]
      obtain ⟨x, hx, hne⟩ : ∃ x ∈ kept, x.1 - x.2 ≠ 0 := by
        by_contra hcon
        push Not at hcon
        have h1 : kept.countP (fun x => decide (x.1 - x.2 = 0)) = kept.length := List.countP_eq_length.mpr fun x hx => by simpa using hcon x hx
        have h2 := hsub.countP_le (p := fun x => decide (x.1 - x.2 = 0))
        omega
      have hx0 : 0 < x.1 - x.2 := lt_of_le_of_ne (hpos x (hsub.subset hx)) (Ne.symm hne)
      have := List.single_le_sum (l := kept.map (fun p => p.1 - p.2)) (by
        intro y hy
        obtain ⟨z, hz, rfl⟩ := List.mem_map.mp hy
        exact hpos z (hsub.subset hz)) (x.1 - x.2) (List.mem_map.mpr ⟨x, hx, rfl⟩)
      have : 0 < (kept.map (fun p => p.1 - p.2)).sum := lt_of_lt_of_le hx0 this
      positivity

/-- **C115, crossover experiments, refuted for a metric held as integers.**  The items treated in the second half become active while they are treated, the others do
not change: what the analysis should report is a positive difference.  It reports 0, since the fractions of the values of the second half are dropped. -/
theorem C115_crossover_false (R : Rounding ℝ) (argsort : List ℝ → List ℕ) (ha : ArgsortOk argsort) (D : TDist) :
    ∃ (p : DesignParams ℝ) (d : Design ℝ) (f : Frame ℝ) (m : Metric) (r : TestResult), mkDesign R p = .ok d ∧ d.isCrossover = true ∧
      Spec.ExperimentData d "id" "week" "t" ["any"] f ∧ Spec.MetricsFrom ["any"] [m] ∧
      (analyzeExperiment R argsort D d.toDesignParams [m] "week" "id" "t" f).1 = .ok [(m.name, r)] ∧ r.absoluteDifference = fin 0 ∧
      ∀ items, Spec.ListsAll f "id" items → ∀ r', Spec.ReportsCrossover R argsort D d f "id" "week" "t" items m r' →
        ∃ x, 0 < x ∧ r'.absoluteDifference = fin x := by
  obtain ⟨r, h1, h2, h3⟩ := lost_analysis R argsort ha D
  exact ⟨lostParams, lostDesign, lostData, lostMetric, r, lostDesign_created R, rfl, lostData_experiment, lostMetric_fits, h1, h2, h3⟩

/-- **C38, refuted for a metric held as integers.**  The analysis of a pivoted table returns, and what it returns is not the paired test of the treated and untreated
values of the items. -/
theorem C38_crossover_pairs_false (R : Rounding ℝ) (argsort : List ℝ → List ℕ) (ha : ArgsortOk argsort) (D : TDist) :
    ∃ (piv : Pivoted ℝ) (d : DesignParams ℝ) (metric : String) (override : Option ℝ) (r : TestResult), (∀ k ∈ piv.index, k.length = 2) ∧ d.isCrossover = true ∧
      analyzeSingleMetric R argsort D piv [metric] ["id", "t"] d metric none "t" override = .ok r ∧
      ¬ ∃ items v1 v2, Spec.CrossoverItems piv metric items ∧ CrossoverArrays items (override.getD d.postTrim.val) v1 v2 ∧
        pairedTest R argsort D v1 v2 (override.getD d.postTrim.val) none none "two-sided" (1 / 20) = .ok r := by
  obtain ⟨r, h1, h2, h3⟩ := lost_analysis R argsort ha D
  obtain ⟨piv, hP, hrows⟩ := analyze_rows (lostDesign_created R) lostData_experiment lostMetric_fits h1
  obtain ⟨-, hmem, hr⟩ := (List.forall₂_cons.mp hrows).1
  obtain ⟨-, -, hidx, -, -⟩ := hP.plain lostData_experiment.names
  refine ⟨piv, lostDesign.toDesignParams, "any", some (1 / 64), r, hidx, rfl, hr, ?_⟩
  rintro ⟨items, v1, v2, hit, harr, hp⟩
  rw [hP.crossoverItems (lostDesign_created R) rfl lostData_experiment (mem_metricColumns lostMetric_fits) (m := "any") (by simp [metricColumns, lostMetric]) hit] at harr
  obtain ⟨x, hx, e⟩ := h3 _ (hP.listsAll lostData_experiment) r ⟨v1, v2, harr, hp⟩
  rw [h2] at e
  have := Fl.fin.inj e
  linarith

end Feedx
