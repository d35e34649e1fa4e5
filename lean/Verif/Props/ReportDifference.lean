import Verif.Props.ReportRaw

/-!
Property C115 in one formula: the difference reported by an untrimmed analysis, from the performance data and the assignment table.
-/

namespace Feedx
open Fl

open Classical in
/-- The number of items assigned to a group. -/
noncomputable def Spec.assignedItems (E : Ext ℝ) (assign : Frame ℝ) (treatCol : String) (b : Bool) : ℕ :=
  assign.rows.countP (fun r => decide (E.toInt (r treatCol) = .ok (if b then 1 else 0)))

/-- The total of a group of assigned items in the runtime, per week and item. -/
noncomputable def Spec.rawAverage (E : Ext ℝ) (perf assign : Frame ℝ) (itemCol dateCol treatCol : String) (start : ℤ) (v : Row ℝ → ℝ) (b : Bool) (weeks : ℤ) : ℝ :=
  Spec.rawTotal E perf assign itemCol dateCol treatCol start v b 0 weeks / (weeks * Spec.assignedItems E assign treatCol b)

/-- **C115, from the raw data, in one formula.**  In a regular experiment without pretest weeks, prepared from the performance data and the assignment table and
analysed without trimming, the difference reported for a metric is the difference of the totals of the performance data of the two groups, per week and
assigned item; the control average is that of group 0.  Items without performance data count as 0. -/
theorem C115_raw_difference (R : Rounding ℝ) (argsort : List ℝ → List ℕ) (D : TDist) (p : DesignParams ℝ) (d : Design ℝ) (hd : mkDesign R p = .ok d)
    (hx : d.isCrossover = false) (hpre : d.pretest = 0) (C : Checker ℝ) (perf assign out : Frame ℝ) (startDate itemCol dateCol treatCol : String)
    (a : ExperimentArgs) (h : prepareExperiment C perf assign d startDate itemCol dateCol treatCol a = .ok out) (hskip : a.skip = [])
    (hcon : a.concluded = true) (hn : Spec.NamesFit perf assign itemCol dateCol treatCol a) (metrics : List Metric)
    (hm : Spec.MetricsFrom (preparedMetrics a ++ a.atLeastOne.map Prod.snd) metrics) (rows : List (String × TestResult))
    (hr : (analyzeExperiment R argsort D d.toDesignParams metrics "week_id" "item_id" "treatment_assignment" (out.dropCol "time_period")).1 = .ok rows) :
    ∃ start, C.ext.strptime startDate = some start ∧
      List.Forall₂ (fun m e => e.1 = m.name ∧ ∀ v, Spec.RawReads C.ext a m.column v → m.override.getD d.postTrim.val = 0 → m.denominator = none →
        let A := fun b => Spec.rawAverage C.ext perf assign itemCol dateCol treatCol start v b d.runtime
        e.2.sampleSize = Spec.assignedItems C.ext assign treatCol true + Spec.assignedItems C.ext assign treatCol false ∧
        e.2.absoluteDifference = fin (A true - A false) ∧ e.2.controlAverage = fin (A false)) metrics rows := by
  obtain ⟨start, hst, htot⟩ := C115_raw_totals R p d hd C perf assign out startDate itemCol dateCol treatCol a h hskip hcon hn
  obtain ⟨start', hst', P⟩ := prepared hd h hskip hcon hn
  obtain ⟨-, hrun⟩ := created_pretest hd
  refine ⟨start, hst, (C115_regular_totals R argsort D p d hd hx hpre _ _ _ _ _ P.data metrics hm rows hr).imp ?_⟩
  rintro m ⟨nm, r⟩ ⟨rfl, k⟩
  refine ⟨rfl, fun v hv hq hden => ?_⟩
  obtain ⟨k1, k2, -⟩ := k hq
  obtain ⟨k2, k3⟩ := k2 hden
  have card : ∀ b, (Spec.groupItems (out.dropCol "time_period") "item_id" "treatment_assignment" b).card = Spec.assignedItems C.ext assign treatCol b := by
    intro b
    rw [(htot b).2]
    unfold Spec.assignedItems
    congr!
  have av : ∀ b, Spec.groupAverage (out.dropCol "time_period") "item_id" "week_id" "treatment_assignment" m.column b 0 d.runtime =
      Spec.rawAverage C.ext perf assign itemCol dateCol treatCol start v b d.runtime := by
    intro b
    unfold Spec.groupAverage Spec.rawAverage
    rw [(htot b).1 m.column v hv 0 d.runtime hrun, card b, sub_zero]
  rw [card, card] at k1
  rw [av, av] at k2
  rw [av] at k3
  exact ⟨k1, k2, k3⟩

/-! ### Example -/

/-- One week of performance data of the sixty items: 2 clicks for a treated item, 1 for another. -/
noncomputable def weekPerf : Frame ℝ where
  cols := ["id", "day", "clk"]
  rows := ((List.range 60).map toString).map (fun i c => if c = "id" then .str i else if c = "day" then .time (7 * 86400000000000)
    else if c = "clk" then .num (1 + ((Coinflip.mk "abc").flip i : ℕ)) else .null)

theorem weekPerf_row {r : Row ℝ} (hr : r ∈ weekPerf.rows) : ∃ i : ℕ, i < 60 ∧ r "id" = .str (toString i) ∧ r "day" = .time (7 * 86400000000000) ∧
    r "clk" = .num (1 + ((Coinflip.mk "abc").flip (toString i) : ℕ)) := by
  obtain ⟨s, hs, rfl⟩ := List.mem_map.mp hr
  obtain ⟨i, hi, rfl⟩ := List.mem_map.mp hs
  exact ⟨i, List.mem_range.mp hi, rfl, rfl, rfl⟩

theorem weekPerf_date (t : ℤ) : Spec.PerfDate (runChecker ℝ).ext weekPerf "day" t ↔ t = 7 * 86400000000000 := by
  constructor
  · rintro ⟨r, hr, e⟩
    obtain ⟨i, -, -, e2, -⟩ := weekPerf_row hr
    rw [e2] at e
    exact (Option.some.inj (Except.ok.inj e)).symm
  · rintro rfl
    refine ⟨_, List.mem_map.mpr ⟨"0", by decide, rfl⟩, rfl⟩

theorem weekPerf_texts : weekPerf.rows.map (fun r => (runChecker ℝ).ext.toStr (r "id")) = (List.range 60).map toString := by
  unfold weekPerf
  simp only [List.map_map]
  rfl

theorem weekPerf_performance : Spec.CorrectPerformance (runChecker ℝ).ext weekDesign weekPerf "id" "day" runArgs (7 * 86400000000000) where
  dates := by
    intro r hr
    obtain ⟨i, -, -, e, -⟩ := weekPerf_row hr
    refine ⟨7 * 86400000000000, by rw [e]; rfl, ?_⟩
    show 7 * 86400000000000 - 0 * (7 * 86400000000000) ≤ (7 * 86400000000000 : ℤ) ∧ (7 * 86400000000000 : ℤ) < 7 * 86400000000000 + 1 * (7 * 86400000000000)
    omega
  first := (weekPerf_date _).mpr (by show (7 * 86400000000000 - 0 * (7 * 86400000000000) : ℤ) = _; norm_num)
  last := fun _ => ⟨7 * 86400000000000, (weekPerf_date _).mpr rfl,
    (by decide : (7 * 86400000000000 + (1 - 1) * (7 * 86400000000000) : ℤ) ≤ 7 * 86400000000000)⟩
  spaced := by
    refine ⟨7, Or.inr rfl, ?_⟩
    intro s t hs ht hlt _
    rw [weekPerf_date] at hs ht
    omega
  once := by
    intro s t
    have hkeys : (weekPerf.rows.map (fun r => (runChecker ℝ).ext.toStr (r "id"))).Nodup := by
      rw [weekPerf_texts]
      decide +kernel
    have := List.nodup_iff_count_le_one.mp hkeys s
    rw [List.count, List.countP_map] at this
    refine le_trans ?_ this
    unfold Spec.perfRows
    refine List.countP_mono_left fun r _ h => ?_
    simp at h ⊢
    exact h.1
  numbers := by
    intro s hs r hr
    rw [run_sources, List.mem_singleton] at hs
    subst hs
    obtain ⟨i, -, -, -, e⟩ := weekPerf_row hr
    refine ⟨(r "clk").toFl, rfl, Or.inr ⟨_, by rw [e]; rfl, fun _ => ?_⟩⟩
    positivity
  primary := by
    show "clicks" ∈ preparedMetrics runArgs
    decide

theorem weekPerf_names : Spec.NamesFit weekPerf (runAssign ℝ) "id" "day" "t" runArgs :=
  { run_names (K := ℝ) with }

theorem weekAssign_assignment : Spec.CorrectAssignment (runChecker ℝ) weekDesign (runAssign ℝ) "id" "t" "abc" 1 where
  ids := (run_assignment (K := ℝ) true).ids
  count := by
    unfold runAssign
    simp
    rfl
  salted := ⟨rfl, by decide⟩
  treated := (run_assignment (K := ℝ) true).treated
  ratio := ⟨rfl, by norm_num⟩

theorem flip_group (s : String) (b : Bool) : (Except.ok (((Coinflip.mk "abc").flip s : ℕ) : ℤ) : Py ℤ) = .ok (if b then 1 else 0) ↔
    (Coinflip.mk "abc").flip s = if b then 1 else 0 := by
  constructor
  · intro h
    have := Except.ok.inj h
    cases b <;> simp at this ⊢ <;> exact_mod_cast this
  · intro h
    rw [h]
    cases b <;> rfl

/-- The hypotheses are met, and the formula gives the difference of one click. -/
theorem week_report (R : Rounding ℝ) (argsort : List ℝ → List ℕ) (ha : ArgsortOk argsort) (D : TDist) :
    ∃ (out : Frame ℝ) (r : TestResult), prepareExperiment (runChecker ℝ) weekPerf (runAssign ℝ) weekDesign "2024-01-08" "id" "day" "t" runArgs = .ok out ∧
      (analyzeExperiment R argsort D weekDesign.toDesignParams [⟨"clicks", "clicks", none, none⟩] "week_id" "item_id" "treatment_assignment"
        (out.dropCol "time_period")).1 = .ok [("clicks", r)] ∧ r.absoluteDifference = fin 1 ∧ r.controlAverage = fin 1 ∧ r.sampleSize = 60 := by
  classical
  have hd := weekDesign_created R
  obtain ⟨out, ho⟩ := C104_correct_run_accepted R _ _ hd (runChecker ℝ) weekPerf (runAssign ℝ) "2024-01-08" "id" "day" "t" runArgs
    (7 * 86400000000000) "abc" 1 rfl weekPerf_names ⟨weekPerf_performance, weekAssign_assignment⟩ (by decide)
  obtain ⟨start, hst, P⟩ := prepared hd ho rfl rfl weekPerf_names
  obtain rfl : 7 * 86400000000000 = start := Option.some.inj hst
  have hcount : ∀ b : Bool, (runAssign ℝ).rows.countP (fun r => decide ((runChecker ℝ).ext.toInt (r "t") = .ok (if b then 1 else 0))) =
      ((List.range 60).map toString).countP (fun s => decide ((Coinflip.mk "abc").flip s = if b then 1 else 0)) := by
    intro b
    unfold runAssign
    rw [List.countP_map]
    refine List.countP_congr fun s _ => ?_
    simp only [Function.comp, decide_eq_true_eq]
    exact flip_group s b
  have hfit : Spec.MetricsFrom (preparedMetrics runArgs ++ runArgs.atLeastOne.map Prod.snd) [⟨"clicks", "clicks", none, none⟩] := by
    rw [show preparedMetrics runArgs ++ runArgs.atLeastOne.map Prod.snd = ["clicks", "any"] by decide]
    refine ⟨by simp, ?_⟩
    intro m hm
    obtain rfl := List.mem_singleton.mp hm
    exact ⟨by simp, by simp, by simp⟩
  have hread : Spec.RawReads (runChecker ℝ).ext runArgs "clicks" (Spec.rawNumber (runChecker ℝ).ext runArgs ("clicks", "clk")) :=
    Or.inl ⟨"clk", by rw [run_sources]; simp, rfl⟩
  have hv : ∀ r ∈ weekPerf.rows, Spec.rawNumber (runChecker ℝ).ext runArgs ("clicks", "clk") r =
      1 + ((Coinflip.mk "abc").flip ((runChecker ℝ).ext.toStr (r "id")) : ℕ) := by
    intro r hr
    obtain ⟨i, -, e1, -, e2⟩ := weekPerf_row hr
    rw [e1]
    simp [Spec.rawNumber, Spec.parsed, e2, runChecker, Cell.toFl]
  obtain ⟨start, hst, htot⟩ := C115_raw_totals R _ _ hd _ _ _ out _ _ _ _ _ ho rfl rfl weekPerf_names
  obtain rfl : 7 * 86400000000000 = start := Option.some.inj hst
  obtain ⟨rows, hr, -⟩ := C103_positive_regular_analysed R argsort ha D _ _ hd (by show (60 : ℤ) ≤ 2 ^ 53; norm_num) rfl rfl _ _ _ _ _ P.data _ hfit
    (by
      intro m hm q hq
      obtain rfl := List.mem_singleton.mp hm
      cases hq)
    (by
      intro m hm b
      obtain rfl := List.mem_singleton.mp hm
      refine enoughLeft_zero R ?_
      rw [(htot b).2, hcount]
      cases b <;> decide +kernel)
    (by
      intro m hm _
      obtain rfl := List.mem_singleton.mp hm
      refine controlPositive_of_weekly P.data (by show (0 : ℤ) < 1; norm_num) (hfit.2 _ (by simp)).1 ?_
      intro r hr
      obtain ⟨s0, hs0, e⟩ := (P.items _).mp (List.mem_map.mpr ⟨r, hr, rfl⟩)
      rw [e, P.weekly hread hs0]
      unfold Spec.rawWeekly
      refine div_pos (List.sum_pos _ ?_ ?_) (by show (0 : ℝ) < ((1 - 0 : ℤ) : ℝ); norm_num)
      · intro x hx
        obtain ⟨p, hp, rfl⟩ := List.mem_map.mp hx
        rw [hv p (List.mem_filter.mp hp).1]
        positivity
      · have hs : (runChecker ℝ).ext.toStr (s0 "id") ∈ weekPerf.rows.map (fun r => (runChecker ℝ).ext.toStr (r "id")) := by
          rw [weekPerf_texts, ← run_texts (K := ℝ)]
          exact List.mem_map.mpr ⟨s0, hs0, rfl⟩
        obtain ⟨p, hp, ep⟩ := List.mem_map.mp hs
        obtain ⟨i, -, -, e2, -⟩ := weekPerf_row hp
        refine List.ne_nil_of_mem (List.mem_map.mpr ⟨p, List.mem_filter.mpr ⟨hp, ?_⟩, rfl⟩)
        rw [decide_eq_true_eq]
        refine ⟨ep, 7 * 86400000000000, by rw [e2]; rfl, ?_⟩
        show (7 * 86400000000000 + 7 * 0 * 86400000000000 : ℤ) ≤ 7 * 86400000000000 ∧ (7 * 86400000000000 : ℤ) < 7 * 86400000000000 + 7 * 1 * 86400000000000
        norm_num)
  have hitems : ∀ b : Bool, Spec.assignedItems (runChecker ℝ).ext (runAssign ℝ) "t" b =
      ((List.range 60).map toString).countP (fun s => decide ((Coinflip.mk "abc").flip s = if b then 1 else 0)) := by
    intro b
    rw [← hcount b]
    unfold Spec.assignedItems
    congr!
  have hgroup : ∀ p ∈ weekPerf.rows, ∀ b : Bool, Spec.RawGroup (runChecker ℝ).ext (runAssign ℝ) "id" "t" b ((runChecker ℝ).ext.toStr (p "id")) ↔
      (Coinflip.mk "abc").flip ((runChecker ℝ).ext.toStr (p "id")) = if b then 1 else 0 := by
    intro p hp b
    constructor
    · rintro ⟨s0, hs0, e1, e2⟩
      rw [weekAssign_assignment.treated s0 hs0, e1] at e2
      exact (flip_group _ b).mp e2
    · intro h
      have hs : (runChecker ℝ).ext.toStr (p "id") ∈ (runAssign ℝ).rows.map (fun r => (runChecker ℝ).ext.toStr (r "id")) := by
        rw [run_texts, ← weekPerf_texts]
        exact List.mem_map.mpr ⟨p, hp, rfl⟩
      obtain ⟨s0, hs0, e⟩ := List.mem_map.mp hs
      refine ⟨s0, hs0, e, ?_⟩
      rw [weekAssign_assignment.treated s0 hs0, e]
      exact (flip_group _ b).mpr h
  have hA : ∀ b : Bool, Spec.rawAverage (runChecker ℝ).ext weekPerf (runAssign ℝ) "id" "day" "t" (7 * 86400000000000)
      (Spec.rawNumber (runChecker ℝ).ext runArgs ("clicks", "clk")) b weekDesign.runtime = if b then 2 else 1 := by
    intro b
    have ht : Spec.rawTotal (runChecker ℝ).ext weekPerf (runAssign ℝ) "id" "day" "t" (7 * 86400000000000)
        (Spec.rawNumber (runChecker ℝ).ext runArgs ("clicks", "clk")) b 0 1 =
        ((((List.range 60).map toString).countP (fun s => decide ((Coinflip.mk "abc").flip s = if b then 1 else 0)) : ℕ) : ℝ) * if b then 2 else 1 := by
      unfold Spec.rawTotal
      rw [List.map_congr_left (g := fun _ => if b then (2 : ℝ) else 1)]
      · rw [List.map_const', List.sum_replicate, nsmul_eq_mul]
        refine congrArg (fun n : ℕ => (n : ℝ) * if b then 2 else 1) ?_
        rw [← List.countP_eq_length_filter, ← weekPerf_texts, List.countP_map]
        refine List.countP_congr fun p hp => ?_
        simp only [Function.comp, decide_eq_true_eq]
        rw [hgroup p hp b]
        refine ⟨fun h => h.1, fun h => ⟨h, 7 * 86400000000000, ?_, by norm_num⟩⟩
        obtain ⟨i, -, -, e2, -⟩ := weekPerf_row hp
        rw [e2]
        rfl
      · intro p hp
        obtain ⟨hp, h⟩ := List.mem_filter.mp hp
        rw [decide_eq_true_eq] at h
        rw [hv p hp, (hgroup p hp b).mp h.1]
        cases b <;> norm_num
    unfold Spec.rawAverage
    rw [show weekDesign.runtime = 1 from rfl, ht, hitems]
    have h0 : (((List.range 60).map toString).countP (fun s => decide ((Coinflip.mk "abc").flip s = if b then 1 else 0)) : ℕ) ≠ 0 := by
      cases b <;> decide +kernel
    have h0' : ((((List.range 60).map toString).countP (fun s => decide ((Coinflip.mk "abc").flip s = if b then 1 else 0)) : ℕ) : ℝ) ≠ 0 := by
      exact_mod_cast h0
    field_simp
    norm_num
  obtain ⟨start, hst, h⟩ := C115_raw_difference R argsort D _ _ hd rfl rfl _ _ _ out _ _ _ _ _ ho rfl rfl weekPerf_names _ hfit rows hr
  obtain rfl : 7 * 86400000000000 = start := Option.some.inj hst
  cases h with
  | cons h1 h2 =>
    cases h2
    rename_i e
    obtain ⟨nm, r⟩ := e
    obtain ⟨rfl, h1⟩ := h1
    obtain ⟨k1, k2, k3⟩ := h1 _ hread rfl rfl
    dsimp only at k2 k3
    rw [hA, hA] at k2
    rw [hA] at k3
    rw [hitems, hitems] at k1
    refine ⟨out, r, ho, hr, ?_, ?_, ?_⟩
    · rw [k2]
      norm_num
    · rw [k3]
      norm_num
    · rw [k1]
      decide +kernel

end Feedx
