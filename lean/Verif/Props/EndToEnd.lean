import Verif.Proofs.EndToEnd
import Verif.Props.CorrectRun
import Verif.Props.Analysis

/-!
C103: prepared experiment data can be analysed, once its column "time_period" is dropped.
-/

set_option linter.unusedSectionVars false
set_option linter.unusedSimpArgs false

namespace Feedx
open Fl

variable {R : Rounding ℝ} {argsort : List ℝ → List ℕ} {D : TDist}

theorem mapM_outcome {α β : Type} {g : α → Py β} {e : PyErr} {P : α → Prop} {l : List α}
    (h : ∀ x ∈ l, (∃ y, g x = .ok y) ∨ (P x ∧ g x = .error e)) :
    (∃ ys, l.mapM g = .ok ys) ∨ ((∃ x ∈ l, P x ∧ g x = .error e) ∧ l.mapM g = .error e) := by
  induction l with
  | nil => exact Or.inl ⟨[], rfl⟩
  | cons x l ih =>
    rw [List.mapM_cons]
    rcases h x (by simp) with ⟨y, hy⟩ | ⟨hP, hx⟩
    · rcases ih (fun z hz => h z (by simp [hz])) with ⟨ys, hys⟩ | ⟨⟨z, hz, hPz, hez⟩, he⟩
      · exact Or.inl ⟨y :: ys, by rw [hy, hys]; rfl⟩
      · exact Or.inr ⟨⟨z, by simp [hz], hPz, hez⟩, by rw [hy, he]; rfl⟩
    · exact Or.inr ⟨⟨x, by simp, hP, hx⟩, by rw [hx]; rfl⟩

theorem named_rows {g : Metric → Py TestResult} {l : List Metric} {rows : List (String × TestResult)}
    (h : l.mapM (fun m => do
      let r ← g m
      pure (m.name, r)) = .ok rows) : rows.map Prod.fst = l.map Metric.name := by
  have := mapM_ok h
  clear h
  induction this with
  | nil => rfl
  | cons h _ ih =>
    obtain ⟨r, -, e⟩ := Py.bind_eq_ok.mp h
    cases e
    simp [ih]

/-- The design leaves enough of its items. -/
theorem design_enough_left {p : DesignParams ℝ} {d : Design ℝ} (hd : mkDesign R p = .ok d) {n : ℕ} (hn : (n : ℤ) = d.nAfterPre) :
    0 ≤ d.postTrim.val ∧ d.postTrim.val < 1 / 2 ∧ Spec.EnoughLeft R d.postTrim.val n := by
  obtain ⟨hdd, hvalid⟩ := (mkDesign_ok_iff R p d).mp hd
  obtain ⟨hleg, h50⟩ := (validateDesign_ok_iff R _).mp hvalid
  refine ⟨hleg.post_nonneg, hleg.post_lt_half, ?_⟩
  have hpost : d.nAfterPost = d.nAfterPre - 2 * R.floorMul d.postTrim.val d.nAfterPre := by rw [hdd]; rfl
  have h50 : 50 < d.nAfterPost := h50
  have hcast : (n : ℝ) = (d.nAfterPre : ℝ) := by rw [← hn]; simp
  unfold Spec.EnoughLeft
  rw [hcast]
  unfold Rounding.floorMul at hpost
  omega

theorem override_ok {p : DesignParams ℝ} {d : Design ℝ} (hd : mkDesign R p = .ok d) {columns : List String} {metrics : List Metric}
    (hm : Spec.MetricsFrom columns metrics) {n : ℕ} (hn : (n : ℤ) = d.nAfterPre)
    (hleft : ∀ m ∈ metrics, ∀ q, m.override = some q → Spec.EnoughLeft R q n) {m : Metric} (hmem : m ∈ metrics) :
    0 ≤ m.override.getD d.postTrim.val ∧ m.override.getD d.postTrim.val < 1 / 2 ∧
      Spec.EnoughLeft R (m.override.getD d.postTrim.val) n := by
  cases hq : m.override with
  | none => exact design_enough_left hd hn
  | some q => exact ⟨((hm.2 m hmem).2.2 q hq).1, ((hm.2 m hmem).2.2 q hq).2, hleft m hmem q hq⟩

/-- **C103, crossover.**  The data of a crossover experiment can always be analysed: for every choice of metrics, with or without
denominators, the analysis returns one row per metric, in the given order.  (Own trimming fractions leave at least two items; those of
the design always do.) -/
theorem C103_crossover_analysed (R : Rounding ℝ) (argsort : List ℝ → List ℕ) (ha : ArgsortOk argsort) (D : TDist) (p : DesignParams ℝ)
    (d : Design ℝ) (hd : mkDesign R p = .ok d) (hn : d.nAfterPre ≤ 2 ^ 53) (hx : d.isCrossover = true) (itemCol weekCol treatCol : String)
    (columns : List String) (f : Frame ℝ) (hf : Spec.ExperimentData d itemCol weekCol treatCol columns f) (metrics : List Metric)
    (hm : Spec.MetricsFrom columns metrics)
    (hleft : ∀ m ∈ metrics, ∀ q, m.override = some q → Spec.EnoughLeft R q d.nAfterPre.toNat) :
    ∃ rows, (analyzeExperiment R argsort D d.toDesignParams metrics weekCol itemCol treatCol f).1 = .ok rows ∧
      rows.map Prod.fst = metrics.map Metric.name := by
  obtain ⟨piv, f', hpiv, hP⟩ := analysable_pivot hd hf (mem_metricColumns hm)
  have hlen : d.nAfterPre.toNat = piv.index.length := by have := hP.length; omega
  have hle : piv.index.length ≤ 2 ^ 53 := by have := hP.length; omega
  have hrow : ∀ m ∈ metrics, ∃ y, (do
      let r ← analyzeSingleMetric R argsort D piv (metricColumns metrics) [itemCol, treatCol] d.toDesignParams m.column m.denominator
        treatCol m.override
      pure (m.name, r) : Py (String × TestResult)) = .ok y := by
    intro m hmem
    obtain ⟨q0, q1, q2⟩ := override_ok hd hm (n := piv.index.length) hP.length (by rw [← hlen]; exact hleft) hmem
    obtain ⟨r, hr⟩ := hP.crossover (D := D) hd hf.names ha hx (m := m.column) (den := m.denominator) (override := m.override)
      (List.mem_append_left _ (List.mem_map.mpr ⟨m, hmem, rfl⟩))
      (fun c hc => List.mem_append_right _ (List.mem_filterMap.mpr ⟨m, hmem, hc⟩)) q0 q1 hle q2
    exact ⟨(m.name, r), by rw [hr]; rfl⟩
  rcases mapM_outcome (e := PyErr.outOfModel) (P := fun _ => False) (fun m hmem => Or.inl (hrow m hmem)) with ⟨rows, hrows⟩ | ⟨⟨_, _, h, _⟩, _⟩
  · have hres : (analyzeExperiment R argsort D d.toDesignParams metrics weekCol itemCol treatCol f).1 = .ok rows := by
      unfold analyzeExperiment
      rw [if_neg hm.1]
      simp only [hpiv]
      exact hrows
    exact ⟨rows, hres, named_rows hrows⟩
  · exact absurd h id

/-- **C103, regular experiments (part).**  The data of a regular experiment can be analysed, if both groups have enough items left after
trimming: the analysis returns one row per metric, in the given order, or raises `ZeroDivisionError` because of a metric without denominator
(C34), which does not happen without pretest weeks if all the control items have positive totals.  Missing: metrics with zeros. -/
theorem C103_regular_analysed_partial (R : Rounding ℝ) (argsort : List ℝ → List ℕ) (ha : ArgsortOk argsort) (D : TDist) (p : DesignParams ℝ)
    (d : Design ℝ) (hd : mkDesign R p = .ok d) (hn : d.nAfterPre ≤ 2 ^ 53) (hx : d.isCrossover = false) (itemCol weekCol treatCol : String)
    (columns : List String) (f : Frame ℝ) (hf : Spec.ExperimentData d itemCol weekCol treatCol columns f) (metrics : List Metric)
    (hm : Spec.MetricsFrom columns metrics)
    (hleft : ∀ m ∈ metrics, ∀ q, m.override = some q → Spec.EnoughLeft R q d.nAfterPre.toNat)
    (hgroups : ∀ m ∈ metrics, ∀ b, Spec.EnoughLeft R (m.override.getD d.postTrim.val) (Spec.groupItems f itemCol treatCol b).card) :
    (∃ rows, (analyzeExperiment R argsort D d.toDesignParams metrics weekCol itemCol treatCol f).1 = .ok rows ∧
      rows.map Prod.fst = metrics.map Metric.name) ∨
    ((∃ m ∈ metrics, m.denominator = none ∧ ¬ (d.pretest = 0 ∧ Spec.ControlPositive d itemCol weekCol treatCol f m.column)) ∧
      (analyzeExperiment R argsort D d.toDesignParams metrics weekCol itemCol treatCol f).1 = .error .zeroDivision) := by
  obtain ⟨piv, f', hpiv, hP⟩ := analysable_pivot hd hf (mem_metricColumns hm)
  have hlen : d.nAfterPre.toNat = piv.index.length := by have := hP.length; omega
  have hle : piv.index.length ≤ 2 ^ 53 := by have := hP.length; omega
  have hrow : ∀ m ∈ metrics, (∃ y, (do
      let r ← analyzeSingleMetric R argsort D piv (metricColumns metrics) [itemCol, treatCol] d.toDesignParams m.column m.denominator
        treatCol m.override
      pure (m.name, r) : Py (String × TestResult)) = .ok y) ∨ ((m.denominator = none ∧
      ¬ (d.pretest = 0 ∧ Spec.ControlPositive d itemCol weekCol treatCol f m.column)) ∧ (do
      let r ← analyzeSingleMetric R argsort D piv (metricColumns metrics) [itemCol, treatCol] d.toDesignParams m.column m.denominator
        treatCol m.override
      pure (m.name, r) : Py (String × TestResult)) = .error .zeroDivision) := by
    intro m hmem
    obtain ⟨q0, q1, q2⟩ := override_ok hd hm (n := piv.index.length) hP.length (by rw [← hlen]; exact hleft) hmem
    rcases hP.regular (D := D) hd hf.names ha hx (m := m.column) (den := m.denominator) (override := m.override)
      (List.mem_append_left _ (List.mem_map.mpr ⟨m, hmem, rfl⟩))
      (fun c hc => List.mem_append_right _ (List.mem_filterMap.mpr ⟨m, hmem, hc⟩)) q0 q1 hle q2 (hgroups m hmem) with ⟨r, hr⟩ | ⟨h0, h0', hr⟩
    · exact Or.inl ⟨(m.name, r), by rw [hr]; rfl⟩
    · exact Or.inr ⟨⟨h0, h0'⟩, by rw [hr]; rfl⟩
  have hres : (analyzeExperiment R argsort D d.toDesignParams metrics weekCol itemCol treatCol f).1 = metrics.mapM (fun m => do
      let r ← analyzeSingleMetric R argsort D piv (metricColumns metrics) [itemCol, treatCol] d.toDesignParams m.column m.denominator
        treatCol m.override
      pure (m.name, r)) := by
    unfold analyzeExperiment
    rw [if_neg hm.1]
    simp only [hpiv]
  rw [hres]
  rcases mapM_outcome hrow with ⟨rows, hrows⟩ | ⟨⟨m, hmem, h0, -⟩, he⟩
  · exact Or.inl ⟨rows, hrows, named_rows hrows⟩
  · exact Or.inr ⟨⟨m, hmem, h0⟩, he⟩

/-! ### Prepared data -/

theorem stepsOk_between {K : Type} {l : List (Cell K)} {x : ℤ} (hl : ∀ c ∈ l, ∃ y : ℤ, c = .int y) (h : stepsOk (.int x :: l) = true) {b : ℤ}
    (hb : .int b ∈ l) : x ≤ b ∧ ∀ w, x ≤ w → w ≤ b → .int w ∈ (.int x :: l : List (Cell K)) := by
  induction l generalizing x with
  | nil => cases hb
  | cons c l ih =>
    obtain ⟨y, rfl⟩ := hl c (by simp)
    unfold stepsOk at h
    rw [Bool.and_eq_true, decide_eq_true_eq] at h
    rcases List.mem_cons.mp hb with hb | hb
    · cases hb
      refine ⟨by omega, ?_⟩
      intro w h1 h2
      have : w = x ∨ w = b := by omega
      rcases this with rfl | rfl <;> simp
    · obtain ⟨h1, h2⟩ := ih (fun c hc => hl c (by simp [hc])) h.2 hb
      refine ⟨by omega, ?_⟩
      intro w h3 h4
      by_cases hw : w = x
      · rw [hw]; simp
      · exact List.mem_cons_of_mem _ (h2 w (by omega) h4)

theorem stepsOk_all {K : Type} {l : List (Cell K)} (hl : ∀ c ∈ l, ∃ y : ℤ, c = .int y) (h : stepsOk l = true) {a b w : ℤ}
    (ha : .int a ∈ l) (hb : .int b ∈ l) (h1 : a ≤ w) (h2 : w ≤ b) : .int w ∈ l := by
  induction l with
  | nil => cases ha
  | cons c l ih =>
    obtain ⟨x, rfl⟩ := hl c (by simp)
    have hl' : ∀ c ∈ l, ∃ y : ℤ, c = .int y := fun c hc => hl c (by simp [hc])
    have htail : stepsOk l = true := by
      cases l with
      | nil => rfl
      | cons c' l' =>
        obtain ⟨y, rfl⟩ := hl' c' (by simp)
        unfold stepsOk at h
        rw [Bool.and_eq_true] at h
        exact h.2
    rcases List.mem_cons.mp ha with ha' | ha'
    · cases ha'
      rcases List.mem_cons.mp hb with hb' | hb'
      · cases hb'
        rw [show w = a by omega]; simp
      · exact (stepsOk_between hl' h hb').2 w h1 h2
    · rcases List.mem_cons.mp hb with hb' | hb'
      · cases hb'
        have := (stepsOk_between hl' h ha').1
        rw [show w = b by omega]; simp
      · exact List.mem_cons_of_mem _ (ih hl' htail ha' hb')

theorem addAtLeastOne_int {K : Type} [Field K] [LinearOrder K] {pairs : List (String × String)} {f out : Frame K}
    (h : addAtLeastOne pairs f = .ok out) {n : String} (hn : n ∈ pairs.map Prod.snd ∨ (n ∈ f.cols ∧ ∀ r ∈ f.rows, ∃ z : ℤ, r n = .int z)) :
    n ∈ out.cols ∧ ∀ r ∈ out.rows, ∃ z : ℤ, r n = .int z := by
  induction pairs generalizing f with
  | nil =>
    cases h
    rcases hn with hn | hn
    · cases hn
    · exact hn
  | cons p pairs ih =>
    obtain ⟨m, new⟩ := p
    unfold addAtLeastOne at h
    obtain ⟨-, h⟩ := raiseIf_bind_ok.mp h
    obtain ⟨-, h⟩ := raiseIf_bind_ok.mp h
    refine ih h ?_
    by_cases hnew : n = new
    · subst hnew
      refine Or.inr ⟨(setCol_mem ..).mpr (Or.inr rfl), ?_⟩
      intro r hr
      obtain ⟨r0, -, rfl⟩ := List.mem_map.mp hr
      exact ⟨_, by rw [Function.update_self]; rfl⟩
    · rcases hn with hn | ⟨h1, h2⟩
      · simp only [List.map_cons, List.mem_cons] at hn
        exact Or.inl (hn.resolve_left hnew)
      · refine Or.inr ⟨(setCol_mem ..).mpr (Or.inl h1), ?_⟩
        intro r hr
        obtain ⟨r0, hr0, rfl⟩ := List.mem_map.mp hr
        rw [Function.update_of_ne hnew]
        exact h2 r0 hr0

theorem build_indicators {K : Type} [Field K] [LinearOrder K] {E : Ext K} {perf assign out : Frame K} {d : Design K}
    {startDate itemCol dateCol treatCol : String} {a : ExperimentArgs}
    (h : buildExperiment E perf assign d startDate itemCol dateCol treatCol a = .ok out) {n : String} (hn : n ∈ a.atLeastOne.map Prod.snd) :
    n ∈ out.cols ∧ ∀ r ∈ out.rows, ∃ z : ℤ, r n = .int z := by
  unfold buildExperiment at h
  obtain ⟨a', ea, h⟩ := Py.bind_eq_ok.mp h
  obtain ⟨missing, em, h⟩ := Py.bind_eq_ok.mp h
  obtain ⟨f1, e1, h⟩ := Py.bind_eq_ok.mp h
  obtain ⟨f2, e2, h⟩ := Py.bind_eq_ok.mp h
  obtain ⟨f3, e3, h⟩ := Py.bind_eq_ok.mp h
  obtain ⟨f4, e4, h⟩ := Py.bind_eq_ok.mp h
  obtain ⟨f5, e5, h⟩ := Py.bind_eq_ok.mp h
  obtain ⟨h1, h2⟩ := addAtLeastOne_int e5 (Or.inl hn)
  unfold mergeAssignment at h
  obtain ⟨-, h⟩ := raiseIf_bind_ok.mp h
  cases h
  refine ⟨List.mem_append_left _ h1, ?_⟩
  intro r hr
  obtain ⟨q, hq, hr⟩ := List.mem_flatMap.mp hr
  obtain ⟨s, -, rfl⟩ := List.mem_map.mp hr
  unfold joinRow
  rw [if_pos h1]
  exact h2 q hq

theorem checkFinite_all {K : Type} [Field K] [LinearOrder K] {f : Frame K} {l : List String} (h : checkFinite f l = .ok false) :
    ∀ m ∈ l, m ∈ f.cols ∧ ∀ r ∈ f.rows, ∃ y, (r m).toFl = .fin y := by
  induction l with
  | nil => intro m hm; cases hm
  | cons m0 l ih =>
    unfold checkFinite at h
    obtain ⟨h1, h⟩ := raiseIf_bind_ok.mp h
    obtain ⟨-, h⟩ := raiseIf_bind_ok.mp h
    obtain ⟨-, h⟩ := raiseIf_bind_ok.mp h
    split at h
    · cases h
    · rename_i hn
      intro m hm
      rcases List.mem_cons.mp hm with rfl | hm
      · refine ⟨not_not.mp h1, ?_⟩
        intro r hr
        by_contra hcon
        apply hn
        rw [List.any_eq_true]
        refine ⟨r m, List.mem_map.mpr ⟨r, hr, rfl⟩, ?_⟩
        cases hv : (r m).toFl with
        | fin y => exact absurd ⟨y, hv⟩ hcon
        | _ => rfl
      · exact ih h m hm

/-- **C103, prepared data.**  If no check is skipped and the experiment has concluded, the prepared data without its column "time_period" is
the data of an experiment run according to the design: the metrics and the at-least-one metrics can be analysed.  (The assignment
table has the two columns named; at-least-one metrics do not replace a key or calendar column.) -/
theorem C103_prepared_is_experiment_data (R : Rounding ℝ) (p : DesignParams ℝ) (d : Design ℝ) (hd : mkDesign R p = .ok d) (C : Checker ℝ)
    (perf assign out : Frame ℝ) (startDate itemCol dateCol treatCol : String) (a : ExperimentArgs)
    (h : prepareExperiment C perf assign d startDate itemCol dateCol treatCol a = .ok out) (hskip : a.skip = []) (hcon : a.concluded = true)
    (hne : itemCol ≠ treatCol) (hi : itemCol ∈ assign.cols) (ht : treatCol ∈ assign.cols)
    (hk : ∀ n ∈ a.atLeastOne.map Prod.snd, n ∉ ["item_id", "date", "week_id", "week_start", "time_period"]) :
    Spec.ExperimentData d "item_id" "week_id" "treatment_assignment" (preparedMetrics a ++ a.atLeastOne.map Prod.snd)
      (out.dropCol "time_period") := by
  classical
  unfold prepareExperiment at h
  obtain ⟨f, hb, h⟩ := Py.bind_eq_ok.mp h
  obtain ⟨_, hv, h⟩ := Py.bind_eq_ok.mp h
  obtain rfl : f = out := Except.ok.inj h
  rw [hskip, hcon] at hv
  unfold validateExperiment at hv
  obtain ⟨_, -, hv⟩ := Py.bind_eq_ok.mp hv
  obtain ⟨_, -, hv⟩ := Py.bind_eq_ok.mp hv
  obtain ⟨_, cN, hv⟩ := Py.bind_eq_ok.mp hv
  obtain ⟨_, -, hv⟩ := Py.bind_eq_ok.mp hv
  obtain ⟨_, -, hv⟩ := Py.bind_eq_ok.mp hv
  obtain ⟨_, cW, hv⟩ := Py.bind_eq_ok.mp hv
  obtain ⟨_, cF, hv⟩ := Py.bind_eq_ok.mp hv
  obtain ⟨_, -, hv⟩ := Py.bind_eq_ok.mp hv
  obtain ⟨_, cI, hv⟩ := Py.bind_eq_ok.mp hv
  obtain ⟨_, cD, hv⟩ := Py.bind_eq_ok.mp hv
  obtain ⟨_, -, hv⟩ := Py.bind_eq_ok.mp hv
  obtain ⟨_, cC, hv⟩ := Py.bind_eq_ok.mp hv
  replace cN := runCheck_passed cN
  replace cW := runCheck_passed cW
  replace cF := runCheck_passed cF
  replace cI := runCheck_passed cI
  replace cD := runCheck_passed cD
  replace cC := runCheck_passed cC
  obtain ⟨start, hst, hcol, hrows⟩ := C85_calendar_columns R p C perf assign f d hd startDate itemCol dateCol treatCol a hb
    (fun n hn hc => hk n hn (by simp only [List.mem_cons] at hc ⊢; tauto))
  obtain ⟨-, -, -, hassign⟩ := build_items hb hne hi ht (fun n hn => by
    have := hk n hn
    simp only [List.mem_cons, not_or] at this
    exact ⟨this.1, this.2.1⟩)
  have hnn : ∀ r ∈ f.rows, ∀ c ∈ f.cols, r c ≠ .null := by
    obtain ⟨b, hb', hiff⟩ := checkNulls_verdict f
    rw [cN] at hb'
    exact hiff.mp (Except.ok.inj hb').symm
  have hwin : ∀ r ∈ f.rows, ∃ t w : ℤ, r "date" = .time t ∧ r "week_id" = .int w ∧ start + 7 * w * 86400000000000 ≤ t ∧
      t < start + 7 * (w + 1) * 86400000000000 ∧ -d.pretest ≤ w ∧ w < d.runtime := by
    intro r hr
    obtain ⟨t, w, e1, e2, -, l1, l2, hnull⟩ := hrows r hr
    have := (not_congr hnull).mp (hnn r hr _ hcol)
    push Not at this
    exact ⟨t, w, e1, e2, l1, l2, this.1, this.2⟩
  -- columns
  unfold checkWeekIds at cW
  obtain ⟨w1, cW⟩ := raiseIf_bind_ok.mp cW
  obtain ⟨w2, cW⟩ := raiseIf_bind_ok.mp cW
  obtain ⟨w3, cW⟩ := raiseIf_bind_ok.mp cW
  obtain ⟨-, cW⟩ := raiseIf_bind_ok.mp cW
  rw [not_not] at w1 w3
  unfold checkItemCount at cI
  obtain ⟨i1, cI⟩ := raiseIf_bind_ok.mp cI
  rw [not_not] at i1
  replace cI := of_decide_eq_false (Except.ok.inj cI)
  rw [not_not] at cI
  unfold checkCoinflip at cC
  obtain ⟨c1, cC⟩ := raiseIf_bind_ok.mp cC
  rw [not_not] at c1
  obtain ⟨coin, -, cC⟩ := Py.bind_eq_ok.mp cC
  obtain ⟨-, cC⟩ := raiseIf_bind_ok.mp cC
  replace cC : f.rows.all (fun r => decide ((r "treatment_assignment").toFl = .fin ((coin.flip (C.ext.toStr (r "item_id")) : ℕ) : ℝ))) = true := by
    simpa using Except.ok.inj cC
  have hfin := checkFinite_all cF
  -- metrics are not called time_period
  have hname : ∀ m ∈ preparedMetrics a, m ≠ "time_period" := by
    intro m hm e
    obtain ⟨_, a', missing, f1, f2, f5, -, hca, B⟩ := buildExperiment_ok hb
    apply B.noPeriod
    rw [← e, B.f2_cols, B.f1_cols]
    obtain ⟨c, hc⟩ := mem_metricSources hm
    refine List.mem_map.mpr ⟨(m, c), ?_, rfl⟩
    rw [columnNames_eq]
    unfold Spec.metricSources at hc
    simp only [List.mem_cons, List.mem_append] at hc ⊢
    tauto
  refine ⟨?_, ?_, by decide, ?_, ?_, ?_, ?_, ?_, ?_⟩
  · intro c hc
    unfold Frame.dropCol
    simp only [List.mem_filter, ne_eq, decide_not, Bool.not_eq_true', decide_eq_false_iff_not]
    simp only [List.mem_cons, List.mem_append] at hc
    rcases hc with rfl | rfl | rfl | hc | hc
    · exact ⟨i1, by decide⟩
    · exact ⟨w1, by decide⟩
    · exact ⟨c1, by decide⟩
    · exact ⟨(hfin c hc).1, hname c hc⟩
    · exact ⟨(build_indicators hb hc).1, fun e => hk c hc (by simp [e])⟩
  · unfold Frame.dropCol
    simp
  · intro r hr
    obtain ⟨t, w, -, e, -, -, h1, h2⟩ := hwin r hr
    exact ⟨w, e, h1, h2⟩
  · intro w h1 h2
    have h0 : f.rows ≠ [] := by
      intro e
      obtain ⟨hdd, hvalid⟩ := (mkDesign_ok_iff R p d).mp hd
      obtain ⟨hleg, h50⟩ := (validateDesign_ok_iff R _).mp hvalid
      have hpost : d.nAfterPost = d.nAfterPre - 2 * R.floorMul d.postTrim.val d.nAfterPre := by rw [hdd]; rfl
      have h50 : 50 < d.nAfterPost := h50
      have hz : d.nAfterPre = 0 := by
        rw [← cI]
        unfold Frame.col
        rw [e]
        rfl
      have := floorMul_nonneg R hleg.post_nonneg (le_refl (0 : ℤ))
      rw [hz] at hpost
      omega
    obtain ⟨b, hb', hiff⟩ := checkDateRange_verdict (E := C.ext) (d := d) (concluded := true) hst w3 h0 (fun r hr => by
      obtain ⟨t, w, e, -⟩ := hwin r hr
      exact ⟨t, e⟩)
    rw [cD] at hb'
    obtain ⟨⟨s, ⟨r1, hr1, e1⟩, hs⟩, hmax⟩ := hiff.mp (Except.ok.inj hb').symm
    obtain ⟨u, ⟨r2, hr2, e2⟩, hu⟩ := hmax rfl
    obtain ⟨t1, v1, a1, a2, a3, a4, a5, a6⟩ := hwin r1 hr1
    obtain ⟨t2, v2, b1, b2, b3, b4, b5, b6⟩ := hwin r2 hr2
    rw [e1] at a1
    rw [e2] at b1
    cases a1
    cases b1
    have hv1 : v1 ≤ w := by
      by_contra hc
      have : -d.pretest + 1 ≤ v1 := by omega
      nlinarith
    have hv2 : w ≤ v2 := by
      by_contra hc
      have : v2 + 1 ≤ d.runtime - 1 := by omega
      nlinarith
    obtain ⟨ids, hids⟩ : ∃ l, l = (C.sorter.sort (dropDup (f.rows.map (fun r => (r "week_id", r "date"))))).map Prod.fst := ⟨_, rfl⟩
    have hmem : ∀ c, c ∈ ids ↔ ∃ r ∈ f.rows, r "week_id" = c := by
      intro c
      rw [hids, List.mem_map]
      constructor
      · rintro ⟨x, hx, rfl⟩
        rw [(C.sorter.perm _).mem_iff, mem_dropDup, List.mem_map] at hx
        obtain ⟨r, hr, rfl⟩ := hx
        exact ⟨r, hr, rfl⟩
      · rintro ⟨r, hr, rfl⟩
        refine ⟨(r "week_id", r "date"), ?_, rfl⟩
        rw [(C.sorter.perm _).mem_iff, mem_dropDup, List.mem_map]
        exact ⟨r, hr, rfl⟩
    have hsteps : stepsOk ids = true := by
      rw [hids]
      simpa using Except.ok.inj cW
    refine (hmem (.int w)).mp (stepsOk_all ?_ hsteps ((hmem _).mpr ⟨r1, hr1, a2⟩) ((hmem _).mpr ⟨r2, hr2, b2⟩) hv1 hv2)
    intro c hc
    obtain ⟨r, hr, rfl⟩ := (hmem c).mp hc
    obtain ⟨t, w, -, e, -⟩ := hwin r hr
    exact ⟨w, e⟩
  · intro r hr
    exact hnn r hr _ i1
  · refine ⟨fun c => decide (coin.flip (C.ext.toStr c) = 1), ?_⟩
    intro r hr
    obtain ⟨s, -, -, z, -, e⟩ := hassign r hr
    have hc := of_decide_eq_true (List.all_eq_true.mp cC r hr)
    rw [e] at hc
    have hz : z = (coin.flip (C.ext.toStr (r "item_id")) : ℤ) := by
      have := Fl.fin.inj hc
      exact_mod_cast this
    rw [e, hz]
    have hlt : coin.flip (C.ext.toStr (r "item_id")) < 2 := Nat.mod_lt _ (by decide)
    have : coin.flip (C.ext.toStr (r "item_id")) = 0 ∨ coin.flip (C.ext.toStr (r "item_id")) = 1 := by omega
    rcases this with hflip | hflip <;> simp [hflip]
  · rw [← cI, nunique_eq]
    congr 2
    unfold Spec.itemsOf Frame.col Frame.dropCol
    ext c
    simp only [decide_true, List.filter_true, List.mem_toFinset, List.mem_map, Finset.mem_erase]
    constructor
    · rintro ⟨r, hr, rfl⟩
      exact ⟨hnn r hr _ i1, r, hr, rfl⟩
    · rintro ⟨-, r, hr, rfl⟩
      exact ⟨r, hr, rfl⟩
  · intro c hc r hr
    rcases List.mem_append.mp hc with hc | hc
    · exact (hfin c hc).2 r hr
    · obtain ⟨z, hz⟩ := (build_indicators hb hc).2 r hr
      exact ⟨_, by rw [hz]; rfl⟩

/-- **C103, end to end.**  The data prepared for a concluded crossover experiment with all checks passed, without its column
"time_period", can be analysed: one row per metric, in the given order. -/
theorem C103_prepared_crossover_analysed (R : Rounding ℝ) (argsort : List ℝ → List ℕ) (ha : ArgsortOk argsort) (D : TDist)
    (p : DesignParams ℝ) (d : Design ℝ) (hd : mkDesign R p = .ok d) (hn : d.nAfterPre ≤ 2 ^ 53) (hx : d.isCrossover = true) (C : Checker ℝ)
    (perf assign out : Frame ℝ) (startDate itemCol dateCol treatCol : String) (a : ExperimentArgs)
    (h : prepareExperiment C perf assign d startDate itemCol dateCol treatCol a = .ok out) (hskip : a.skip = []) (hcon : a.concluded = true)
    (hne : itemCol ≠ treatCol) (hi : itemCol ∈ assign.cols) (ht : treatCol ∈ assign.cols)
    (hk : ∀ n ∈ a.atLeastOne.map Prod.snd, n ∉ ["item_id", "date", "week_id", "week_start", "time_period"]) (metrics : List Metric)
    (hm : Spec.MetricsFrom (preparedMetrics a ++ a.atLeastOne.map Prod.snd) metrics)
    (hleft : ∀ m ∈ metrics, ∀ q, m.override = some q → Spec.EnoughLeft R q d.nAfterPre.toNat) :
    ∃ rows, (analyzeExperiment R argsort D d.toDesignParams metrics "week_id" "item_id" "treatment_assignment"
        (out.dropCol "time_period")).1 = .ok rows ∧ rows.map Prod.fst = metrics.map Metric.name :=
  C103_crossover_analysed R argsort ha D p d hd hn hx _ _ _ _ _
    (C103_prepared_is_experiment_data R p d hd C perf assign out startDate itemCol dateCol treatCol a h hskip hcon hne hi ht hk) metrics hm hleft

/-- **C103, refuted for the data as it is returned.**  Prepared data has a column "time_period", and the analysis refuses such data: passing
what the preparation returned directly to the analysis always raises `ValueError`. -/
theorem C103_prepared_refused_false (R : Rounding ℝ) (argsort : List ℝ → List ℕ) (D : TDist) (p : DesignParams ℝ) (d : Design ℝ)
    (hd : mkDesign R p = .ok d) (C : Checker ℝ) (perf assign out : Frame ℝ) (startDate itemCol dateCol treatCol : String)
    (a : ExperimentArgs) (h : prepareExperiment C perf assign d startDate itemCol dateCol treatCol a = .ok out)
    (hk : ∀ n ∈ a.atLeastOne.map Prod.snd, n ∉ ["item_id", "date", "week_id", "week_start", "time_period"]) (metrics : List Metric)
    (hm : metrics ≠ []) (weekCol itemCol' treatCol' : String) :
    analyzeExperiment R argsort D d.toDesignParams metrics weekCol itemCol' treatCol' out = (.error .valueError, out) := by
  unfold prepareExperiment at h
  obtain ⟨f, hb, h⟩ := Py.bind_eq_ok.mp h
  obtain ⟨_, -, h⟩ := Py.bind_eq_ok.mp h
  obtain rfl : f = out := Except.ok.inj h
  obtain ⟨start, hst, hcol, -⟩ := C85_calendar_columns R p C perf assign f d hd startDate itemCol dateCol treatCol a hb
    (fun n hn hc => hk n hn (by simp only [List.mem_cons] at hc ⊢; tauto))
  unfold analyzeExperiment
  rw [if_neg hm]
  unfold pivotTimeAssignment
  rw [if_pos hcol]

/-! ### From a correct run to the result -/

/-- The names given by the caller keep the calendar columns. -/
theorem names_keep {perf assign : Frame ℝ} {itemCol dateCol treatCol : String} {a : ExperimentArgs}
    (hn : Spec.NamesFit perf assign itemCol dateCol treatCol a) :
    ∀ n ∈ a.atLeastOne.map Prod.snd, n ∉ ["item_id", "date", "week_id", "week_start", "time_period"] := by
  intro n hm hc
  obtain ⟨-, h2, h3⟩ := hn.new.2 n hm
  simp only [Spec.calendarNames, List.mem_cons, List.not_mem_nil, or_false, not_or] at h2 h3 hc
  tauto

/-- **C103, crossover, from the tables to the result.**  For every correctly run and concluded crossover experiment (C104), the data is prepared
and, without its column "time_period", analysed. -/
theorem C103_correct_crossover_analysed (R : Rounding ℝ) (argsort : List ℝ → List ℕ) (ha : ArgsortOk argsort) (D : TDist)
    (p : DesignParams ℝ) (d : Design ℝ) (hd : mkDesign R p = .ok d) (hn : d.nAfterPre ≤ 2 ^ 53) (hx : d.isCrossover = true) (C : Checker ℝ)
    (perf assign : Frame ℝ) (startDate itemCol dateCol treatCol : String) (a : ExperimentArgs) (start : ℤ) (salt : String) (pvalue : ℝ)
    (hst : C.ext.strptime startDate = some start) (hnames : Spec.NamesFit perf assign itemCol dateCol treatCol a)
    (h : Spec.CorrectRun C d perf assign itemCol dateCol treatCol a start salt pvalue) (hskip : a.skip = []) (hcon : a.concluded = true)
    (metrics : List Metric) (hm : Spec.MetricsFrom (preparedMetrics a ++ a.atLeastOne.map Prod.snd) metrics)
    (hleft : ∀ m ∈ metrics, ∀ q, m.override = some q → Spec.EnoughLeft R q d.nAfterPre.toNat) :
    ∃ out rows, prepareExperiment C perf assign d startDate itemCol dateCol treatCol a = .ok out ∧
      (analyzeExperiment R argsort D d.toDesignParams metrics "week_id" "item_id" "treatment_assignment" (out.dropCol "time_period")).1 =
        .ok rows ∧ rows.map Prod.fst = metrics.map Metric.name := by
  obtain ⟨out, ho⟩ := C104_correct_run_accepted R p d hd C perf assign startDate itemCol dateCol treatCol a start salt pvalue hst hnames h
    (by rw [hskip]; simp)
  obtain ⟨rows, h1, h2⟩ := C103_prepared_crossover_analysed R argsort ha D p d hd hn hx C perf assign out startDate itemCol dateCol treatCol a ho
    hskip hcon hnames.different (by rw [hnames.assignCols]; simp) (by rw [hnames.assignCols]; simp) (names_keep hnames) metrics hm hleft
  exact ⟨out, rows, ho, h1, h2⟩

/-- The groups of the prepared data are those of the assignment table. -/
theorem RunTable.group_card {C : Checker ℝ} {d : Design ℝ} {perf assign out : Frame ℝ} {itemCol dateCol : String} {a : ExperimentArgs} {start : ℤ}
    {salt : String} (h : RunTable C d perf assign out itemCol dateCol a start salt)
    (hids : (assign.rows.map (fun r => C.ext.toStr (r itemCol))).Nodup) (b : Bool) :
    (Spec.groupItems (out.dropCol "time_period") "item_id" "treatment_assignment" b).card =
      assign.rows.countP (fun r => decide ((Coinflip.mk salt).flip (C.ext.toStr (r itemCol)) = if b then 1 else 0)) := by
  classical
  rw [← h.arm_card hids]
  congr 1
  unfold Spec.groupItems Spec.itemsOf Spec.arm Frame.dropCol
  ext c
  simp only [Finset.mem_erase, List.mem_toFinset, List.mem_map, List.mem_filter, decide_eq_true_eq]
  constructor
  · rintro ⟨r, ⟨hr, e⟩, rfl⟩
    obtain ⟨s, -, e1, -⟩ := h.treated r hr
    refine ⟨by rw [e1]; simp, r, ⟨hr, Or.inl ?_⟩, rfl⟩
    rw [e]
    cases b <;> rfl
  · rintro ⟨-, r, ⟨hr, e⟩, rfl⟩
    obtain ⟨s, -, -, e2⟩ := h.treated r hr
    refine ⟨r, ⟨hr, ?_⟩, rfl⟩
    rcases e with e | e
    · rw [e]
      cases b <;> rfl
    · rw [e2] at e
      cases e

/-- **C103, regular experiments, from the tables to the result (part).**  For every correctly run and concluded regular experiment (C104) whose
assignment leaves enough items in both groups, the data is prepared.  Without its column "time_period" it is analysed, or the analysis raises
`ZeroDivisionError` because of a metric without denominator. -/
theorem C103_correct_regular_analysed_partial (R : Rounding ℝ) (argsort : List ℝ → List ℕ) (ha : ArgsortOk argsort) (D : TDist)
    (p : DesignParams ℝ) (d : Design ℝ) (hd : mkDesign R p = .ok d) (hn : d.nAfterPre ≤ 2 ^ 53) (hx : d.isCrossover = false) (C : Checker ℝ)
    (perf assign : Frame ℝ) (startDate itemCol dateCol treatCol : String) (a : ExperimentArgs) (start : ℤ) (salt : String) (pvalue : ℝ)
    (hst : C.ext.strptime startDate = some start) (hnames : Spec.NamesFit perf assign itemCol dateCol treatCol a)
    (h : Spec.CorrectRun C d perf assign itemCol dateCol treatCol a start salt pvalue) (hskip : a.skip = []) (hcon : a.concluded = true)
    (metrics : List Metric) (hm : Spec.MetricsFrom (preparedMetrics a ++ a.atLeastOne.map Prod.snd) metrics)
    (hleft : ∀ m ∈ metrics, ∀ q, m.override = some q → Spec.EnoughLeft R q d.nAfterPre.toNat)
    (hgroups : ∀ m ∈ metrics, ∀ b : Bool, Spec.EnoughLeft R (m.override.getD d.postTrim.val)
      (assign.rows.countP (fun r => decide ((Coinflip.mk salt).flip (C.ext.toStr (r itemCol)) = if b then 1 else 0)))) :
    ∃ out, prepareExperiment C perf assign d startDate itemCol dateCol treatCol a = .ok out ∧
      ((∃ rows, (analyzeExperiment R argsort D d.toDesignParams metrics "week_id" "item_id" "treatment_assignment"
            (out.dropCol "time_period")).1 = .ok rows ∧ rows.map Prod.fst = metrics.map Metric.name) ∨
        ((∃ m ∈ metrics, m.denominator = none ∧ ¬ (d.pretest = 0 ∧ Spec.ControlPositive d "item_id" "week_id" "treatment_assignment"
            (out.dropCol "time_period") m.column)) ∧ (analyzeExperiment R argsort D d.toDesignParams metrics "week_id" "item_id"
            "treatment_assignment" (out.dropCol "time_period")).1 = .error .zeroDivision)) := by
  obtain ⟨out, ho⟩ := C104_correct_run_accepted R p d hd C perf assign startDate itemCol dateCol treatCol a start salt pvalue hst hnames h
    (by rw [hskip]; simp)
  obtain ⟨out', hb, T⟩ := runTable hd hst hnames h
  obtain rfl : out' = out := by
    unfold prepareExperiment at ho
    obtain ⟨o, e, ho⟩ := Py.bind_eq_ok.mp ho
    obtain ⟨_, -, ho⟩ := Py.bind_eq_ok.mp ho
    rw [hb] at e
    exact (Except.ok.inj e).trans (Except.ok.inj ho)
  refine ⟨out', ho, ?_⟩
  exact C103_regular_analysed_partial R argsort ha D p d hd hn hx "item_id" "week_id" "treatment_assignment" _ _
    (C103_prepared_is_experiment_data R p d hd C perf assign out' startDate itemCol dateCol treatCol a ho hskip hcon hnames.different
      (by rw [hnames.assignCols]; simp) (by rw [hnames.assignCols]; simp) (names_keep hnames)) metrics hm hleft
    (fun m hmem b => by rw [T.group_card h.ids]; exact hgroups m hmem b)

/-! ### The sixty items of C104 are analysed -/

/-- Clicks, the share of active item-weeks, and clicks per active week. -/
noncomputable def runMetrics : List Metric :=
  [⟨"clicks", "clicks", none, some (1 / 30)⟩, ⟨"active", "any", none, some (1 / 30)⟩, ⟨"clicks_per_active", "clicks", some "any", some (1 / 30)⟩]

theorem runMetrics_fit : Spec.MetricsFrom (preparedMetrics runArgs ++ runArgs.atLeastOne.map Prod.snd) runMetrics := by
  refine ⟨by simp [runMetrics], ?_⟩
  rw [show preparedMetrics runArgs ++ runArgs.atLeastOne.map Prod.snd = ["clicks", "any"] by decide]
  intro m hm
  simp only [runMetrics, List.mem_cons, List.not_mem_nil, or_false] at hm
  rcases hm with rfl | rfl | rfl
  all_goals
    refine ⟨by simp, by simp, ?_⟩
    intro q hq
    cases hq
    norm_num

theorem runMetrics_left (R : Rounding ℝ) {n : ℕ} (h5 : 5 < n) (h60 : n ≤ 60) {m : Metric} (hm : m ∈ runMetrics) :
    m.override = some (1 / 30) ∧ Spec.EnoughLeft R (1 / 30) n := by
  constructor
  · simp only [runMetrics, List.mem_cons, List.not_mem_nil, or_false] at hm
    rcases hm with rfl | rfl | rfl <;> rfl
  · unfold Spec.EnoughLeft
    have h1 : (1 / 30 : ℝ) * n ≤ ((2 : ℤ) : ℝ) := by
      have : (n : ℝ) ≤ 60 := by exact_mod_cast h60
      push_cast
      linarith
    have h2 := R.mono h1
    rw [R.intFix 2 (by norm_num)] at h2
    have h3 : ⌊R.rnd (1 / 30 * (n : ℝ))⌋ ≤ 2 := by
      have := Int.floor_mono h2
      simpa using this
    omega

/-- The hypotheses of the crossover theorems are met: the sixty items are prepared and analysed. -/
example (R : Rounding ℝ) (argsort : List ℝ → List ℕ) (ha : ArgsortOk argsort) (D : TDist) :
    ∃ out rows, prepareExperiment (runChecker ℝ) (runPerf ℝ) (runAssign ℝ) (sixtyDesign ℝ true) "2024-01-08" "id" "day" "t" runArgs = .ok out ∧
      (analyzeExperiment R argsort D (sixtyDesign ℝ true).toDesignParams runMetrics "week_id" "item_id" "treatment_assignment"
        (out.dropCol "time_period")).1 = .ok rows ∧ rows.map Prod.fst = ["clicks", "active", "clicks_per_active"] :=
  C103_correct_crossover_analysed R argsort ha D _ _ (sixtyDesign_created R true) (by show (60 : ℤ) ≤ 2 ^ 53; norm_num) rfl _ _ _ _ _ _ _ _ _
    "abc" 1 rfl run_names ⟨run_performance true, run_assignment true⟩ rfl rfl runMetrics runMetrics_fit (by
      intro m hm q hq
      obtain ⟨e, h⟩ := runMetrics_left R (n := 60) (by norm_num) (by norm_num) hm
      rw [e] at hq
      cases hq
      exact h)

theorem run_groups (b : Bool) : 5 < (runAssign ℝ).rows.countP (fun r => decide ((Coinflip.mk "abc").flip ((runChecker ℝ).ext.toStr (r "id")) =
    if b then 1 else 0)) ∧ (runAssign ℝ).rows.countP (fun r => decide ((Coinflip.mk "abc").flip ((runChecker ℝ).ext.toStr (r "id")) =
    if b then 1 else 0)) ≤ 60 := by
  have e : (runAssign ℝ).rows.countP (fun r => decide ((Coinflip.mk "abc").flip ((runChecker ℝ).ext.toStr (r "id")) = if b then 1 else 0)) =
      ((List.range 60).map toString).countP (fun s => decide ((Coinflip.mk "abc").flip s = if b then 1 else 0)) := by
    rw [← run_texts (K := ℝ), List.countP_map]
    rfl
  rw [e]
  cases b <;> decide +kernel

/-- The hypotheses of the theorems on regular experiments are met. -/
example (R : Rounding ℝ) (argsort : List ℝ → List ℕ) (ha : ArgsortOk argsort) (D : TDist) :
    ∃ out, prepareExperiment (runChecker ℝ) (runPerf ℝ) (runAssign ℝ) (sixtyDesign ℝ false) "2024-01-08" "id" "day" "t" runArgs = .ok out ∧
      ((∃ rows, (analyzeExperiment R argsort D (sixtyDesign ℝ false).toDesignParams runMetrics "week_id" "item_id" "treatment_assignment"
          (out.dropCol "time_period")).1 = .ok rows ∧ rows.map Prod.fst = runMetrics.map Metric.name) ∨
        ((∃ m ∈ runMetrics, m.denominator = none ∧ ¬ ((sixtyDesign ℝ false).pretest = 0 ∧ Spec.ControlPositive (sixtyDesign ℝ false) "item_id"
          "week_id" "treatment_assignment" (out.dropCol "time_period") m.column)) ∧ (analyzeExperiment R argsort D (sixtyDesign ℝ false).toDesignParams runMetrics "week_id"
          "item_id" "treatment_assignment" (out.dropCol "time_period")).1 = .error .zeroDivision)) := by
  obtain ⟨out, ho, h⟩ := C103_correct_regular_analysed_partial R argsort ha D _ _ (sixtyDesign_created R false)
    (by show (60 : ℤ) ≤ 2 ^ 53; norm_num) rfl (runChecker ℝ) (runPerf ℝ) (runAssign ℝ) "2024-01-08" "id" "day" "t" runArgs (7 * 86400000000000)
    "abc" 1 rfl run_names ⟨run_performance false, run_assignment false⟩ rfl rfl runMetrics runMetrics_fit (by
      intro m hm q hq
      obtain ⟨e, h⟩ := runMetrics_left R (n := 60) (by norm_num) (by norm_num) hm
      rw [e] at hq
      cases hq
      exact h) (by
      intro m hm b
      obtain ⟨e, h⟩ := runMetrics_left R (run_groups b).1 (run_groups b).2 hm
      rw [e]
      exact h)
  exact ⟨out, ho, h⟩

/-- The refutation is not vacuous: the sixty items are prepared, and the analysis refuses the data as it is. -/
example (R : Rounding ℝ) (argsort : List ℝ → List ℕ) (D : TDist) (x : Bool) :
    ∃ out, prepareExperiment (runChecker ℝ) (runPerf ℝ) (runAssign ℝ) (sixtyDesign ℝ x) "2024-01-08" "id" "day" "t" runArgs = .ok out ∧
      analyzeExperiment R argsort D (sixtyDesign ℝ x).toDesignParams runMetrics "week_id" "item_id" "treatment_assignment" out =
        (.error .valueError, out) := by
  obtain ⟨out, ho⟩ := run_prepared (K := ℝ) R x
  exact ⟨out, ho, C103_prepared_refused_false R argsort D _ _ (sixtyDesign_created R x) _ _ _ out _ _ _ _ _ ho (names_keep (run_names (K := ℝ))) runMetrics
    runMetrics_fit.1 _ _ _⟩

end Feedx
