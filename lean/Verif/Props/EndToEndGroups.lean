import Verif.Props.EndToEnd
import Verif.Props.Ratio
import Verif.Props.SimulateValidate

/-!
C103 for regular experiments, with the binomial test of the group sizes (C105).
-/

set_option linter.unusedSectionVars false

namespace Feedx

/-- A trimming fraction that leaves more than fifty of all the items leaves at least two items of a group with more than a fifth of them. -/
theorem enough_left_in_group {R : Rounding ℝ} {q : ℝ} (h0 : 0 ≤ q) (h1 : q < 1 / 2) {n k : ℕ} (hn : n ≤ 2 ^ 53) (hk : k ≤ n) (h5 : n < 5 * k)
    (h50 : 50 < (n : ℤ) - 2 * ⌊R.rnd (q * (n : ℝ))⌋) : Spec.EnoughLeft R q k := by
  have hnR : (n : ℝ) ≤ 2 ^ 53 := by exact_mod_cast hn
  have hkR : (k : ℝ) ≤ n := by exact_mod_cast hk
  have hn0 : (0 : ℝ) ≤ n := by positivity
  have hk0 : (0 : ℝ) ≤ k := by positivity
  have hb : ∀ m : ℕ, m ≤ n → ∀ z : ℤ, 0 ≤ z → (z : ℝ) ≤ q * m + 1 → |z| ≤ 2 ^ 53 := by
    intro m hm z hz hzq
    rw [abs_of_nonneg hz]
    rcases Nat.eq_zero_or_pos m with rfl | hpos
    · have : (z : ℝ) ≤ 1 := by simpa using hzq
      have : z ≤ 1 := by exact_mod_cast this
      omega
    · have hmR : (m : ℝ) ≤ 2 ^ 53 := le_trans (by exact_mod_cast hm) hnR
      have hm1 : (1 : ℝ) ≤ m := by exact_mod_cast hpos
      have h2 : q * m ≤ 1 / 2 * m := mul_le_mul_of_nonneg_right h1.le (by positivity)
      have h3 : (z : ℝ) ≤ ((2 ^ 53 : ℤ) : ℝ) := by
        push_cast
        linarith
      exact_mod_cast h3
  -- the items left of all
  have hF : ⌊q * (n : ℝ)⌋ ≤ ⌊R.rnd (q * (n : ℝ))⌋ := by
    refine Int.le_floor.mpr ?_
    have hz : 0 ≤ ⌊q * (n : ℝ)⌋ := Int.floor_nonneg.mpr (by positivity)
    have hfl := Int.floor_le (q * (n : ℝ))
    have := R.mono hfl
    rwa [R.intFix _ (hb n le_rfl _ hz (by linarith))] at this
  have hF1 := Int.lt_floor_add_one (q * (n : ℝ))
  -- the items cut from the group
  have hG : ⌊R.rnd (q * (k : ℝ))⌋ ≤ ⌈q * (k : ℝ)⌉ := by
    have hz : 0 ≤ ⌈q * (k : ℝ)⌉ := Int.ceil_nonneg (by positivity)
    have hce := Int.le_ceil (q * (k : ℝ))
    have := R.mono hce
    rw [R.intFix _ (hb k hk _ hz (by linarith [Int.ceil_lt_add_one (q * (k : ℝ))]))] at this
    have := Int.floor_mono this
    rwa [Int.floor_intCast] at this
  have hG1 := Int.ceil_lt_add_one (q * (k : ℝ))
  unfold Spec.EnoughLeft
  have e1 : (50 : ℝ) + 1 ≤ n - 2 * (⌊R.rnd (q * (n : ℝ))⌋ : ℝ) := by exact_mod_cast h50
  have e2 : ((⌊q * (n : ℝ)⌋ : ℤ) : ℝ) ≤ ⌊R.rnd (q * (n : ℝ))⌋ := by exact_mod_cast hF
  have e3 : ((⌊R.rnd (q * (k : ℝ))⌋ : ℤ) : ℝ) ≤ ⌈q * (k : ℝ)⌉ := by exact_mod_cast hG
  have e4 : (49 : ℝ) < n * (1 - 2 * q) := by nlinarith
  have e5 : (n : ℝ) < 5 * k := by exact_mod_cast h5
  have e6 : (n : ℝ) * (1 - 2 * q) ≤ 5 * k * (1 - 2 * q) := mul_le_mul_of_nonneg_right e5.le (by linarith)
  have e7 : (2 * ⌊R.rnd (q * (k : ℝ))⌋ + 1 : ℝ) < k := by nlinarith
  exact_mod_cast e7

theorem ratio_checked {C : Checker ℝ} {d : Design ℝ} {perf assign out : Frame ℝ} {startDate itemCol dateCol treatCol : String}
    {a : ExperimentArgs} (h : prepareExperiment C perf assign d startDate itemCol dateCol treatCol a = .ok out) (hskip : a.skip = []) :
    checkRatio C.binom out "item_id" "treatment_assignment" = .ok false := by
  unfold prepareExperiment at h
  obtain ⟨f, hb, h⟩ := Py.bind_eq_ok.mp h
  obtain ⟨_, hv, h⟩ := Py.bind_eq_ok.mp h
  obtain rfl : f = out := Except.ok.inj h
  rw [hskip] at hv
  unfold validateExperiment at hv
  iterate 12 obtain ⟨_, -, hv⟩ := Py.bind_eq_ok.mp hv
  exact runCheck_passed hv

theorem data_groups {d : Design ℝ} {i w t : String} {columns : List String} {f : Frame ℝ} (hf : Spec.ExperimentData d i w t columns f) :
    ∀ b : Bool, Spec.arm f i t (if b then 1 else 0) = Spec.groupItems f i t b := by
  classical
  intro b
  unfold Spec.groupItems Spec.itemsOf Spec.arm
  ext c
  simp only [Finset.mem_erase, List.mem_toFinset, List.mem_map, List.mem_filter, decide_eq_true_eq]
  obtain ⟨tr, htr⟩ := hf.groups
  constructor
  · rintro ⟨-, r, ⟨hr, e⟩, rfl⟩
    refine ⟨r, ⟨hr, ?_⟩, rfl⟩
    rcases e with e | e
    · rw [e]
      cases b <;> rfl
    · rw [htr r hr] at e
      cases e
  · rintro ⟨r, ⟨hr, e⟩, rfl⟩
    refine ⟨hf.items r hr, r, ⟨hr, Or.inl ?_⟩, rfl⟩
    rw [e]
    cases b <;> rfl

theorem data_group_sum {d : Design ℝ} {i w t : String} {columns : List String} {f : Frame ℝ} (hf : Spec.ExperimentData d i w t columns f) :
    (((Spec.groupItems f i t true).card + (Spec.groupItems f i t false).card : ℕ) : ℤ) = d.nAfterPre := by
  classical
  rw [← hf.count]
  congr 1
  obtain ⟨tr, htr⟩ := hf.groups
  rw [← Finset.card_union_of_disjoint]
  · congr 1
    unfold Spec.groupItems Spec.itemsOf
    ext c
    simp only [Finset.mem_union, List.mem_toFinset, List.mem_map, List.mem_filter, decide_eq_true_eq]
    constructor
    · rintro (⟨r, ⟨hr, -⟩, rfl⟩ | ⟨r, ⟨hr, -⟩, rfl⟩) <;> exact ⟨r, ⟨hr, trivial⟩, rfl⟩
    · rintro ⟨r, ⟨hr, -⟩, rfl⟩
      have := htr r hr
      cases hb : tr (r i) with
      | true => exact Or.inl ⟨r, ⟨hr, by rw [this, hb]; simp⟩, rfl⟩
      | false => exact Or.inr ⟨r, ⟨hr, by rw [this, hb]⟩, rfl⟩
  · rw [Finset.disjoint_left]
    unfold Spec.groupItems Spec.itemsOf
    simp only [List.mem_toFinset, List.mem_map, List.mem_filter, decide_eq_true_eq]
    rintro c ⟨r, ⟨hr, e⟩, rfl⟩ ⟨r', ⟨hr', e'⟩, he⟩
    have h1 := htr r hr
    have h2 := htr r' hr'
    rw [he, e', ← h1, e] at h2
    simp at h2

/-- **C103, group sizes.**  If the check of the group sizes uses the binomial test, each group of the prepared data has more than a fifth of
the items. -/
theorem C103_groups_large (R : Rounding ℝ) (p : DesignParams ℝ) (d : Design ℝ) (hd : mkDesign R p = .ok d) (C : Checker ℝ)
    (hC : C.binom = binomTest) (perf assign out : Frame ℝ) (startDate itemCol dateCol treatCol : String) (a : ExperimentArgs)
    (h : prepareExperiment C perf assign d startDate itemCol dateCol treatCol a = .ok out) (hskip : a.skip = []) (hcon : a.concluded = true)
    (hne : itemCol ≠ treatCol) (hi : itemCol ∈ assign.cols) (ht : treatCol ∈ assign.cols)
    (hk : ∀ n ∈ a.atLeastOne.map Prod.snd, n ∉ ["item_id", "date", "week_id", "week_start", "time_period"]) (b : Bool) :
    d.nAfterPre < 5 * (Spec.groupItems out "item_id" "treatment_assignment" b).card := by
  have hf := C103_prepared_is_experiment_data R p d hd C perf assign out startDate itemCol dateCol treatCol a h hskip hcon hne hi ht hk
  have hr := ratio_checked h hskip
  rw [hC] at hr
  have hg := data_groups hf
  have hs := data_group_sum hf
  have g1 : (Spec.arm out "item_id" "treatment_assignment" 1).card = (Spec.groupItems out "item_id" "treatment_assignment" true).card :=
    congrArg Finset.card (hg true)
  have g0 : (Spec.arm out "item_id" "treatment_assignment" 0).card = (Spec.groupItems out "item_id" "treatment_assignment" false).card :=
    congrArg Finset.card (hg false)
  have hs' : (((Spec.groupItems out "item_id" "treatment_assignment" true).card +
      (Spec.groupItems out "item_id" "treatment_assignment" false).card : ℕ) : ℤ) = d.nAfterPre := hs
  have h50 : 50 < d.nAfterPre := by
    obtain ⟨hdd, hvalid⟩ := (mkDesign_ok_iff R p d).mp hd
    obtain ⟨hleg, h50⟩ := (validateDesign_ok_iff R _).mp hvalid
    have hpost : d.nAfterPost = d.nAfterPre - 2 * R.floorMul d.postTrim.val d.nAfterPre := by rw [hdd]; rfl
    have h50 : 50 < d.nAfterPost := h50
    have := floorMul_nonneg R hleg.post_nonneg (n := d.nAfterPre) (by omega)
    omega
  by_contra hlt
  have hi' : "item_id" ∈ out.cols := by
    have := hf.present "item_id" (by simp)
    unfold Frame.dropCol at this
    exact (List.mem_filter.mp this).1
  have ht' : "treatment_assignment" ∈ out.cols := by
    have := hf.present "treatment_assignment" (by simp)
    unfold Frame.dropCol at this
    exact (List.mem_filter.mp this).1
  have := C105_small_group_refused hi' ht' (by omega) (by
    cases b <;> omega)
  rw [hr] at this
  cases this

/-- **C103, prepared data of regular experiments (part).**  If the check of the group sizes uses the binomial test, the groups are always large
enough: the data prepared for a concluded regular experiment with all checks passed, without its column "time_period", is analysed, or the
analysis raises `ZeroDivisionError` because of a metric without denominator, which does not happen without pretest weeks if all the control
items have positive totals.  (Own trimming fractions leave more than fifty items, as those of the design do.) -/
theorem C103_prepared_regular_analysed_partial (R : Rounding ℝ) (argsort : List ℝ → List ℕ) (ha : ArgsortOk argsort) (D : TDist)
    (p : DesignParams ℝ) (d : Design ℝ) (hd : mkDesign R p = .ok d) (hn : d.nAfterPre ≤ 2 ^ 53) (hx : d.isCrossover = false) (C : Checker ℝ)
    (hC : C.binom = binomTest) (perf assign out : Frame ℝ) (startDate itemCol dateCol treatCol : String) (a : ExperimentArgs)
    (h : prepareExperiment C perf assign d startDate itemCol dateCol treatCol a = .ok out) (hskip : a.skip = []) (hcon : a.concluded = true)
    (hne : itemCol ≠ treatCol) (hi : itemCol ∈ assign.cols) (ht : treatCol ∈ assign.cols)
    (hk : ∀ n ∈ a.atLeastOne.map Prod.snd, n ∉ ["item_id", "date", "week_id", "week_start", "time_period"]) (metrics : List Metric)
    (hm : Spec.MetricsFrom (preparedMetrics a ++ a.atLeastOne.map Prod.snd) metrics)
    (hleft : ∀ m ∈ metrics, ∀ q, m.override = some q → 50 < d.nAfterPre - 2 * ⌊R.rnd (q * (d.nAfterPre.toNat : ℝ))⌋) :
    (∃ rows, (analyzeExperiment R argsort D d.toDesignParams metrics "week_id" "item_id" "treatment_assignment"
      (out.dropCol "time_period")).1 = .ok rows ∧ rows.map Prod.fst = metrics.map Metric.name) ∨
    ((∃ m ∈ metrics, m.denominator = none ∧ ¬ (d.pretest = 0 ∧
        Spec.ControlPositive d "item_id" "week_id" "treatment_assignment" (out.dropCol "time_period") m.column)) ∧
      (analyzeExperiment R argsort D d.toDesignParams metrics "week_id" "item_id" "treatment_assignment"
        (out.dropCol "time_period")).1 = .error .zeroDivision) := by
  have hf := C103_prepared_is_experiment_data R p d hd C perf assign out startDate itemCol dateCol treatCol a h hskip hcon hne hi ht hk
  obtain ⟨hdd, hvalid⟩ := (mkDesign_ok_iff R p d).mp hd
  obtain ⟨hleg, h50⟩ := (validateDesign_ok_iff R _).mp hvalid
  have hpost : d.nAfterPost = d.nAfterPre - 2 * R.floorMul d.postTrim.val d.nAfterPre := by rw [hdd]; rfl
  have h50 : 50 < d.nAfterPost := h50
  have hsum := data_group_sum hf
  have hcast : ((d.nAfterPre.toNat : ℕ) : ℤ) = d.nAfterPre := by omega
  have hcastR : ((d.nAfterPre.toNat : ℕ) : ℝ) = (d.nAfterPre : ℝ) := by exact_mod_cast congrArg (Int.cast (R := ℝ)) hcast
  have hq : ∀ m ∈ metrics, 0 ≤ m.override.getD d.postTrim.val ∧ m.override.getD d.postTrim.val < 1 / 2 ∧
      50 < d.nAfterPre - 2 * ⌊R.rnd (m.override.getD d.postTrim.val * (d.nAfterPre.toNat : ℝ))⌋ := by
    intro m hmem
    cases ho : m.override with
    | none =>
      refine ⟨hleg.post_nonneg, hleg.post_lt_half, ?_⟩
      unfold Rounding.floorMul at hpost
      rw [hcastR]
      simp only [Option.getD_none]
      omega
    | some q => exact ⟨((hm.2 m hmem).2.2 q ho).1, ((hm.2 m hmem).2.2 q ho).2, hleft m hmem q ho⟩
  refine C103_regular_analysed_partial R argsort ha D p d hd hn hx "item_id" "week_id" "treatment_assignment" _ _ hf metrics hm ?_ ?_
  · intro m hmem q ho
    have := hleft m hmem q ho
    unfold Spec.EnoughLeft
    omega
  · intro m hmem b
    obtain ⟨q0, q1, q2⟩ := hq m hmem
    have hlarge := C103_groups_large R p d hd C hC perf assign out startDate itemCol dateCol treatCol a h hskip hcon hne hi ht hk b
    have hle : (Spec.groupItems (out.dropCol "time_period") "item_id" "treatment_assignment" b).card ≤ d.nAfterPre.toNat := by
      cases b <;> omega
    have hlarge' : d.nAfterPre < 5 * (Spec.groupItems (out.dropCol "time_period") "item_id" "treatment_assignment" b).card := hlarge
    exact enough_left_in_group q0 q1 (n := d.nAfterPre.toNat) (by omega) hle (by omega) (by rw [hcast]; exact q2)

/-- **C103, regular experiments without pretest weeks.**  If every control item has a positive total of each metric without denominator, the data
of a regular experiment with enough items in both groups is always analysed. -/
theorem C103_positive_regular_analysed (R : Rounding ℝ) (argsort : List ℝ → List ℕ) (ha : ArgsortOk argsort) (D : TDist) (p : DesignParams ℝ)
    (d : Design ℝ) (hd : mkDesign R p = .ok d) (hn : d.nAfterPre ≤ 2 ^ 53) (hx : d.isCrossover = false) (hp : d.pretest = 0)
    (itemCol weekCol treatCol : String) (columns : List String) (f : Frame ℝ) (hf : Spec.ExperimentData d itemCol weekCol treatCol columns f)
    (metrics : List Metric) (hm : Spec.MetricsFrom columns metrics)
    (hleft : ∀ m ∈ metrics, ∀ q, m.override = some q → Spec.EnoughLeft R q d.nAfterPre.toNat)
    (hgroups : ∀ m ∈ metrics, ∀ b, Spec.EnoughLeft R (m.override.getD d.postTrim.val) (Spec.groupItems f itemCol treatCol b).card)
    (hpos : ∀ m ∈ metrics, m.denominator = none → Spec.ControlPositive d itemCol weekCol treatCol f m.column) :
    ∃ rows, (analyzeExperiment R argsort D d.toDesignParams metrics weekCol itemCol treatCol f).1 = .ok rows ∧
      rows.map Prod.fst = metrics.map Metric.name := by
  rcases C103_regular_analysed_partial R argsort ha D p d hd hn hx itemCol weekCol treatCol columns f hf metrics hm hleft hgroups with h | ⟨⟨m, hmem, h0, hneg⟩, -⟩
  · exact h
  · exact absurd ⟨hp, hpos m hmem h0⟩ hneg

/-! ### Examples -/

/-- The environment of the sixty items (C104) with the binomial test. -/
noncomputable def testedChecker : Checker ℝ := { runChecker ℝ with binom := binomTest }

/-- 31 of the sixty items are treated: the test accepts. -/
theorem tested_assignment (x : Bool) :
    Spec.CorrectAssignment testedChecker (sixtyDesign ℝ x) (runAssign ℝ) "id" "t" "abc" (splitP ℝ 60 29) := by
  obtain ⟨h1, h2, h3, h4, -⟩ := run_assignment (K := ℝ) x
  refine ⟨h1, h2, h3, h4, ?_, ?_⟩
  · have e : (runAssign ℝ).rows.countP (fun r => decide ((Coinflip.mk "abc").flip (testedChecker.ext.toStr (r "id")) = 1)) = 31 := by
      have : (runAssign ℝ).rows.countP (fun r => decide ((Coinflip.mk "abc").flip (testedChecker.ext.toStr (r "id")) = 1)) =
          ((List.range 60).map toString).countP (fun s => decide ((Coinflip.mk "abc").flip s = 1)) := by
        rw [← run_texts (K := ℝ), List.countP_map]
        rfl
      rw [this]
      decide +kernel
    have l : (runAssign ℝ).rows.length = 60 := by
      unfold runAssign
      simp
    rw [e, l]
    exact binomTest_eq (k := 31) (n := 60) (by norm_num) (by norm_num)
  · unfold splitP
    rw [if_neg (by norm_num)]
    refine le_min (by norm_num) ?_
    rw [le_div_iff₀ (by positivity)]
    have h := tail_le_far (K := ℝ) (n := 60) (m := 29) (by norm_num)
    have h' : 2 ^ 60 ≤ 1000 * (2 * tailCount 60 29) := by decide +kernel
    have h'' : (2 : ℝ) ^ 60 ≤ 1000 * ((tailCount 60 29 + farCount ℝ 60 29 : ℕ) : ℝ) := by
      have : 2 ^ 60 ≤ 1000 * (tailCount 60 29 + farCount ℝ 60 29) := by omega
      exact_mod_cast this
    linarith

/-- The hypotheses of the theorem on prepared regular data are met. -/
example (R : Rounding ℝ) (argsort : List ℝ → List ℕ) (ha : ArgsortOk argsort) (D : TDist) :
    ∃ out, prepareExperiment testedChecker (runPerf ℝ) (runAssign ℝ) (sixtyDesign ℝ false) "2024-01-08" "id" "day" "t" runArgs = .ok out ∧
      (∀ b, 12 < (Spec.groupItems out "item_id" "treatment_assignment" b).card) ∧
      ((∃ rows, (analyzeExperiment R argsort D (sixtyDesign ℝ false).toDesignParams runMetrics "week_id" "item_id" "treatment_assignment"
          (out.dropCol "time_period")).1 = .ok rows ∧ rows.map Prod.fst = ["clicks", "active", "clicks_per_active"]) ∨
        (analyzeExperiment R argsort D (sixtyDesign ℝ false).toDesignParams runMetrics "week_id"
          "item_id" "treatment_assignment" (out.dropCol "time_period")).1 = .error .zeroDivision) := by
  have hd := sixtyDesign_created R false
  obtain ⟨out, ho⟩ := C104_correct_run_accepted R _ _ hd testedChecker (runPerf ℝ) (runAssign ℝ) "2024-01-08" "id" "day" "t" runArgs
    (7 * 86400000000000) "abc" (splitP ℝ 60 29) rfl run_names ⟨run_performance false, tested_assignment false⟩ (by decide)
  have hc : (runAssign ℝ).cols = ["id", "t"] := (run_names (K := ℝ)).assignCols
  refine ⟨out, ho, ?_, ?_⟩
  · intro b
    have := C103_groups_large R _ _ hd testedChecker rfl _ _ out _ _ _ _ _ ho rfl rfl (by decide) (by rw [hc]; simp) (by rw [hc]; simp)
      (names_keep (run_names (K := ℝ))) b
    have e : (sixtyDesign ℝ false).nAfterPre = 60 := rfl
    omega
  · have e2 : ⌊R.rnd (1 / 30 * (((sixtyDesign ℝ false).nAfterPre.toNat : ℕ) : ℝ))⌋ = 2 := by
      show ⌊R.rnd (1 / 30 * ((60 : ℕ) : ℝ))⌋ = 2
      rw [show (1 / 30 * ((60 : ℕ) : ℝ)) = ((2 : ℤ) : ℝ) by norm_num, R.intFix 2 (by norm_num)]
      simp
    have ho1 : ∀ m ∈ runMetrics, m.override = some (1 / 30) := fun m hm => (runMetrics_left R (n := 60) (by norm_num) (by norm_num) hm).1
    refine (C103_prepared_regular_analysed_partial R argsort ha D _ _ hd (by show (60 : ℤ) ≤ 2 ^ 53; norm_num) rfl testedChecker rfl _ _ out _ _ _ _ _
      ho rfl rfl (by decide) (by rw [hc]; simp) (by rw [hc]; simp) (names_keep (run_names (K := ℝ))) runMetrics runMetrics_fit ?_).imp
        (fun h => h) (fun h => h.2)
    · intro m hm q hq
      rw [ho1 m hm] at hq
      cases hq
      rw [e2]
      show (50 : ℤ) < 60 - 2 * 2
      norm_num

/-- Sixty items, one week, no pretest weeks. -/
noncomputable def weekParams : DesignParams ℝ := { sixtyParams ℝ false with runtime := 1, pretest := 0 }

/-- See `weekParams`. -/
noncomputable def weekDesign : Design ℝ := { weekParams with nAfterPre := 60, nAfterPost := 60 }

theorem weekDesign_created (R : Rounding ℝ) : mkDesign R weekParams = .ok weekDesign := by
  have h0 : R.rnd 0 = 0 := by simpa using R.intFix 0 (by norm_num)
  have hf : ∀ n : ℤ, R.floorMul 0 n = 0 := by
    intro n
    unfold Rounding.floorMul
    rw [zero_mul, h0]; simp
  rw [mkDesign_ok_iff]
  constructor
  · unfold deriveCounts weekDesign
    have h1 : weekParams.preTop.val = 0 := rfl
    have h2 : weekParams.preBottom.val = 0 := rfl
    have h3 : weekParams.postTrim.val = 0 := rfl
    simp only [h1, h2, h3, hf]
    rfl
  · rw [validateDesign_ok_iff]
    refine ⟨⟨(by decide : (0 : ℤ) < 1), (by decide : (0 : ℤ) ≤ 0), le_refl _, le_refl _, le_refl _, ?_, ?_,
      by simp [weekDesign, weekParams, sixtyParams, PyNum.val], ?_⟩, (by decide : (50 : ℤ) < 60)⟩
    · show R.rnd (0 + 0) < 1
      rw [zero_add, h0]; exact zero_lt_one
    · show (0 : ℝ) < 1 / 2
      norm_num
    · intro hx
      cases hx

/-- Every second item is treated and has one click more. -/
def weekData : Frame ℝ where
  cols := ["id", "week", "t", "clicks"]
  rows := (List.range 60).map (fun (i : ℕ) c => if c = "id" then .int i else if c = "week" then .int 0 else if c = "t" then .int ((i : ℤ) % 2)
    else .int ((i : ℤ) % 2 + 1))

theorem weekData_group (b : Bool) : (Spec.groupItems weekData "id" "t" b).card = 30 := by
  classical
  have e : Spec.groupItems weekData "id" "t" b = ((List.range 60).filter (fun i => decide (i % 2 = if b then 1 else 0))).toFinset.image
      (fun i : ℕ => (Cell.int (i : ℤ) : Cell ℝ)) := by
    unfold Spec.groupItems Spec.itemsOf weekData
    ext c
    simp only [List.mem_toFinset, List.mem_map, List.mem_filter, decide_eq_true_eq, Finset.mem_image]
    constructor
    · rintro ⟨r, ⟨⟨i, hi, rfl⟩, e⟩, rfl⟩
      refine ⟨i, ⟨hi, ?_⟩, by simp⟩
      have := Cell.int.inj e
      cases b <;> simp at this ⊢ <;> omega
    · rintro ⟨i, ⟨hi, e⟩, rfl⟩
      refine ⟨_, ⟨⟨i, hi, rfl⟩, ?_⟩, by simp⟩
      cases b <;> simp at e ⊢ <;> omega
  rw [e, Finset.card_image_of_injective]
  · cases b <;> decide +kernel
  · intro x y h
    exact_mod_cast Cell.int.inj h

theorem weekData_experiment : Spec.ExperimentData weekDesign "id" "week" "t" ["clicks"] weekData := by
  classical
  refine ⟨by simp [weekData], by decide, by decide, ?_, ?_, ?_, ?_, ?_, ?_⟩
  · intro r hr
    obtain ⟨i, -, rfl⟩ := List.mem_map.mp hr
    exact ⟨0, rfl, by decide, by decide⟩
  · intro w h1 h2
    have h1 : -(0 : ℤ) ≤ w := h1
    have h2 : w < (1 : ℤ) := h2
    obtain rfl : w = 0 := by omega
    exact ⟨_, List.mem_map.mpr ⟨0, by simp, rfl⟩, rfl⟩
  · intro r hr
    obtain ⟨i, -, rfl⟩ := List.mem_map.mp hr
    exact fun e => by cases e
  · refine ⟨fun c => match c with | .int z => decide (z % 2 = 1) | _ => false, ?_⟩
    intro r hr
    obtain ⟨i, -, rfl⟩ := List.mem_map.mp hr
    show (Cell.int ((i : ℤ) % 2) : Cell ℝ) = .int (if decide ((i : ℤ) % 2 = 1) = true then 1 else 0)
    congr 1
    by_cases h : (i : ℤ) % 2 = 1
    · simp [h]
    · simp only [h, decide_false, Bool.false_eq_true, if_false]
      omega
  · have e : Spec.itemsOf weekData "id" (fun _ => True) = (List.range 60).toFinset.image (fun i : ℕ => (Cell.int (i : ℤ) : Cell ℝ)) := by
      unfold Spec.itemsOf weekData
      ext c
      simp
    rw [e, Finset.card_image_of_injective]
    · rfl
    · intro x y h
      exact_mod_cast Cell.int.inj h
  · intro c hc r hr
    obtain rfl := List.mem_singleton.mp hc
    obtain ⟨i, -, rfl⟩ := List.mem_map.mp hr
    exact ⟨_, rfl⟩

/-- The hypotheses of the theorem without pretest weeks are met: this data is analysed. -/
theorem weekData_analysed (R : Rounding ℝ) (argsort : List ℝ → List ℕ) (ha : ArgsortOk argsort) (D : TDist) :
    ∃ rows, (analyzeExperiment R argsort D weekDesign.toDesignParams [⟨"clicks", "clicks", none, none⟩] "week" "id" "t" weekData).1 = .ok rows ∧
      rows.map Prod.fst = ["clicks"] := by
  refine C103_positive_regular_analysed R argsort ha D _ _ (weekDesign_created R) (by show (60 : ℤ) ≤ 2 ^ 53; norm_num) rfl rfl "id" "week" "t"
    ["clicks"] weekData weekData_experiment [⟨"clicks", "clicks", none, none⟩] ?_ ?_ ?_ ?_
  · refine ⟨by simp, ?_⟩
    intro m hm
    obtain rfl := List.mem_singleton.mp hm
    exact ⟨by simp, by simp, by simp⟩
  · intro m hm q hq
    obtain rfl := List.mem_singleton.mp hm
    cases hq
  · intro m hm b
    obtain rfl := List.mem_singleton.mp hm
    rw [weekData_group]
    unfold Spec.EnoughLeft
    have h0 : R.rnd 0 = 0 := by simpa using R.intFix 0 (by norm_num)
    show 2 * ⌊R.rnd ((0 : ℝ) * ((30 : ℕ) : ℝ))⌋ + 1 < ((30 : ℕ) : ℤ)
    rw [zero_mul, h0]
    simp
  · intro m hm _ r hr _
    obtain rfl := List.mem_singleton.mp hm
    unfold Spec.total
    refine sumSkip_positive ?_ ?_
    · refine List.ne_nil_of_mem (List.mem_map.mpr ⟨r, List.mem_filter.mpr ⟨hr, ?_⟩, rfl⟩)
      obtain ⟨i, -, rfl⟩ := List.mem_map.mp hr
      unfold Spec.inWeeks
      simp [weekDesign, weekParams]
    · intro x hx
      obtain ⟨r', hr', rfl⟩ := List.mem_map.mp hx
      obtain ⟨i, -, rfl⟩ := List.mem_map.mp (List.mem_filter.mp hr').1
      refine ⟨(((i : ℤ) % 2 + 1 : ℤ) : ℝ), ?_, rfl⟩
      have : (0 : ℤ) < (i : ℤ) % 2 + 1 := by omega
      exact_mod_cast this

end Feedx
