import Verif.Proofs.Pipeline
import Mathlib.Data.Finset.Max

/-!
Prepared historical data (C44, C62).
-/

set_option linter.unusedSectionVars false
set_option linter.unusedSimpArgs false

namespace Feedx

variable {K : Type} [Field K] [LinearOrder K] [IsStrictOrderedRing K] [FloorRing K]

/-- **C62.**  Historical data that is prepared with no check skipped is not empty, has exactly one row per item and week, holds finite
values of the primary metric that are not negative, counts weeks from the first date of the raw data, and skips no week between two of its
weeks. -/
theorem C62_weekly_panel (R : Rounding K) (rng : Sampler (Cell K)) (E : Ext K) (S : DateSorter K) (raw out : Frame K)
    (itemCol dateCol primary primaryCol : String) (fraction : K)
    (h : prepareHistorical R rng E S raw itemCol dateCol primary primaryCol fraction [] = .ok out) :
    out.rows ≠ [] ∧
    (∀ i ∈ out.col "item_id", ∀ w ∈ out.col "week_id", Spec.rowsAt out "item_id" "week_id" i w = 1) ∧
    (∀ r ∈ out.rows, Spec.IsFinite (r (if primary = "other" then primaryCol else primary)) ∧
      ¬ Spec.IsNegative (r (if primary = "other" then primaryCol else primary))) ∧
    (∃ first : ℤ, IsLeast {t | ∃ r ∈ raw.rows, E.toDate (r dateCol) = .ok (some t)} first ∧
      ∀ r ∈ out.rows, ∃ w : ℤ, r "week_id" = .int w ∧ r "week_start" = .time (first + 7 * w * 86400000000000)) ∧
    (∀ u v w : ℤ, u ≤ v → v ≤ w → .int u ∈ out.col "week_id" → .int w ∈ out.col "week_id" → .int v ∈ out.col "week_id") := by
  unfold prepareHistorical at h
  obtain ⟨⟨name, f⟩, hp, h⟩ := Py.bind_eq_ok.mp h
  obtain ⟨u, hv, h⟩ := Py.bind_eq_ok.mp h
  cases h
  obtain ⟨hname, t0, hpan, hleast⟩ := cleanHistorical_panel hp
  simp only at hname hpan hleast hv ⊢
  unfold validateHistorical at hv
  obtain ⟨_, -, hv⟩ := Py.bind_eq_ok.mp hv
  obtain ⟨_, c1, hv⟩ := Py.bind_eq_ok.mp hv
  obtain ⟨_, c2, hv⟩ := Py.bind_eq_ok.mp hv
  obtain ⟨_, c3, hv⟩ := Py.bind_eq_ok.mp hv
  obtain ⟨_, c4, hv⟩ := Py.bind_eq_ok.mp hv
  obtain ⟨_, c5, c6⟩ := Py.bind_eq_ok.mp hv
  have c1 := runCheck_passed c1
  have c2 := runCheck_passed c2
  have c4 := runCheck_passed c4
  have c5 := runCheck_passed c5
  have c6 := runCheck_passed c6
  have hne := checkDuplicates_nonempty c2
  have htime : ∀ r ∈ f.rows, ∃ t, r "week_start" = .time t := by
    intro r hr
    obtain ⟨w, -, e⟩ := hpan.weeks r hr
    exact ⟨_, e⟩
  have hnull : Spec.NoNulls f := by
    obtain ⟨b, hb, hiff⟩ := checkNulls_verdict f
    rw [c1] at hb
    exact hiff.mp (Except.ok.inj hb).symm
  -- the week start determines the week id and conversely
  have hdet : ∀ r ∈ f.rows, ∀ r' ∈ f.rows, r "week_start" = r' "week_start" ↔ r "week_id" = r' "week_id" := by
    intro r hr r' hr'
    obtain ⟨w, e1, e2⟩ := hpan.weeks r hr
    obtain ⟨w', e1', e2'⟩ := hpan.weeks r' hr'
    rw [e1, e2, e1', e2']
    unfold weekStart dayNs
    simp only [Cell.time.injEq, Cell.int.injEq]
    omega
  have hone : Spec.OneRowEach f "item_id" "week_start" := by
    refine (C51_one_row_each_partial f "item_id" "week_start" htime (fun r hr => hnull r hr _ hpan.item) c2).2.2 ?_
    obtain ⟨r0, hr0⟩ := List.exists_mem_of_ne_nil _ hne
    refine ⟨r0 "week_start", ?_⟩
    intro i hi
    obtain ⟨r, hr, rfl⟩ := List.mem_map.mp hi
    obtain ⟨q, hq, e1, e2⟩ := hpan.grid r hr r0 hr0
    unfold Spec.rowsAt
    rw [Nat.one_le_iff_ne_zero, ← Nat.pos_iff_ne_zero, List.countP_pos_iff]
    exact ⟨q, hq, by simpa using ⟨e1, (hdet q hq r0 hr0).mpr e2⟩⟩
  refine ⟨hne, ?_, ?_, ?_, ?_⟩
  · intro i hi w hw
    obtain ⟨r, hr, rfl⟩ := List.mem_map.mp hw
    rw [← hone i hi (r "week_start") (List.mem_map.mpr ⟨r, hr, rfl⟩)]
    unfold Spec.rowsAt
    refine List.countP_congr fun q hq => ?_
    simp only [decide_eq_true_eq]
    rw [hdet q hq r hr]
  · intro r hr
    rw [← hname]
    exact ⟨checkFinite_passed c5 r hr, checkNonNegative_passed c6 r hr⟩
  · refine ⟨t0, hleast hne, ?_⟩
    intro r hr
    obtain ⟨w, e1, e2⟩ := hpan.weeks r hr
    refine ⟨w, e1, ?_⟩
    rw [e2]
    unfold weekStart dayNs
    congr 1
    ring
  · have hsteps : Spec.WeekSteps f "week_id" "week_start" := by
      obtain ⟨b, hb, hiff⟩ := checkWeekIds_verdict (S := S) hpan.week hpan.start (by decide) htime
        (fun r hr => by obtain ⟨w, e, -⟩ := hpan.weeks r hr; exact ⟨w, e⟩)
        (fun r hr r' hr' e => (hdet r hr r' hr').mp e)
      rw [c4] at hb
      exact hiff.mp (Except.ok.inj hb).symm
    intro u v w huv hvw hu hw
    by_contra hv'
    have huv' : u < v := lt_of_le_of_ne huv (fun e => hv' (e ▸ hu))
    have hvw' : v < w := lt_of_le_of_ne hvw (fun e => hv' (e ▸ hw))
    -- the present week ids
    let ids : Finset ℤ := (f.rows.filterMap (fun r => match r "week_id" with
      | .int w => some w
      | _ => none)).toFinset
    have mem_ids : ∀ x : ℤ, x ∈ ids ↔ .int x ∈ f.col "week_id" := by
      intro x
      simp only [ids, List.mem_toFinset, List.mem_filterMap, Frame.col, List.mem_map]
      constructor
      · rintro ⟨r, hr, e⟩
        refine ⟨r, hr, ?_⟩
        split at e
        · rename_i e'
          rw [e']
          simpa using e
        · simp at e
      · rintro ⟨r, hr, e⟩
        exact ⟨r, hr, by simp [e]⟩
    obtain ⟨a, ha⟩ := (ids.filter (· < v)).exists_max_image id ⟨u, by simp [mem_ids, hu, huv']⟩
    obtain ⟨b, hb⟩ := (ids.filter (v < ·)).exists_min_image id ⟨w, by simp [mem_ids, hw, hvw']⟩
    simp only [Finset.mem_filter, mem_ids, id] at ha hb
    obtain ⟨ra, hra, ea⟩ := List.mem_map.mp ha.1.1
    obtain ⟨rb, hrb, eb⟩ := List.mem_map.mp hb.1.1
    obtain ⟨a', ea', sa⟩ := hpan.weeks ra hra
    obtain ⟨b', eb', sb⟩ := hpan.weeks rb hrb
    obtain rfl : a' = a := by rw [ea] at ea'; simpa using ea'.symm
    obtain rfl : b' = b := by rw [eb] at eb'; simpa using eb'.symm
    have hlt : weekStart t0 a' < weekStart t0 b' := by
      unfold weekStart dayNs
      omega
    have := hsteps ra hra rb hrb a' b' _ _ ea sa eb sb hlt (by
      rintro x ⟨r, hr, e⟩ ⟨h1, h2⟩
      obtain ⟨y, ey, sy⟩ := hpan.weeks r hr
      rw [sy] at e
      obtain rfl : weekStart t0 y = x := by simpa using e
      have hy : .int y ∈ f.col "week_id" := List.mem_map.mpr ⟨r, hr, ey⟩
      unfold weekStart dayNs at h1 h2
      rcases lt_trichotomy y v with hyv | rfl | hyv
      · have := ha.2 y ⟨hy, hyv⟩
        omega
      · exact hv' hy
      · have := hb.2 y ⟨hy, hyv⟩
        omega)
    omega

/-- C62 is not vacuous: two items, two weeks of daily clicks, one item with a day missing, and an incomplete last week; another
metric, and a sample of half of the items, too. -/
def rawHistory : Frame ℚ where
  cols := ["id", "day", "clk"]
  rows := ((List.range 16).map (fun n c => if c = "id" then .int 7 else if c = "day" then .time (n * 86400000000000)
      else if c = "clk" then .num n else .null)) ++
    ((List.range 13).map (fun n c => if c = "id" then .str "b" else if c = "day" then .time ((n + 2) * 86400000000000)
      else if c = "clk" then .num 1 else .null))

example : (prepareHistorical (Rounding.exact ℚ) (takeSampler _) exampleExt (stableSorter ℚ) rawHistory "id" "day" "clicks" "clk" 1 []).map
      (fun out => (out.cols, out.table)) =
    .ok (["week_id", "week_start", "item_id", "clicks"],
      [[.int 0, .time 0, .str "7", .num 21], [.int 0, .time 0, .str "b", .num 5],
       [.int 1, .time (7 * 86400000000000), .str "7", .num 70], [.int 1, .time (7 * 86400000000000), .str "b", .num 7]]) ∧
    (prepareHistorical (Rounding.exact ℚ) (takeSampler _) exampleExt (stableSorter ℚ) rawHistory "id" "day" "other" "clk" (1 / 2) []).map
      (fun out => (out.cols, out.table)) =
    .ok (["week_id", "week_start", "item_id", "clk"],
      [[.int 0, .time 0, .str "7", .num 21], [.int 1, .time (7 * 86400000000000), .str "7", .num 70]]) := by
  decide +kernel

/-! ### Missing values -/

/-- A week of daily clicks, one of them missing. -/
def rawWithNull : Frame ℚ where
  cols := ["id", "day", "clk"]
  rows := (List.range 7).map (fun n c => if c = "id" then .str "a" else if c = "day" then .time (n * 86400000000000)
      else if c = "clk" then (if n = 3 then .null else .num 2) else .null)

/-- **C44 fails.**  Raw data with a missing metric value is prepared without an error although no check is skipped: the missing value has
been filled with zero before validation. -/
theorem C44_nulls_reported_false :
    (∃ r ∈ rawWithNull.rows, r "clk" = .null) ∧
    (prepareHistorical (Rounding.exact ℚ) (takeSampler _) exampleExt (stableSorter ℚ) rawWithNull "id" "day" "clicks" "clk" 1 []).map
      (fun out => (out.cols, out.table)) =
    .ok (["week_id", "week_start", "item_id", "clicks"], [[.int 0, .time 0, .str "a", .num 12]]) := by
  refine ⟨⟨_, List.mem_map.mpr ⟨3, by decide, rfl⟩, rfl⟩, by decide +kernel⟩

/-- **C44** (what holds).  The validation functions themselves report every missing value that reaches them: if any cell of the data they
are given is missing and the check is not skipped, they raise `ValueError`.  (Missing for the full property: missing metric values of the
raw data do not reach them, see the counterexample.) -/
theorem C44_nulls_reported_partial (S : DateSorter K) (C : Checker K) (f : Frame K) (d : Design K)
    (itemCol dateCol weekCol treatCol primary startDate : String) (metrics canBeNegative skip : List String) (concluded : Bool)
    (hnull : ∃ r ∈ f.rows, ∃ c ∈ f.cols, r c = .null) (hs : "no_nulls" ∉ skip) :
    validateHistorical S f itemCol dateCol weekCol primary skip = .error .valueError ∧
    validateExperiment C f d itemCol dateCol weekCol treatCol metrics startDate concluded canBeNegative skip = .error .valueError := by
  have hc : runCheck skip "no_nulls" (checkNulls f) = .error .valueError := by
    refine (runCheck_verdict (checkNulls_verdict f)).2 ?_
    rintro (h | h)
    · exact hs h
    · obtain ⟨r, hr, c, hc, e⟩ := hnull
      exact h r hr c hc e
  have ha : assertChecksExist skip = .ok () ∨ assertChecksExist skip = .error .valueError := by
    by_cases h : ∀ s ∈ skip, s ∈ Spec.registeredChecks
    · exact Or.inl ((assertChecksExist_verdict skip).1.mpr h)
    · exact Or.inr ((assertChecksExist_verdict skip).2 h)
  have hb : runCheck skip "primary_metric_in_metrics" (checkPrimary metrics d.primaryMetric) = .ok () ∨
      runCheck skip "primary_metric_in_metrics" (checkPrimary metrics d.primaryMetric) = .error .valueError := by
    by_cases h : "primary_metric_in_metrics" ∈ skip ∨ d.primaryMetric ∈ metrics
    · exact Or.inl ((runCheck_verdict (checkPrimary_verdict metrics d.primaryMetric)).1.mpr h)
    · exact Or.inr ((runCheck_verdict (checkPrimary_verdict metrics d.primaryMetric)).2 h)
  unfold validateHistorical validateExperiment
  constructor
  · rcases ha with ha | ha <;> rw [ha]
    · simp only [hc]; rfl
    · rfl
  · rcases ha with ha | ha <;> rw [ha]
    · rcases hb with hb | hb
      · simp only [hb, hc]; rfl
      · simp only [hb]; rfl
    · rfl

/-- C44's partial theorem is not vacuous: a frame with a missing value. -/
example : (∃ r ∈ rawWithNull.rows, ∃ c ∈ rawWithNull.cols, r c = .null) ∧
    validateHistorical (stableSorter ℚ) rawWithNull "id" "day" "day" "clk" ["all_metrics_are_finite"] = .error .valueError := by
  refine ⟨⟨_, List.mem_map.mpr ⟨3, by decide, rfl⟩, "clk", by simp [rawWithNull], rfl⟩, by decide +kernel⟩

end Feedx
