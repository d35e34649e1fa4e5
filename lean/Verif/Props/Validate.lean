import Verif.Proofs.Validate
import Verif.Props.Weeks

/-!
C49-C53: what passing validation means.
-/

set_option linter.unusedSectionVars false
set_option linter.unusedSimpArgs false

namespace Feedx

variable {K : Type} [Field K] [LinearOrder K] [IsStrictOrderedRing K]

/-! ### The two validation functions -/

/-- Data every historical check comes to a verdict on: the columns exist with their types, there is a row, and a date has one week. -/
structure Spec.CheckableHistory (f : Frame K) (itemCol dateCol weekCol primary : String) : Prop where
  item : itemCol ∈ f.cols
  date : dateCol ∈ f.cols
  week : weekCol ∈ f.cols
  metric : primary ∈ f.cols
  itemDate : itemCol ≠ dateCol
  weekDate : weekCol ≠ dateCol
  rows : f.rows ≠ []
  dates : ∀ r ∈ f.rows, ∃ t, r dateCol = .time t
  weeks : ∀ r ∈ f.rows, ∃ w, r weekCol = .int w
  oneWeek : ∀ r ∈ f.rows, ∀ r' ∈ f.rows, r dateCol = r' dateCol → r weekCol = r' weekCol
  numbers : ∀ r ∈ f.rows, Spec.IsNumber (r primary)

theorem mem_checkNames (s : String) : s ∈ checkNames ↔ s ∈ Spec.registeredChecks := by
  simp only [checkNames, Spec.registeredChecks, List.mem_cons, List.not_mem_nil, or_false]
  tauto

theorem assertChecksExist_verdict (skip : List String) : Spec.Verdict (assertChecksExist skip) (∀ s ∈ skip, s ∈ Spec.registeredChecks) := by
  unfold assertChecksExist
  simp only [mem_checkNames]
  have h : (skip.any (fun s => decide (s ∉ Spec.registeredChecks)) = true) ↔ ¬ ∀ s ∈ skip, s ∈ Spec.registeredChecks := by
    rw [List.any_eq_true]
    push Not
    simp
  exact ⟨by rw [raiseIf_ok, h, not_not], fun hn => raiseIf_err.mpr ⟨h.mpr hn, rfl⟩⟩

/-- **C49** (historical data).  On data every check comes to a verdict on, validation returns exactly when the skip list holds only known
names and each check is listed there or its condition holds; otherwise it raises `ValueError`.  (Missing for the full
property: data on which a check raises by itself, see `C49_skipped_check_raises_false`.) -/
theorem C49_historical_partial (S : DateSorter K) (f : Frame K) (itemCol dateCol weekCol primary : String) (skip : List String)
    (h : Spec.CheckableHistory f itemCol dateCol weekCol primary) :
    Spec.Verdict (validateHistorical S f itemCol dateCol weekCol primary skip)
      ((∀ s ∈ skip, s ∈ Spec.registeredChecks) ∧
       ("no_nulls" ∈ skip ∨ Spec.NoNulls f) ∧
       ("no_duplicate_items_per_date" ∈ skip ∨ Spec.SameItemCounts f itemCol dateCol) ∧
       ("dates_are_daily_or_weekly" ∈ skip ∨ Spec.DailyOrWeekly f dateCol) ∧
       ("week_ids_are_consecutive_integers" ∈ skip ∨ Spec.WeekSteps f weekCol dateCol) ∧
       ("all_metrics_are_finite" ∈ skip ∨ Spec.AllFinite f [primary]) ∧
       ("all_metrics_are_non_negative" ∈ skip ∨ Spec.NoneNegative f [primary])) := by
  have hc : ∀ m ∈ [primary], m ∈ f.cols := by simp [h.metric]
  have hn : ∀ m ∈ [primary], ∀ r ∈ f.rows, Spec.IsNumber (r m) := by simpa using h.numbers
  unfold validateHistorical
  exact (assertChecksExist_verdict skip).seq ((runCheck_verdict (checkNulls_verdict f)).seq
    ((runCheck_verdict (checkDuplicates_verdict h.item h.date h.itemDate h.rows h.dates)).seq
    ((runCheck_verdict (checkSpacing_verdict h.date h.dates)).seq
    ((runCheck_verdict (checkWeekIds_verdict h.week h.date h.weekDate h.dates h.weeks h.oneWeek)).seq
    ((runCheck_verdict (checkFinite_verdict hc hn)).seq (runCheck_verdict (checkNonNegative_verdict hc hn)))))))

/-- Data every experiment check comes to a verdict on. -/
structure Spec.CheckableExperiment (C : Checker K) (f : Frame K) (d : Design K) (itemCol dateCol weekCol treatCol : String)
    (metrics : List String) (startDate : String) (start : ℤ) (salt : String) (p : K) : Prop where
  item : itemCol ∈ f.cols
  date : dateCol ∈ f.cols
  week : weekCol ∈ f.cols
  treat : treatCol ∈ f.cols
  metric : ∀ m ∈ metrics, m ∈ f.cols
  itemDate : itemCol ≠ dateCol
  weekDate : weekCol ≠ dateCol
  rows : f.rows ≠ []
  dates : ∀ r ∈ f.rows, ∃ t, r dateCol = .time t
  weeks : ∀ r ∈ f.rows, ∃ w, r weekCol = .int w
  oneWeek : ∀ r ∈ f.rows, ∀ r' ∈ f.rows, r dateCol = r' dateCol → r weekCol = r' weekCol
  numbers : ∀ m ∈ metrics, ∀ r ∈ f.rows, Spec.IsNumber (r m)
  started : C.ext.strptime startDate = some start
  salted : d.salt = some salt ∧ salt ≠ ""
  pvalue : C.binom (Spec.arm f itemCol treatCol 1).card ((Spec.arm f itemCol treatCol 1).card + (Spec.arm f itemCol treatCol 0).card) = .ok p

/-- **C49** (experiment data).  As for historical data, with the twelve checks; the non-negativity check covers the metrics that may
not be negative. -/
theorem C49_experiment_partial (C : Checker K) (f : Frame K) (d : Design K) (itemCol dateCol weekCol treatCol : String)
    (metrics : List String) (startDate : String) (concluded : Bool) (canBeNegative skip : List String) (start : ℤ) (salt : String) (p : K)
    (h : Spec.CheckableExperiment C f d itemCol dateCol weekCol treatCol metrics startDate start salt p) :
    Spec.Verdict (validateExperiment C f d itemCol dateCol weekCol treatCol metrics startDate concluded canBeNegative skip)
      ((∀ s ∈ skip, s ∈ Spec.registeredChecks) ∧
       ("primary_metric_in_metrics" ∈ skip ∨ d.primaryMetric ∈ metrics) ∧
       ("no_nulls" ∈ skip ∨ Spec.NoNulls f) ∧
       ("no_duplicate_items_per_date" ∈ skip ∨ Spec.SameItemCounts f itemCol dateCol) ∧
       ("dates_are_daily_or_weekly" ∈ skip ∨ Spec.DailyOrWeekly f dateCol) ∧
       ("week_ids_are_consecutive_integers" ∈ skip ∨ Spec.WeekSteps f weekCol dateCol) ∧
       ("all_metrics_are_finite" ∈ skip ∨ Spec.AllFinite f metrics) ∧
       ("all_metrics_are_non_negative" ∈ skip ∨ ∀ m ∈ metrics, m ∉ canBeNegative → ∀ r ∈ f.rows, ¬ Spec.IsNegative (r m)) ∧
       ("number_of_items_matches_design" ∈ skip ∨ ((Spec.itemSet f itemCol).card : ℤ) = d.nAfterPre) ∧
       ("experiment_dates_match_design" ∈ skip ∨ Spec.CoversDates f dateCol start d.pretest d.runtime concluded) ∧
       ("treatment_assignment_is_unique" ∈ skip ∨ Spec.AssignedOnce f itemCol treatCol) ∧
       ("coinflip_salt_validation" ∈ skip ∨
          ∀ r ∈ f.rows, Spec.IsNat (r treatCol) ((Coinflip.mk salt).flip (C.ext.toStr (r itemCol)))) ∧
       ("no_sample_ratio_mismatch" ∈ skip ∨ 1 / 1000 ≤ p)) := by
  have hneg : Spec.Verdict (runNonNegative f metrics canBeNegative skip)
      ("all_metrics_are_non_negative" ∈ skip ∨ ∀ m ∈ metrics, m ∉ canBeNegative → ∀ r ∈ f.rows, ¬ Spec.IsNegative (r m)) := by
    unfold runNonNegative
    simp only
    split
    · rename_i he
      rw [List.isEmpty_iff, List.filter_eq_nil_iff] at he
      have ht : ∀ m ∈ metrics, m ∉ canBeNegative → ∀ r ∈ f.rows, ¬ Spec.IsNegative (r m) := by
        intro m hm hx
        exact absurd (decide_eq_true hx) (he m hm)
      exact ⟨⟨fun _ => Or.inr ht, fun _ => rfl⟩, fun hn => absurd (Or.inr ht) hn⟩
    · have := runCheck_verdict (skip := skip) (name := "all_metrics_are_non_negative") (checkNonNegative_verdict (f := f)
        (metrics := metrics.filter (fun m => decide (m ∉ canBeNegative))) (fun m hm => h.metric m (List.mem_filter.mp hm).1)
        (fun m hm => h.numbers m (List.mem_filter.mp hm).1))
      have e : Spec.NoneNegative f (metrics.filter (fun m => decide (m ∉ canBeNegative))) ↔
          ∀ m ∈ metrics, m ∉ canBeNegative → ∀ r ∈ f.rows, ¬ Spec.IsNegative (r m) := by
        unfold Spec.NoneNegative
        simp only [List.mem_filter, decide_eq_true_eq, and_imp]
      rw [e] at this
      exact this
  unfold validateExperiment
  exact (assertChecksExist_verdict skip).seq ((runCheck_verdict (checkPrimary_verdict _ _)).seq
    ((runCheck_verdict (checkNulls_verdict f)).seq
    ((runCheck_verdict (checkDuplicates_verdict h.item h.date h.itemDate h.rows h.dates)).seq
    ((runCheck_verdict (checkSpacing_verdict h.date h.dates)).seq
    ((runCheck_verdict (checkWeekIds_verdict h.week h.date h.weekDate h.dates h.weeks h.oneWeek)).seq
    ((runCheck_verdict (checkFinite_verdict h.metric h.numbers)).seq (hneg.seq
    ((runCheck_verdict (checkItemCount_verdict h.item)).seq
    ((runCheck_verdict (checkDateRange_verdict h.started h.date h.rows h.dates)).seq
    ((runCheck_verdict (checkUnique_verdict h.item h.treat)).seq
    ((runCheck_verdict (checkCoinflip_verdict h.item h.treat h.salted.1 h.salted.2)).seq
    (runCheck_verdict (checkRatio_verdict h.item h.treat h.pvalue)))))))))))))

/-- **C50.**  An unknown name in the skip list raises `ValueError`, whatever the data and whatever the checks would do. -/
theorem C50_unknown_names (S : DateSorter K) (C : Checker K) (f : Frame K) (d : Design K) (itemCol dateCol weekCol treatCol primary : String)
    (metrics : List String) (startDate : String) (concluded : Bool) (canBeNegative skip : List String) (s : String)
    (hs : s ∈ skip) (hn : s ∉ Spec.registeredChecks) :
    validateHistorical S f itemCol dateCol weekCol primary skip = .error .valueError ∧
    validateExperiment C f d itemCol dateCol weekCol treatCol metrics startDate concluded canBeNegative skip = .error .valueError := by
  have h : assertChecksExist skip = .error .valueError := (assertChecksExist_verdict skip).2 fun hall => hn (hall s hs)
  unfold validateHistorical validateExperiment
  rw [h]
  exact ⟨rfl, rfl⟩

/-! ### Single checks -/

/-- Two dates with two items each, but not the same two. -/
def differentItems : Frame ℚ where
  cols := ["item_id", "date"]
  rows := [fun c => if c = "item_id" then .str "a" else .time 0, fun c => if c = "item_id" then .str "b" else .time 0,
    fun c => if c = "item_id" then .str "a" else .time 86400000000000, fun c => if c = "item_id" then .str "c" else .time 86400000000000]

/-- **C51** is violated by the code: only the numbers of items per date are compared.  Here the check passes although item `b` has no row
on the second date. -/
theorem C51_missing_rows_pass_false :
    checkDuplicates differentItems "item_id" "date" = .ok false ∧
    ¬ Spec.OneRowEach differentItems "item_id" "date" := by
  refine ⟨by decide +kernel, ?_⟩
  intro h
  have := h (.str "b") (by decide +kernel) (.time 86400000000000) (by decide +kernel)
  revert this
  decide +kernel

theorem count_itemsAt (f : Frame K) (itemCol dateCol : String) (i d : Cell K) (hi : i ≠ .null) :
    (Spec.itemsAt f itemCol dateCol d).count i = Spec.rowsAt f itemCol dateCol i d := by
  unfold Spec.itemsAt Spec.rowsAt
  rw [List.count_filter (by simpa using hi), List.count_eq_countP, List.countP_map, List.countP_filter]
  refine List.countP_congr fun r _ => ?_
  simp

/-- **C51** (what holds).  If the check passes on data without missing items and dates, every item has at most one row per date and all
dates have the same number of items; if that number is the number of items in the data (or there is a date with a row for every item),
every item has exactly one row on every date.  (Missing for the full property: dates with different items, see the counterexample.) -/
theorem C51_one_row_each_partial (f : Frame K) (itemCol dateCol : String) (ht : ∀ r ∈ f.rows, ∃ t, r dateCol = .time t)
    (hi : ∀ r ∈ f.rows, r itemCol ≠ .null) (h : checkDuplicates f itemCol dateCol = .ok false) :
    (∀ i ∈ f.col itemCol, ∀ d, Spec.rowsAt f itemCol dateCol i d ≤ 1) ∧
    (∀ s t, Spec.HasDate f dateCol s → Spec.HasDate f dateCol t →
      (Spec.itemsAt f itemCol dateCol (.time s)).toFinset.card = (Spec.itemsAt f itemCol dateCol (.time t)).toFinset.card) ∧
    ((∃ d, ∀ i ∈ f.col itemCol, 1 ≤ Spec.rowsAt f itemCol dateCol i d) → Spec.OneRowEach f itemCol dateCol) := by
  have h' := h
  unfold checkDuplicates at h'
  obtain ⟨c1, h'⟩ := raiseIf_bind_ok.mp h'
  obtain ⟨c2, h'⟩ := raiseIf_bind_ok.mp h'
  push Not at c1
  have h0 : f.rows ≠ [] := by
    intro e
    simp [e, groupKeys, dropDup] at h'
  obtain ⟨b, hb, hiff⟩ := checkDuplicates_verdict c1.2 c1.1 c2 h0 ht
  rw [h] at hb
  obtain ⟨s1, s2⟩ := hiff.mp (Except.ok.inj hb).symm
  have hle : ∀ i ∈ f.col itemCol, ∀ d, Spec.rowsAt f itemCol dateCol i d ≤ 1 := by
    intro i hi' d
    obtain ⟨r0, hr0, rfl⟩ := List.mem_map.mp hi'
    by_cases hd : ∃ t, d = .time t ∧ Spec.HasDate f dateCol t
    · obtain ⟨t, rfl, hd⟩ := hd
      rw [← count_itemsAt _ _ _ _ _ (hi r0 hr0)]
      exact List.nodup_iff_count_le_one.mp (s1 t hd) _
    · have : Spec.rowsAt f itemCol dateCol (r0 itemCol) d = 0 := by
        unfold Spec.rowsAt
        rw [List.countP_eq_zero]
        intro r hr
        simp only [decide_eq_true_eq, not_and]
        intro _ e
        obtain ⟨t, e'⟩ := ht r hr
        exact hd ⟨t, e.symm.trans e', r, hr, e'⟩
      omega
  refine ⟨hle, ?_, ?_⟩
  · intro s t hs ht'
    rw [List.toFinset_card_of_nodup (s1 s hs), List.toFinset_card_of_nodup (s1 t ht'), s2 s t hs ht']
  · rintro ⟨d0, hd0⟩ i hi' d hd
    obtain ⟨ri, hri, rfl⟩ := List.mem_map.mp hi'
    obtain ⟨rd, hrd, rfl⟩ := List.mem_map.mp hd
    obtain ⟨t, et⟩ := ht rd hrd
    have hht : Spec.HasDate f dateCol t := ⟨rd, hrd, et⟩
    obtain ⟨t0, e0⟩ : ∃ t0, d0 = .time t0 ∧ Spec.HasDate f dateCol t0 := by
      have h1 := hd0 _ hi'
      unfold Spec.rowsAt at h1
      obtain ⟨r, hr, e⟩ := List.countP_pos_iff.mp h1
      simp only [decide_eq_true_eq] at e
      obtain ⟨t0, e'⟩ := ht r hr
      exact ⟨t0, e.2.symm.trans e', r, hr, e'⟩
    obtain ⟨rfl, hh0⟩ := e0
    have hsub : ∀ d, (Spec.itemsAt f itemCol dateCol d).toFinset ⊆ Spec.itemSet f itemCol := by
      intro d x hx
      unfold Spec.itemsAt at hx
      rw [List.mem_toFinset, List.mem_filter] at hx
      obtain ⟨r, hr, rfl⟩ := List.mem_map.mp hx.1
      unfold Spec.itemSet
      rw [Finset.mem_erase, List.mem_toFinset]
      exact ⟨by simpa using hx.2, List.mem_map.mpr ⟨r, (List.mem_filter.mp hr).1, rfl⟩⟩
    have hfull : (Spec.itemsAt f itemCol dateCol (.time t0)).toFinset = Spec.itemSet f itemCol := by
      refine Finset.Subset.antisymm (hsub _) ?_
      intro x hx
      unfold Spec.itemSet at hx
      rw [Finset.mem_erase, List.mem_toFinset] at hx
      rw [List.mem_toFinset, ← List.count_pos_iff, count_itemsAt _ _ _ _ _ hx.1]
      exact hd0 x hx.2
    have heq : (Spec.itemsAt f itemCol dateCol (.time t)).toFinset = Spec.itemSet f itemCol := by
      refine Finset.eq_of_subset_of_card_le (hsub _) ?_
      rw [← hfull, List.toFinset_card_of_nodup (s1 t0 hh0), List.toFinset_card_of_nodup (s1 t hht), s2 t0 t hh0 hht]
    have hmem : ri itemCol ∈ Spec.itemsAt f itemCol dateCol (.time t) := by
      rw [← List.mem_toFinset, heq]
      unfold Spec.itemSet
      rw [Finset.mem_erase, List.mem_toFinset]
      exact ⟨hi ri hri, hi'⟩
    refine le_antisymm (hle _ hi' _) ?_
    rw [et, ← count_itemsAt _ _ _ _ _ (hi ri hri)]
    exact List.count_pos_iff.mpr hmem

/-- **C52.**  For a design with a salt, the coinflip check passes exactly when every row's assignment is the coinflip of its item; then the
uniqueness check passes too (the assignment column holds ints, or floats, not both). -/
theorem C52_coinflip_check (E : Ext K) (f : Frame K) (d : Design K) (itemCol treatCol salt : String)
    (hi : itemCol ∈ f.cols) (hc : treatCol ∈ f.cols) (hs : d.salt = some salt) (hs0 : salt ≠ "") :
    (checkCoinflip E f d treatCol itemCol = .ok false ↔
      ∀ r ∈ f.rows, Spec.IsNat (r treatCol) ((Coinflip.mk salt).flip (E.toStr (r itemCol)))) ∧
    (((∀ r ∈ f.rows, ∀ x, r treatCol ≠ .num x) ∨ (∀ r ∈ f.rows, ∀ i, r treatCol ≠ .int i)) →
      checkCoinflip E f d treatCol itemCol = .ok false → checkUnique f itemCol treatCol = .ok false) := by
  obtain ⟨b, hb, hiff⟩ := checkCoinflip_verdict (E := E) hi hc hs hs0
  have h1 : checkCoinflip E f d treatCol itemCol = .ok false ↔
      ∀ r ∈ f.rows, Spec.IsNat (r treatCol) ((Coinflip.mk salt).flip (E.toStr (r itemCol))) := by
    rw [hb, ← hiff]
    simp
  refine ⟨h1, ?_⟩
  intro htype hcoin
  have hall := h1.mp hcoin
  obtain ⟨b2, hb2, hiff2⟩ := checkUnique_verdict hi hc
  rw [hb2]
  congr 1
  rw [hiff2]
  intro i hi' hn
  obtain ⟨r, hr, rfl⟩ := List.mem_map.mp hi'
  refine ⟨r treatCol, ?_, ⟨r, hr, rfl, rfl⟩, ?_⟩
  · rcases hall r hr with e | e <;> simp [e]
  · intro r' hr' e
    left
    have a := hall r hr
    have a' := hall r' hr'
    rw [e] at a'
    rcases htype with ht | ht
    · rw [a.resolve_right (ht r hr _), a'.resolve_right (ht r' hr' _)]
    · rw [a.resolve_left (ht r hr _), a'.resolve_left (ht r' hr' _)]

/-- **C52** (no salt).  Without a salt in the design the coinflip check raises `ValueError`, so no experiment data is valid for it, even if
the check is skipped. -/
theorem C52_no_salt (C : Checker K) (f : Frame K) (d : Design K) (itemCol dateCol weekCol treatCol startDate : String)
    (metrics canBeNegative skip : List String) (concluded : Bool) (hs : d.salt = none ∨ d.salt = some "") :
    (treatCol ∈ f.cols → checkCoinflip C.ext f d treatCol itemCol = .error .valueError) ∧
    validateExperiment C f d itemCol dateCol weekCol treatCol metrics startDate concluded canBeNegative skip ≠ .ok () := by
  have h0 : d.salt.getD "" = "" := by rcases hs with h | h <;> simp [h]
  have h1 : ∀ b, checkCoinflip C.ext f d treatCol itemCol ≠ .ok b := by
    intro b h
    unfold checkCoinflip at h
    obtain ⟨-, h⟩ := raiseIf_bind_ok.mp h
    rw [h0] at h
    cases h
  constructor
  · intro ht
    unfold checkCoinflip
    refine raiseIf_bind_err.mpr (Or.inr ⟨by simpa using ht, ?_⟩)
    rw [h0]
    rfl
  · intro h
    unfold validateExperiment at h
    iterate 11 obtain ⟨_, -, h⟩ := Py.bind_eq_ok.mp h
    obtain ⟨_, hc, -⟩ := Py.bind_eq_ok.mp h
    unfold runCheck at hc
    obtain ⟨b, hb, -⟩ := Py.bind_eq_ok.mp hc
    exact h1 b hb

/-- **C53.**  On non-empty data with dates, the date range check passes exactly when the first date is at most the start minus the
pretest weeks and, if the experiment has concluded, the last date is at least the first day of the last runtime week. -/
theorem C53_date_range (E : Ext K) (f : Frame K) (d : Design K) (dateCol startDate : String) (start first last : ℤ) (concluded : Bool)
    (hs : E.strptime startDate = some start) (hd : dateCol ∈ f.cols) (ht : ∀ r ∈ f.rows, ∃ t, r dateCol = .time t)
    (hf : IsLeast {t | Spec.HasDate f dateCol t} first) (hl : IsGreatest {t | Spec.HasDate f dateCol t} last) :
    checkDateRange E f d dateCol startDate concluded = .ok false ↔
      first ≤ start - Spec.day * (7 * d.pretest) ∧
      (concluded = true → start + Spec.day * (7 * (d.runtime - 1)) ≤ last) := by
  have h0 : f.rows ≠ [] := by
    obtain ⟨r, hr, _⟩ := hf.1
    exact List.ne_nil_of_mem hr
  obtain ⟨b, hb, hiff⟩ := checkDateRange_verdict (d := d) (concluded := concluded) hs hd h0 ht
  rw [hb]
  simp only [Except.ok.injEq]
  rw [hiff]
  unfold Spec.CoversDates Spec.day
  refine and_congr ?_ (imp_congr_right fun _ => ?_)
  · constructor
    · rintro ⟨t, h1, h2⟩
      have := hf.2 h1
      omega
    · intro h
      exact ⟨first, hf.1, by omega⟩
  · constructor
    · rintro ⟨t, h1, h2⟩
      have := hl.2 h1
      omega
    · intro h
      exact ⟨last, hl.1, by omega⟩

/-! ### Examples -/

instance (a b : Cell K) : Decidable (dateLe a b) := by
  unfold dateLe
  split <;> infer_instance

/-- The arrangement of a stable sort. -/
def stableSorter (K : Type) [Field K] [LinearOrder K] : DateSorter K where
  sort := fun l => l.insertionSort (fun a b => dateLe a.2 b.2)
  perm := fun l => List.perm_insertionSort _ l
  sorted := fun l => by
    have : Std.Total (fun a b : Cell K × Cell K => dateLe a.2 b.2) := ⟨by
      rintro ⟨_, a⟩ ⟨_, b⟩
      cases a <;> cases b <;> simp [dateLe, le_total]⟩
    have : IsTrans (Cell K × Cell K) (fun a b => dateLe a.2 b.2) := ⟨by
      rintro ⟨_, a⟩ ⟨_, b⟩ ⟨_, c⟩ h1 h2
      cases a <;> cases b <;> cases c <;> simp_all [dateLe]
      omega⟩
    exact List.pairwise_insertionSort _ l

/-- Two items on two weekly dates. -/
def goodHistory : Frame ℚ where
  cols := ["item_id", "date", "week_id", "clicks"]
  rows := [("a", 0, 1), ("b", 0, 2), ("a", 1, 0), ("b", 1, 5)].map (fun p c =>
    if c = "item_id" then .str p.1 else if c = "date" then .time (p.2.1 * (7 * 86400000000000)) else if c = "week_id" then .int p.2.1
    else if c = "clicks" then .num p.2.2 else .null)

/-- C49 is not vacuous: this history is checkable, and valid; without its first row the number of items differs by date, which is raised
unless that check is skipped. -/
example : Spec.CheckableHistory goodHistory "item_id" "date" "week_id" "clicks" where
  item := by decide
  date := by decide
  week := by decide
  metric := by decide
  itemDate := by decide
  weekDate := by decide
  rows := by decide
  dates := by
    intro r hr
    obtain ⟨p, _, rfl⟩ := List.mem_map.mp hr
    exact ⟨_, rfl⟩
  weeks := by
    intro r hr
    obtain ⟨p, _, rfl⟩ := List.mem_map.mp hr
    exact ⟨_, rfl⟩
  oneWeek := by
    intro r hr r' hr'
    obtain ⟨p, _, rfl⟩ := List.mem_map.mp hr
    obtain ⟨p', _, rfl⟩ := List.mem_map.mp hr'
    simp
  numbers := by
    intro r hr
    obtain ⟨p, _, rfl⟩ := List.mem_map.mp hr
    simp [Spec.IsNumber]

example : validateHistorical (stableSorter ℚ) goodHistory "item_id" "date" "week_id" "clicks" [] = .ok () ∧
    validateHistorical (stableSorter ℚ) { goodHistory with rows := goodHistory.rows.tail } "item_id" "date" "week_id" "clicks" [] =
      .error .valueError ∧
    validateHistorical (stableSorter ℚ) { goodHistory with rows := goodHistory.rows.tail } "item_id" "date" "week_id" "clicks"
      ["no_duplicate_items_per_date"] = .ok () := by
  decide +kernel

/-- **C49** is violated by the code: with every check skipped, data whose dates are strings still raises (and so does empty data). -/
theorem C49_skipped_check_raises_false :
    validateHistorical (stableSorter ℚ) ⟨["item_id", "date", "week_id", "clicks"],
      [fun c => if c = "item_id" then .str "a" else if c = "date" then .str "2024-01-01" else if c = "week_id" then .int 0 else .num 1]⟩
      "item_id" "date" "week_id" "clicks" Spec.registeredChecks = .error .valueError ∧
    validateHistorical (stableSorter ℚ) { goodHistory with rows := [] } "item_id" "date" "week_id" "clicks" Spec.registeredChecks =
      .error .indexError := by
  decide +kernel

/-- A design with a salt. -/
def saltedDesign : Design ℚ where
  nBefore := 100
  runtime := 2
  primaryMetric := "clicks"
  pretest := 1
  isCrossover := false
  preTop := .float 0
  preBottom := .float 0
  postTrim := .float 0
  washout := none
  alpha := .float (1 / 20)
  power := .float (4 / 5)
  salt := some "abc"
  nAfterPre := 100
  nAfterPost := 100

/-- Two items on two weekly dates, assigned by coinflip. -/
def goodExperiment : Frame ℚ where
  cols := ["item_id", "date", "week_id", "clicks", "t"]
  rows := [("a", 0, 1), ("b", 0, 2), ("a", 1, 0), ("b", 1, 5)].map (fun p c =>
    if c = "item_id" then .str p.1 else if c = "date" then .time (p.2.1 * (7 * 86400000000000)) else if c = "week_id" then .int p.2.1
    else if c = "clicks" then .num p.2.2 else if c = "t" then .int ((Coinflip.mk "abc").flip p.1) else .null)

/-- A checker for the examples: the start date is the second date; every split is likely. -/
def exampleChecker : Checker ℚ where
  ext := { exampleExt with strptime := fun _ => some (7 * 86400000000000) }
  sorter := stableSorter ℚ
  binom := fun _ _ => .ok 1

example : Spec.CheckableExperiment exampleChecker goodExperiment { saltedDesign with runtime := 1, nAfterPre := 2 } "item_id" "date"
    "week_id" "t" ["clicks"] "2024-01-08" (7 * 86400000000000) "abc" 1 where
  item := by decide
  date := by decide
  week := by decide
  treat := by decide
  metric := by decide
  itemDate := by decide
  weekDate := by decide
  rows := by decide
  dates := by
    intro r hr
    obtain ⟨p, _, rfl⟩ := List.mem_map.mp hr
    exact ⟨_, rfl⟩
  weeks := by
    intro r hr
    obtain ⟨p, _, rfl⟩ := List.mem_map.mp hr
    exact ⟨_, rfl⟩
  oneWeek := by
    intro r hr r' hr'
    obtain ⟨p, _, rfl⟩ := List.mem_map.mp hr
    obtain ⟨p', _, rfl⟩ := List.mem_map.mp hr'
    simp
  numbers := by
    intro m hm r hr
    obtain rfl := List.mem_singleton.mp hm
    obtain ⟨p, _, rfl⟩ := List.mem_map.mp hr
    simp [Spec.IsNumber]
  started := rfl
  salted := ⟨rfl, by decide⟩
  pvalue := rfl

example : validateExperiment exampleChecker goodExperiment { saltedDesign with runtime := 1, nAfterPre := 2 } "item_id" "date" "week_id"
      "t" ["clicks"] "2024-01-08" true [] [] = .ok () ∧
    validateExperiment exampleChecker goodExperiment { saltedDesign with runtime := 2, nAfterPre := 2 } "item_id" "date" "week_id"
      "t" ["clicks"] "2024-01-08" true [] [] = .error .valueError ∧
    validateExperiment exampleChecker goodExperiment { saltedDesign with runtime := 2, nAfterPre := 2 } "item_id" "date" "week_id"
      "t" ["clicks"] "2024-01-08" true [] ["experiment_dates_match_design"] = .ok () := by
  decide +kernel

/-- C52 and C53 are not vacuous: the assignment of one item by its coinflip passes, the opposite one fails; two weekly dates cover a
design with one pretest week and two runtime weeks only if the experiment has not concluded. -/
example : checkCoinflip exampleExt ⟨["item_id", "t"], [fun c => if c = "item_id" then .str "a" else
      .int ((Coinflip.mk "abc").flip "a")]⟩ saltedDesign "t" "item_id" = .ok false ∧
    checkCoinflip exampleExt ⟨["item_id", "t"], [fun c => if c = "item_id" then .str "a" else
      .int (1 - (Coinflip.mk "abc").flip "a")]⟩ saltedDesign "t" "item_id" = .ok true := by
  decide +kernel

example : checkDateRange { exampleExt with strptime := fun _ => some (7 * 86400000000000) } goodHistory saltedDesign "date" "2024-01-08"
      false = .ok false ∧
    checkDateRange { exampleExt with strptime := fun _ => some (7 * 86400000000000) } goodHistory saltedDesign "date" "2024-01-08" true =
      .ok true := by
  decide +kernel

end Feedx
