import Verif.Proofs.DesignStudy
import Verif.Props.Assign

/-!
The items of accepted historical data, and how many of them an assignment keeps.
-/

set_option linter.unusedSectionVars false
set_option linter.unusedSimpArgs false

namespace Feedx

variable {K : Type} [Field K] [LinearOrder K] [IsStrictOrderedRing K] [FloorRing K]

/-- The items of accepted historical data are texts of the raw data's items. -/
theorem accepted_items {R : Rounding K} {rng : Sampler (Cell K)} {E : Ext K} {S : DateSorter K} {raw out : Frame K}
    {itemCol dateCol primary primaryCol : String} {fraction : K} {skip : List String}
    (h : prepareHistorical R rng E S raw itemCol dateCol primary primaryCol fraction skip = .ok out) :
    ∀ r ∈ out.rows, ∃ q ∈ raw.rows, r "item_id" = .str (E.toStr (q itemCol)) := by
  unfold prepareHistorical at h
  obtain ⟨p, hp, h⟩ := Py.bind_eq_ok.mp h
  obtain ⟨u, hv, h⟩ := Py.bind_eq_ok.mp h
  cases h
  obtain ⟨hall, -, f1, f2, f3, f4, e1, e2, e3, e4, e5⟩ := cleanHistorical_parts hp
  obtain ⟨-, -, -, hf1⟩ := standardize_metric hall e1
  have h1 : ∀ r ∈ f1.rows, ∃ q ∈ raw.rows, r "item_id" = .str (E.toStr (q itemCol)) := by
    intro r hr
    obtain ⟨q, hq, hk, -⟩ := forall₂_exists' hf1 hr
    exact ⟨q, hq, hk.1⟩
  have h2 : ∀ r ∈ f2.rows, ∃ q ∈ raw.rows, r "item_id" = .str (E.toStr (q itemCol)) := by
    intro r hr
    obtain ⟨r1, hr1, e⟩ := List.mem_map.mp (fill_mem e2 hr).1
    rw [← e]
    exact h1 r1 hr1
  have h3 : ∀ r ∈ f3.rows, ∃ q ∈ raw.rows, r "item_id" = .str (E.toStr (q itemCol)) := by
    intro r hr
    obtain ⟨-, -, t0, -, -, hf3⟩ := addWeeks_ok e3
    rw [hf3] at hr
    obtain ⟨q, hq, e, -⟩ := withWeeks_rows hr
    rw [e _ (by decide) (by decide)]
    exact h2 q hq
  have h4 : ∀ r ∈ f4.rows, ∃ q ∈ raw.rows, r "item_id" = .str (E.toStr (q itemCol)) := by
    intro r hr
    by_cases hd : Spec.SpacedBy 1 f3 "date"
    · obtain ⟨-, -, -, -, -, hrows⟩ := groupWeeks_daily_ok e4 hd
      rw [hrows] at hr
      obtain ⟨k, hk, rfl⟩ := List.mem_map.mp hr
      obtain ⟨hk, -⟩ := List.mem_filter.mp hk
      obtain ⟨⟨q, hq, rfl⟩, -⟩ := mem_groupKeys.mp hk
      have e := weekRow_keys (rows := f3.rows) (keys := ["week_id", "week_start", "item_id"])
        (k := ["week_id", "week_start", "item_id"].map q) (by decide) (by simp)
      simp only [List.map_cons, List.map_nil, List.cons.injEq, and_true] at e
      obtain ⟨q', hq', e'⟩ := h3 q hq
      exact ⟨q', hq', e.2.2.trans e'⟩
    · unfold groupWeeks at e4
      obtain ⟨-, e4⟩ := raiseIf_bind_ok.mp e4
      obtain ⟨-, e4⟩ := raiseIf_bind_ok.mp e4
      rw [if_neg (by rw [spacedBy_iff]; exact hd)] at e4
      split at e4
      · cases e4
        exact h3 r hr
      · cases e4
  intro r hr
  obtain ⟨-, keep, hrows, -⟩ := downsample_rows e5
  rw [hrows] at hr
  exact h4 r (List.mem_of_mem_filter hr)

/-- An assignment for accepted data has as many items as the design says after the first cutting; they are texts of the raw data's items. -/
theorem assigned_accepted {R : Rounding ℝ} {rng : Sampler (Cell ℝ)} {E : Ext ℝ} {S : DateSorter ℝ} {raw data : Frame ℝ}
    {itemCol dateCol primary primaryCol : String} {fraction : ℝ}
    (h : prepareHistorical R rng E S raw itemCol dateCol primary primaryCol fraction [] = .ok data)
    {p : DesignParams ℝ} {d d' : Design ℝ} (hd : mkDesign R p = .ok d) (hn : d.nBefore = nunique (data.col "item_id"))
    (hm : d.primaryMetric = Spec.metricName primary primaryCol) (hsize : data.rows.length ≤ 2 ^ 51)
    {σ : Shuffle} {binom : ℕ → ℕ → Py ℝ} {bytes : List ℕ} {treatCol : String} {assign : Frame ℝ}
    (ha : performAssignment R σ E binom bytes data d "item_id" (some "week_id") treatCol = (d', .ok assign)) :
    (assign.rows.length : ℤ) = d.nAfterPre ∧ ∀ i ∈ assign.col "item_id", i ∈ data.col "item_id" ∧ ∃ q ∈ raw.rows, i = .str (E.toStr (q itemCol)) := by
  obtain ⟨hne, hone, hfin, ⟨first, -, hweeks⟩, -⟩ := C62_weekly_panel R rng E S raw data itemCol dateCol primary primaryCol fraction h
  obtain ⟨hnull, hi, hw, hmc, hcols⟩ := accepted_facts h
  obtain ⟨-, hcol, hnd, hno, htr⟩ := C57_each_eligible_item_once R σ E binom bytes data assign d d' "item_id" (some "week_id") treatCol hsize ha
  obtain ⟨hdd, hvalid⟩ := (mkDesign_ok_iff R p d).mp hd
  obtain ⟨hleg, -⟩ := (validateDesign_ok_iff R _).mp hvalid
  have hpre : d.hasPreTrim → 0 < d.pretest := by
    intro ht
    by_contra hc
    have := hleg.no_pretrim_without_pretest (le_antisymm (not_lt.mp hc) hleg.pretest_nonneg)
    unfold Design.hasPreTrim at ht
    rw [this.1, this.2] at ht
    simp at ht
  have hitem := accepted_items h
  have hlen : assign.rows.length = (assign.col "item_id").length := by simp [Frame.col]
  have hnu : nunique (data.col "item_id") = (dropDup (data.col "item_id")).length := nunique_notNull (by
    intro c hc
    obtain ⟨r, hr, rfl⟩ := List.mem_map.mp hc
    exact hnull r hr)
  have hafter : d.nAfterPre = d.nBefore - R.floorMul d.preTop.val d.nBefore - R.floorMul d.preBottom.val d.nBefore := by rw [hdd]; rfl
  suffices hs : (assign.rows.length : ℤ) = d.nAfterPre ∧ ∀ i ∈ assign.col "item_id", i ∈ data.col "item_id" by
    refine ⟨hs.1, fun i hi => ⟨hs.2 i hi, ?_⟩⟩
    obtain ⟨r, hr, rfl⟩ := List.mem_map.mp (hs.2 i hi)
    exact hitem r hr
  by_cases ht : d.hasPreTrim
  · obtain ⟨w, hw', all, hand, hall, hcut⟩ := htr ht
    cases hw'
    -- every item is in the last weeks
    obtain ⟨last, hlast⟩ : ∃ last, IsGreatest {w : ℤ | .int w ∈ data.col "week_id"} last := by
      obtain ⟨r, hr⟩ := List.exists_mem_of_ne_nil _ hne
      obtain ⟨w, hw, -⟩ := hweeks r hr
      cases hmx : (ints (data.col "week_id")).max? with
      | none =>
        rw [List.max?_eq_none_iff] at hmx
        have : w ∈ ints (data.col "week_id") := ints_mem.mpr (List.mem_map.mpr ⟨r, hr, hw⟩)
        rw [hmx] at this
        cases this
      | some last =>
        rw [List.max?_eq_some_iff] at hmx
        exact ⟨last, ints_mem.mp hmx.1, fun w hw => hmx.2 w (ints_mem.mpr hw)⟩
    have hall' : ∀ i, i ∈ all ↔ i ∈ dropDup (data.col "item_id") := by
      intro i
      rw [hall, mem_dropDup]
      constructor
      · rintro ⟨-, r, hr, rfl, -⟩
        exact List.mem_map.mpr ⟨r, hr, rfl⟩
      · intro hi
        have := hone i hi _ hlast.1
        have hpos : 0 < Spec.rowsAt data "item_id" "week_id" i (.int last) := by omega
        unfold Spec.rowsAt at hpos
        obtain ⟨r, hr, e⟩ := List.countP_pos_iff.mp hpos
        simp only [decide_eq_true_eq] at e
        refine ⟨by rw [← e.1]; exact hnull r hr, r, hr, e.1, last, e.2, ?_⟩
        intro r' hr' w' hw'
        have : w' ≤ last := hlast.2 (List.mem_map.mpr ⟨r', hr', hw'⟩)
        have := hpre ht
        omega
    have hperm : all.Perm (dropDup (data.col "item_id")) := (List.perm_ext_iff_of_nodup hand (nodup_dropDup _)).mpr hall'
    have halen : (all.length : ℤ) = d.nBefore := by rw [hn, hnu, hperm.length_eq]
    have hcast : ((all.length : ℕ) : ℝ) = ((d.nBefore : ℤ) : ℝ) := by rw [← halen, Int.cast_natCast]
    have hval : ∀ i, (Spec.lastWeeksTotal data "week_id" d.pretest "item_id" d.primaryMetric i).isNan = false := by
      intro i
      obtain ⟨y, e⟩ : ∃ y, Spec.lastWeeksTotal data "week_id" d.pretest "item_id" d.primaryMetric i = .fin y := by
        unfold Spec.lastWeeksTotal
        refine sumSkip_finite ?_
        intro x hx
        obtain ⟨r, hr, rfl⟩ := List.mem_map.mp hx
        have := (hfin r (List.mem_of_mem_filter hr)).1
        rw [show (if primary = "other" then primaryCol else primary) = d.primaryMetric from hm.symm] at this
        rcases this with ⟨i, e⟩ | ⟨x, e⟩
        · rw [e]; exact Or.inr ⟨_, rfl⟩
        · rw [e]; exact Or.inr ⟨_, rfl⟩
      rw [e]; rfl
    rw [hcast] at hcut
    have hft : ⌊R.rnd (d.preTop.val * ((d.nBefore : ℤ) : ℝ))⌋ = R.floorMul d.preTop.val d.nBefore := rfl
    have hfb : ⌊R.rnd (d.preBottom.val * ((d.nBefore : ℤ) : ℝ))⌋ = R.floorMul d.preBottom.val d.nBefore := rfl
    rw [hft, hfb] at hcut
    rw [hlen, hafter]
    by_cases h0 : R.floorMul d.preTop.val d.nBefore = 0 ∧ R.floorMul d.preBottom.val d.nBefore = 0
    · rw [hcut.1 h0]
      refine ⟨by rw [h0.1, h0.2, halen]; omega, fun i hi => mem_dropDup.mp ((hall' i).mp hi)⟩
    · obtain ⟨hsub, high, low, missing, hp, hmiss, -, hhi, hlo, -⟩ := hcut.2 h0
      have hm0 : missing = [] := by
        rw [List.eq_nil_iff_forall_not_mem]
        intro x hx
        have := hmiss x hx
        rw [hval] at this
        cases this
      subst hm0
      refine ⟨?_, fun i hi => mem_dropDup.mp ((hall' i).mp (hsub.subset hi))⟩
      have hl := hp.length_eq
      simp only [List.length_append, List.length_nil, Nat.add_zero] at hl hlo hhi
      have b0 : 0 ≤ R.floorMul d.preBottom.val d.nBefore := floorMul_nonneg R hleg.bottom_nonneg (by omega)
      have t0 : 0 ≤ R.floorMul d.preTop.val d.nBefore := floorMul_nonneg R hleg.top_nonneg (by omega)
      have hpos : 0 < d.nAfterPre := by
        have hb : d.nBefore ≤ 2 ^ 51 := by
          rw [hn, hnu]
          have h1 : (dropDup (data.col "item_id")).length ≤ (data.col "item_id").length := length_dropDup_le _
          have h2 : (data.col "item_id").length = data.rows.length := by simp [Frame.col]
          exact_mod_cast (h1.trans (h2.le.trans hsize))
        have e : p.nBefore = d.nBefore := by rw [hdd]; rfl
        have := C02_item_counts R p d hd (by rw [e]; omega) (by rw [e]; exact hb.trans (by norm_num))
        omega
      omega
  · have ht' : d.preTop.val ≤ 0 ∧ d.preBottom.val ≤ 0 := by
      unfold Design.hasPreTrim at ht; push Not at ht; exact ht
    have hmem := hno ht'
    refine ⟨?_, fun i hi => (hmem i).mp hi⟩
    have hperm : (assign.col "item_id").Perm (dropDup (data.col "item_id")) :=
      (List.perm_ext_iff_of_nodup hnd (nodup_dropDup _)).mpr (fun i => by rw [hmem i, mem_dropDup])
    have z1 : d.preTop.val = 0 := le_antisymm ht'.1 hleg.top_nonneg
    have z2 : d.preBottom.val = 0 := le_antisymm ht'.2 hleg.bottom_nonneg
    have h0 : R.rnd 0 = 0 := by simpa using R.intFix 0 (by norm_num)
    have hf : ∀ n : ℤ, R.floorMul 0 n = 0 := by
      intro n
      unfold Rounding.floorMul
      rw [zero_mul, h0]; simp
    rw [hafter, z1, z2, hf, hlen, hperm.length_eq, hn, hnu]
    omega

end Feedx
