import Verif.Props.EstimateAnalysis
import Verif.Props.SimulateRepeat

/-!
C86: validating a design with pretest weeks can raise `ZeroDivisionError` on positive data.
-/

set_option linter.unusedSectionVars false
set_option linter.unusedSimpArgs false

namespace Feedx
open Fl

variable {R : Rounding ℝ} {argsort : List ℝ → List ℕ} {D : TDist} {c : SimConfig}

/-- The values of a bootstrap sample when the first trimming keeps all rows. -/
theorem boot_values {σ : Shuffle} {boot : List ℕ} {start : ℤ} {f f' : Frame ℝ} {w : Wide ℝ} {piv : Pivoted ℝ}
    (hp : pivotTimeAssignment c.design.toDesignParams start [c.design.primaryMetric] c.itemCol c.weekCol none c.periodCol f = (.ok piv, f'))
    (h : historicalTable R σ c (some boot) start f = (.ok w, f')) (hb : boot.length = piv.index.length) (hb' : ∀ p ∈ boot, p < piv.index.length)
    (hk : ∀ k ∈ piv.index, k.length = 1) (hl : w.rows.length = piv.index.length) (label : String) :
    w.rows.map (fun r => r.val [c.design.primaryMetric, label]) =
      boot.map (fun p => piv.value (piv.index.getD p []) c.design.primaryMetric label) := by
  unfold historicalTable at h
  rw [hp] at h
  have h : trimHistorical R σ c (some boot) (piv.wide [c.design.primaryMetric] c.itemCol) = .ok w := congrArg Prod.fst h
  unfold trimHistorical at h
  obtain ⟨w1, h1, h⟩ := Py.bind_eq_ok.mp h
  obtain ⟨-, h⟩ := raiseIf_bind_ok.mp h
  obtain ⟨w2, h2, h⟩ := Py.bind_eq_ok.mp h
  obtain ⟨-, h⟩ := raiseIf_bind_ok.mp h
  cases h
  have hpl : (piv.wide [c.design.primaryMetric] c.itemCol).rows.length = piv.index.length := by simp [Pivoted.wide]
  obtain ⟨w1', e1, -, -, hl1, hrows, -⟩ := C67_bootstrap boot (piv.wide [c.design.primaryMetric] c.itemCol) c.itemCol (by simp [Pivoted.wide])
    (by
      intro r hr
      obtain ⟨k, hk', rfl⟩ := List.mem_map.mp hr
      exact hk k hk')
    (by rw [hpl]; exact hb) (by rw [hpl]; exact hb') (by simp [Pivoted.wide])
  have hw1 : w1' = w1 := by
    have : bootstrap boot (piv.wide [c.design.primaryMetric] c.itemCol) c.itemCol = .ok w1 := h1
    rw [e1] at this
    exact Except.ok.inj this
  subst hw1
  have e2 : w.rows = w1'.rows := by
    split_ifs at h2 with hpos
    · exact (trimWide_sublist h2).1.eq_of_length (by omega)
    · cases h2; rfl
  rw [e2]
  refine List.ext_getElem (by simp; omega) ?_
  intro i hi1 hi2
  rw [List.getElem_map, List.getElem_map]
  simp only [List.length_map] at hi1 hi2
  obtain ⟨r0, g1, g2, -⟩ := hrows i boot[i] w1'.rows[i] (List.getElem?_eq_getElem hi2) (List.getElem?_eq_getElem hi1)
  rw [g2]
  have hlt : boot[i] < piv.index.length := hb' _ (List.getElem_mem hi2)
  have g1 : (piv.index.map _)[boot[i]]? = some r0 := g1
  rw [List.getElem?_map, List.getElem?_eq_getElem hlt] at g1
  simp only [Option.map_some, Option.some.injEq] at g1
  rw [← g1, List.getD_eq_getElem?_getD, List.getElem?_eq_getElem hlt]
  rfl

theorem trimmed_mean_zero {l : List ℝ} (hl : ∀ x ∈ l, x = 0) {q : ℝ} {T : TrimmedArray ℝ 0} (ha : ArgsortOk argsort)
    (hT : mkTrimmed R argsort (asStack l) q = .ok T) : T.mean 0 = 0 := by
  obtain ⟨-, -, ht, -⟩ := C16_trims_exactly_the_extremes R argsort ha 0 _ q T hT
  unfold TrimmedArray.mean
  rw [List.sum_eq_zero, zero_div]
  intro x hx
  unfold rowOf at hx
  obtain ⟨v, hv, rfl⟩ := List.mem_map.mp hx
  have := ht.1.subset hv
  unfold asStack at this
  obtain ⟨y, hy, rfl⟩ := List.mem_map.mp this
  exact hl y hy

theorem trimmed_mean_nonneg {l : List ℝ} (hl : ∀ x ∈ l, 0 ≤ x) {q : ℝ} {T : TrimmedArray ℝ 0} (ha : ArgsortOk argsort)
    (hT : mkTrimmed R argsort (asStack l) q = .ok T) : 0 ≤ T.mean 0 := by
  obtain ⟨-, -, ht, -⟩ := C16_trims_exactly_the_extremes R argsort ha 0 _ q T hT
  unfold TrimmedArray.mean
  refine div_nonneg (List.sum_nonneg ?_) (Nat.cast_nonneg _)
  intro x hx
  unfold rowOf at hx
  obtain ⟨v, hv, rfl⟩ := List.mem_map.mp hx
  have := ht.1.subset hv
  unfold asStack at this
  obtain ⟨y, hy, rfl⟩ := List.mem_map.mp this
  exact hl y hy

/-- Clicks before the experiment (week 0): 1 for a quarter of the items, 3 for the others.  Clicks in week 1: 13 for another quarter, 1 for the
others. -/
noncomputable def quarterClicks (w : ℤ) (i : ℕ) : ℝ := if w = 0 then (if i < 25 then 1 else 3) else (if 75 ≤ i then 13 else 1)

/-- A new object with this data. -/
noncomputable def quarterState : SimState := ⟨clickData quarterClicks, none, none, none, none, none, none⟩

theorem quarter_usable :
    Spec.UsableHistory (untrimmedDesign false) "item_id" "week_id" "time_period" [1] (clickData quarterClicks) :=
  click_usable rfl rfl (by decide) ⟨"test", by decide⟩

theorem quarter_returns (R : Rounding ℝ) (D : TDist) (σ : ℤ → Shuffle) :
    (estimateMde R stableArgsort D σ (untrimmedConfig false) quarterState).1 = .ok () := by
  exact C100_returns R stableArgsort stableArgsort_ok D (untrimmedParams false) (untrimmedConfig false) (untrimmedDesign_created R false)
    (by show (100 : ℤ) ≤ 2 ^ 51; norm_num) σ quarterState (by rw [untrimmed_starts]; simp) (by rw [untrimmed_starts]; exact quarter_usable)

/-- Half of the sample is in the control group. -/
def halfCoins : List Bool := List.replicate 50 false ++ List.replicate 50 true

set_option maxHeartbeats 1000000 in
/-- **C86 is false for designs with pretest weeks.**  100 items with positive clicks in all weeks; the design trims nothing.  Estimating
returns, but for some random choices with 50 items in each group validating raises `ZeroDivisionError`: the adjusted clicks of the control
group have the average zero. -/
theorem C86_cuped_false (R : Rounding ℝ) (D : TDist) (σ : ℤ → Shuffle) (τ : Shuffle) : ∃ draw,
    Spec.PositiveMetric "clicks" quarterState.data ∧
    (estimateMde R stableArgsort D σ (untrimmedConfig false) quarterState).1 = .ok () ∧
    Spec.ValidDraw R (untrimmedConfig false) draw ∧ draw.coins.count true = 50 ∧ draw.coins.count false = 50 ∧
    (validateSim R stableArgsort D (untrimmedConfig false) [draw]
      (estimateMde R stableArgsort D σ (untrimmedConfig false) quarterState).2).1 = .error .zeroDivision := by
  have hret := quarter_returns R D σ
  have hd := untrimmedDesign_created R false
  have hst : (untrimmedConfig false).starts = [1] := untrimmed_starts false
  have hu : Spec.UsableHistory (untrimmedConfig false).design (untrimmedConfig false).itemCol (untrimmedConfig false).weekCol
      (untrimmedConfig false).periodCol (untrimmedConfig false).starts (clickData quarterClicks) := by rw [hst]; exact quarter_usable
  have hs1 : (1 : ℤ) ∈ (untrimmedConfig false).starts := by rw [hst]; simp
  -- the pivoted data and the positions of three items
  obtain ⟨piv, f1, hpiv, -, -, -, -⟩ := usable_pivot hd hs1 hu
  obtain ⟨hidx, hmem⟩ := C13_index_is_items_with_labelled_rows R _ _ hd 1 ["clicks"] "item_id" "week_id" none "time_period" _ f1 piv hpiv
    hu.complete.weeks
  obtain ⟨hlen, -⟩ := complete_table hd hpiv hs1 hu.complete
  have hlen : piv.index.length = 100 := by
    have : (piv.index.length : ℤ) = 100 := hlen
    exact_mod_cast this
  have hpos : ∀ i : ℕ, i < 100 → ∃ q, q < 100 ∧ piv.index.getD q [] = [.int (i : ℤ)] := by
    intro i hi
    have : ([.int (i : ℤ)] : List (Cell ℝ)) ∈ piv.index := by
      rw [hmem]
      exact ⟨⟨clickRow quarterClicks 1 i, click_mem (Or.inr rfl) hi, by simp [clickRow], 1, by simp [clickRow], "test", 1, 2, by decide,
        by omega, by omega⟩, by simp⟩
    obtain ⟨q, hq, e⟩ := List.getElem_of_mem this
    exact ⟨q, by omega, by rw [List.getD_eq_getElem?_getD, List.getElem?_eq_getElem hq, ← e]; rfl⟩
  have hval : ∀ i : ℕ, i < 100 → piv.value [.int (i : ℤ)] "clicks" "pretest" = .fin (quarterClicks 0 i) ∧
      piv.value [.int (i : ℤ)] "clicks" "test" = .fin (quarterClicks 1 i) := by
    intro i hi
    have e0 := C13_values_are_weekly_averages R _ _ hd 1 ["clicks"] "item_id" "week_id" none "time_period" _ f1 piv hpiv
      hu.complete.weeks [.int (i : ℤ)] "clicks" (by simp) "pretest" 0 1 (by decide)
    have e1 := C13_values_are_weekly_averages R _ _ hd 1 ["clicks"] "item_id" "week_id" none "time_period" _ f1 piv hpiv
      hu.complete.weeks [.int (i : ℤ)] "clicks" (by simp) "test" 1 2 (by decide)
    exact ⟨e0.trans (click_average quarterClicks i hi 0 (Or.inl rfl)), e1.trans (click_average quarterClicks i hi 1 (Or.inr rfl))⟩
  obtain ⟨qa, hqa, ea⟩ := hpos 50 (by omega)
  obtain ⟨qb, hqb, eb⟩ := hpos 0 (by omega)
  obtain ⟨qc, hqc, ec⟩ := hpos 99 (by omega)
  obtain ⟨boot, hboot⟩ : ∃ boot, boot = List.replicate 50 qa ++ List.replicate 25 qb ++ List.replicate 25 qc := ⟨_, rfl⟩
  have hbl : boot.length = 100 := by rw [hboot]; simp
  have hbm : ∀ q ∈ boot, q < 100 := by
    intro q hq
    rw [hboot] at hq
    simp only [List.mem_append, List.mem_replicate] at hq
    rcases hq with (⟨-, rfl⟩ | ⟨-, rfl⟩) | ⟨-, rfl⟩ <;> assumption
  obtain ⟨draw, hdraw⟩ : ∃ draw : SimDraw, draw = ⟨1, boot, τ, halfCoins⟩ := ⟨_, rfl⟩
  have hcl : halfCoins.length = 100 := by decide
  have hct : halfCoins.count true = 50 := by decide
  have hcf : halfCoins.count false = 50 := by decide
  have hfair : Spec.FairDraw (untrimmedConfig false) draw := by
    rw [hdraw]
    refine ⟨hs1, ⟨by show (boot.length : ℤ) = 100; rw [hbl]; rfl, fun q hq => ?_⟩, by show (halfCoins.length : ℤ) = 100; rw [hcl]; rfl⟩
    show (q : ℤ) < 100
    exact_mod_cast hbm q hq
  have hvalid : Spec.ValidDraw R (untrimmedConfig false) draw := by
    refine ⟨hfair, fun _ b => ?_⟩
    rw [hdraw]
    show 2 * ⌊R.rnd (0 * (halfCoins.count b : ℝ))⌋ + 1 < (halfCoins.count b : ℤ)
    rw [rnd_zero_floor]
    cases b
    · rw [hcf]; norm_num
    · rw [hct]; norm_num
  refine ⟨draw, ?_, hret, hvalid, by rw [hdraw]; exact hct, by rw [hdraw]; exact hcf, ?_⟩
  · intro r hr
    obtain ⟨w, i, -, rfl⟩ := click_rows hr
    refine ⟨quarterClicks w i, ?_, by simp [clickRow, Cell.toFl]⟩
    unfold quarterClicks
    split_ifs <;> norm_num
  -- the sample
  obtain ⟨piv', w, f2, hpiv', hhist, -, hn1, hl1, hk1, hnd1, hcn1, hc1, hc1', hfin1, -⟩ := simulated_table hd
    (by show (100 : ℤ) ≤ 2 ^ 51; norm_num) hu hfair
  have hpp : piv' = piv ∧ f2 = f1 := by
    have h1 : pivotTimeAssignment (untrimmedDesign false).toDesignParams 1 ["clicks"] "item_id" "week_id" none "time_period"
      (clickData quarterClicks) = (.ok piv', f2) := by rw [hdraw] at hpiv'; exact hpiv'
    have h2 : pivotTimeAssignment (untrimmedDesign false).toDesignParams 1 ["clicks"] "item_id" "week_id" none "time_period"
      (clickData quarterClicks) = (.ok piv, f1) := hpiv
    rw [h1] at h2
    exact ⟨Except.ok.inj (congrArg Prod.fst h2), congrArg Prod.snd h2⟩
  obtain ⟨rfl, rfl⟩ := hpp
  have hwl : w.rows.length = 100 := by
    have : (w.rows.length : ℤ) = 100 := hl1
    exact_mod_cast this
  have hbv : ∀ label, w.rows.map (fun r => r.val ["clicks", label]) = boot.map (fun q => piv'.value (piv'.index.getD q []) "clicks" label) := by
    intro label
    have hh : historicalTable R τ (untrimmedConfig false) (some boot) 1 (clickData quarterClicks) = (.ok w, f2) := by
      rw [hdraw] at hhist; exact hhist
    exact boot_values (c := untrimmedConfig false) hpiv hh (by rw [hbl, hlen]) (by rw [hlen]; exact hbm)
      (by
        intro k hk
        obtain ⟨⟨r, -, rfl, -⟩, -⟩ := (hmem k).mp hk
        rfl) (by rw [hwl, hlen]) label
  have hclick : ∀ i, quarterClicks 0 i = (if i < 25 then 1 else 3) ∧ quarterClicks 1 i = (if 75 ≤ i then 13 else 1) := by
    intro i
    unfold quarterClicks
    exact ⟨if_pos rfl, if_neg (by decide)⟩
  have hwx : w.rows.map (fun r => r.val ["clicks", "pretest"]) = (List.replicate 50 (3 : ℝ) ++ List.replicate 25 (1 : ℝ) ++ List.replicate 25 (3 : ℝ)).map .fin := by
    rw [hbv, hboot]
    simp only [List.map_append, List.map_replicate, ea, eb, ec]
    rw [(hval 50 (by omega)).1, (hval 0 (by omega)).1, (hval 99 (by omega)).1, (hclick 50).1, (hclick 0).1, (hclick 99).1]
    norm_num
  have hwy : w.rows.map (fun r => r.val ["clicks", "test"]) = (List.replicate 50 (1 : ℝ) ++ List.replicate 25 (1 : ℝ) ++ List.replicate 25 (13 : ℝ)).map .fin := by
    rw [hbv, hboot]
    simp only [List.map_append, List.map_replicate, ea, eb, ec]
    rw [(hval 50 (by omega)).2, (hval 0 (by omega)).2, (hval 99 (by omega)).2, (hclick 50).2, (hclick 0).2, (hclick 99).2]
    norm_num
  have htl : ("pretest", (0 : ℤ), (1 : ℤ)) ∈ Spec.timeline (untrimmedConfig false).design.toDesignParams 1 ∧
      ("test", (1 : ℤ), (2 : ℤ)) ∈ Spec.timeline (untrimmedConfig false).design.toDesignParams 1 := by decide
  have hpc : ["clicks", "pretest"] ∈ w.cols := hc1' "pretest" 0 1 (by rw [hdraw]; exact htl.1) (by omega)
  have htc : ["clicks", "test"] ∈ w.cols := hc1' "test" 1 2 (by rw [hdraw]; exact htl.2) (by omega)
  obtain ⟨aa, hass, hn2, hc2, hrows2, -, hcoin⟩ := C68_random_assignment_partial halfCoins w "item_id" "treatment_assignment" hn1 hk1
    (fun l hl => by
      obtain ⟨p, lo, hi, rfl, hp, -⟩ := hc1 l hl
      exact ⟨"clicks", p, rfl, clicks_names.plainMetric, plain_period (period_of_timeline hp)⟩) hcn1 clicks_names.plainItem clicks_names.different.1
    (fun l hl => by
      obtain ⟨p, lo, hi, rfl, hp, -⟩ := hc1 l hl
      show some "clicks" ≠ some "treatment_assignment"
      decide)
    (fun a b hab => by
      obtain ⟨p, lo, hi, e, hp, -⟩ := hc1 _ hab
      simp only [List.cons.injEq, and_true] at e
      rw [e.1, e.2]
      exact clicks_names.flat p (period_of_timeline hp))
  have hcoin := hcoin hnd1 (by rw [hcl, hwl])
  obtain ⟨aa', hass', htab, -, hal, -, -, hcount⟩ := assigned_table (treat := "treatment_assignment") clicks_names hn1 hk1 hnd1 hcn1
    (fun l hl => by
      obtain ⟨label, lo, hi, e, hmem, -⟩ := hc1 l hl
      exact ⟨label, period_of_timeline hmem, e⟩)
    (fun l hl r hr => by
      obtain ⟨label, lo, hi, rfl, hmem, hlt⟩ := hc1 l hl
      exact hfin1 label lo hi hmem hlt r hr) (coins := halfCoins) (by rw [hcl, hwl])
  have haa : aa' = aa := by
    rw [hass] at hass'
    exact (Except.ok.inj hass').symm
  subst haa
  have hsame : ∀ l ∈ w.cols, aa'.rows.map (numAt l) = w.rows.map (numAt l) := by
    intro l hl
    have : List.Forall₂ (fun r r' : WideRow ℝ => numAt l r' = numAt l r) w.rows aa'.rows := by
      refine hrows2.imp ?_
      intro r r' h
      unfold numAt
      rw [h.2 l hl]
    clear hrows2 hcoin hal hcount hwl hwx hwy
    generalize w.rows = a at this
    generalize aa'.rows = b at this
    induction this with
    | nil => rfl
    | cons h _ ih => rw [List.map_cons, List.map_cons, h, ih]
  have hnum : ∀ (l : List String) (v : List ℝ), w.rows.map (fun r => r.val l) = v.map .fin → w.rows.map (numAt l) = v := by
    intro l v h
    have e : w.rows.map (numAt l) = (w.rows.map (fun r => r.val l)).map (fun x => match x with | .fin y => y | _ => 0) := by
      rw [List.map_map]; rfl
    rw [e, h, List.map_map]
    conv_rhs => rw [← List.map_id v]
    rfl
  have hx := (hsame _ hpc).trans (hnum _ _ hwx)
  have hy := (hsame _ htc).trans (hnum _ _ hwy)
  have ht : aa'.rows.map treatedRow = halfCoins := by
    have e : aa'.rows.map treatedRow = (aa'.rows.map (fun r => r.key[1]?)).map (fun x => decide (x = some (.int 1))) := by
      rw [List.map_map]; rfl
    rw [e, hcoin, List.map_map]
    conv_rhs => rw [← List.map_id halfCoins]
    refine List.map_congr_left (fun b _ => ?_)
    cases b <;> simp
  -- the adjustment
  have hall : aa'.rows.length = 100 := by rw [hal, hwl]
  have hmx : Spec.mean (aa'.rows.map (numAt ["clicks", "pretest"])) = 5 / 2 := by
    rw [hx]
    unfold Spec.mean
    simp only [List.sum_append, List.sum_replicate, List.length_append, List.length_replicate]
    norm_num
  have hmy : Spec.mean (aa'.rows.map (numAt ["clicks", "test"])) = 4 := by
    rw [hy]
    unfold Spec.mean
    simp only [List.sum_append, List.sum_replicate, List.length_append, List.length_replicate]
    norm_num
  have hsx : Spec.sumSqDev (aa'.rows.map (numAt ["clicks", "pretest"])) = 75 := by
    unfold Spec.sumSqDev
    rw [hmx, hx]
    simp only [List.map_append, List.map_replicate, List.sum_append, List.sum_replicate]
    norm_num
  have hsxy : Spec.crossDev (aa'.rows.map (numAt ["clicks", "test"])) (aa'.rows.map (numAt ["clicks", "pretest"])) = 150 := by
    unfold Spec.crossDev
    rw [hmx, hmy, hx, hy]
    rw [List.zipWith_append (by simp), List.zipWith_append (by simp)]
    simp only [List.zipWith_replicate, List.sum_append, List.sum_replicate]
    norm_num
  obtain ⟨out, hout⟩ := C22_cuped_returns R stableArgsort stableArgsort_ok (aa'.rows.map (numAt ["clicks", "test"]))
    (aa'.rows.map (numAt ["clicks", "pretest"])) (by simp) (by rw [List.length_map, hall]; norm_num) (by rw [List.length_map, hall]; norm_num) 0
    le_rfl (by norm_num) (by rw [rnd_zero_floor, List.length_map, hall]; norm_num)
  obtain ⟨z, rfl, -⟩ := C22_cuped_without_trimming R stableArgsort _ _ _ out hout (rnd_zero_floor R _) (by rw [hsx]; norm_num)
  obtain ⟨-, hz⟩ := cuped_zero_triples hout
  rw [hmx, hsx, hsxy] at hz
  have herr : analyzeWide R stableArgsort D aa' (untrimmedDesign false).toDesignParams "clicks" "treatment_assignment" = .error .zeroDivision := by
    rw [htab.analyze]
    obtain ⟨hi, ht', hidx', hi', ht''⟩ := htab.plain clicks_names
    rw [analyze_cuped_eq clicks_names.different.1 hi ht' hidx' hi' ht'' rfl (mem_heads (by rw [hc2]; exact htc)) (SimTable.period.mpr (by rw [hc2]; exact htc))
      (SimTable.period.mpr (by rw [hc2]; exact hpc)) (htab.values (by rw [hc2]; exact htc)) (htab.values (by rw [hc2]; exact hpc)) hout]
    have g1 := groupOf_rows (w := aa') (m := "clicks") (y := fun r => numAt ["clicks", "test"] r - 150 / 75 * (numAt ["clicks", "pretest"] r - 5 / 2))
      (g := treatedRow) (b := true) (fun r hr => htab.key hr)
    have g0 := groupOf_rows (w := aa') (m := "clicks") (y := fun r => numAt ["clicks", "test"] r - 150 / 75 * (numAt ["clicks", "pretest"] r - 5 / 2))
      (g := treatedRow) (b := false) (fun r hr => htab.key hr)
    simp only [if_true, Bool.false_eq_true, if_false] at g1 g0
    rw [hz, g1, g0]
    have hlen' : ∀ b, ((aa'.rows.filter (fun r => treatedRow r == b)).map
        (fun r => numAt ["clicks", "test"] r - 150 / 75 * (numAt ["clicks", "pretest"] r - 5 / 2))).length = 50 := by
      intro b
      rw [List.length_map, ← List.countP_eq_length_filter, hcount]
      cases b
      · exact hcf
      · exact hct
    have hrow : ∀ r ∈ aa'.rows, (treatedRow r = false → numAt ["clicks", "test"] r - 150 / 75 * (numAt ["clicks", "pretest"] r - 5 / 2) = 0) ∧
        0 ≤ numAt ["clicks", "test"] r - 150 / 75 * (numAt ["clicks", "pretest"] r - 5 / 2) := by
      intro r hr
      obtain ⟨i, hi, rfl⟩ := List.getElem_of_mem hr
      have hi' : i < 100 := by omega
      have kx : numAt ["clicks", "pretest"] aa'.rows[i] = (if i < 50 then 3 else if i < 75 then 1 else 3) := by
        have : (aa'.rows.map (numAt ["clicks", "pretest"]))[i]'(by simpa using hi) =
            (List.replicate 50 (3 : ℝ) ++ List.replicate 25 (1 : ℝ) ++ List.replicate 25 (3 : ℝ))[i]'(by simpa using hi') := by simp only [hx]
        rw [List.getElem_map] at this
        rw [this]
        simp only [List.getElem_append, List.getElem_replicate, List.length_append, List.length_replicate]
        split_ifs <;> rfl
      have ky : numAt ["clicks", "test"] aa'.rows[i] = (if i < 75 then 1 else 13) := by
        have : (aa'.rows.map (numAt ["clicks", "test"]))[i]'(by simpa using hi) =
            (List.replicate 50 (1 : ℝ) ++ List.replicate 25 (1 : ℝ) ++ List.replicate 25 (13 : ℝ))[i]'(by simpa using hi') := by simp only [hy]
        rw [List.getElem_map] at this
        rw [this]
        simp only [List.getElem_append, List.getElem_replicate, List.length_append, List.length_replicate]
        split_ifs <;> rfl
      have kt : treatedRow aa'.rows[i] = decide (50 ≤ i) := by
        have : (aa'.rows.map treatedRow)[i]'(by simpa using hi) = halfCoins[i]'(by rw [hcl]; exact hi') := by simp only [ht]
        rw [List.getElem_map] at this
        rw [this]
        unfold halfCoins
        simp only [List.getElem_append, List.getElem_replicate, List.length_replicate]
        split_ifs <;> simp <;> omega
      rw [kx, ky, kt]
      constructor
      · intro h
        have h : i < 50 := by simpa using h
        rw [if_pos h, if_pos (by omega)]
        norm_num
      · split_ifs <;> first | omega | norm_num
    obtain ⟨-, T1, T2, hT1, hT2, -, herr⟩ := C34_tests_return_partial R stableArgsort stableArgsort_ok D _ _ (0 : ℝ) le_rfl (by norm_num) false "two-sided"
      (Or.inl rfl) defaultAlpha (by rw [hlen' true]; norm_num) (by rw [hlen' false]; norm_num) (by rw [rnd_zero_floor, hlen' true]; norm_num)
      (by rw [rnd_zero_floor, hlen' false]; norm_num)
    refine herr ⟨trimmed_mean_zero ?_ stableArgsort_ok hT2, trimmed_mean_nonneg ?_ stableArgsort_ok hT1⟩
    · intro x hx
      obtain ⟨r, hr, rfl⟩ := List.mem_map.mp hx
      obtain ⟨hr1, hr2⟩ := List.mem_filter.mp hr
      exact (hrow r hr1).1 (by simpa using hr2)
    · intro x hx
      obtain ⟨r, hr, rfl⟩ := List.mem_map.mp hx
      exact (hrow r (List.mem_filter.mp hr).1).2
  -- the call
  have hsim : ∀ e, (simulateOnce R stableArgsort D (untrimmedConfig false) e draw (clickData quarterClicks)).1 = .error .zeroDivision := by
    intro e
    unfold simulateOnce
    rw [hhist]
    exact Py.bind_eq_error.mpr (Or.inr ⟨aa', by rw [hdraw]; exact hass, Py.bind_eq_error.mpr (Or.inl herr)⟩)
  have hsp := returned_run (R := R) (argsort := stableArgsort) (D := D) (c := untrimmedConfig false) (calls := [.estimate σ]) (s := quarterState) (by
    intro pre call post e
    cases pre with
    | nil =>
      simp only [List.nil_append, List.cons.injEq] at e
      rw [← e.1]
      exact hret
    | cons a pre => simp at e)
  have hsp : SamePivots (untrimmedConfig false) (clickData quarterClicks)
    (estimateMde R stableArgsort D σ (untrimmedConfig false) quarterState).2.data := hsp
  obtain ⟨e, he⟩ : ∃ e, (estimateMde R stableArgsort D σ (untrimmedConfig false) quarterState).2.mde = some e := by
    unfold estimateMde at hret ⊢
    split at hret
    · cases hret
    · split at hret
      · cases hret
      · split at hret
        · cases hret
        · exact ⟨_, rfl⟩
  unfold validateSim
  rw [he]
  simp only
  have h1 := simulateOnce_same (R := R) (argsort := stableArgsort) (D := D) (e := e) (r := draw) hsp
  have h2 := hsim e
  rw [simulateAll, if_neg (by rw [hst]; simp), h1]
  rcases h3 : simulateOnce R stableArgsort D (untrimmedConfig false) e draw (clickData quarterClicks) with ⟨a, b⟩
  rw [h3] at h2
  simp only at h2
  rw [h2]

end Feedx
