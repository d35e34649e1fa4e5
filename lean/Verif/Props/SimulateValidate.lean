import Verif.Proofs.SimulateOnce
import Verif.Proofs.SimulateAgain

/-!
C86: simulated experiments return results on usable data; and a history of calls that reaches both kinds of results (C72, C73).
-/

set_option linter.unusedSectionVars false
set_option linter.unusedSimpArgs false

namespace Feedx
open Fl

variable {R : Rounding ℝ} {argsort : List ℝ → List ℕ} {D : TDist} {c : SimConfig}

/-- Every row has a positive value of the metric. -/
def Spec.PositiveMetric (m : String) (f : Frame ℝ) : Prop := ∀ r ∈ f.rows, ∃ y : ℝ, 0 < y ∧ (r m).toFl = .fin y

theorem positive_pivot {d : DesignParams ℝ} {start : ℤ} {m i w t : String} {f f' : Frame ℝ} {piv : Pivoted ℝ}
    (h : pivotTimeAssignment d start [m] i w none t f = (.ok piv, f')) (hp : Spec.PositiveMetric m f) : Spec.PositiveMetric m f' := by
  obtain ⟨h1, h2, g, hg, -, rfl, -⟩ := pivot_ok h
  rw [labelRows_ok hg]
  intro r hr
  obtain ⟨r, hr0, rfl⟩ := List.mem_map.mp hr
  have hmt : m ≠ t := by rintro rfl; exact h1 (h2 _ (by simp))
  rw [Function.update_of_ne hmt]
  exact hp r hr0

theorem historical_ok {σ : Shuffle} {boot : Option (List ℕ)} {start : ℤ} {f f' : Frame ℝ} {w : Wide ℝ}
    (h : historicalTable R σ c boot start f = (.ok w, f')) :
    ∃ piv, pivotTimeAssignment c.design.toDesignParams start [c.design.primaryMetric] c.itemCol c.weekCol none c.periodCol f = (.ok piv, f') := by
  unfold historicalTable at h
  rcases hp : pivotTimeAssignment c.design.toDesignParams start [c.design.primaryMetric] c.itemCol c.weekCol none c.periodCol f with ⟨r, g⟩
  rw [hp] at h
  cases r with
  | error e => cases h
  | ok piv =>
    have : g = f' := congrArg Prod.snd h
    exact ⟨piv, by rw [this]⟩

theorem positive_stats {σ : ℤ → Shuffle} {l : List ℤ} {f f' : Frame ℝ} {ss : List MetricStats}
    (h : statsOfWeeks R argsort σ c l f = (.ok ss, f')) (hp : Spec.PositiveMetric c.design.primaryMetric f) :
    Spec.PositiveMetric c.design.primaryMetric f' := by
  induction l generalizing f ss with
  | nil => cases h; exact hp
  | cons start rest ih =>
    unfold statsOfWeeks at h
    rcases h1 : historicalTable R (σ start) c none start f with ⟨r, g⟩
    rw [h1] at h
    cases r with
    | error e => cases h
    | ok w =>
      simp only at h
      cases h2 : primaryStats R argsort c.design w with
      | error e => rw [h2] at h; cases h
      | ok s =>
        rw [h2] at h
        simp only at h
        rcases h3 : statsOfWeeks R argsort σ c rest g with ⟨r3, g3⟩
        rw [h3] at h
        obtain ⟨piv, hpiv⟩ := historical_ok h1
        cases r3 with
        | error e => cases h
        | ok l3 =>
          have : g3 = f' := congrArg Prod.snd h
          subst this
          exact ih h3 (positive_pivot hpiv hp)

theorem sumSkip_positive {l : List (Fl ℝ)} (hl : l ≠ []) (h : ∀ x ∈ l, ∃ y : ℝ, 0 < y ∧ x = .fin y) : ∃ y : ℝ, 0 < y ∧ Fl.sumSkip l = .fin y := by
  have aux : ∀ l : List (Fl ℝ), (∀ x ∈ l, ∃ y : ℝ, 0 < y ∧ x = .fin y) → ∃ y : ℝ, 0 ≤ y ∧ (l ≠ [] → 0 < y) ∧ Fl.sumSkip l = .fin y := by
    intro l h
    induction l with
    | nil => exact ⟨0, le_refl _, by simp, rfl⟩
    | cons a l ih =>
      obtain ⟨y, hy0, -, hy⟩ := ih (fun x hx => h x (List.mem_cons_of_mem _ hx))
      obtain ⟨z, hz, rfl⟩ := h a (by simp)
      unfold Fl.sumSkip at hy ⊢
      refine ⟨z + y, by linarith, fun _ => by linarith, ?_⟩
      rw [List.filter_cons_of_pos (by simp [Fl.isNan]), List.foldr_cons, hy]
      rfl
  obtain ⟨y, -, h1, h2⟩ := aux l h
  exact ⟨y, h1 hl, h2⟩

theorem forall₂_mem_right {α β : Type} {P : α → β → Prop} {l : List α} {l' : List β} (h : List.Forall₂ P l l') {b : β} (hb : b ∈ l') :
    ∃ a ∈ l, P a b := by
  induction h with
  | nil => simp at hb
  | cons h _ ih =>
    rcases List.mem_cons.mp hb with rfl | hb
    · exact ⟨_, by simp, h⟩
    · obtain ⟨a, ha, hp⟩ := ih hb
      exact ⟨a, by simp [ha], hp⟩

/-- The assignment of a simulated table. -/
theorem assigned_table {w : Wide ℝ} {item treat m : String} (hnames : Spec.SimulationNames m item treat) (hn : w.names = [item])
    (hk : ∀ r ∈ w.rows, r.key.length = 1) (hnd : (w.rows.map WideRow.key).Nodup) (hcn : w.cols.Nodup)
    (hcols : ∀ l ∈ w.cols, ∃ p ∈ Spec.periodNames, l = [m, p]) (hfin : ∀ l ∈ w.cols, ∀ r ∈ w.rows, ∃ y, r.val l = .fin y)
    {coins : List Bool} (hcl : coins.length = w.rows.length) :
    ∃ aa, randomAssign coins w item treat = .ok aa ∧ SimTable aa item treat m ∧ aa.cols = w.cols ∧ aa.rows.length = w.rows.length ∧
      (∀ r' ∈ aa.rows, ∃ r ∈ w.rows, ∀ l ∈ w.cols, r'.val l = r.val l) ∧ (∀ r ∈ w.rows, ∃ r' ∈ aa.rows, ∀ l ∈ w.cols, r'.val l = r.val l) ∧
      ∀ b, aa.rows.countP (fun r => treatedRow r == b) = coins.count b := by
  obtain ⟨aa, hass, hn2, hc2, hrows2, -, hcoin⟩ := C68_random_assignment_partial coins w item treat hn hk
    (fun l hl => by
      obtain ⟨p, hp, rfl⟩ := hcols l hl
      exact ⟨m, p, rfl, hnames.plainMetric, plain_period hp⟩) hcn hnames.plainItem hnames.different.1
    (fun l hl => by
      obtain ⟨p, hp, rfl⟩ := hcols l hl
      simpa using hnames.different.2)
    (fun a b hab => by
      obtain ⟨p, hp, e⟩ := hcols _ hab
      simp only [List.cons.injEq, and_true] at e
      rw [e.1, e.2]
      exact hnames.flat p hp)
  have hcoin := hcoin hnd hcl
  have hnd2 : (aa.rows.map WideRow.key).Nodup := by
    refine List.Nodup.of_map (fun k : List (Cell ℝ) => k.take 1) ?_
    rw [List.map_map]
    have : aa.rows.map ((fun k : List (Cell ℝ) => k.take 1) ∘ WideRow.key) = w.rows.map WideRow.key := by
      clear hcoin hass hnd hfin hk hcl
      generalize w.rows = l at hrows2
      generalize aa.rows = l' at hrows2
      induction hrows2 with
      | nil => rfl
      | cons h _ ih =>
        obtain ⟨⟨i, b, h1, h2⟩, -⟩ := h
        simp only [List.map_cons, ih, Function.comp, h1, h2, List.take_succ_cons, List.take_zero]
    rw [this]
    exact hnd
  refine ⟨aa, hass, ⟨hn2, hnd2, ?_, by rw [hc2]; exact hcols, ?_⟩, hc2, hrows2.length_eq.symm, ?_, ?_, ?_⟩
  · intro r' hr'
    obtain ⟨r, hr, ⟨i, b, -, h2⟩, h3⟩ := forall₂_mem_right hrows2 hr'
    exact ⟨i, b, h2⟩
  · intro l hl r' hr'
    rw [hc2] at hl
    obtain ⟨r, hr, -, h3⟩ := forall₂_mem_right hrows2 hr'
    rw [h3 l hl]
    exact hfin l hl r hr
  · intro r' hr'
    obtain ⟨r, hr, -, h3⟩ := forall₂_mem_right hrows2 hr'
    exact ⟨r, hr, h3⟩
  · intro r hr
    obtain ⟨r', hr', -, h3⟩ := forall₂_mem_right hrows2.flip hr
    exact ⟨r', hr', h3⟩
  · intro b
    have e1 : aa.rows.countP (fun r => treatedRow r == b) = (aa.rows.map (fun r => r.key[1]?)).countP (fun x => decide (x = some (.int 1)) == b) := by
      rw [List.countP_map]; rfl
    rw [e1, hcoin, List.countP_map, List.count]
    congr 1
    funext x
    cases x <;> cases b <;> simp

/-- Each group keeps at least two items after the second trimming. -/
def Spec.GroupsLeft (R : Rounding ℝ) (q : ℝ) (coins : List Bool) : Prop :=
  ∀ b, 2 * ⌊R.rnd (q * (coins.count b : ℝ))⌋ + 1 < coins.count b

/-- The synthetic effect on a simulated table. -/
theorem effect_table {w : Wide ℝ} {item treat m : String} (h : SimTable w item treat m) (hne : item ≠ treat) (cross : Bool) (e : ℝ)
    (h1 : cross = true → [m, "test_1"] ∈ w.cols ∧ [m, "test_2"] ∈ w.cols) (h2 : cross = false → [m, "test"] ∈ w.cols) :
    ∃ out, applyEffect w m cross (.fin e) treat = .ok out ∧ SimTable out item treat m ∧ out.cols = w.cols ∧ out.rows.length = w.rows.length ∧
      (∀ b, out.rows.countP (fun r => treatedRow r == b) = w.rows.countP (fun r => treatedRow r == b)) ∧
      (∀ r' ∈ out.rows, ∃ r ∈ w.rows, treatedRow r' = treatedRow r ∧ (cross = false → treatedRow r = false → ∀ l, r'.val l = r.val l)) ∧
      ∀ r ∈ w.rows, ∃ r' ∈ out.rows, r'.val [m, "pretest"] = r.val [m, "pretest"] := by
  have hn : treat ∈ w.names := by rw [h.names]; simp
  have hstep : ∀ (w : Wide ℝ) (mask : List (Cell ℝ) → Bool) (label : List String), 
      (addWhere w mask label (.fin e)).cols = w.cols ∧ (addWhere w mask label (.fin e)).rows.length = w.rows.length ∧
      (∀ b, (addWhere w mask label (.fin e)).rows.countP (fun r => treatedRow r == b) = w.rows.countP (fun r => treatedRow r == b)) ∧
      (∀ r' ∈ (addWhere w mask label (.fin e)).rows, ∃ r ∈ w.rows, treatedRow r' = treatedRow r ∧ (mask r.key = false → ∀ l, r'.val l = r.val l)) ∧
      ∀ r ∈ w.rows, ∃ r' ∈ (addWhere w mask label (.fin e)).rows, ∀ l, l ≠ label → r'.val l = r.val l := by
    intro w mask label
    refine ⟨rfl, by simp [addWhere], ?_, ?_, ?_⟩
    · intro b
      show (w.rows.map _).countP _ = _
      rw [List.countP_map]
      rfl
    · intro r' hr'
      obtain ⟨r, hr, rfl⟩ := List.mem_map.mp hr'
      exact ⟨r, hr, rfl, fun hm l => by simp [hm]⟩
    · intro r hr
      exact ⟨_, List.mem_map.mpr ⟨r, hr, rfl⟩, fun l hl => by simp [hl]⟩
  cases cross with
  | false =>
    refine ⟨addWhere w (isTreated w.names treat) [m, "test"] (.fin e), ?_, h.addWhere _ _ _, ?_⟩
    · unfold applyEffect
      exact raiseIf_bind_ok.mpr ⟨by simpa using hn, raiseIf_bind_ok.mpr ⟨by simpa using h2 rfl, rfl⟩⟩
    · obtain ⟨a1, a2, a3, a4, a5⟩ := hstep w (isTreated w.names treat) [m, "test"]
      refine ⟨a1, a2, a3, ?_, ?_⟩
      · intro r' hr'
        obtain ⟨r, hr, e1, e2⟩ := a4 r' hr'
        exact ⟨r, hr, e1, fun _ ht => e2 (by rw [h.treated hne hr, ht])⟩
      · intro r hr
        obtain ⟨r', hr', e1⟩ := a5 r hr
        exact ⟨r', hr', e1 _ (by simp)⟩
  | true =>
    refine ⟨addWhere (addWhere w (isTreated w.names treat) [m, "test_1"] (.fin e)) (fun k => !isTreated w.names treat k) [m, "test_2"] (.fin e),
      ?_, (h.addWhere _ _ _).addWhere _ _ _, ?_⟩
    · unfold applyEffect
      refine raiseIf_bind_ok.mpr ⟨by simpa using hn, raiseIf_bind_ok.mpr ⟨?_, rfl⟩⟩
      simpa using h1 rfl
    · obtain ⟨a1, a2, a3, a4, a5⟩ := hstep w (isTreated w.names treat) [m, "test_1"]
      obtain ⟨b1, b2, b3, b4, b5⟩ := hstep (addWhere w (isTreated w.names treat) [m, "test_1"] (.fin e)) (fun k => !isTreated w.names treat k) [m, "test_2"]
      refine ⟨b1.trans a1, b2.trans a2, fun b => (b3 b).trans (a3 b), ?_, ?_⟩
      · intro r' hr'
        obtain ⟨r1, hr1, e1, -⟩ := b4 r' hr'
        obtain ⟨r, hr, e2, -⟩ := a4 r1 hr1
        exact ⟨r, hr, e1.trans e2, fun h => by cases h⟩
      · intro r hr
        obtain ⟨r1, hr1, e1⟩ := a5 r hr
        obtain ⟨r', hr', e2⟩ := b5 r1 hr1
        exact ⟨r', hr', (e2 _ (by simp)).trans (e1 _ (by simp))⟩

/-- The nan effect on a simulated table. -/
theorem effect_nan {w : Wide ℝ} {item treat m m' : String} (h : SimTable w item treat m) (hne : item ≠ treat) (h2 : [m', "test"] ∈ w.cols) :
    ∃ out, applyEffect w m' false .nan treat = .ok out ∧ out.names = w.names ∧ out.rows.length = w.rows.length ∧
      ∀ b, out.rows.countP (fun r => if b then isTreated out.names treat r.key else !isTreated out.names treat r.key) =
        w.rows.countP (fun r => treatedRow r == b) := by
  have hn : treat ∈ w.names := by rw [h.names]; simp
  refine ⟨addWhere w (isTreated w.names treat) [m', "test"] .nan, ?_, rfl, by simp [addWhere], fun b => ?_⟩
  · unfold applyEffect
    exact raiseIf_bind_ok.mpr ⟨by simpa using hn, raiseIf_bind_ok.mpr ⟨by simpa using h2, rfl⟩⟩
  · show (w.rows.map _).countP _ = _
    rw [List.countP_map]
    refine List.countP_congr (fun r hr => ?_)
    have e := h.treated hne hr
    show (if b then isTreated w.names treat r.key else !isTreated w.names treat r.key) = true ↔ _
    rw [e]
    cases b <;> cases treatedRow r <;> simp

set_option maxHeartbeats 1000000 in
/-- What one simulated experiment does on usable data. -/
theorem simulateOnce_outcome (ha : ArgsortOk argsort) {p : DesignParams ℝ} (hd : mkDesign R p = .ok c.design) (hn : c.design.nBefore ≤ 2 ^ 51)
    (hnames : Spec.SimulationNames c.design.primaryMetric c.itemCol c.treatCol) {f : Frame ℝ}
    (hu : Spec.UsableHistory c.design c.itemCol c.weekCol c.periodCol c.starts f) {draw : SimDraw} (hdraw : Spec.FairDraw c draw)
    (hgroups : c.design.isCrossover = false → Spec.GroupsLeft R c.design.postTrim.val draw.coins) (e : ℝ) :
    ∃ out f', simulateOnce R argsort D c (.fin e) draw f = (out, f') ∧
      Spec.UsableHistory c.design c.itemCol c.weekCol c.periodCol c.starts f' ∧ SamePivots c f f' ∧
      (Spec.PositiveMetric c.design.primaryMetric f → Spec.PositiveMetric c.design.primaryMetric f') ∧
      (c.design.isCrossover = true → ∃ x, out = .ok x) ∧
      (c.design.isCrossover = false → c.design.pretest = 0 → Spec.PositiveMetric c.design.primaryMetric f → ∃ x, out = .ok x) ∧
      (c.design.isCrossover = false → 0 < c.design.pretest → (∃ x, out = .ok x) ∨ out = .error .zeroDivision) ∧
      (c.design.isCrossover = false → 0 < c.design.pretest → R.floorMul c.design.postTrim.val c.design.nAfterPre = 0 →
        ∃ out', simulateOnce R argsort D c .nan draw f = (out', f') ∧
          ((∃ x, out' = .ok x ∧ ∀ n : ℕ, n = c.design.nAfterPre → Spec.NoEstimate x.2 n) ∨ out' = .error .zeroDivision)) := by
  set m := c.design.primaryMetric with hm
  obtain ⟨piv, w, f', hpiv, hhist, hu', hn1, hl1, hk1, hnd1, hcn1, hc1, hc1', hfin1, hval1⟩ := simulated_table hd hn hu hdraw
  obtain ⟨hdd, hvalid⟩ := (mkDesign_ok_iff R p c.design).mp hd
  obtain ⟨hleg, h50⟩ := (validateDesign_ok_iff R _).mp hvalid
  have hpost : c.design.nAfterPost = c.design.nAfterPre - 2 * R.floorMul c.design.postTrim.val c.design.nAfterPre := by rw [hdd]; rfl
  have h50 : 50 < c.design.nAfterPost := h50
  have hn0 : (0 : ℤ) ≤ c.design.nBefore := by have := hdraw.boot.1; omega
  have hle1 : c.design.nAfterPre ≤ c.design.nBefore := by
    have a := floorMul_nonneg R hleg.top_nonneg hn0
    have b := floorMul_nonneg R hleg.bottom_nonneg hn0
    have e : c.design.nAfterPre = c.design.nBefore - R.floorMul c.design.preTop.val c.design.nBefore -
        R.floorMul c.design.preBottom.val c.design.nBefore := by rw [hdd]; rfl
    omega
  have hcast : (w.rows.length : ℝ) = (c.design.nAfterPre : ℝ) := by rw [← hl1]; simp
  have hfm : R.floorMul c.design.postTrim.val c.design.nAfterPre = ⌊R.rnd (c.design.postTrim.val * (w.rows.length : ℝ))⌋ := by
    unfold Rounding.floorMul
    rw [hcast]
  have hfm0 : 0 ≤ ⌊R.rnd (c.design.postTrim.val * (w.rows.length : ℝ))⌋ := by
    rw [← hfm]
    exact floorMul_nonneg R hleg.post_nonneg (by omega)
  have hfin : ∀ l ∈ w.cols, ∀ r ∈ w.rows, ∃ y, r.val l = .fin y := by
    intro l hl r hr
    obtain ⟨label, lo, hi, rfl, hmem, hlt⟩ := hc1 l hl
    exact hfin1 label lo hi hmem hlt r hr
  obtain ⟨aa, hass, htab, hc2, hl2, hsub, hsub', hcount⟩ := assigned_table (treat := c.treatCol) hnames hn1 hk1 hnd1 hcn1
    (fun l hl => by
      obtain ⟨label, lo, hi, e, hmem, -⟩ := hc1 l hl
      exact ⟨label, period_of_timeline hmem, e⟩) hfin (coins := draw.coins) (by have := hdraw.coins; omega)
  have hrunpos := hleg.runtime_pos
  have hxcols : c.design.isCrossover = true → [m, "test_1"] ∈ w.cols ∧ [m, "test_2"] ∈ w.cols := by
    intro hx
    obtain ⟨wo, hwo, hwo0, hwo1, hev⟩ := created_crossover hd hx
    have htl : ("test_1", draw.start + wo, draw.start + c.design.runtime / 2) ∈ Spec.timeline c.design.toDesignParams draw.start ∧
        ("test_2", draw.start + c.design.runtime / 2 + wo, draw.start + c.design.runtime) ∈ Spec.timeline c.design.toDesignParams draw.start := by
      unfold Spec.timeline
      rw [if_pos hx, hwo]
      simp [Spec.crossoverTimeline]
    rw [Int.even_iff] at hev
    exact ⟨hc1' _ _ _ htl.1 (by omega), hc1' _ _ _ htl.2 (by omega)⟩
  have hregtl : c.design.isCrossover = false → ∀ label lo hi, (label, lo, hi) ∈ Spec.timeline c.design.toDesignParams draw.start ↔
      (label = "pretest" ∧ lo = draw.start - c.design.pretest ∧ hi = draw.start) ∨
      (label = "test" ∧ lo = draw.start ∧ hi = draw.start + c.design.runtime) := by
    intro hx label lo hi
    unfold Spec.timeline
    rw [hx]
    simp [Spec.regularTimeline]
  have hrcols : c.design.isCrossover = false → [m, "test"] ∈ w.cols := fun hx =>
    hc1' "test" _ _ ((hregtl hx _ _ _).mpr (Or.inr ⟨rfl, rfl, rfl⟩)) (by omega)
  obtain ⟨ab, hap, htab', hc3, hl3, hcount3, hsub3, hpre3⟩ := effect_table htab hnames.different.1 c.design.isCrossover e
    (by rw [hc2]; exact hxcols) (by rw [hc2]; exact hrcols)
  have hrun : ∀ r1 r2, analyzeWide R argsort D aa c.design.toDesignParams m c.treatCol = .ok r1 →
      analyzeWide R argsort D ab c.design.toDesignParams m c.treatCol = .ok r2 →
      simulateOnce R argsort D c (.fin e) draw f = (.ok (r1, r2), f') := by
    intro r1 r2 h1 h2
    unfold simulateOnce
    rw [hhist]
    simp only [Prod.mk.injEq, and_true]
    exact Py.bind_eq_ok.mpr ⟨aa, hass, Py.bind_eq_ok.mpr ⟨r1, h1, Py.bind_eq_ok.mpr ⟨ab, hap, Py.bind_eq_ok.mpr ⟨r2, h2, rfl⟩⟩⟩⟩
  have hsnd : (simulateOnce R argsort D c (.fin e) draw f).2 = f' := by
    unfold simulateOnce
    rw [hhist]
  refine ⟨(simulateOnce R argsort D c (.fin e) draw f).1, f', by rw [← hsnd], hu', same_of_historical hhist, positive_pivot hpiv, ?_, ?_, ?_, ?_⟩
  · intro hx
    have hleft : 2 * ⌊R.rnd (c.design.postTrim.val * (w.rows.length : ℝ))⌋ + 1 < w.rows.length := by omega
    obtain ⟨r1, h1⟩ := htab.crossover_returns (R := R) (D := D) ha hnames hx (by rw [hc2]; exact (hxcols hx).1) (by rw [hc2]; exact (hxcols hx).2)
      hleg.post_nonneg hleg.post_lt_half (by omega) (by rw [hl2]; exact hleft)
    obtain ⟨r2, h2⟩ := htab'.crossover_returns (R := R) (D := D) ha hnames hx (by rw [hc3, hc2]; exact (hxcols hx).1) (by rw [hc3, hc2]; exact (hxcols hx).2)
      hleg.post_nonneg hleg.post_lt_half (by omega) (by rw [hl3, hl2]; exact hleft)
    exact ⟨(r1, r2), by rw [hrun r1 r2 h1 h2]⟩
  · intro hx hpre hp
    have hg := hgroups hx
    have hnp : [m, "pretest"] ∉ w.cols := by
      intro hin
      obtain ⟨label, lo, hi, he, hmem, hlt⟩ := hc1 _ hin
      obtain rfl : "pretest" = label := (by simpa using he : _ ∧ "pretest" = label).2
      rcases (hregtl hx _ _ _).mp hmem with ⟨-, rfl, rfl⟩ | ⟨h, -⟩
      · omega
      · exact absurd h (by decide)
    have hposw : ∀ r ∈ w.rows, 0 < numAt [m, "test"] r := by
      intro r hr
      obtain ⟨k, hk, hv⟩ := hval1 r hr
      have htl : ("test", draw.start, draw.start + c.design.runtime) ∈ Spec.timeline c.design.toDesignParams draw.start :=
        (hregtl hx _ _ _).mpr (Or.inr ⟨rfl, rfl, rfl⟩)
      obtain ⟨-, hmemidx⟩ := C13_index_is_items_with_labelled_rows R p c.design hd draw.start [m] c.itemCol c.weekCol none c.periodCol f f' piv hpiv
        hu.complete.weeks
      obtain ⟨⟨r0, hr0, hrk, x, hx', label, lo, hi, hmem, hlo, hhi⟩, -⟩ := (hmemidx k).mp hk
      have hin : Spec.inWeeks [c.itemCol] c.weekCol k draw.start (draw.start + c.design.runtime) r0 = true := by
        unfold Spec.inWeeks
        rw [hx']
        simp only [Bool.and_eq_true, decide_eq_true_eq]
        refine ⟨by simpa using hrk, ?_⟩
        rcases (hregtl hx _ _ _).mp hmem with ⟨-, rfl, rfl⟩ | ⟨-, rfl, rfl⟩
        · omega
        · exact ⟨hlo, hhi⟩
      have e1 := C13_values_are_weekly_averages R p c.design hd draw.start [m] c.itemCol c.weekCol none c.periodCol f f' piv hpiv
        hu.complete.weeks k m (by simp) "test" draw.start (draw.start + c.design.runtime) htl
      obtain ⟨y, hy, hs⟩ := sumSkip_positive (l := (f.rows.filter (Spec.inWeeks [c.itemCol] c.weekCol k draw.start (draw.start + c.design.runtime))).map
          (fun r => (r m).toFl)) (by
            rw [Ne, List.map_eq_nil_iff]
            exact List.ne_nil_of_mem (List.mem_filter.mpr ⟨hr0, hin⟩)) (by
            intro x hx
            obtain ⟨r', hr', rfl⟩ := List.mem_map.mp hx
            exact hp r' (List.mem_filter.mp hr').1)
      unfold Spec.total at e1
      simp only [Option.toList_none] at e1
      have hw : (0 : ℝ) < ((draw.start + c.design.runtime - draw.start : ℤ) : ℝ) := by exact_mod_cast (by omega)
      rw [hs, Fl.fin_div_ne (ne_of_gt hw), ← hv "test"] at e1
      unfold numAt
      rw [e1]
      exact div_pos hy hw
    have hposaa : ∀ r ∈ aa.rows, 0 < numAt [m, "test"] r := by
      intro r hr
      obtain ⟨r0, hr0, hv⟩ := hsub r hr
      have := hposw r0 hr0
      unfold numAt at this ⊢
      rw [hv _ (hrcols hx)]
      exact this
    obtain ⟨r1, h1⟩ := htab.regular_returns (R := R) (D := D) ha hnames hx (by omega) (by rw [hc2]; exact hrcols hx) (by rw [hc2]; exact hnp)
      hleg.post_nonneg hleg.post_lt_half (by omega) (by intro b; rw [hcount]; exact hg b) (fun r hr _ => hposaa r hr)
    obtain ⟨r2, h2⟩ := htab'.regular_returns (R := R) (D := D) ha hnames hx (by omega) (by rw [hc3, hc2]; exact hrcols hx) (by rw [hc3, hc2]; exact hnp)
      hleg.post_nonneg hleg.post_lt_half (by omega) (by intro b; rw [hcount3, hcount]; exact hg b) (by
        intro r hr ht
        obtain ⟨r0, hr0, e1, e2⟩ := hsub3 r hr
        have := hposaa r0 hr0
        unfold numAt at this ⊢
        rw [e2 hx (by rw [← e1]; exact ht)]
        exact this)
    exact ⟨(r1, r2), by rw [hrun r1 r2 h1 h2]⟩
  · intro hx hpre
    have hg := hgroups hx
    have hpc : [m, "pretest"] ∈ w.cols := hc1' "pretest" _ _ ((hregtl hx _ _ _).mpr (Or.inl ⟨rfl, rfl, rfl⟩)) (by omega)
    have o1 := htab.cuped_outcome (R := R) (D := D) ha hnames hx (by rw [hc2]; exact hrcols hx) (by rw [hc2]; exact hpc)
      hleg.post_nonneg hleg.post_lt_half (by omega) (by omega) (by rw [hl2]; omega) (by intro b; rw [hcount]; exact hg b)
    have o2 := htab'.cuped_outcome (R := R) (D := D) ha hnames hx (by rw [hc3, hc2]; exact hrcols hx) (by rw [hc3, hc2]; exact hpc)
      hleg.post_nonneg hleg.post_lt_half (by omega) (by omega) (by rw [hl3, hl2]; omega) (by intro b; rw [hcount3, hcount]; exact hg b)
    rcases o1 with ⟨r1, h1⟩ | h1
    · rcases o2 with ⟨r2, h2⟩ | h2
      · exact Or.inl ⟨(r1, r2), by rw [hrun r1 r2 h1 h2]⟩
      · refine Or.inr ?_
        unfold simulateOnce
        rw [hhist]
        exact Py.bind_eq_error.mpr (Or.inr ⟨aa, hass, Py.bind_eq_error.mpr (Or.inr ⟨r1, h1, Py.bind_eq_error.mpr (Or.inr ⟨ab, hap,
          Py.bind_eq_error.mpr (Or.inl h2)⟩)⟩)⟩)
    · refine Or.inr ?_
      unfold simulateOnce
      rw [hhist]
      exact Py.bind_eq_error.mpr (Or.inr ⟨aa, hass, Py.bind_eq_error.mpr (Or.inl h1)⟩)
  · intro hx hpre hzero
    have hg := hgroups hx
    have hpc : [m, "pretest"] ∈ w.cols := hc1' "pretest" _ _ ((hregtl hx _ _ _).mpr (Or.inl ⟨rfl, rfl, rfl⟩)) (by omega)
    have o1 := htab.cuped_outcome (R := R) (D := D) ha hnames hx (by rw [hc2]; exact hrcols hx) (by rw [hc2]; exact hpc)
      hleg.post_nonneg hleg.post_lt_half (by omega) (by omega) (by rw [hl2]; omega) (by intro b; rw [hcount]; exact hg b)
    obtain ⟨nb, hnb, hn3, hl4, hc4⟩ := effect_nan htab hnames.different.1 (m' := m) (by rw [hc2]; exact hrcols hx)
    have hsum : draw.coins.count true + draw.coins.count false = aa.rows.length := by
      rw [hl2]
      have h1 := hdraw.coins
      have h2 : draw.coins.count true + draw.coins.count false = draw.coins.length := by
        induction draw.coins with
        | nil => rfl
        | cons b l ih => cases b <;> simp <;> omega
      omega
    have htrim : ∀ k : ℕ, k ≤ w.rows.length → nTrimOf R c.design.postTrim.val k = 0 := by
      intro k hk
      unfold nTrimOf
      have h1 : R.floorMul c.design.postTrim.val (k : ℤ) ≤ R.floorMul c.design.postTrim.val c.design.nAfterPre := by
        unfold Rounding.floorMul
        refine Int.floor_le_floor (R.mono ?_)
        refine mul_le_mul_of_nonneg_left ?_ hleg.post_nonneg
        have : (k : ℤ) ≤ c.design.nAfterPre := by omega
        exact_mod_cast this
      omega
    have hnan : ∃ r, analyzeNan R argsort D nb c.design.toDesignParams c.treatCol = .ok r ∧ Spec.NoEstimate r aa.rows.length := by
      obtain ⟨r, hr, hno⟩ := nan_results D (draw.coins.count true) (draw.coins.count false) true
      rw [hsum] at hno
      refine ⟨r, raiseIf_bind_ok.mpr ⟨?_, ?_⟩, hno⟩
      · rintro (h | h | h)
        · rw [hx] at h; cases h
        · change c.design.pretest ≤ 0 at h
          omega
        · exact h (htrim _ (by rw [hl4, hl2]))
      · have e1 : nb.rows.countP (fun r => isTreated nb.names c.treatCol r.key) = draw.coins.count true := by
          exact (hc4 true).trans (hcount true)
        have e0 : nb.rows.countP (fun r => !isTreated nb.names c.treatCol r.key) = draw.coins.count false := by
          exact (hc4 false).trans (hcount false)
        have g1 := hg true
        have g0 := hg false
        have f0 : ∀ k : ℕ, 0 ≤ ⌊R.rnd (c.design.postTrim.val * (k : ℝ))⌋ := fun k => by
          have := floorMul_nonneg R hleg.post_nonneg (n := (k : ℤ)) (by omega)
          unfold Rounding.floorMul at this
          simpa using this
        have f1 := f0 (draw.coins.count true)
        have f2 := f0 (draw.coins.count false)
        unfold indTestFl
        simp only [e1, e0, List.length_replicate]
        rw [if_pos ⟨(onlyNan_replicate _).mpr (by omega), (onlyNan_replicate _).mpr (by omega)⟩]
        refine raiseIf_bind_ok.mpr ⟨?_, hr⟩
        rintro (h | h | h | h)
        · omega
        · omega
        · exact h (htrim _ (by omega))
        · exact h (htrim _ (by omega))
    obtain ⟨r2, h2, hno⟩ := hnan
    rcases o1 with ⟨r1, h1⟩ | h1
    · refine ⟨.ok (r1, r2), ?_, Or.inl ⟨_, rfl, fun n hn => ?_⟩⟩
      · unfold simulateOnce
        rw [hhist]
        simp only [Prod.mk.injEq, and_true, if_pos]
        exact Py.bind_eq_ok.mpr ⟨aa, hass, Py.bind_eq_ok.mpr ⟨r1, h1, Py.bind_eq_ok.mpr ⟨nb, by rw [hx]; exact hnb,
          Py.bind_eq_ok.mpr ⟨r2, h2, rfl⟩⟩⟩⟩
      · obtain rfl : n = aa.rows.length := by omega
        exact hno
    · refine ⟨.error .zeroDivision, ?_, Or.inr rfl⟩
      unfold simulateOnce
      rw [hhist]
      simp only [Prod.mk.injEq, and_true]
      exact Py.bind_eq_error.mpr (Or.inr ⟨aa, hass, Py.bind_eq_error.mpr (Or.inl h1)⟩)

/-- A random choice that gives both groups of a regular experiment enough items. -/
def Spec.ValidDraw (R : Rounding ℝ) (c : SimConfig) (r : SimDraw) : Prop :=
  Spec.FairDraw c r ∧ (c.design.isCrossover = false → Spec.GroupsLeft R c.design.postTrim.val r.coins)

/-- **C86, designs that do not use the pretest adjustment**: all crossover designs (with any washout, pretest weeks and trimming) and regular
designs without pretest weeks, with any trimming.  When the historical data is usable, the names are ordinary and a finite minimum detectable
effect was estimated, validating returns for every sequence of random choices (for regular designs: with at least two items left in each
group and only positive values of the primary metric): there is one A/A and one A/B result per simulation, and the data stays fit for further calls.
Missing: regular designs with pretest weeks, see `C86_cuped_partial`. -/
theorem C86_validation_succeeds_partial (ha : ArgsortOk argsort) (p : DesignParams ℝ) (hd : mkDesign R p = .ok c.design)
    (hn : c.design.nBefore ≤ 2 ^ 51) (hnames : Spec.SimulationNames c.design.primaryMetric c.itemCol c.treatCol) (s : SimState) (e : ℝ)
    (hs : s.mde = some (.fin e)) (hu : Spec.UsableHistory c.design c.itemCol c.weekCol c.periodCol c.starts s.data)
    (hp : c.design.isCrossover = true ∨ (c.design.pretest = 0 ∧ Spec.PositiveMetric c.design.primaryMetric s.data))
    (draws : List SimDraw) (hdraws : ∀ r ∈ draws, Spec.ValidDraw R c r) :
    (validateSim R argsort D c draws s).1 = .ok () ∧
      (∃ aa ab, (validateSim R argsort D c draws s).2.aa = some aa ∧ (validateSim R argsort D c draws s).2.ab = some ab ∧
        aa.length = draws.length ∧ ab.length = draws.length) ∧
      Spec.UsableHistory c.design c.itemCol c.weekCol c.periodCol c.starts (validateSim R argsort D c draws s).2.data := by
  have key : ∀ (draws : List SimDraw) (f : Frame ℝ), (∀ r ∈ draws, Spec.ValidDraw R c r) →
      Spec.UsableHistory c.design c.itemCol c.weekCol c.periodCol c.starts f →
      (c.design.isCrossover = true ∨ (c.design.pretest = 0 ∧ Spec.PositiveMetric c.design.primaryMetric f)) →
      ∃ l f', simulateAll R argsort D c (.fin e) draws f = (.ok l, f') ∧ l.length = draws.length ∧
        Spec.UsableHistory c.design c.itemCol c.weekCol c.periodCol c.starts f' := by
    intro draws
    induction draws with
    | nil => intro f _ hf _; exact ⟨[], f, rfl, rfl, hf⟩
    | cons r rest ih =>
      intro f hr hf hpf
      obtain ⟨out, f1, h1, h2, -, hpos, hA, hB, -⟩ := simulateOnce_outcome (argsort := argsort) (D := D) ha hd hn hnames hf (hr r (by simp)).1
        (hr r (by simp)).2 e
      obtain ⟨x, rfl⟩ : ∃ x, out = .ok x := by
        rcases hpf with hx | ⟨hpre, hpf⟩
        · exact hA hx
        · cases hx : c.design.isCrossover with
          | true => exact hA hx
          | false => exact hB hx hpre hpf
      obtain ⟨l, f2, h4, h5, h6⟩ := ih f1 (fun q hq => hr q (by simp [hq])) h2 (hpf.imp id (fun h => ⟨h.1, hpos h.2⟩))
      refine ⟨x :: l, f2, ?_, by simp [h5], h6⟩
      rw [simulateAll, if_neg (List.ne_nil_of_mem (hr r (by simp)).1.start), h1]
      simp only [h4]
  obtain ⟨l, f', h1, h2, h3⟩ := key draws s.data hdraws hu hp
  unfold validateSim
  rw [hs]
  simp only
  rw [h1]
  exact ⟨rfl, ⟨_, _, rfl, rfl, by simp [h2], by simp [h2]⟩, h3⟩

/-- **C86, regular designs with pretest weeks.**  Validating returns one A/A and one A/B result per simulation, or raises `ZeroDivisionError`.  This
includes the case that the estimated minimum detectable effect is nan (and nothing is trimmed at the end): then no A/B result has an estimate.
Missing: excluding that error, which occurs when the average of the adjusted control values is exactly zero (see C34). -/
theorem C86_cuped_partial (ha : ArgsortOk argsort) (p : DesignParams ℝ) (hd : mkDesign R p = .ok c.design) (hreg : c.design.isCrossover = false)
    (hpre : 0 < c.design.pretest) (hn : c.design.nBefore ≤ 2 ^ 51) (hnames : Spec.SimulationNames c.design.primaryMetric c.itemCol c.treatCol)
    (s : SimState) (e : Fl ℝ) (hs : s.mde = some e)
    (he : (∃ x, e = .fin x) ∨ (e = .nan ∧ ⌊R.rnd (c.design.postTrim.val * c.design.nAfterPre)⌋ = 0))
    (hu : Spec.UsableHistory c.design c.itemCol c.weekCol c.periodCol c.starts s.data)
    (draws : List SimDraw) (hdraws : ∀ r ∈ draws, Spec.ValidDraw R c r) :
    ((validateSim R argsort D c draws s).1 = .ok () ∧
      (∃ aa ab, (validateSim R argsort D c draws s).2.aa = some aa ∧ (validateSim R argsort D c draws s).2.ab = some ab ∧
        aa.length = draws.length ∧ ab.length = draws.length ∧
        (e = .nan → ∀ r ∈ ab, ∀ n : ℕ, n = c.design.nAfterPre → Spec.NoEstimate r n)) ∨
      (validateSim R argsort D c draws s).1 = .error .zeroDivision) ∧
      Spec.UsableHistory c.design c.itemCol c.weekCol c.periodCol c.starts (validateSim R argsort D c draws s).2.data := by
  have key : ∀ (draws : List SimDraw) (f : Frame ℝ), (∀ r ∈ draws, Spec.ValidDraw R c r) →
      Spec.UsableHistory c.design c.itemCol c.weekCol c.periodCol c.starts f →
      ∃ l f', simulateAll R argsort D c e draws f = (l, f') ∧ ((∃ k, l = .ok k ∧ k.length = draws.length ∧
          (e = .nan → ∀ x ∈ k, ∀ n : ℕ, n = c.design.nAfterPre → Spec.NoEstimate x.2 n)) ∨ l = .error .zeroDivision) ∧
        Spec.UsableHistory c.design c.itemCol c.weekCol c.periodCol c.starts f' := by
    intro draws
    induction draws with
    | nil => intro f _ hf; exact ⟨.ok [], f, rfl, Or.inl ⟨[], rfl, rfl, by simp⟩, hf⟩
    | cons r rest ih =>
      intro f hr hf
      have hone : ∃ out f1, simulateOnce R argsort D c e r f = (out, f1) ∧
          Spec.UsableHistory c.design c.itemCol c.weekCol c.periodCol c.starts f1 ∧
          ((∃ x, out = .ok x ∧ (e = .nan → ∀ n : ℕ, n = c.design.nAfterPre → Spec.NoEstimate x.2 n)) ∨ out = .error .zeroDivision) := by
        rcases he with ⟨x, rfl⟩ | ⟨rfl, h0⟩
        · obtain ⟨out, f1, h1, h2, -, -, -, -, hC, -⟩ := simulateOnce_outcome (argsort := argsort) (D := D) ha hd hn hnames hf (hr r (by simp)).1
            (hr r (by simp)).2 x
          exact ⟨out, f1, h1, h2, (hC hreg hpre).imp (fun ⟨y, hy⟩ => ⟨y, hy, fun h => by cases h⟩) id⟩
        · obtain ⟨-, f1, -, h2, -, -, -, -, -, hC⟩ := simulateOnce_outcome (argsort := argsort) (D := D) ha hd hn hnames hf (hr r (by simp)).1
            (hr r (by simp)).2 0
          obtain ⟨out', h1, h3⟩ := hC hreg hpre h0
          exact ⟨out', f1, h1, h2, h3.imp (fun ⟨y, hy, h⟩ => ⟨y, hy, fun _ => h⟩) id⟩
      obtain ⟨out, f1, h1, h2, hC⟩ := hone
      rcases hC with ⟨x, rfl, hx⟩ | rfl
      · obtain ⟨l, f2, h4, h5, h6⟩ := ih f1 (fun q hq => hr q (by simp [hq])) h2
        rcases h5 with ⟨k, rfl, hk, hk'⟩ | rfl
        · refine ⟨.ok (x :: k), f2, ?_, Or.inl ⟨_, rfl, by simp [hk], fun hnan y hy => ?_⟩, h6⟩
          · rw [simulateAll, if_neg (List.ne_nil_of_mem (hr r (by simp)).1.start), h1]
            simp only [h4]
          · rcases List.mem_cons.mp hy with rfl | hy
            · exact hx hnan
            · exact hk' hnan y hy
        · refine ⟨.error .zeroDivision, f2, ?_, Or.inr rfl, h6⟩
          rw [simulateAll, if_neg (List.ne_nil_of_mem (hr r (by simp)).1.start), h1]
          simp only [h4]
      · refine ⟨.error .zeroDivision, f1, ?_, Or.inr rfl, h2⟩
        rw [simulateAll, if_neg (List.ne_nil_of_mem (hr r (by simp)).1.start), h1]
  obtain ⟨l, f', h1, h2, h3⟩ := key draws s.data hdraws hu
  unfold validateSim
  rw [hs]
  simp only
  rw [h1]
  rcases h2 with ⟨k, rfl, hk, hk'⟩ | rfl
  · refine ⟨Or.inl ⟨rfl, _, _, rfl, rfl, by simp [hk], by simp [hk], fun hnan r hr => ?_⟩, h3⟩
    obtain ⟨x, hx, rfl⟩ := List.mem_map.mp hr
    exact hk' hnan x hx
  · exact ⟨Or.inr rfl, h3⟩

/-- The statistics of a start week are all nan, or numbers. -/
theorem primaryStats_values {d : Design ℝ} {w : Wide ℝ} {st : MetricStats} (h : primaryStats R argsort d w = .ok st) :
    (st.average = .nan ∧ st.variance = .nan) ∨ ∃ a v : ℝ, 0 ≤ v ∧ st.average = .fin a ∧ st.variance = .fin v := by
  unfold primaryStats at h
  obtain ⟨st', h2, h3⟩ := Py.bind_eq_ok.mp h
  obtain ⟨-, h3⟩ := raiseIf_bind_ok.mp h3
  cases h3
  by_cases hx : d.isCrossover = true
  · rw [if_pos hx] at h2
    obtain ⟨y1, -, h2⟩ := Py.bind_eq_ok.mp h2
    obtain ⟨y2, -, h2⟩ := Py.bind_eq_ok.mp h2
    obtain ⟨T, -, h2⟩ := Py.bind_eq_ok.mp h2
    obtain ⟨hlen, h2⟩ := raiseIf_bind_ok.mp h2
    cases h2
    refine Or.inr ⟨_, _, ?_, rfl, rfl⟩
    have := var_nonneg T (by omega) 0
    split_ifs
    · have e : T.var 1 0 = T.cov 1 0 0 := rfl
      rw [e]; positivity
    · exact this
  · rw [if_neg hx] at h2
    obtain ⟨y, -, h2⟩ := Py.bind_eq_ok.mp h2
    obtain ⟨z, -, h2⟩ := Py.bind_eq_ok.mp h2
    split_ifs at h2
    · cases h2
      exact Or.inl ⟨rfl, rfl⟩
    · obtain ⟨v, -, h2⟩ := Py.bind_eq_ok.mp h2
      obtain ⟨T, -, h2⟩ := Py.bind_eq_ok.mp h2
      obtain ⟨hlen, h2⟩ := raiseIf_bind_ok.mp h2
      cases h2
      exact Or.inr ⟨_, _, var_nonneg T (by omega) 0, rfl, rfl⟩

/-- Averages of numbers. -/
theorem averageStats_numbers {l : List MetricStats} {q : List (ℝ × ℝ)}
    (hq : List.Forall₂ (fun (st : MetricStats) q => st.average = .fin q.1 ∧ st.variance = .fin q.2 ∧ 0 ≤ q.2) l q) {a : Fl ℝ × Fl ℝ × ℕ}
    (h : averageStats l = .ok a) :
    a.1 = .fin (Spec.mean (q.map Prod.fst)) ∧ a.2.1 = .fin (Real.sqrt (Spec.mean (q.map Prod.snd))) := by
  have e1 : l.map MetricStats.average = (q.map Prod.fst).map .fin := by
    clear h
    induction hq with
    | nil => rfl
    | cons h _ ih => simp [h.1, ih]
  have e2 : l.map MetricStats.variance = (q.map Prod.snd).map .fin := by
    clear h e1
    induction hq with
    | nil => rfl
    | cons h _ ih => simp [h.2.1, ih]
  have hnn : 0 ≤ meanOf (q.map Prod.snd) := by
    unfold meanOf
    refine div_nonneg (List.sum_nonneg ?_) (by positivity)
    intro x hx
    obtain ⟨y, hy, rfl⟩ := List.mem_map.mp hx
    clear h e1 e2 hx
    induction hq with
    | nil => cases hy
    | cons h _ ih =>
      rcases List.mem_cons.mp hy with rfl | hy
      · exact h.2.2
      · exact ih hy
  have hne : q ≠ [] := by
    rintro rfl
    cases hq
    cases h
  cases l with
  | nil => cases h
  | cons st l =>
    have h := (raiseIf_bind_ok.mp h).2
    cases h
    simp only
    rw [e1, e2, flMean_map_fin (by simpa using hne), flMean_map_fin (by simpa using hne)]
    refine ⟨rfl, ?_⟩
    show (if meanOf (q.map Prod.snd) < 0 then nan else fin (Real.sqrt (meanOf (q.map Prod.snd)))) = _
    rw [if_neg (not_lt.mpr hnn)]
    rfl

/-- One nan makes the averages nan. -/
theorem averageStats_nan {l : List MetricStats} {st : MetricStats} (hst : st ∈ l) (h1 : st.average = .nan) (h2 : st.variance = .nan)
    {a : Fl ℝ × Fl ℝ × ℕ} (h : averageStats l = .ok a) : a.1 = .nan ∧ a.2.1 = .nan := by
  cases l with
  | nil => cases h
  | cons x l =>
    have h := (raiseIf_bind_ok.mp h).2
    cases h
    simp only
    rw [flMean_nan (List.mem_map.mpr ⟨st, hst, h1⟩), flMean_nan (List.mem_map.mpr ⟨st, hst, h2⟩)]
    exact ⟨rfl, rfl⟩

/-- The estimate is a finite number when the design keeps at least three items and its level and power are probabilities. -/
theorem estimate_finite (ha : ArgsortOk argsort) {p : DesignParams ℝ} (hd : mkDesign R p = .ok c.design)
    (hn : c.design.nBefore ≤ 2 ^ 51) (hcup : Spec.NoPlainCuped R c.design) (hpw : 0 < c.design.power.val ∧ c.design.power.val < 1)
    (hal : 0 < c.design.alpha.val ∧ c.design.alpha.val < 1) (hsize : 2 < c.design.nAfterPost) {σ : ℤ → Shuffle} {s : SimState}
    (hu : Spec.UsableHistory c.design c.itemCol c.weekCol c.periodCol c.starts s.data)
    (h : (estimateMde R argsort D σ c s).1 = .ok ()) : ∃ e, (estimateMde R argsort D σ c s).2.mde = some (.fin e) := by
  unfold estimateMde at h ⊢
  rcases hst : statsOfWeeks R argsort σ c c.starts s.data with ⟨r, f⟩
  rw [hst] at h
  cases r with
  | error x => cases h
  | ok l =>
    simp only at h ⊢
    have hsizes : ∀ (l : List ℤ) (f : Frame ℝ), (∀ x ∈ l, x ∈ c.starts) →
        Spec.UsableHistory c.design c.itemCol c.weekCol c.periodCol c.starts f → ∀ ss f', statsOfWeeks R argsort σ c l f = (.ok ss, f') →
        ∀ x ∈ ss, (x.size : ℤ) = c.design.nAfterPost ∧ ∃ q : ℝ × ℝ, x.average = .fin q.1 ∧ x.variance = .fin q.2 ∧ 0 ≤ q.2 := by
      intro l
      induction l with
      | nil => intro f _ _ ss f' h x hx; cases h; simp at hx
      | cons start rest ih =>
        intro f hl hf ss f' h x hx
        obtain ⟨w, f1, st, h1, h2, h3, h4, h5⟩ := usable_week (σ := σ start) ha hd hn (hl start (by simp)) hf
        rw [statsOfWeeks, h1] at h
        simp only [h2] at h
        rcases hr : statsOfWeeks R argsort σ c rest f1 with ⟨r, g⟩
        rw [hr] at h
        cases r with
        | error e => cases h
        | ok l' =>
          cases h
          rcases List.mem_cons.mp hx with rfl | hx
          · refine ⟨h3, ?_⟩
            rcases primaryStats_values h2 with hh | ⟨a, v, hv, e1, e2⟩
            · exact absurd hh.1 (h5 hcup)
            · exact ⟨(a, v), e1, e2, hv⟩
          · exact ih f1 (fun x hx => hl x (by simp [hx])) h4 l' _ hr x hx
    have hsz := hsizes c.starts s.data (fun _ h => h) hu l f hst
    cases hav : averageStats l with
    | error x => rw [hav] at h; cases h
    | ok a =>
      rw [hav] at h
      simp only at h ⊢
      have ha2 : (a.2.2 : ℤ) = c.design.nAfterPost := by
        cases l with
        | nil => cases hav
        | cons x t =>
          have := (raiseIf_bind_ok.mp hav).2
          cases this
          exact (hsz x (by simp)).1
      obtain ⟨q, hq⟩ : ∃ q : List (ℝ × ℝ), List.Forall₂ (fun (st : MetricStats) q => st.average = .fin q.1 ∧ st.variance = .fin q.2 ∧ 0 ≤ q.2) l q := by
        have : ∀ l : List MetricStats, (∀ x ∈ l, ∃ q : ℝ × ℝ, x.average = .fin q.1 ∧ x.variance = .fin q.2 ∧ 0 ≤ q.2) →
            ∃ q : List (ℝ × ℝ), List.Forall₂ (fun (st : MetricStats) q => st.average = .fin q.1 ∧ st.variance = .fin q.2 ∧ 0 ≤ q.2) l q := by
          intro l
          induction l with
          | nil => intro _; exact ⟨[], .nil⟩
          | cons x l ih =>
            intro hx
            obtain ⟨y, hy⟩ := hx x (by simp)
            obtain ⟨q, hq⟩ := ih (fun x h => hx x (by simp [h]))
            exact ⟨y :: q, .cons hy hq⟩
        exact this l (fun x hx => (hsz x hx).2)
      obtain ⟨ea, es⟩ := averageStats_numbers hq hav
      have hm := C35_power_calculations D (Real.sqrt (Spec.mean (q.map Prod.snd))) (a.2.2 : ℝ) c.design.power.val c.design.alpha.val
        (Real.sqrt_nonneg _) hpw.1 hpw.2 hal.1 hal.2 "two-sided" (Or.inl rfl)
      have hlt : (2 : ℝ) < a.2.2 := by exact_mod_cast (by omega : 2 < a.2.2)
      have hmde : ∃ z, mdeOf D c.design a.1 a.2.1 a.2.2 = .ok (fin z, fin z / a.1) := by
        unfold mdeOf
        rw [es]
        cases c.design.isCrossover with
        | true => exact ⟨_, Py.bind_eq_ok.mpr ⟨_, hm.2 (by linarith), rfl⟩⟩
        | false => exact ⟨_, Py.bind_eq_ok.mpr ⟨_, hm.1 hlt, rfl⟩⟩
      obtain ⟨z, hmde⟩ := hmde
      rw [hmde]
      exact ⟨_, rfl⟩

/-- A simulated experiment of the 51 items: every item drawn once, groups alternating. -/
def alternatingDraw (σ : Shuffle) : SimDraw := ⟨0, List.range 51, σ, (List.range 51).map (fun i => decide (i % 2 = 0))⟩

theorem clicks_names : Spec.SimulationNames "clicks" "item_id" "treatment_assignment" := by
  refine ⟨⟨by decide, ?_, by unfold Spec.NoOuterScore; decide⟩, by unfold Spec.NoOuterScore; decide, by decide, by decide, by decide⟩
  rintro ⟨a, b, h⟩
  have : ('_' : Char) ∈ "clicks".toList := by rw [h]; simp
  revert this
  decide

/-- C72, C73 and C86 are not vacuous: for the object of `simConfig_created`, estimating and then validating with two simulations both return,
so that a reachable state holds two A/A and two A/B results and a minimum detectable effect. -/
theorem simulated_state (R : Rounding ℝ) (D : TDist) (σ : ℤ → Shuffle) (τ : Shuffle) :
    ∃ aa ab m, (runSim R stableArgsort D simConfig simState [.estimate σ, .validate [alternatingDraw τ, alternatingDraw τ]]).aa = some aa ∧
      (runSim R stableArgsort D simConfig simState [.estimate σ, .validate [alternatingDraw τ, alternatingDraw τ]]).ab = some ab ∧
      (runSim R stableArgsort D simConfig simState [.estimate σ, .validate [alternatingDraw τ, alternatingDraw τ]]).mde = some m ∧
      aa.length = 2 ∧ ab.length = 2 := by
  obtain ⟨h1, h2⟩ := C71_estimation_succeeds (D := D) (c := simConfig) stableArgsort_ok simParams (simDesign_created R) (by decide)
    σ simState (by rw [simConfig_starts]; simp) simData_usable
  obtain ⟨e, he⟩ := estimate_finite (D := D) (c := simConfig) stableArgsort_ok (simDesign_created R) (by decide) (Or.inr (Or.inl rfl))
    (by show (0 : ℝ) < 8 / 10 ∧ (8 / 10 : ℝ) < 1; norm_num)
    (by show (0 : ℝ) < 1 / 10 ∧ (1 / 10 : ℝ) < 1; norm_num) (by decide) (s := simState) simData_usable h1
  have hpos : Spec.PositiveMetric "clicks" (estimateMde R stableArgsort D σ simConfig simState).2.data := by
    have h0 : Spec.PositiveMetric "clicks" simData := by
      intro r hr
      obtain ⟨i, -, rfl⟩ := List.mem_map.mp hr
      exact ⟨(i : ℝ) + 1, by positivity, by simp [simRow, Cell.toFl]⟩
    rcases hst : statsOfWeeks R stableArgsort σ simConfig simConfig.starts simState.data with ⟨r, f⟩
    have hdata : (estimateMde R stableArgsort D σ simConfig simState).2.data = f := by
      unfold estimateMde
      rw [hst]
      cases r with
      | error x => rfl
      | ok l =>
        simp only
        split
        · rfl
        · split <;> rfl
    rw [hdata]
    cases r with
    | error x =>
      unfold estimateMde at h1
      rw [hst] at h1
      cases h1
    | ok l => exact positive_stats (c := simConfig) hst h0
  have hfair : Spec.ValidDraw R simConfig (alternatingDraw τ) := by
    refine ⟨⟨by rw [simConfig_starts]; simp [alternatingDraw], ⟨by simp [alternatingDraw, simConfig, simDesign, simParams], ?_⟩,
      by simp [alternatingDraw, simConfig, simDesign, simParams]⟩, fun _ => ?_⟩
    swap
    · have h0 : R.rnd 0 = 0 := by simpa using R.intFix 0 (by norm_num)
      have hc : ∀ b, 1 < ((List.range 51).map (fun i => decide (i % 2 = 0))).count b := by decide
      intro b
      have e : simConfig.design.postTrim.val = 0 := rfl
      rw [e, zero_mul, h0]
      have := hc b
      show 2 * ⌊(0 : ℝ)⌋ + 1 < (((List.range 51).map (fun i => decide (i % 2 = 0))).count b : ℤ)
      rw [Int.floor_zero]
      omega
    intro q hq
    have : q < 51 := List.mem_range.mp hq
    show (q : ℤ) < 51
    omega
  obtain ⟨h3, ⟨aa, ab, h4, h5, h6, h7⟩, -⟩ := C86_validation_succeeds_partial (argsort := stableArgsort) (D := D) (c := simConfig) stableArgsort_ok
    simParams (simDesign_created R) (by decide) clicks_names (estimateMde R stableArgsort D σ simConfig simState).2 e he h2 (Or.inr ⟨rfl, hpos⟩)
    [alternatingDraw τ, alternatingDraw τ] (by intro r hr; simp at hr; rw [hr]; exact hfair)
  refine ⟨aa, ab, .fin e, h4, h5, ?_, h6, h7⟩
  show (validateSim R stableArgsort D simConfig _ (estimateMde R stableArgsort D σ simConfig simState).2).2.mde = _
  rcases validate_cases (R := R) (argsort := stableArgsort) (D := D) (c := simConfig) [alternatingDraw τ, alternatingDraw τ]
    (estimateMde R stableArgsort D σ simConfig simState).2 with ⟨-, -, data, aa', ab', -, -, h8⟩ | ⟨x, data, -, h8⟩
  · rw [h8]; exact he
  · rw [h8]; exact he

/-- C73 is not vacuous: with tests that always report 1, all checks pass for the reached state. -/
example (R : Rounding ℝ) (D : TDist) (σ : ℤ → Shuffle) (τ : Shuffle) :
    allChecksPass ⟨fun _ => .fin 1, fun _ _ _ _ => .fin 1, fun _ _ => .fin 1⟩ simConfig
      (runSim R stableArgsort D simConfig simState [.estimate σ, .validate [alternatingDraw τ, alternatingDraw τ]]) = .ok (some true) := by
  obtain ⟨aa, ab, m, h1, h2, h3, h4, h5⟩ := simulated_state R D σ τ
  obtain ⟨b, hb, hiff⟩ := C73_true_iff_five_checks (c := simConfig) ⟨fun _ => .fin 1, fun _ _ _ _ => .fin 1, fun _ _ => .fin 1⟩ _ aa ab m h1 h2 h3
    (by rintro rfl; simp at h4) (by rintro rfl; simp at h5)
  have : Spec.AtLeast simConfig.threshold (.fin 1) := Or.inr ⟨1, rfl, by show (1 / 20 : ℝ) ≤ 1; norm_num⟩
  rw [hb, hiff.mpr ⟨this, this, this, this, this⟩]

/-! ### A crossover design and a design with the pretest adjustment -/

/-- 100 items and two weeks: one test week in each half (crossover) or one pretest and one test week (regular); one in fifty trimmed at each end. -/
noncomputable def twoWeekParams (x : Bool) : DesignParams ℝ :=
  { tenPercentParams with
    nBefore := 100, runtime := if x then 2 else 1, pretest := if x then 0 else 1, isCrossover := x, postTrim := .float (1 / 50),
    washout := if x then some 0 else none }

/-- See `twoWeekParams`. -/
noncomputable def twoWeekDesign (x : Bool) : Design ℝ := { twoWeekParams x with nAfterPre := 100, nAfterPost := 96 }

theorem twoWeek_floor (R : Rounding ℝ) (n : ℕ) (hn : n ≤ 2) : ⌊R.rnd (1 / 50 * ((50 * n : ℕ) : ℝ))⌋ = n := by
  have e : (1 / 50 * ((50 * n : ℕ) : ℝ)) = ((n : ℤ) : ℝ) := by push_cast; ring
  rw [e, R.intFix n (by rw [abs_of_nonneg (by omega)]; omega)]
  simp

theorem twoWeekDesign_created (R : Rounding ℝ) (x : Bool) : mkDesign R (twoWeekParams x) = .ok (twoWeekDesign x) := by
  have h0 : R.rnd 0 = 0 := by simpa using R.intFix 0 (by norm_num)
  have hf : ∀ n : ℤ, R.floorMul 0 n = 0 := by
    intro n
    unfold Rounding.floorMul
    rw [zero_mul, h0]; simp
  have hf' : R.floorMul (1 / 50) 100 = 2 := by
    have := twoWeek_floor R 2 le_rfl
    unfold Rounding.floorMul
    norm_num at this ⊢
    exact this
  have hd : deriveCounts R (twoWeekParams x) = twoWeekDesign x := by
    unfold deriveCounts
    have e1 : (twoWeekParams x).preTop.val = 0 := rfl
    have e2 : (twoWeekParams x).preBottom.val = 0 := rfl
    have e3 : (twoWeekParams x).postTrim.val = 1 / 50 := rfl
    have e4 : (twoWeekParams x).nBefore = 100 := rfl
    simp only [e1, e2, e3, e4, hf, sub_zero, hf']
    rfl
  rw [mkDesign_ok_iff]
  refine ⟨hd.symm, (validateDesign_ok_iff R _).mpr ⟨?_, by show (50 : ℤ) < 96; decide⟩⟩
  have e1 : (twoWeekDesign x).preTop.val = 0 := rfl
  have e2 : (twoWeekDesign x).preBottom.val = 0 := rfl
  have e3 : (twoWeekDesign x).postTrim.val = 1 / 50 := rfl
  refine ⟨by cases x <;> decide, by cases x <;> decide, by rw [e1], by rw [e2], by rw [e3]; norm_num, ?_, by rw [e3]; norm_num,
    fun _ => ⟨e1, e2⟩, fun h => ?_⟩
  · rw [e1, e2, add_zero, h0]; norm_num
  · cases x with
    | false => exact absurd h (by decide)
    | true => exact ⟨0, rfl, by decide, by decide, by decide⟩

/-- Item `i` has `i + 1` clicks in each week. -/
noncomputable def twoWeekRow (w : ℤ) (i : ℕ) : Row ℝ := fun c =>
  if c = "item_id" then .int (i : ℤ) else if c = "week_id" then .int w else if c = "clicks" then .num ((i : ℝ) + 1) else .null

/-- 100 items in two weeks. -/
noncomputable def twoWeekData : Frame ℝ :=
  ⟨["item_id", "week_id", "clicks"], (List.range 100).map (twoWeekRow 0) ++ (List.range 100).map (twoWeekRow 1)⟩

/-- The object for this data. -/
noncomputable def twoWeekConfig (x : Bool) : SimConfig :=
  ⟨twoWeekDesign x, "item_id", "week_id", "time_period", "treatment_assignment", if x then 0 else 1, if x then 0 else 1, 1 / 20⟩

theorem twoWeek_starts (x : Bool) : (twoWeekConfig x).starts = [if x then 0 else 1] := by cases x <;> decide

theorem twoWeekData_usable (x : Bool) :
    Spec.UsableHistory (twoWeekDesign x) "item_id" "week_id" "time_period" (twoWeekConfig x).starts twoWeekData := by
  have hrow : ∀ r ∈ twoWeekData.rows, ∃ w : ℤ, ∃ i : ℕ, i < 100 ∧ r = twoWeekRow w i := by
    intro r hr
    rcases List.mem_append.mp hr with hr | hr <;> obtain ⟨i, hi, rfl⟩ := List.mem_map.mp hr <;>
      exact ⟨_, i, List.mem_range.mp hi, rfl⟩
  have hmem0 : ∀ i, i < 100 → twoWeekRow 0 i ∈ twoWeekData.rows := fun i hi =>
    List.mem_append.mpr (Or.inl (List.mem_map.mpr ⟨i, List.mem_range.mpr hi, rfl⟩))
  have hmem1 : ∀ i, i < 100 → twoWeekRow 1 i ∈ twoWeekData.rows := fun i hi =>
    List.mem_append.mpr (Or.inr (List.mem_map.mpr ⟨i, List.mem_range.mpr hi, rfl⟩))
  have htl : ∀ e ∈ Spec.timeline (twoWeekDesign x).toDesignParams (if x then 0 else 1), e.2.1 < e.2.2 →
      (e.2.1 = 0 ∧ e.2.2 = 1) ∨ (e.2.1 = 1 ∧ e.2.2 = 2) := by cases x <;> decide
  have htl' : ∃ label, (label, 0, 1) ∈ Spec.timeline (twoWeekDesign x).toDesignParams (if x then 0 else 1) := by
    cases x
    · exact ⟨"pretest", by decide⟩
    · exact ⟨"test_1", by decide⟩
  rw [twoWeek_starts]
  refine ⟨⟨?_, ?_, ?_⟩, ?_, ?_⟩
  · intro r hr
    obtain ⟨w, i, -, rfl⟩ := hrow r hr
    exact Or.inr ⟨w, by simp [twoWeekRow]⟩
  · intro r hr
    obtain ⟨w, i, -, rfl⟩ := hrow r hr
    exact Or.inr ⟨(i : ℝ) + 1, by simp [twoWeekRow, twoWeekDesign, twoWeekParams, tenPercentParams, Cell.toFl]⟩
  · intro start hs
    simp only [List.mem_singleton] at hs
    subst hs
    refine ⟨(List.range 100).map (fun i : ℕ => .int (i : ℤ)), ?_, ?_, ?_⟩
    · exact List.nodup_range.map (fun a b h => by simpa using h)
    · rw [List.length_map, List.length_range]; rfl
    · intro y
      rw [List.mem_map]
      constructor
      · rintro ⟨i, hi, rfl⟩
        obtain ⟨label, hl⟩ := htl'
        exact ⟨by simp, twoWeekRow 0 i, hmem0 i (List.mem_range.mp hi), by simp [twoWeekRow], 0, by simp [twoWeekRow], label, 0, 1, hl, by omega,
          by omega⟩
      · rintro ⟨-, r, hr, rfl, -⟩
        obtain ⟨w, i, hi, rfl⟩ := hrow r hr
        exact ⟨i, List.mem_range.mpr hi, by simp [twoWeekRow]⟩
  · simp [twoWeekData, twoWeekDesign, twoWeekParams, tenPercentParams]
  · intro start hs label lo hi hmem' hlt
    simp only [List.mem_singleton] at hs
    subst hs
    rcases htl _ hmem' hlt with ⟨h1, h2⟩ | ⟨h1, h2⟩ <;> simp only at h1 h2
    · exact ⟨twoWeekRow 0 0, hmem0 0 (by omega), by simp [twoWeekRow], 0, by simp [twoWeekRow], by omega, by omega⟩
    · exact ⟨twoWeekRow 1 0, hmem1 0 (by omega), by simp [twoWeekRow], 1, by simp [twoWeekRow], by omega, by omega⟩

/-- A simulated experiment of the 100 items. -/
def hundredDraw (start : ℤ) (σ : Shuffle) : SimDraw := ⟨start, List.range 100, σ, (List.range 100).map (fun i => decide (i % 2 = 0))⟩

theorem hundredDraw_valid (R : Rounding ℝ) (x : Bool) (τ : Shuffle) : Spec.ValidDraw R (twoWeekConfig x) (hundredDraw (if x then 0 else 1) τ) := by
  refine ⟨⟨by rw [twoWeek_starts]; simp [hundredDraw], ⟨by simp [hundredDraw, twoWeekConfig, twoWeekDesign, twoWeekParams], ?_⟩,
    by simp [hundredDraw, twoWeekConfig, twoWeekDesign]⟩, fun _ b => ?_⟩
  · intro q hq
    have : q < 100 := List.mem_range.mp hq
    show (q : ℤ) < 100
    omega
  · have hc : ((List.range 100).map (fun i => decide (i % 2 = 0))).count b = 50 * 1 := by revert b; decide
    show 2 * ⌊R.rnd (1 / 50 * ((((List.range 100).map (fun i => decide (i % 2 = 0))).count b : ℕ) : ℝ))⌋ + 1 <
      ((((List.range 100).map (fun i => decide (i % 2 = 0))).count b : ℕ) : ℤ)
    rw [hc, twoWeek_floor R 1 (by omega)]
    norm_num

/-- `C86_validation_succeeds_partial` is not vacuous for crossover designs: estimating and then validating both return. -/
theorem twoWeek_validates (R : Rounding ℝ) (D : TDist) (σ : ℤ → Shuffle) (τ : Shuffle) :
    (estimateMde R stableArgsort D σ (twoWeekConfig true) ⟨twoWeekData, none, none, none, none, none, none⟩).1 = .ok () ∧
    (validateSim R stableArgsort D (twoWeekConfig true) [hundredDraw 0 τ]
      (estimateMde R stableArgsort D σ (twoWeekConfig true) ⟨twoWeekData, none, none, none, none, none, none⟩).2).1 = .ok () := by
  obtain ⟨h1, h2⟩ := C71_estimation_succeeds (D := D) (c := twoWeekConfig true) stableArgsort_ok _ (twoWeekDesign_created R true) (by decide)
    σ ⟨twoWeekData, none, none, none, none, none, none⟩ (by rw [twoWeek_starts]; simp) (twoWeekData_usable true)
  obtain ⟨e, he⟩ := estimate_finite (D := D) (c := twoWeekConfig true) stableArgsort_ok (twoWeekDesign_created R true) (by decide) (Or.inl rfl)
    (by show (0 : ℝ) < 8 / 10 ∧ (8 / 10 : ℝ) < 1; norm_num)
    (by show (0 : ℝ) < 1 / 10 ∧ (1 / 10 : ℝ) < 1; norm_num) (by decide) (s := ⟨twoWeekData, none, none, none, none, none, none⟩)
    (twoWeekData_usable true) h1
  exact ⟨h1, (C86_validation_succeeds_partial stableArgsort_ok _ (twoWeekDesign_created R true) (by decide) clicks_names _ e he h2 (Or.inl rfl)
    [hundredDraw 0 τ] (by intro r hr; simp at hr; rw [hr]; exact hundredDraw_valid R true τ)).1⟩

/-- `C86_cuped_partial` is not vacuous. -/
example (R : Rounding ℝ) (D : TDist) (σ : ℤ → Shuffle) (τ : Shuffle) :
    ∃ s e, s.mde = some (.fin e) ∧ (twoWeekConfig false).design.isCrossover = false ∧ 0 < (twoWeekConfig false).design.pretest ∧
      ((validateSim R stableArgsort D (twoWeekConfig false) [hundredDraw 1 τ] s).1 = .ok () ∨
        (validateSim R stableArgsort D (twoWeekConfig false) [hundredDraw 1 τ] s).1 = .error .zeroDivision) := by
  have hcup : 0 < ⌊R.rnd ((twoWeekConfig false).design.postTrim.val * (twoWeekConfig false).design.nAfterPre)⌋ := by
    have := twoWeek_floor R 2 le_rfl
    show 0 < ⌊R.rnd (1 / 50 * ((100 : ℤ) : ℝ))⌋
    norm_num at this ⊢
    rw [this]
    norm_num
  obtain ⟨h1, h2⟩ := C71_estimation_succeeds (D := D) (c := twoWeekConfig false) stableArgsort_ok _ (twoWeekDesign_created R false) (by decide)
    σ ⟨twoWeekData, none, none, none, none, none, none⟩ (by rw [twoWeek_starts]; simp) (twoWeekData_usable false)
  obtain ⟨e, he⟩ := estimate_finite (D := D) (c := twoWeekConfig false) stableArgsort_ok (twoWeekDesign_created R false) (by decide)
    (Or.inr (Or.inr hcup)) (by show (0 : ℝ) < 8 / 10 ∧ (8 / 10 : ℝ) < 1; norm_num)
    (by show (0 : ℝ) < 1 / 10 ∧ (1 / 10 : ℝ) < 1; norm_num) (by decide) (s := ⟨twoWeekData, none, none, none, none, none, none⟩)
    (twoWeekData_usable false) h1
  refine ⟨_, e, he, rfl, by decide, ?_⟩
  exact (C86_cuped_partial stableArgsort_ok _ (twoWeekDesign_created R false) rfl (by decide) (by decide) clicks_names _ _ he (Or.inl ⟨e, rfl⟩) h2
    [hundredDraw 1 τ] (by intro r hr; simp at hr; rw [hr]; exact hundredDraw_valid R false τ)).1.imp (fun h => h.1) id

end Feedx
