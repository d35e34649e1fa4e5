import Verif.Props.DesignExample

/-!
C118 is false: the validation of a regular design raises `ZeroDivisionError` on history without a single conversion, which the designer accepts.
-/

set_option linter.unusedSectionVars false
set_option linter.unusedSimpArgs false

namespace Feedx
open Fl

variable {R : Rounding ℝ} {argsort : List ℝ → List ℕ} {D : TDist} {c : SimConfig}

/-- The metric is zero in every row. -/
def Spec.ZeroMetric (m : String) (f : Frame ℝ) : Prop := ∀ r ∈ f.rows, (r m).toFl = .fin 0

theorem zero_pivot {d : DesignParams ℝ} {start : ℤ} {m i w t : String} {f f' : Frame ℝ} {piv : Pivoted ℝ}
    (h : pivotTimeAssignment d start [m] i w none t f = (.ok piv, f')) (hp : Spec.ZeroMetric m f) : Spec.ZeroMetric m f' := by
  obtain ⟨h1, h2, g, hg, -, rfl, -⟩ := pivot_ok h
  rw [labelRows_ok hg]
  intro r hr
  obtain ⟨r, hr0, rfl⟩ := List.mem_map.mp hr
  have hmt : m ≠ t := by rintro rfl; exact h1 (h2 _ (by simp))
  rw [Function.update_of_ne hmt]
  exact hp r hr0

theorem zero_stats {σ : ℤ → Shuffle} {l : List ℤ} {f f' : Frame ℝ} {ss : List MetricStats}
    (h : statsOfWeeks R argsort σ c l f = (.ok ss, f')) (hp : Spec.ZeroMetric c.design.primaryMetric f) :
    Spec.ZeroMetric c.design.primaryMetric f' := by
  induction l generalizing f ss with
  | nil => cases h; exact hp
  | cons start rest ih =>
    unfold statsOfWeeks at h
    rcases h1 : historicalTable R (σ start) c none start f with ⟨r, g⟩
    rw [h1] at h
    cases r with
    | error e => cases h
    | ok w =>
      simp only at h
      cases h2 : primaryStats R argsort c.design w with
      | error e => rw [h2] at h; cases h
      | ok s =>
        rw [h2] at h
        simp only at h
        rcases h3 : statsOfWeeks R argsort σ c rest g with ⟨r3, g3⟩
        rw [h3] at h
        obtain ⟨piv, hpiv⟩ := historical_ok h1
        cases r3 with
        | error e => cases h
        | ok l3 =>
          have : g3 = f' := congrArg Prod.snd h
          subst this
          exact ih h3 (zero_pivot hpiv hp)

theorem trimmed_zeros {l : List ℝ} (hl : ∀ x ∈ l, x = 0) {q : ℝ} {T : TrimmedArray ℝ 0} (ha : ArgsortOk argsort)
    (hT : mkTrimmed R argsort (asStack l) q = .ok T) : T.mean 0 = 0 := by
  obtain ⟨-, -, ht, -⟩ := C16_trims_exactly_the_extremes R argsort ha 0 _ q T hT
  unfold TrimmedArray.mean
  rw [List.sum_eq_zero, zero_div]
  intro x hx
  unfold rowOf at hx
  obtain ⟨v, hv, rfl⟩ := List.mem_map.mp hx
  have := ht.1.subset hv
  unfold asStack at this
  obtain ⟨y, hy, rfl⟩ := List.mem_map.mp this
  exact hl y hy

theorem SimTable.regular_zero {w : Wide ℝ} {item treat m : String} (h : SimTable w item treat m) (ha : ArgsortOk argsort)
    (hn : Spec.SimulationNames m item treat) {d : DesignParams ℝ} (hd : d.isCrossover = false) (hpre : ¬ 0 < d.pretest) (h1 : [m, "test"] ∈ w.cols)
    (h2 : [m, "pretest"] ∉ w.cols) (hq0 : 0 ≤ d.postTrim.val) (hq1 : d.postTrim.val < 1 / 2) (hle : w.rows.length ≤ 2 ^ 53)
    (hleft : ∀ b, 2 * ⌊R.rnd (d.postTrim.val * (w.rows.countP (fun r => treatedRow r == b) : ℝ))⌋ + 1 <
      w.rows.countP (fun r => treatedRow r == b)) (hzero : ∀ r ∈ w.rows, numAt [m, "test"] r = 0) :
    analyzeWide R argsort D w d m treat = .error .zeroDivision := by
  rw [h.analyze]
  obtain ⟨hi, ht, hidx, hi', ht'⟩ := h.plain hn
  rw [analyze_regular_eq hn.different.1 hi ht hidx hi' ht' hd hpre (mem_heads h1) (SimTable.period.mpr h1) (fun hp => h2 (SimTable.period.mp hp))
    (h.values h1)]
  have g1 := groupOf_rows (w := w) (m := m) (y := numAt [m, "test"]) (g := treatedRow) (b := true) (fun r hr => h.key hr)
  have g0 := groupOf_rows (w := w) (m := m) (y := numAt [m, "test"]) (g := treatedRow) (b := false) (fun r hr => h.key hr)
  simp only [if_true, Bool.false_eq_true, if_false] at g1 g0
  rw [g1, g0, Option.getD_none]
  have hlen : ∀ b, ((w.rows.filter (fun r => treatedRow r == b)).map (numAt [m, "test"])).length = w.rows.countP (fun r => treatedRow r == b) := by
    intro b; rw [List.length_map, List.countP_eq_length_filter]
  have hcle : ∀ b, w.rows.countP (fun r => treatedRow r == b) ≤ 2 ^ 53 := fun b => (List.countP_le_length).trans hle
  obtain ⟨-, T1, T2, hT1, hT2, -, herr⟩ := C34_tests_return_partial R argsort ha D _ _ d.postTrim.val hq0 hq1 false "two-sided" (Or.inl rfl) defaultAlpha
    (by rw [hlen true]; exact hcle true) (by rw [hlen false]; exact hcle false) (by rw [hlen true]; exact hleft true)
    (by rw [hlen false]; exact hleft false)
  have hz : ∀ b, ∀ x ∈ (w.rows.filter (fun r => treatedRow r == b)).map (numAt [m, "test"]), x = 0 := by
    intro b x hx
    obtain ⟨r, hr, rfl⟩ := List.mem_map.mp hx
    exact hzero r (List.mem_filter.mp hr).1
  exact herr ⟨trimmed_zeros (hz false) ha hT2, (trimmed_zeros (hz true) ha hT1).ge⟩

/-- One simulated experiment on data without any value raises. -/
theorem simulateOnce_zero (ha : ArgsortOk argsort) {p : DesignParams ℝ} (hd : mkDesign R p = .ok c.design) (hn : c.design.nBefore ≤ 2 ^ 51)
    (hnames : Spec.SimulationNames c.design.primaryMetric c.itemCol c.treatCol) {f : Frame ℝ}
    (hu : Spec.UsableHistory c.design c.itemCol c.weekCol c.periodCol c.starts f) {draw : SimDraw} (hdraw : Spec.ValidDraw R c draw)
    (hx : c.design.isCrossover = false) (hpre : c.design.pretest = 0) (hz : Spec.ZeroMetric c.design.primaryMetric f) (e : Fl ℝ) :
    (simulateOnce R argsort D c e draw f).1 = .error .zeroDivision := by
  obtain ⟨hdraw, hg⟩ := hdraw
  have hg := hg hx
  set m := c.design.primaryMetric with hm
  obtain ⟨piv, w, f', hpiv, hhist, hu', hn1, hl1, hk1, hnd1, hcn1, hc1, hc1', hfin1, hval1⟩ := simulated_table hd hn hu hdraw
  obtain ⟨hdd, hvalid⟩ := (mkDesign_ok_iff R p c.design).mp hd
  obtain ⟨hleg, h50⟩ := (validateDesign_ok_iff R _).mp hvalid
  have hn0 : (0 : ℤ) ≤ c.design.nBefore := by have := hdraw.boot.1; omega
  have hle1 : c.design.nAfterPre ≤ c.design.nBefore := by
    have a := floorMul_nonneg R hleg.top_nonneg hn0
    have b := floorMul_nonneg R hleg.bottom_nonneg hn0
    have e : c.design.nAfterPre = c.design.nBefore - R.floorMul c.design.preTop.val c.design.nBefore -
        R.floorMul c.design.preBottom.val c.design.nBefore := by rw [hdd]; rfl
    omega
  have hrunpos := hleg.runtime_pos
  have hregtl : ∀ label lo hi, (label, lo, hi) ∈ Spec.timeline c.design.toDesignParams draw.start ↔
      (label = "pretest" ∧ lo = draw.start - c.design.pretest ∧ hi = draw.start) ∨
      (label = "test" ∧ lo = draw.start ∧ hi = draw.start + c.design.runtime) := by
    intro label lo hi
    unfold Spec.timeline
    rw [hx]
    simp [Spec.regularTimeline]
  have htl := (hregtl "test" draw.start (draw.start + c.design.runtime)).mpr (Or.inr ⟨rfl, rfl, rfl⟩)
  have hrcols : [m, "test"] ∈ w.cols := hc1' "test" _ _ htl (by omega)
  obtain ⟨aa, hass, htab, hc2, hl2, hsub, -, hcount⟩ := assigned_table (treat := c.treatCol) hnames hn1 hk1 hnd1 hcn1
    (fun l hl => by
      obtain ⟨label, lo, hi, e, hmem, -⟩ := hc1 l hl
      exact ⟨label, period_of_timeline hmem, e⟩)
    (fun l hl r hr => by
      obtain ⟨label, lo, hi, rfl, hmem, hlt⟩ := hc1 l hl
      exact hfin1 label lo hi hmem hlt r hr) (coins := draw.coins) (by have := hdraw.coins; omega)
  have hnp : [m, "pretest"] ∉ w.cols := by
    intro hin
    obtain ⟨label, lo, hi, he, hmem, hlt⟩ := hc1 _ hin
    obtain rfl : "pretest" = label := (by simpa using he : _ ∧ "pretest" = label).2
    rcases (hregtl _ _ _).mp hmem with ⟨-, rfl, rfl⟩ | ⟨h, -⟩
    · omega
    · exact absurd h (by decide)
  have hzw : ∀ r ∈ w.rows, numAt [m, "test"] r = 0 := by
    intro r hr
    obtain ⟨k, hk, hv⟩ := hval1 r hr
    have e1 := C13_values_are_weekly_averages R p c.design hd draw.start [m] c.itemCol c.weekCol none c.periodCol f f' piv hpiv
      hu.complete.weeks k m (by simp) "test" draw.start (draw.start + c.design.runtime) htl
    have hs : ∀ l : List (Fl ℝ), (∀ x ∈ l, x = .fin 0) → Fl.sumSkip l = .fin 0 := by
      intro l hl
      rw [List.eq_replicate_of_mem hl, show List.replicate l.length (Fl.fin (0 : ℝ)) = (List.replicate l.length (0 : ℝ)).map .fin by simp,
        Fl.sumSkip_fin]
      simp
    unfold Spec.total at e1
    simp only [Option.toList_none] at e1
    have hw : (0 : ℝ) < ((draw.start + c.design.runtime - draw.start : ℤ) : ℝ) := by exact_mod_cast (by omega)
    rw [hs _ (by
      intro x hx
      obtain ⟨r', hr', rfl⟩ := List.mem_map.mp hx
      exact hz r' (List.mem_filter.mp hr').1), Fl.fin_div_ne (ne_of_gt hw), ← hv "test", zero_div] at e1
    unfold numAt
    rw [e1]
  have herr := htab.regular_zero (R := R) (D := D) ha hnames hx (by show ¬ 0 < c.design.pretest; omega) (by rw [hc2]; exact hrcols)
    (by rw [hc2]; exact hnp) hleg.post_nonneg hleg.post_lt_half (by omega) (by intro b; rw [hcount]; exact hg b) (by
      intro r hr
      obtain ⟨r0, hr0, hv⟩ := hsub r hr
      have := hzw r0 hr0
      unfold numAt at this ⊢
      rw [hv _ hrcols]
      exact this)
  unfold simulateOnce
  rw [hhist]
  exact Py.bind_eq_error.mpr (Or.inr ⟨aa, hass, Py.bind_eq_error.mpr (Or.inl herr)⟩)

/-- The estimates leave a metric without any value as it is. -/
theorem opened_zero {V : StudyEnv} {form : StudyForm} {raw data : Frame ℝ} {s : Study} (h : openStudy V form raw = .ok (data, s))
    (hz : Spec.ZeroMetric form.metric data) {e : List Char × (SimConfig × SimState)} (he : e ∈ s) : Spec.ZeroMetric form.metric e.2.2.data := by
  unfold openStudy at h
  obtain ⟨data', hd, h⟩ := Py.bind_eq_ok.mp h
  obtain ⟨-, h⟩ := raiseIf_bind_ok.mp h
  obtain ⟨designs, hg, h⟩ := Py.bind_eq_ok.mp h
  obtain ⟨minStart, hms, h⟩ := Py.bind_eq_ok.mp h
  obtain ⟨st, hest, h⟩ := Py.bind_eq_ok.mp h
  cases h
  unfold estimateDesigns at hest
  obtain ⟨l, hl, hest⟩ := Py.bind_eq_ok.mp hest
  cases hest
  obtain ⟨p, hp, hpe⟩ := mapM_mem hl (dictOf_mem he)
  obtain ⟨a, hA, hpe⟩ := Py.bind_eq_ok.mp hpe
  obtain ⟨id, -, hpe⟩ := Py.bind_eq_ok.mp hpe
  cases hpe
  unfold analyseDesign at hA
  obtain ⟨a0, hs0, hA⟩ := Py.bind_eq_ok.mp hA
  obtain ⟨u, hu, hA⟩ := Py.bind_eq_ok.mp hA
  cases hA
  obtain ⟨hmk, hnb, hpm, -⟩ := (C64_members V.R _ designs hg p.1).mp (List.fst_mem_of_mem_zipIdx hp)
  obtain ⟨c, s0⟩ := a0
  obtain ⟨hcd, hs⟩ : c.design = p.1 ∧ s0.data = data := by
    unfold mkSimulation at hs0
    obtain ⟨-, hs0⟩ := raiseIf_bind_ok.mp hs0
    obtain ⟨-, hs0⟩ := raiseIf_bind_ok.mp hs0
    split at hs0
    · cases hs0
    · cases hs0
      exact ⟨rfl, rfl⟩
  have hret : (estimateMde V.R V.argsort V.tdist (V.shuffle p.2) c s0).1 = .ok () := hu
  rcases hst : statsOfWeeks V.R V.argsort (V.shuffle p.2) c c.starts s0.data with ⟨r, f⟩
  have hdata : (estimateMde V.R V.argsort V.tdist (V.shuffle p.2) c s0).2.data = f := by
    unfold estimateMde
    rw [hst]
    cases r with
    | error x => rfl
    | ok l =>
      simp only
      split
      · rfl
      · split <;> rfl
  show Spec.ZeroMetric form.metric (estimateMde V.R V.argsort V.tdist (V.shuffle p.2) c s0).2.data
  rw [hdata]
  cases r with
  | error x =>
    unfold estimateMde at hret
    rw [hst] at hret
    cases hret
  | ok l =>
    have := zero_stats (c := c) hst (by
      rw [hcd, show p.1.primaryMetric = form.metric from hpm, hs]; exact hz)
    rw [hcd, show p.1.primaryMetric = form.metric from hpm] at this
    exact this

/-- **C118 is false for history without any value of the metric.**  Whenever the prepared data is accepted and its metric is zero in every row, the
validation of any regular design without pretest weeks raises `ZeroDivisionError`, whatever the random choices (that leave two items in each group) are:
the average of the control group is zero (C34). -/
theorem C118_zero_metric_false (V : StudyEnv) (ha : ArgsortOk V.argsort) (form : StudyForm) (raw data : Frame ℝ) (s : Study)
    (h : openStudy V form raw = .ok (data, s)) (hskip : form.skip = []) (hname : form.metric ≠ "time_period")
    (hnames : Spec.SimulationNames form.metric "item_id" "treatment") (hsize : nunique (data.col "item_id") ≤ 2 ^ 51)
    (hz : Spec.ZeroMetric form.metric data) (e : List Char × (SimConfig × SimState)) (he : e ∈ s) (hx : e.2.1.design.isCrossover = false)
    (hpre : e.2.1.design.pretest = 0) (draws : List SimDraw) (hne : draws ≠ []) (hdraws : ∀ r ∈ draws, Spec.ValidDraw V.R e.2.1 r)
    (rest : List (List Char × List SimDraw)) : (validateStudy V false ((e.1, draws) :: rest) s).1 = .error .zeroDivision := by
  obtain ⟨-, hkeys, designs, -, -, hent⟩ := opened_entry h
  obtain ⟨h1, h2, h3, h4, h5, h6, h7, ⟨mde, h8, -⟩, h9, -⟩ := opened_accepted ha h hskip hname hsize he
  have hl : s.lookup e.1 = some e.2 := study_mem_lookup hkeys he
  have haa : e.2.2.aa = none := (hent e he).2.2.2.2.2.1
  have hval : (validateSim V.R V.argsort V.tdist e.2.1 draws e.2.2).1 = .error .zeroDivision := by
    obtain ⟨r, rest', rfl⟩ := List.exists_cons_of_ne_nil hne
    have hr := hdraws r (by simp)
    have hsim := simulateOnce_zero (D := V.tdist) (c := e.2.1) ha h1 h2 (by rw [h3, h4, h7]; exact hnames) (f := e.2.2.data)
      (by rw [h4, h5, h6]; exact h9) hr hx hpre (by rw [h3]; exact opened_zero h hz he) mde
    unfold validateSim
    rw [h8]
    simp only
    rw [simulateAll, if_neg (List.ne_nil_of_mem hr.1.start)]
    rcases ho : simulateOnce V.R V.argsort V.tdist e.2.1 mde r e.2.2.data with ⟨o, f'⟩
    rw [ho] at hsim
    simp only at hsim
    rw [hsim]
  have hone : validateOne V false draws e.1 s = ((validateSim V.R V.argsort V.tdist e.2.1 draws e.2.2).1,
      dictSet e.1 (e.2.1, (validateSim V.R V.argsort V.tdist e.2.1 draws e.2.2).2) s) := by
    unfold validateOne Study.get
    rw [hl]
    have : falsePositiveRate e.2.1.design e.2.2 = .ok none := by
      unfold falsePositiveRate
      rw [haa]
    simp only [this, ne_eq, not_true_eq_false, and_false, if_false]
  unfold validateStudy
  rw [hone, hval]

/-- The row of an item without any profit. -/
def idleRow (p : ℕ × ℕ) : Row ℝ := fun c =>
  if c = "id" then .str (itemText p.1) else if c = "day" then .time (p.2 * (7 * 86400000000000)) else if c = "profit" then .num 0 else .null

/-- Sixty items over five weeks without any profit. -/
def idleRaw : Frame ℝ where
  cols := ["id", "day", "profit"]
  rows := (List.range 60 ×ˢ List.range 5).map idleRow

theorem idle_mem {r : Row ℝ} (h : r ∈ idleRaw.rows) : ∃ i w, i < 60 ∧ w < 5 ∧ r = idleRow (i, w) := by
  obtain ⟨⟨i, w⟩, hp, rfl⟩ := List.mem_map.mp h
  rw [List.mem_product, List.mem_range, List.mem_range] at hp
  exact ⟨i, w, hp.1, hp.2, rfl⟩

theorem mem_idle {i w : ℕ} (hi : i < 60) (hw : w < 5) : idleRow (i, w) ∈ idleRaw.rows :=
  List.mem_map.mpr ⟨(i, w), List.mem_product.mpr ⟨List.mem_range.mpr hi, List.mem_range.mpr hw⟩, rfl⟩

theorem idle_usable : Spec.UsableRaw studyExt idleRaw "id" "day" "other" "profit" 0 7 5 studyTime (studyValue "profit") := by
  refine ⟨by decide, fun _ hc => absurd hc (by decide), ?_, ?_, ?_, ?_, ?_, ?_⟩
  · simp [idleRaw]
  · exact ⟨by decide, by decide, by decide⟩
  · intro r hr
    obtain ⟨i, w, -, -, rfl⟩ := idle_mem hr
    rfl
  · intro r hr
    obtain ⟨i, w, -, -, rfl⟩ := idle_mem hr
    unfold studyValue
    rw [show idleRow (i, w) "profit" = .num 0 from rfl]
    rfl
  · intro t
    constructor
    · rintro ⟨r, hr, rfl⟩
      obtain ⟨i, w, -, hw, rfl⟩ := idle_mem hr
      exact ⟨w, by omega, by omega, by change (w : ℤ) * (7 * 86400000000000) = _; omega⟩
    · rintro ⟨k, h0, hk, rfl⟩
      obtain ⟨n, rfl⟩ := Int.eq_ofNat_of_zero_le h0
      refine ⟨_, mem_idle (i := 0) (w := n) (by norm_num) (by omega), ?_⟩
      change (n : ℤ) * (7 * 86400000000000) = _
      omega
  · refine Or.inr ⟨rfl, by norm_num, ?_⟩
    show List.Pairwise _ (List.map _ _)
    rw [List.pairwise_map]
    refine (List.Nodup.product List.nodup_range List.nodup_range).imp ?_
    rintro ⟨i, w⟩ ⟨i', w'⟩ hne ⟨e1, e2⟩
    apply hne
    have e1 : itemText i = itemText i' := e1
    have e2 : (w : ℤ) * (7 * 86400000000000) = (w' : ℤ) * (7 * 86400000000000) := e2
    rw [itemText_inj e1, show w = w' by omega]

theorem idle_items : (idleRaw.rows.map (fun q => studyExt.toStr (q "id"))).toFinset = (Finset.range 60).image itemText := by
  ext x
  rw [List.mem_toFinset, List.mem_map, Finset.mem_image]
  constructor
  · rintro ⟨r, hr, rfl⟩
    obtain ⟨i, w, hi, -, rfl⟩ := idle_mem hr
    exact ⟨i, Finset.mem_range.mpr hi, rfl⟩
  · rintro ⟨i, hi, rfl⟩
    exact ⟨_, mem_idle (w := 0) (Finset.mem_range.mp hi) (by norm_num), rfl⟩

/-- The hypotheses of `C118_zero_metric_false` are met: history of sixty items without any profit is accepted, and then some validation raises. -/
theorem C118_idle_items_false (V : StudyEnv) (hV : V.ext = studyExt) (ha : ArgsortOk V.argsort) :
    ∃ data s, openStudy V (oneForm false) idleRaw = .ok (data, s) ∧ ∃ e ∈ s, ∃ draw, Spec.ValidDraw V.R e.2.1 draw ∧
      (validateStudy V false [(e.1, [draw])] s).1 = .error .zeroDivision := by
  have hc : (idleRaw.rows.map (fun q => studyExt.toStr (q "id"))).toFinset.card = 60 := by
    rw [idle_items, Finset.card_image_of_injective _ (fun _ _ => itemText_inj), Finset.card_range]
  have hv0 : ∀ r ∈ idleRaw.rows, studyValue "profit" r = 0 := by
    intro r hr
    obtain ⟨i, w, -, -, rfl⟩ := idle_mem hr
    rfl
  obtain ⟨data, hdata, -, hw, hi, -, hval⟩ := C96_accepted V.R V.rng studyExt V.sorter idleRaw "id" "day" "other" "profit" 1 0 7 5 studyTime
    (studyValue "profit") idle_usable (by norm_num) le_rfl (by rw [hc]; norm_num) (by rw [hc]; norm_num) [] (by simp)
    (Or.inr (fun r hr => (hv0 r hr).ge))
  have hw5 : Spec.completeWeeks 7 5 = 5 := by decide
  rw [hw5] at hw
  have hn : nunique (data.col "item_id") = 60 := by
    rw [nunique_eq]
    have : (data.col "item_id").toFinset = (Finset.range 60).image (fun i => (.str (itemText i) : Cell ℝ)) := by
      ext x
      rw [List.mem_toFinset, hi rfl, Finset.mem_image]
      constructor
      · rintro ⟨r, hr, rfl⟩
        obtain ⟨i, w, hi, -, rfl⟩ := idle_mem hr
        exact ⟨i, Finset.mem_range.mpr hi, rfl⟩
      · rintro ⟨i, hi, rfl⟩
        exact ⟨_, mem_idle (w := 0) (Finset.mem_range.mp hi) (by norm_num), rfl⟩
    rw [this, Finset.erase_eq_of_notMem (by simp), Finset.card_image_of_injective _ (fun a b e => itemText_inj (by simpa using e)), Finset.card_range]
  have hz : Spec.ZeroMetric "profit" data := by
    intro r hr
    obtain ⟨w, item, -, -, -, e4⟩ := hval r hr
    refine e4.trans ?_
    unfold Spec.weekTotal
    rw [List.sum_eq_zero]
    intro x hx
    obtain ⟨q, hq, rfl⟩ := List.mem_map.mp hx
    exact hv0 q (List.mem_filter.mp hq).1
  obtain ⟨s, h, hne, hall⟩ := oneForm_opened_of false V ha (by rw [hV]; exact hdata) ⟨⟨(hw 0).mpr (by omega), fun w h => ((hw w).mp h).1⟩,
    ⟨(hw 4).mpr (by omega), fun w h => by have := (hw w).mp h; omega⟩⟩ hn
  obtain ⟨e, he⟩ := List.exists_mem_of_ne_nil _ hne
  obtain ⟨hx, hst, hnb, hna, -, -, hpt, -, hq⟩ := hall e he
  have hdraw : Spec.ValidDraw V.R e.2.1 ⟨0, List.range 60, noShuffle, (List.range 60).map (fun i => decide (i % 2 = 0))⟩ := by
    refine ⟨⟨hst, ⟨by rw [hnb]; simp, fun p hp => by rw [hnb]; have := List.mem_range.mp hp; exact_mod_cast this⟩, by rw [hna]; simp⟩, ?_⟩
    intro _ b
    have hr0 : V.R.rnd 0 = 0 := by simpa using V.R.intFix 0 (by norm_num)
    have hcount : ((List.range 60).map (fun i => decide (i % 2 = 0))).count b = 30 := by cases b <;> decide +kernel
    simp only [hcount, hq, zero_mul, hr0, Int.floor_zero]
    norm_num
  refine ⟨data, s, h, e, he, _, hdraw, C118_zero_metric_false V ha (oneForm false) idleRaw data s h rfl (by show "profit" ≠ "time_period"; decide) ?_
    (by rw [hn]; norm_num) hz e he hx hpt _ (by simp) (by
      intro r hr
      rw [List.mem_singleton] at hr
      rw [hr]
      exact hdraw) []⟩
  show Spec.SimulationNames "profit" "item_id" "treatment"
  refine ⟨⟨by decide, ?_, by unfold Spec.NoOuterScore; decide⟩, by unfold Spec.NoOuterScore; decide, by decide, by decide, by decide⟩
  rintro ⟨a, b, h⟩
  have : ('_' : Char) ∈ "profit".toList := by rw [h]; simp
  revert this
  decide

end Feedx
