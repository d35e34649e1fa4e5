import Verif.Model.Plotting
import Verif.Props.TimePeriod
import Verif.Props.Weeks

/-!
Properties C12 and C89: the dates drawn on the time plot.
-/

set_option linter.unusedSectionVars false

namespace Feedx

variable {K : Type} [Field K] [LinearOrder K] [IsStrictOrderedRing K] [FloorRing K]

theorem mem_right_of_forall₂ {α β : Type} {P : α → β → Prop} {l : List α} {l' : List β} (h : List.Forall₂ P l l') {b : β} (hb : b ∈ l') :
    ∃ a ∈ l, P a b := by
  induction h with
  | nil => simp at hb
  | cons h _ ih =>
    rcases List.mem_cons.mp hb with rfl | hb
    · exact ⟨_, by simp, h⟩
    · obtain ⟨a, ha, h'⟩ := ih hb
      exact ⟨a, by simp [ha], h'⟩

theorem mem_left_of_forall₂ {α β : Type} {P : α → β → Prop} {l : List α} {l' : List β} (h : List.Forall₂ P l l') {a : α} (ha : a ∈ l) :
    ∃ b ∈ l', P a b := mem_right_of_forall₂ (P := fun b a => P a b) h.flip ha

/-- **C12.**  The drawn start is the first date among the rows labelled as test (or first washout); the other dates are counted from it in whole
weeks. -/
theorem C12_start_is_first_labelled_date (d : DesignParams K) (f : Frame K) (P : PlotDates) (h : plotDates d f = .ok P) :
    IsLeast {t | ∃ r ∈ f.rows, r "date" = .time t ∧
      (r "time_period" = .str "test" ∨ r "time_period" = .str "test_1" ∨ r "time_period" = .str "washout_1")} P.start ∧
    P.pretestStart = P.start - 7 * d.pretest * Spec.day ∧ P.stop = P.start + 7 * d.runtime * Spec.day ∧
    (d.isCrossover = false → P.washouts = [] ∧ P.crossover = none) := by
  unfold plotDates at h
  obtain ⟨-, h⟩ := raiseIf_bind_ok.mp h
  obtain ⟨-, h⟩ := raiseIf_bind_ok.mp h
  obtain ⟨-, h⟩ := raiseIf_bind_ok.mp h
  have hset : {t | Cell.time t ∈ (f.rows.filter (fun r => decide (r "time_period" ∈
      [Cell.str "test", Cell.str "test_1", Cell.str "washout_1"]))).map (fun r => r "date")} = {t | ∃ r ∈ f.rows, r "date" = .time t ∧
      (r "time_period" = .str "test" ∨ r "time_period" = .str "test_1" ∨ r "time_period" = .str "washout_1")} := by
    ext t
    simp only [Set.mem_ofPred_eq, List.mem_map, List.mem_filter, decide_eq_true_eq, List.mem_cons, List.not_mem_nil, or_false]
    constructor
    · rintro ⟨r, ⟨h1, h2⟩, h3⟩; exact ⟨r, h1, h3, h2⟩
    · rintro ⟨r, h1, h3, h2⟩; exact ⟨r, ⟨h1, h2⟩, h3⟩
  split at h
  · cases h
  · rename_i start hmin
    have hl := minTime_some hmin
    rw [hset] at hl
    have hd : Spec.day = dayNs := rfl
    split at h
    · split at h
      · cases h
      · cases h
        refine ⟨hl, ?_, ?_, ?_⟩
        · show start - weeksNs _ = _; unfold weeksNs; rw [hd]; ring
        · show start + weeksNs _ = _; unfold weeksNs; rw [hd]; ring
        · intro hc; simp_all
    · cases h
      refine ⟨hl, ?_, ?_, fun _ => ⟨rfl, rfl⟩⟩
      · show start - weeksNs _ = _; unfold weeksNs; rw [hd]; ring
      · show start + weeksNs _ = _; unfold weeksNs; rw [hd]; ring

/-- **C12.**  Daily or weekly data with a row on the first day of the experiment, with weeks counted from that day and labelled for a created
design.  The plot is drawn from the first pretest day to the last test day; a row is labelled `pretest` exactly if its date is before the drawn
start, and for a crossover the two shaded spans are exactly the dates labelled as washout, with the test dates between and after them and
the crossover line at the beginning of the second washout. -/
theorem C12_drawn_dates_match_labels (E : Ext K) (R : Rounding K) (p : DesignParams K) (d : Design K) (h : mkDesign R p = .ok d)
    (f g out : Frame K) (text weekCol startCol : String) (start : ℤ) (hstart : E.strptime text = some start)
    (h1 : weekCol ≠ "date") (h2 : startCol ≠ "date") (h3 : weekCol ≠ startCol)
    (hweeks : addWeeks E f "date" (some text) weekCol startCol = .ok g)
    (hlabel : addTimePeriodColumn d.toDesignParams 0 weekCol "time_period" g = .ok out)
    (hfirst : ∃ r ∈ f.rows, r "date" = .time start) :
    ∃ P, plotDates d.toDesignParams out = .ok P ∧ P.start = start ∧
      ∀ r ∈ out.rows, ∃ t, r "date" = .time t ∧
        (r "time_period" = .str "pretest" ↔ P.pretestStart ≤ t ∧ t < P.start) ∧
        (r "time_period" = .null ↔ t < P.pretestStart ∨ P.stop ≤ t) ∧
        (d.isCrossover = false → P.washouts = [] ∧ P.crossover = none ∧ (r "time_period" = .str "test" ↔ P.start ≤ t ∧ t < P.stop)) ∧
        (d.isCrossover = true → ∃ a c b, P.washouts = [(P.start, a), (c, b)] ∧ P.crossover = some c ∧
          (r "time_period" = .str "washout_1" ↔ P.start ≤ t ∧ t < a) ∧
          (r "time_period" = .str "test_1" ↔ a ≤ t ∧ t < c) ∧
          (r "time_period" = .str "washout_2" ↔ c ≤ t ∧ t < b) ∧
          (r "time_period" = .str "test_2" ↔ b ≤ t ∧ t < P.stop)) := by
  obtain ⟨r0, hr0, hd0⟩ := hfirst
  obtain ⟨start', hs', -, hgc, hF⟩ := C45_weeks_follow_calendar E f g "date" weekCol startCol (some text) h1 h2 h3
    (List.ne_nil_of_mem hr0) hweeks
  have : start' = start := by have := hs' text rfl; rw [hstart] at this; exact (Option.some.inj this).symm
  subst this
  obtain ⟨hoc, hL⟩ := labelled_frame h hlabel
  have hday : Spec.day = 86400000000000 := rfl
  -- every row: its date, its week and its label
  have hrow : ∀ r ∈ out.rows, ∃ t w : ℤ, r "date" = .time t ∧ start' + 7 * w * Spec.day ≤ t ∧ t < start' + 7 * (w + 1) * Spec.day ∧
      (∀ label, r "time_period" = .str label ↔ Spec.InPeriod d.toDesignParams 0 label w) ∧
      (r "time_period" = .null ↔ ∀ label, ¬ Spec.InPeriod d.toDesignParams 0 label w) := by
    intro r hr
    obtain ⟨r', hr', ha, -, hb⟩ := mem_right_of_forall₂ hL hr
    obtain ⟨q, hq, t, w, s, e1, e2, e3, e4, e5, e6, e7⟩ := mem_right_of_forall₂ hF hr'
    refine ⟨t, w, ?_, by omega, by rw [hday] at *; omega, hb w e2⟩
    rw [ha "date" (by decide), e7 "date" (Ne.symm h1) (Ne.symm h2), e1]
  -- the first day
  obtain ⟨r1, hr1, hd1⟩ : ∃ r ∈ out.rows, r "date" = .time start' := by
    obtain ⟨q, hq, t, w, s, e1, e2, e3, e4, e5, e6, e7⟩ := mem_left_of_forall₂ hF hr0
    obtain ⟨q', hq', ha, -⟩ := mem_left_of_forall₂ hL hq
    exact ⟨q', hq', by rw [ha "date" (by decide), e7 "date" (Ne.symm h1) (Ne.symm h2), hd0]⟩
  obtain ⟨hpre, hrun⟩ := created_pretest h
  have hcols : "time_period" ∈ out.cols ∧ "date" ∈ out.cols := by
    refine ⟨by rw [hoc]; simp, ?_⟩
    rw [hoc, List.mem_append]
    refine Or.inl ((hgc "date").mpr (Or.inl ?_))
    by_contra hc
    unfold addWeeks at hweeks
    exact (raiseIf_bind_ok.mp hweeks).1 hc
  -- labels of the first half
  have hhalf : ∀ w, (Spec.InPeriod d.toDesignParams 0 "test" w ∨ Spec.InPeriod d.toDesignParams 0 "test_1" w ∨
      Spec.InPeriod d.toDesignParams 0 "washout_1" w) → 0 ≤ w := by
    intro w hw
    unfold Spec.InPeriod Spec.timeline at hw
    by_cases hc : d.isCrossover = true
    · obtain ⟨wo, w1, w2, w3, w4⟩ := created_crossover h hc
      have w1' : d.toDesignParams.washout = some wo := w1
      rw [if_pos hc] at hw
      simp [Spec.crossoverTimeline, w1'] at hw
      omega
    · rw [if_neg hc] at hw
      simp [Spec.regularTimeline] at hw
      omega
  have hzero : Spec.InPeriod d.toDesignParams 0 "test" 0 ∨ Spec.InPeriod d.toDesignParams 0 "test_1" 0 ∨
      Spec.InPeriod d.toDesignParams 0 "washout_1" 0 := by
    unfold Spec.InPeriod Spec.timeline
    by_cases hc : d.isCrossover = true
    · obtain ⟨wo, w1, w2, w3, w4⟩ := created_crossover h hc
      have w1' : d.toDesignParams.washout = some wo := w1
      rw [Int.even_iff] at w4
      rw [if_pos hc]
      simp [Spec.crossoverTimeline, w1']
      omega
    · rw [if_neg hc]
      simp [Spec.regularTimeline]
      omega
  set first := out.rows.filter (fun r => decide (r "time_period" ∈ [Cell.str "test", Cell.str "test_1", Cell.str "washout_1"])) with hfirst
  have hmem : ∀ r, r ∈ first ↔ r ∈ out.rows ∧ (r "time_period" = .str "test" ∨ r "time_period" = .str "test_1" ∨ r "time_period" = .str "washout_1") := by
    intro r
    rw [hfirst, List.mem_filter]
    simp
  have hr1' : r1 ∈ first := by
    obtain ⟨t, w, e1, e2, e3, e4, -⟩ := hrow r1 hr1
    rw [hd1] at e1
    cases e1
    have : w = 0 := by rw [hday] at e2 e3; omega
    subst this
    rw [hmem]
    refine ⟨hr1, ?_⟩
    rw [e4, e4, e4]
    exact hzero
  have htime : isTimeColumn (first.map (fun r => r "date")) = true := by
    rw [isTimeColumn_iff]
    intro c hc
    obtain ⟨r, hr, rfl⟩ := List.mem_map.mp hc
    obtain ⟨t, w, e1, -⟩ := hrow r ((hmem r).mp hr).1
    exact Or.inr ⟨t, e1⟩
  have hmin : minTime (first.map (fun r => r "date")) = some start' := by
    rcases hm : minTime (first.map (fun r => r "date")) with _ | t
    · exact absurd (List.mem_map.mpr ⟨r1, hr1', hd1⟩) (minTime_none hm start')
    · have hl := minTime_some hm
      have hle : t ≤ start' := hl.2 (show Cell.time start' ∈ _ from List.mem_map.mpr ⟨r1, hr1', hd1⟩)
      obtain ⟨r, hr, hrt⟩ := List.mem_map.mp hl.1
      obtain ⟨hr, hlab⟩ := (hmem r).mp hr
      obtain ⟨t', w, e1, e2, e3, e4, -⟩ := hrow r hr
      rw [hrt] at e1
      cases e1
      rw [e4, e4, e4] at hlab
      have hw := hhalf w hlab
      rw [hday] at e2
      have : t = start' := by omega
      rw [hm, this]
  have hbase : ∀ X : Py PlotDates, (if d.isCrossover = true then
      match d.toDesignParams.washout with
      | none => .error .typeError
      | some washout => .ok (⟨start' - weeksNs d.pretest, start', start' + weeksNs d.runtime,
          [(start', start' + weeksNs washout), (start' + weeksNs washout + weeksNs (testPeriodWeeks d.runtime washout),
            start' + weeksNs washout + weeksNs (testPeriodWeeks d.runtime washout) + weeksNs washout)],
          some (start' + weeksNs washout + weeksNs (testPeriodWeeks d.runtime washout))⟩ : PlotDates)
      else .ok ⟨start' - weeksNs d.pretest, start', start' + weeksNs d.runtime, [], none⟩) = X → plotDates d.toDesignParams out = X := by
    rintro X rfl
    unfold plotDates
    rw [show raiseIf PyErr.keyError ("time_period" ∉ out.cols) = .ok () from raiseIf_ok.mpr (not_not.mpr hcols.1),
      show raiseIf PyErr.keyError ("date" ∉ out.cols) = .ok () from raiseIf_ok.mpr (not_not.mpr hcols.2)]
    simp only [← hfirst, htime, hmin]
    rfl
  by_cases hc : d.isCrossover = true
  · obtain ⟨wo, w1, w2, w3, w4⟩ := created_crossover h hc
    have w1' : d.toDesignParams.washout = some wo := w1
    rw [Int.even_iff] at w4
    have htp : wo + testPeriodWeeks d.runtime wo = d.runtime / 2 := by unfold testPeriodWeeks; omega
    refine ⟨_, hbase _ (by rw [if_pos hc, w1']), rfl, fun r hr => ?_⟩
    obtain ⟨t, w, e1, e2, e3, e4, e5⟩ := hrow r hr
    have e5' : r "time_period" = .null ↔ w < -d.pretest ∨ d.runtime ≤ w := by
      rw [e5]
      unfold Spec.InPeriod Spec.timeline
      rw [if_pos hc, w1']
      simp only [Spec.crossoverTimeline, Option.getD_some, List.mem_cons, List.not_mem_nil, or_false, Prod.mk.injEq]
      constructor
      · intro hn
        by_contra hcon
        push Not at hcon
        have := hn "pretest"
        have := hn "washout_1"
        have := hn "test_1"
        have := hn "washout_2"
        have := hn "test_2"
        simp at *
        omega
      · rintro hor label ⟨lo, hi, hmem, hlo, hhi⟩
        rcases hmem with ⟨-, rfl, rfl⟩ | ⟨-, rfl, rfl⟩ | ⟨-, rfl, rfl⟩ | ⟨-, rfl, rfl⟩ | ⟨-, rfl, rfl⟩ <;> omega
    have key : ∀ lo, w < lo ↔ t < start' + weeksNs lo := fun lo => by
      have : weeksNs lo = 7 * lo * 86400000000000 := by unfold weeksNs dayNs; ring
      rw [this]
      rw [hday] at e2 e3
      omega
    have split : ∀ a b, weeksNs a + weeksNs b = weeksNs (a + b) := fun a b => by unfold weeksNs; ring
    have neg : start' - weeksNs d.pretest = start' + weeksNs (-d.pretest) := by unfold weeksNs; ring
    have zero : start' = start' + weeksNs 0 := by simp [weeksNs]
    have hin : ∀ label, r "time_period" = .str label ↔ Spec.InPeriod d.toDesignParams 0 label w := e4
    unfold Spec.InPeriod Spec.timeline at hin
    rw [if_pos hc, w1'] at hin
    simp only [Spec.crossoverTimeline, Option.getD_some, List.mem_cons, List.not_mem_nil, or_false, Prod.mk.injEq] at hin
    have kz := key 0
    simp only [weeksNs, zero_mul, add_zero] at kz
    have s1 : start' + weeksNs wo + weeksNs (testPeriodWeeks d.runtime wo) = start' + weeksNs (d.runtime / 2) := by
      rw [add_assoc, split, htp]
    have s2 : start' + weeksNs (d.runtime / 2) + weeksNs wo = start' + weeksNs (d.runtime / 2 + wo) := by rw [add_assoc, split]
    refine ⟨t, e1, ?_, ?_, fun hf => by simp [hc] at hf, fun _ => ⟨_, _, _, rfl, rfl, ?_, ?_, ?_, ?_⟩⟩
    · rw [hin]
      show _ ↔ start' - weeksNs d.pretest ≤ t ∧ t < start'
      rw [neg, ← not_lt, ← key, ← kz]
      simp
    · rw [e5']
      show _ ↔ t < start' - weeksNs d.pretest ∨ start' + weeksNs d.runtime ≤ t
      rw [neg, ← not_lt (a := t), ← key, ← key]
      omega
    · rw [hin]
      show _ ↔ start' ≤ t ∧ t < start' + weeksNs wo
      rw [← not_lt, ← key, ← kz]
      simp
    · rw [hin]
      show _ ↔ start' + weeksNs wo ≤ t ∧ t < _
      rw [s1, ← not_lt, ← key, ← key]
      simp
    · rw [hin]
      show _ ↔ _ ≤ t ∧ t < _
      rw [s1, s2, ← not_lt, ← key, ← key]
      simp
    · rw [hin]
      show _ ↔ _ ≤ t ∧ t < start' + weeksNs d.runtime
      rw [s1, s2, ← not_lt, ← key, ← key]
      simp
  · have hc' : d.isCrossover = false := by simpa using hc
    refine ⟨_, hbase _ (by rw [if_neg hc]), rfl, fun r hr => ?_⟩
    obtain ⟨t, w, e1, e2, e3, e4, e5⟩ := hrow r hr
    have key : ∀ lo, w < lo ↔ t < start' + weeksNs lo := fun lo => by
      have : weeksNs lo = 7 * lo * 86400000000000 := by unfold weeksNs dayNs; ring
      rw [this]
      rw [hday] at e2 e3
      omega
    have neg : start' - weeksNs d.pretest = start' + weeksNs (-d.pretest) := by unfold weeksNs; ring
    have kz := key 0
    simp only [weeksNs, zero_mul, add_zero] at kz
    unfold Spec.InPeriod Spec.timeline at e4 e5
    rw [if_neg hc] at e4 e5
    simp only [Spec.regularTimeline, List.mem_cons, List.not_mem_nil, or_false, Prod.mk.injEq] at e4 e5
    refine ⟨t, e1, ?_, ?_, fun _ => ⟨rfl, rfl, ?_⟩, fun hf => absurd hf hc⟩
    · rw [e4]
      show _ ↔ start' - weeksNs d.pretest ≤ t ∧ t < start'
      rw [neg, ← not_lt, ← key, ← kz]
      simp
    · rw [e5]
      show _ ↔ t < start' - weeksNs d.pretest ∨ start' + weeksNs d.runtime ≤ t
      rw [neg, ← not_lt (a := t), ← key, ← key]
      constructor
      · intro hn
        by_contra hcon
        push Not at hcon
        have := hn "pretest"
        have := hn "test"
        simp at *
        omega
      · rintro hor label ⟨lo, hi, hmem, hlo, hhi⟩
        rcases hmem with ⟨-, rfl, rfl⟩ | ⟨-, rfl, rfl⟩ <;> omega
    · rw [e4]
      show _ ↔ start' ≤ t ∧ t < start' + weeksNs d.runtime
      rw [← not_lt, ← key, ← kz]
      simp

/-- **C89, full statement.**  The drawn dates depend on the named columns only: renaming the period and date columns, and naming them so in the
call, draws the same dates. -/
def C89_full (K : Type) [LinearOrder K] : Prop := ∀ (periodCol dateCol : String) (d : DesignParams K) (f g : Frame K),
  "time_period" ∈ f.cols → "date" ∈ f.cols → periodCol ∈ g.cols → dateCol ∈ g.cols →
  List.Forall₂ (fun r r' => r' periodCol = r "time_period" ∧ r' dateCol = r "date") f.rows g.rows →
  plotDatesOf periodCol dateCol d g = plotDatesOf "time_period" "date" d f

/-- **C89: the code violates it.**  The names given in the call are ignored: the period and date are read from the columns `time_period` and
`date`, and data without such columns raises `KeyError`, whatever names are given. -/
theorem C89_column_names_false : ¬ C89_full K ∧
    (∀ (periodCol dateCol : String) (d : DesignParams K) (f : Frame K), "time_period" ∉ f.cols ∨ "date" ∉ f.cols →
      plotDatesOf periodCol dateCol d f = .error .keyError) := by
  have herr : ∀ (periodCol dateCol : String) (d : DesignParams K) (f : Frame K), "time_period" ∉ f.cols ∨ "date" ∉ f.cols →
      plotDatesOf periodCol dateCol d f = .error .keyError := by
    intro periodCol dateCol d f h
    unfold plotDatesOf plotDates raiseIf
    by_cases h1 : "time_period" ∉ f.cols
    · rw [if_pos h1]; rfl
    · rw [if_neg h1, if_pos (h.resolve_left h1)]; rfl
  refine ⟨fun hf => ?_, herr⟩
  have := hf "period" "day" ⟨10, 4, "clicks", 4, false, .int 0, .int 0, .int 0, none, .int 0, .int 0, none⟩
    ⟨["time_period", "date"], [fun c => if c = "date" then .time 0 else .str "test"]⟩
    ⟨["period", "day"], [fun c => if c = "day" then .time 0 else .str "test"]⟩ (by simp) (by simp) (by simp) (by simp) (by simp)
  rw [herr _ _ _ _ (Or.inl (by simp))] at this
  have h2 : plotDatesOf "time_period" "date" (⟨10, 4, "clicks", 4, false, .int 0, .int 0, .int 0, none, .int 0, .int 0, none⟩ : DesignParams K)
    ⟨["time_period", "date"], [fun c => if c = "date" then .time 0 else .str "test"]⟩ ≠ .error .keyError := by
    simp [plotDatesOf, plotDates, raiseIf, isTimeColumn, minTime, times, Bind.bind, Except.bind, Pure.pure, Except.pure]
  exact h2 this.symm

/-- Fourteen weekly rows of one item, the fifth of them on 2024-01-03 (day 2 of the example calendar). -/
def plottedWeeks : Frame ℚ where
  cols := ["item_id", "date"]
  rows := (List.range 14).map (fun i : ℕ => fun c => if c = "date" then .time ((2 + 7 * ((i : ℤ) - 4)) * Spec.day) else
    if c = "item_id" then .str "a" else .null)

/-- C12 is not vacuous: the fourteen weeks labelled by the example crossover design (runtime 8, washout 2, pretest 4), with the drawn dates. -/
example : (∃ d : Design ℚ, mkDesign (Rounding.exact ℚ) exampleCrossover = .ok d ∧ d.toDesignParams = exampleCrossover) ∧
    exampleExt.strptime "2024-01-03" = some (2 * Spec.day) ∧
    (∃ r ∈ plottedWeeks.rows, r "date" = .time (2 * Spec.day)) ∧
    (addWeeks exampleExt plottedWeeks "date" (some "2024-01-03") "week_id" "week_start" >>= fun g =>
      addTimePeriodColumn exampleCrossover 0 "week_id" "time_period" g >>= fun out =>
      (plotDates exampleCrossover out).map (fun P => (out.col "time_period", P))) =
    .ok ([.str "pretest", .str "pretest", .str "pretest", .str "pretest", .str "washout_1", .str "washout_1", .str "test_1", .str "test_1",
        .str "washout_2", .str "washout_2", .str "test_2", .str "test_2", .null, .null],
      ⟨-26 * Spec.day, 2 * Spec.day, 58 * Spec.day, [(2 * Spec.day, 16 * Spec.day), (30 * Spec.day, 44 * Spec.day)],
        some (30 * Spec.day)⟩) := by
  refine ⟨⟨⟨exampleCrossover, 970, 952⟩, by decide +kernel, rfl⟩, by decide +kernel, by decide +kernel, by decide +kernel⟩

end Feedx
