import Verif.Proofs.TimePeriod
import Verif.Props.Design
import Mathlib.Order.Interval.Set.Basic
import Mathlib.Data.Set.Card
import Mathlib.Data.Int.Interval

/-!
Properties C08-C11: the experiment calendar.
-/

set_option linter.unusedSectionVars false
set_option linter.unusedSimpArgs false
set_option linter.unnecessarySeqFocus false

namespace Feedx

variable {K : Type} [Field K] [LinearOrder K] [IsStrictOrderedRing K] [FloorRing K]

/-- Labelling a frame: when it returns, exactly the period column is added, all other cells are kept,
and each row with an integer week id gets the period of the calendar its week lies in.  (Core of C09
and C10, for both kinds of design.) -/
theorem labelled_frame {R : Rounding K} {p : DesignParams K} {d : Design K}
    (h : mkDesign R p = .ok d) {start : ℤ} {weekCol periodCol : String} {f g : Frame K}
    (hadd : addTimePeriodColumn d.toDesignParams start weekCol periodCol f = .ok g) :
    g.cols = f.cols ++ [periodCol] ∧
      List.Forall₂ (fun r r' : Row K => (∀ c, c ≠ periodCol → r' c = r c) ∧
        (r weekCol = .null → r' periodCol = .null) ∧
        ∀ w : ℤ, r weekCol = .int w →
          (∀ label, r' periodCol = .str label ↔ Spec.InPeriod d.toDesignParams start label w) ∧
          (r' periodCol = .null ↔ ∀ label, ¬ Spec.InPeriod d.toDesignParams start label w))
        f.rows g.rows := by
  unfold addTimePeriodColumn labelRows at hadd
  simp only [raiseIf_bind_ok] at hadd
  obtain ⟨h1, h2, h3, h4, h5⟩ := hadd
  cases h5
  refine ⟨by simp [Frame.setCol, h1], ?_⟩
  simp only [Frame.setCol, List.forall₂_map_right_iff, List.forall₂_same]
  intro r _
  refine ⟨fun c hc => by simp [Function.update_of_ne hc], ?_, ?_⟩
  · intro hr
    simp only [Function.update_self, hr, Cell.toFl]
    have : designLabel d.toDesignParams start (.nan : Fl K) = .ok none ∨
        ∃ e, designLabel d.toDesignParams start (.nan : Fl K) = .error e := by
      unfold designLabel
      by_cases hc : d.isCrossover = true
      · rw [if_pos hc]
        cases d.washout with
        | none => right; exact ⟨_, rfl⟩
        | some w => left; rfl
      · rw [if_neg hc]; left; rfl
    rcases this with e | ⟨_, e⟩ <;> rw [e] <;> rfl
  · intro w hw
    simp only [Function.update_self, hw, Cell.toFl]
    obtain ⟨l, hl⟩ := designLabel_returns h start (.fin (w : K))
    rw [hl]
    constructor
    · intro label
      rw [← designLabel_iff h, hl]
      cases l <;> simp [labelCell]
    · constructor
      · intro hn label
        rw [← designLabel_iff h, hl]
        cases l
        · simp
        · simp [labelCell] at hn
      · intro hall
        cases l with
        | none => rfl
        | some s =>
          refine absurd ?_ (hall s)
          rw [← designLabel_iff h, hl]

/-- **C09.**  Regular experiment: after `add_time_period_column`, only the period column was added;
a row is labelled `pretest` iff its week is one of the `pretest_weeks` weeks before the start, `test`
iff it is one of the `runtime_weeks` weeks from the start on, and unlabelled otherwise. -/
theorem C09_regular_labels (R : Rounding K) (p : DesignParams K) (d : Design K)
    (h : mkDesign R p = .ok d) (hreg : d.isCrossover = false) (start : ℤ)
    (weekCol periodCol : String) (f g : Frame K)
    (hadd : addTimePeriodColumn d.toDesignParams start weekCol periodCol f = .ok g) :
    g.cols = f.cols ++ [periodCol] ∧
      List.Forall₂ (fun r r' : Row K => (∀ c, c ≠ periodCol → r' c = r c) ∧
        ∀ w : ℤ, r weekCol = .int w →
          (r' periodCol = .str "pretest" ↔ start - d.pretest ≤ w ∧ w < start) ∧
          (r' periodCol = .str "test" ↔ start ≤ w ∧ w < start + d.runtime) ∧
          (r' periodCol = .null ↔ w < start - d.pretest ∨ start + d.runtime ≤ w))
        f.rows g.rows := by
  obtain ⟨hc, hf⟩ := labelled_frame h hadd
  refine ⟨hc, hf.imp ?_⟩
  rintro r r' ⟨a, -, b⟩
  refine ⟨a, fun w hw => ?_⟩
  obtain ⟨b1, b2⟩ := b w hw
  have hpt := created_pretest h
  simp only [Spec.InPeriod, Spec.timeline, hreg, Bool.false_eq_true, if_false,
    Spec.regularTimeline, List.mem_cons, List.not_mem_nil, or_false, Prod.mk.injEq] at b1 b2
  refine ⟨?_, ?_, ?_⟩
  · rw [b1]
    constructor
    · rintro ⟨lo, hi, (⟨_, rfl, rfl⟩ | ⟨h, _⟩), h1, h2⟩
      · exact ⟨h1, h2⟩
      · simp at h
    · rintro ⟨h1, h2⟩; exact ⟨_, _, .inl ⟨rfl, rfl, rfl⟩, h1, h2⟩
  · rw [b1]
    constructor
    · rintro ⟨lo, hi, (⟨h, _⟩ | ⟨_, rfl, rfl⟩), h1, h2⟩
      · simp at h
      · exact ⟨h1, h2⟩
    · rintro ⟨h1, h2⟩; exact ⟨_, _, .inr ⟨rfl, rfl, rfl⟩, h1, h2⟩
  · rw [b2]
    constructor
    · intro hall
      by_contra hcon
      push Not at hcon
      by_cases hw : w < start
      · exact hall "pretest" ⟨_, _, .inl ⟨rfl, rfl, rfl⟩, hcon.1, hw⟩
      · exact hall "test" ⟨_, _, .inr ⟨rfl, rfl, rfl⟩, by omega, hcon.2⟩
    · rintro hw label ⟨lo, hi, (⟨_, rfl, rfl⟩ | ⟨_, rfl, rfl⟩), h1, h2⟩ <;> omega

/-- **C09.**  When `add_time_period_column` returns: the period column must be new, the week column must
exist; otherwise `ValueError`. -/
theorem C09_column_errors (d : DesignParams K) (start : ℤ) (weekCol periodCol : String)
    (f : Frame K) (h : periodCol ∈ f.cols ∨ weekCol ∉ f.cols) :
    addTimePeriodColumn d start weekCol periodCol f = .error .valueError := by
  unfold addTimePeriodColumn raiseIf
  rcases h with h | h
  · simp [h, bind, Except.bind]
  · by_cases h' : periodCol ∈ f.cols <;> simp [h, h', bind, Except.bind]

/-- **C09/C10.**  For every created design, labelling returns whenever the period column is new, the
week column exists and holds numbers or missing values. -/
theorem C09_labelling_returns (R : Rounding K) (p : DesignParams K) (d : Design K)
    (h : mkDesign R p = .ok d) (start : ℤ) (weekCol periodCol : String) (f : Frame K)
    (h1 : periodCol ∉ f.cols) (h2 : weekCol ∈ f.cols)
    (h3 : ∀ r ∈ f.rows, (r weekCol).isNumeric = true) :
    (addTimePeriodColumn d.toDesignParams start weekCol periodCol f).Returns := by
  unfold Py.Returns addTimePeriodColumn labelRows
  simp only [raiseIf_bind_ok]
  refine ⟨_, h1, not_not.mpr h2, ?_, ?_, rfl⟩
  · rintro ⟨hc, hw⟩
    obtain ⟨w, hw', -⟩ := created_crossover h hc
    rw [hw] at hw'; cases hw'
  · simp only [List.any_eq_true, not_exists, not_and, Bool.not_eq_true', Bool.not_eq_false]
    exact h3

/-- **C10.**  Crossover experiment: after `add_time_period_column`, only the period column was added and
every row carries exactly the label of the calendar period its week lies in (none outside). -/
theorem C10_crossover_labels (R : Rounding K) (p : DesignParams K) (d : Design K)
    (h : mkDesign R p = .ok d) (hcross : d.isCrossover = true) (start : ℤ)
    (weekCol periodCol : String) (f g : Frame K)
    (hadd : addTimePeriodColumn d.toDesignParams start weekCol periodCol f = .ok g) :
    ∃ wo, d.washout = some wo ∧ g.cols = f.cols ++ [periodCol] ∧
      List.Forall₂ (fun r r' : Row K => (∀ c, c ≠ periodCol → r' c = r c) ∧
        ∀ w : ℤ, r weekCol = .int w →
          (∀ label, r' periodCol = .str label ↔
            ∃ lo hi, (label, lo, hi) ∈ Spec.crossoverTimeline start d.pretest d.runtime wo ∧
              lo ≤ w ∧ w < hi) ∧
          (r' periodCol = .null ↔ w < start - d.pretest ∨ start + d.runtime ≤ w))
        f.rows g.rows := by
  obtain ⟨wo, h1, h2, h3, h4⟩ := created_crossover h hcross
  obtain ⟨hc, hf⟩ := labelled_frame h hadd
  refine ⟨wo, h1, hc, hf.imp ?_⟩
  rintro r r' ⟨a, -, b⟩
  refine ⟨a, fun w hw => ?_⟩
  obtain ⟨b1, b2⟩ := b w hw
  simp only [Spec.InPeriod, Spec.timeline, hcross, if_true, h1, Option.getD_some] at b1 b2
  refine ⟨b1, b2.trans ?_⟩
  rw [Int.even_iff] at h4
  have hpt := created_pretest h
  constructor
  · intro hall
    by_contra hcon
    push Not at hcon
    simp only [Spec.crossoverTimeline, List.mem_cons, List.not_mem_nil, or_false,
      Prod.mk.injEq] at hall
    have e1 := hall "pretest"
    have e2 := hall "washout_1"
    have e3 := hall "test_1"
    have e4 := hall "washout_2"
    have e5 := hall "test_2"
    have f1 : ¬ (start - d.pretest ≤ w ∧ w < start) := fun hh =>
      e1 ⟨_, _, .inl ⟨rfl, rfl, rfl⟩, hh⟩
    have f2 : ¬ (start ≤ w ∧ w < start + wo) := fun hh =>
      e2 ⟨_, _, .inr (.inl ⟨rfl, rfl, rfl⟩), hh⟩
    have f3 : ¬ (start + wo ≤ w ∧ w < start + d.runtime / 2) := fun hh =>
      e3 ⟨_, _, .inr (.inr (.inl ⟨rfl, rfl, rfl⟩)), hh⟩
    have f4 : ¬ (start + d.runtime / 2 ≤ w ∧ w < start + d.runtime / 2 + wo) := fun hh =>
      e4 ⟨_, _, .inr (.inr (.inr (.inl ⟨rfl, rfl, rfl⟩))), hh⟩
    have f5 : ¬ (start + d.runtime / 2 + wo ≤ w ∧ w < start + d.runtime) := fun hh =>
      e5 ⟨_, _, .inr (.inr (.inr (.inr ⟨rfl, rfl, rfl⟩))), hh⟩
    omega
  · rintro hw label ⟨lo, hi, hmem, hlo, hhi⟩
    simp only [Spec.crossoverTimeline, List.mem_cons, List.not_mem_nil, or_false,
      Prod.mk.injEq] at hmem
    rcases hmem with ⟨-, rfl, rfl⟩ | ⟨-, rfl, rfl⟩ | ⟨-, rfl, rfl⟩ | ⟨-, rfl, rfl⟩ | ⟨-, rfl, rfl⟩ <;>
      omega

/-- **C10.**  The five periods of a created crossover design follow each other without gap or overlap
and cover exactly the pretest weeks and the runtime; the second half begins exactly `runtime / 2`
weeks after the start. -/
theorem C10_crossover_periods_contiguous (R : Rounding K) (p : DesignParams K) (d : Design K)
    (h : mkDesign R p = .ok d) (hcross : d.isCrossover = true) (start : ℤ) :
    ∃ wo, d.washout = some wo ∧
      Spec.Contiguous (start - d.pretest)
        (Spec.crossoverTimeline start d.pretest d.runtime wo) (start + d.runtime) ∧
      d.runtime / 2 + d.runtime / 2 = d.runtime := by
  obtain ⟨wo, h1, h2, h3, h4⟩ := created_crossover h hcross
  have hpt := created_pretest h
  rw [Int.even_iff] at h4
  refine ⟨wo, h1, ?_, by omega⟩
  exact ⟨rfl, by omega, rfl, by omega, rfl, by omega, rfl, by omega, rfl, by omega, rfl⟩

/-- The weeks labelled with a given period form the calendar range. -/
theorem crossover_label_set {start pretest runtime wo : ℤ} (he : Even runtime) (hw : 0 ≤ wo)
    (hr : 2 * wo < runtime) :
    {w : ℤ | crossoverLabel start pretest runtime wo (.fin (w : K)) = some "test_1"} =
      Set.Ico (start + wo) (start + runtime / 2) ∧
    {w : ℤ | crossoverLabel start pretest runtime wo (.fin (w : K)) = some "test_2"} =
      Set.Ico (start + runtime / 2 + wo) (start + runtime) ∧
    {w : ℤ | crossoverLabel start pretest runtime wo (.fin (w : K)) = some "washout_1"} =
      Set.Ico start (start + wo) ∧
    {w : ℤ | crossoverLabel start pretest runtime wo (.fin (w : K)) = some "washout_2"} =
      Set.Ico (start + runtime / 2) (start + runtime / 2 + wo) := by
  refine ⟨?_, ?_, ?_, ?_⟩ <;>
  · ext w
    simp only [Set.mem_ofPred_eq, crossoverLabel_eq _ he hw hr, Set.mem_Ico, String.reduceEq,
      false_and, true_and, false_or, or_false]

/-- **C11.**  For every created crossover design, both test periods contain exactly
`runtime / 2 - washout ≥ 1` weeks and both washouts exactly `washout` weeks. -/
theorem C11_crossover_period_lengths (R : Rounding K) (p : DesignParams K) (d : Design K)
    (h : mkDesign R p = .ok d) (hcross : d.isCrossover = true) (start : ℤ) :
    ∃ wo, d.washout = some wo ∧ 1 ≤ d.runtime / 2 - wo ∧
      (∀ label ∈ ["test_1", "test_2"],
        (({w : ℤ | designLabel d.toDesignParams start (.fin (w : K)) = .ok (some label)}.ncard : ℤ))
          = d.runtime / 2 - wo) ∧
      (∀ label ∈ ["washout_1", "washout_2"],
        (({w : ℤ | designLabel d.toDesignParams start (.fin (w : K)) = .ok (some label)}.ncard : ℤ))
          = wo) := by
  obtain ⟨wo, h1, h2, h3, h4⟩ := created_crossover h hcross
  obtain ⟨s1, s2, s3, s4⟩ := crossover_label_set (K := K) (start := start) (pretest := d.pretest) h4 h2 h3
  have hcard : ∀ a b : ℤ, a ≤ b → ((Set.Ico a b).ncard : ℤ) = b - a := by
    intro a b hab
    rw [← Finset.coe_Ico, Set.ncard_coe_finset, Int.card_Ico, Int.toNat_of_nonneg (by omega)]
  have hlab : ∀ w : ℤ, designLabel d.toDesignParams start (.fin (w : K)) =
      .ok (crossoverLabel start d.pretest d.runtime wo (.fin (w : K))) := by
    intro w; unfold designLabel; rw [if_pos hcross, h1]
  rw [Int.even_iff] at h4
  refine ⟨wo, h1, by omega, ?_, ?_⟩
  · simp only [hlab, Except.ok.injEq, List.mem_cons, List.not_mem_nil, or_false, forall_eq_or_imp,
      forall_eq, s1, s2]
    rw [hcard _ _ (by omega), hcard _ _ (by omega)]
    omega
  · simp only [hlab, Except.ok.injEq, List.mem_cons, List.not_mem_nil, or_false, forall_eq_or_imp,
      forall_eq, s3, s4]
    rw [hcard _ _ (by omega), hcard _ _ (by omega)]
    omega

/-- **C08.**  Week number `k` of the experiment (1-based) is in the list of washout weeks printed by
`str(design)` iff that week is labelled `washout_1` or `washout_2`. -/
theorem C08_printed_washout_weeks (R : Rounding K) (p : DesignParams K) (d : Design K)
    (h : mkDesign R p = .ok d) (hcross : d.isCrossover = true) (start k : ℤ) :
    ∃ wo, d.washout = some wo ∧
      (k ∈ printedWashoutWeeks d.runtime wo ↔
        designLabel d.toDesignParams start (.fin ((start + (k - 1) : ℤ) : K)) = .ok (some "washout_1") ∨
        designLabel d.toDesignParams start (.fin ((start + (k - 1) : ℤ) : K)) =
          .ok (some "washout_2")) := by
  obtain ⟨wo, h1, h2, h3, h4⟩ := created_crossover h hcross
  refine ⟨wo, h1, ?_⟩
  have hlab : ∀ w : ℤ, designLabel d.toDesignParams start (.fin (w : K)) =
      .ok (crossoverLabel start d.pretest d.runtime wo (.fin (w : K))) := by
    intro w; unfold designLabel; rw [if_pos hcross, h1]
  simp only [hlab, Except.ok.injEq, crossoverLabel_eq _ h4 h2 h3, String.reduceEq, false_and,
    true_and, false_or, or_false]
  unfold printedWashoutWeeks
  rw [List.mem_append, mem_pyRange, mem_pyRange]
  omega

/-- The example crossover design (runtime 8, washout 2, pretest 4) meets the hypotheses of C08, C10 and
C11; its printed washout weeks and its labels from start week 10 on. -/
example : printedWashoutWeeks 8 2 = [1, 2, 5, 6] := by decide
example : (List.range 14).map (fun i => designLabel exampleCrossover 10 (.fin ((5 + i : ℕ) : ℚ))) =
    [none, some "pretest", some "pretest", some "pretest", some "pretest",
     some "washout_1", some "washout_1", some "test_1", some "test_1",
     some "washout_2", some "washout_2", some "test_2", some "test_2", none].map Except.ok := by
  decide +kernel
example : (List.range 14).map (fun i => designLabel exampleParams 10 (.fin ((5 + i : ℕ) : ℚ))) =
    [none, some "pretest", some "pretest", some "pretest", some "pretest", some "test", some "test",
     some "test", some "test", some "test", some "test", some "test", some "test", none].map
      Except.ok := by
  decide +kernel

end Feedx
