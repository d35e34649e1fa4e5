import Verif.Model.TimePeriod
import Verif.Model.DesignId
import Verif.Spec.TimePeriod
import Verif.Proofs.Design

/-! Lemmas on labelling. -/

set_option linter.unusedSectionVars false
set_option linter.unusedSimpArgs false

namespace Feedx

variable {K : Type} [Field K] [LinearOrder K] [IsStrictOrderedRing K]

theorem weekBetween_int (w a b : ℤ) :
    weekBetween (.fin (w : K)) a b = decide (a ≤ w ∧ w ≤ b) := by
  unfold weekBetween
  simp only [Fl.le_fin, Int.cast_le, Bool.decide_and]

theorem weekBetween_nan (a b : ℤ) : weekBetween (.nan : Fl K) a b = false := rfl

theorem lastLabel_two (a b : Bool) (x y : String) :
    lastLabel [(a, x), (b, y)] = if b then some y else if a then some x else none := by
  cases a <;> cases b <;> rfl

theorem lastLabel_five (a b c d e : Bool) (v w x y z : String) :
    lastLabel [(a, v), (b, w), (c, x), (d, y), (e, z)] =
      if e then some z else if d then some y else if c then some x else if b then some w
      else if a then some v else none := by
  cases a <;> cases b <;> cases c <;> cases d <;> cases e <;> rfl

theorem regularLabel_eq (start pretest runtime w : ℤ) (p : String) :
    regularLabel start pretest runtime (.fin (w : K)) = some p ↔
      (p = "pretest" ∧ start - pretest ≤ w ∧ w < start) ∨
      (p = "test" ∧ start ≤ w ∧ w < start + runtime) := by
  unfold regularLabel
  rw [lastLabel_two]
  simp only [weekBetween_int, decide_eq_true_eq]
  split_ifs with h1 h2
  · simp only [Option.some.injEq]
    constructor
    · rintro rfl; right; exact ⟨rfl, by omega, by omega⟩
    · rintro (⟨_, h, h'⟩ | ⟨rfl, _⟩) <;> [omega; rfl]
  · simp only [Option.some.injEq]
    constructor
    · rintro rfl; left; exact ⟨rfl, by omega, by omega⟩
    · rintro (⟨rfl, _⟩ | ⟨_, h, h'⟩) <;> [rfl; omega]
  · simp only [reduceCtorEq, false_iff]
    rintro (⟨rfl, h⟩ | ⟨_, h, h'⟩) <;> omega

theorem testPeriodWeeks_eq {runtime washout : ℤ} (he : Even runtime) :
    testPeriodWeeks runtime washout = runtime / 2 - washout := by
  unfold testPeriodWeeks
  rw [Int.even_iff] at he
  omega

theorem crossoverLabel_eq {start pretest runtime washout w : ℤ} (p : String) (he : Even runtime)
    (hw : 0 ≤ washout) (hr : 2 * washout < runtime) :
    crossoverLabel start pretest runtime washout (.fin (w : K)) = some p ↔
      (p = "pretest" ∧ start - pretest ≤ w ∧ w < start) ∨
      (p = "washout_1" ∧ start ≤ w ∧ w < start + washout) ∨
      (p = "test_1" ∧ start + washout ≤ w ∧ w < start + runtime / 2) ∨
      (p = "washout_2" ∧ start + runtime / 2 ≤ w ∧ w < start + runtime / 2 + washout) ∨
      (p = "test_2" ∧ start + runtime / 2 + washout ≤ w ∧ w < start + runtime) := by
  unfold crossoverLabel
  rw [testPeriodWeeks_eq he]
  rw [Int.even_iff] at he
  simp only [lastLabel_five, weekBetween_int, decide_eq_true_eq]
  split_ifs with h1 h2 h3 h4 h5 <;> simp only [Option.some.injEq, reduceCtorEq, false_iff] <;>
    (try constructor)
  · rintro rfl; exact .inr (.inr (.inr (.inr ⟨rfl, by omega, by omega⟩)))
  · rintro (⟨rfl, h⟩ | ⟨rfl, h⟩ | ⟨rfl, h⟩ | ⟨rfl, h⟩ | ⟨rfl, h⟩) <;> first | rfl | (exfalso; omega)
  · rintro rfl; exact .inr (.inr (.inr (.inl ⟨rfl, by omega, by omega⟩)))
  · rintro (⟨rfl, h⟩ | ⟨rfl, h⟩ | ⟨rfl, h⟩ | ⟨rfl, h⟩ | ⟨rfl, h⟩) <;> first | rfl | (exfalso; omega)
  · rintro rfl; exact .inr (.inr (.inl ⟨rfl, by omega, by omega⟩))
  · rintro (⟨rfl, h⟩ | ⟨rfl, h⟩ | ⟨rfl, h⟩ | ⟨rfl, h⟩ | ⟨rfl, h⟩) <;> first | rfl | (exfalso; omega)
  · rintro rfl; exact .inr (.inl ⟨rfl, by omega, by omega⟩)
  · rintro (⟨rfl, h⟩ | ⟨rfl, h⟩ | ⟨rfl, h⟩ | ⟨rfl, h⟩ | ⟨rfl, h⟩) <;> first | rfl | (exfalso; omega)
  · rintro rfl; exact .inl ⟨rfl, by omega, by omega⟩
  · rintro (⟨rfl, h⟩ | ⟨rfl, h⟩ | ⟨rfl, h⟩ | ⟨rfl, h⟩ | ⟨rfl, h⟩) <;> first | rfl | (exfalso; omega)
  · rintro (⟨rfl, h⟩ | ⟨rfl, h⟩ | ⟨rfl, h⟩ | ⟨rfl, h⟩ | ⟨rfl, h⟩) <;> omega

theorem mem_pyRange {a b x : ℤ} : x ∈ pyRange a b ↔ a ≤ x ∧ x < b := by
  unfold pyRange
  simp only [List.mem_map, List.mem_range]
  constructor
  · rintro ⟨i, hi, rfl⟩; omega
  · rintro ⟨h1, h2⟩; exact ⟨(x - a).toNat, by omega, by omega⟩

/-- What a created crossover design guarantees. -/
theorem created_crossover [FloorRing K] {R : Rounding K} {p : DesignParams K} {d : Design K}
    (h : mkDesign R p = .ok d) (hc : d.isCrossover = true) :
    ∃ w, d.washout = some w ∧ 0 ≤ w ∧ 2 * w < d.runtime ∧ Even d.runtime := by
  obtain ⟨rfl, hv⟩ := (mkDesign_ok_iff R p d).mp h
  exact ((validateDesign_ok_iff R _).mp hv).1.crossover hc

theorem created_pretest [FloorRing K] {R : Rounding K} {p : DesignParams K} {d : Design K}
    (h : mkDesign R p = .ok d) : 0 ≤ d.pretest ∧ 0 < d.runtime := by
  obtain ⟨rfl, hv⟩ := (mkDesign_ok_iff R p d).mp h
  have := ((validateDesign_ok_iff R _).mp hv).1
  exact ⟨this.pretest_nonneg, this.runtime_pos⟩

/-- For every created design, the label of a week is the period of the calendar it lies in. -/
theorem designLabel_iff [FloorRing K] {R : Rounding K} {p : DesignParams K} {d : Design K}
    (h : mkDesign R p = .ok d) (start w : ℤ) (label : String) :
    designLabel d.toDesignParams start (.fin (w : K)) = .ok (some label) ↔
      Spec.InPeriod d.toDesignParams start label w := by
  unfold designLabel Spec.InPeriod Spec.timeline
  by_cases hc : d.isCrossover = true
  · obtain ⟨wo, h1, h2, h3, h4⟩ := created_crossover h hc
    rw [if_pos hc, if_pos hc, h1]
    simp only [Except.ok.injEq, Option.getD_some]
    rw [crossoverLabel_eq label h4 h2 h3]
    simp only [Spec.crossoverTimeline, List.mem_cons, List.not_mem_nil, or_false, Prod.mk.injEq]
    constructor
    · rintro (⟨a, b, c⟩ | ⟨a, b, c⟩ | ⟨a, b, c⟩ | ⟨a, b, c⟩ | ⟨a, b, c⟩)
      · exact ⟨_, _, .inl ⟨a, rfl, rfl⟩, b, c⟩
      · exact ⟨_, _, .inr (.inl ⟨a, rfl, rfl⟩), b, c⟩
      · exact ⟨_, _, .inr (.inr (.inl ⟨a, rfl, rfl⟩)), b, c⟩
      · exact ⟨_, _, .inr (.inr (.inr (.inl ⟨a, rfl, rfl⟩))), b, c⟩
      · exact ⟨_, _, .inr (.inr (.inr (.inr ⟨a, rfl, rfl⟩))), b, c⟩
    · rintro ⟨lo, hi, (⟨a, rfl, rfl⟩ | ⟨a, rfl, rfl⟩ | ⟨a, rfl, rfl⟩ | ⟨a, rfl, rfl⟩ | ⟨a, rfl, rfl⟩), b, c⟩
      · exact .inl ⟨a, b, c⟩
      · exact .inr (.inl ⟨a, b, c⟩)
      · exact .inr (.inr (.inl ⟨a, b, c⟩))
      · exact .inr (.inr (.inr (.inl ⟨a, b, c⟩)))
      · exact .inr (.inr (.inr (.inr ⟨a, b, c⟩)))
  · rw [if_neg hc, if_neg hc]
    simp only [Except.ok.injEq]
    rw [regularLabel_eq]
    simp only [Spec.regularTimeline, List.mem_cons, List.not_mem_nil, or_false, Prod.mk.injEq]
    constructor
    · rintro (⟨a, b, c⟩ | ⟨a, b, c⟩)
      · exact ⟨_, _, .inl ⟨a, rfl, rfl⟩, b, c⟩
      · exact ⟨_, _, .inr ⟨a, rfl, rfl⟩, b, c⟩
    · rintro ⟨lo, hi, (⟨a, rfl, rfl⟩ | ⟨a, rfl, rfl⟩), b, c⟩
      · exact .inl ⟨a, b, c⟩
      · exact .inr ⟨a, b, c⟩

theorem designLabel_returns [FloorRing K] {R : Rounding K} {p : DesignParams K} {d : Design K}
    (h : mkDesign R p = .ok d) (start : ℤ) (w : Fl K) :
    ∃ l, designLabel d.toDesignParams start w = .ok l := by
  unfold designLabel
  by_cases hc : d.isCrossover = true
  · obtain ⟨wo, h1, -⟩ := created_crossover h hc
    rw [if_pos hc, h1]; exact ⟨_, rfl⟩
  · rw [if_neg hc]; exact ⟨_, rfl⟩

end Feedx
