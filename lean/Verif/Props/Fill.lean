import Verif.Proofs.Prepare
import Mathlib.Algebra.Order.Ring.Rat

/-!
C42, C43: filling missing rows.
-/

set_option linter.unusedSectionVars false

namespace Feedx

variable {K : Type}

section
variable [DecidableEq K] [Zero K]

/-- Filling returns whenever both columns exist, and otherwise raises `ValueError`. -/
theorem C42_fill_returns (f : Frame K) (itemCol dateCol : String) (hne : itemCol ≠ dateCol) :
    (itemCol ∈ f.cols ∧ dateCol ∈ f.cols → ∃ out, fillMissing f itemCol dateCol = .ok out) ∧
    (¬ (itemCol ∈ f.cols ∧ dateCol ∈ f.cols) → fillMissing f itemCol dateCol = .error .valueError) := by
  unfold fillMissing
  constructor
  · rintro ⟨h1, h2⟩
    exact ⟨_, raiseIf_bind_ok.mpr ⟨by simp [h1, h2], raiseIf_bind_ok.mpr ⟨hne, rfl⟩⟩⟩
  · intro h
    refine raiseIf_bind_err.mpr (Or.inl ⟨?_, rfl⟩)
    by_contra hc
    push Not at hc
    exact h hc

/-- **C42.**  After filling, every item of the input has at least one row for every date of the input — exactly one if the input
has at most one row for each item and date — and there is no row for any other item or date. -/
theorem C42_grid_complete (f out : Frame K) (itemCol dateCol : String) (h : fillMissing f itemCol dateCol = .ok out) :
    (∀ i ∈ f.col itemCol, ∀ d ∈ f.col dateCol, 1 ≤ Spec.rowsAt out itemCol dateCol i d) ∧
    ((∀ i d, Spec.rowsAt f itemCol dateCol i d ≤ 1) →
      ∀ i ∈ f.col itemCol, ∀ d ∈ f.col dateCol, Spec.rowsAt out itemCol dateCol i d = 1) ∧
    (∀ r ∈ out.rows, r itemCol ∈ f.col itemCol ∧ r dateCol ∈ f.col dateCol) := by
  refine ⟨?_, ?_, fun r hr => fill_mem h hr⟩
  · intro i hi d hd
    rw [fill_rowsAt h hi hd]
    exact le_max_left _ _
  · intro h1 i hi d hd
    rw [fill_rowsAt h hi hd]
    exact max_eq_left (h1 i d)

/-- `r'` is row `r` of `f` with missing metric values replaced by zero. -/
def Spec.FilledFrom (f : Frame K) (itemCol dateCol : String) (r r' : Row K) : Prop :=
  r' itemCol = r itemCol ∧ r' dateCol = r dateCol ∧
    ∀ c ∈ f.cols, c ≠ itemCol → c ≠ dateCol → (r c ≠ .null → r' c = r c) ∧ (r c = .null → Spec.IsZero (r' c))

/-- **C43.**  The filled rows are, up to order, the input rows (each as often as it occurs, nulls replaced by 0) and rows that are
0 in every metric, one for each item and date without a row; the columns are those of the input. -/
theorem C43_rows_kept_zeros_added (f out : Frame K) (itemCol dateCol : String) (h : fillMissing f itemCol dateCol = .ok out)
    (hnum : ∀ r ∈ f.rows, ∀ c ∈ f.cols, c ≠ itemCol → c ≠ dateCol → Spec.IsNumber (r c)) :
    (∀ c, c ∈ out.cols ↔ c ∈ f.cols) ∧
    ∃ kept added, out.rows.Perm (kept ++ added) ∧ List.Forall₂ (Spec.FilledFrom f itemCol dateCol) f.rows kept ∧
      ∀ r ∈ added, (∀ c ∈ f.cols, c ≠ itemCol → c ≠ dateCol → Spec.IsZero (r c)) ∧
        Spec.rowsAt f itemCol dateCol (r itemCol) (r dateCol) = 0 ∧ Spec.rowsAt out itemCol dateCol (r itemCol) (r dateCol) = 1 := by
  obtain ⟨hi, hd, hne, hc, -⟩ := fillMissing_ok h
  have hz : ∀ c ∈ f.cols, c ≠ itemCol → c ≠ dateCol → Spec.IsZero (zeroCell (f.col c)) := by
    intro c hc h1 h2
    refine zeroCell_isZero ?_
    intro x hx
    obtain ⟨r, hr, rfl⟩ := List.mem_map.mp hx
    exact hnum r hr c hc h1 h2
  refine ⟨?_, f.rows.map (fillRow f itemCol dateCol), addedRows f itemCol dateCol, fill_perm h, ?_, ?_⟩
  · intro c
    rw [hc]
    simp only [List.mem_cons, List.mem_filter, decide_eq_true_eq]
    constructor
    · rintro (rfl | rfl | h)
      · exact hi
      · exact hd
      · exact h.1
    · intro hcf
      by_cases h1 : c = itemCol
      · exact Or.inl h1
      by_cases h2 : c = dateCol
      · exact Or.inr (Or.inl h2)
      exact Or.inr (Or.inr ⟨hcf, h1, h2⟩)
  · rw [List.forall₂_map_right_iff, List.forall₂_same]
    intro r _
    refine ⟨fillRow_key.1, fillRow_key.2, fun c hcf h1 h2 => ⟨fun hn => ?_, fun hn => ?_⟩⟩
    · have : (r c).isNull = false := by cases hr : r c <;> simp_all [Cell.isNull]
      simp [fillRow, h1, h2, this]
    · simpa [fillRow, h1, h2, hn, Cell.isNull] using hz c hcf h1 h2
  · intro r hr
    obtain ⟨i, d, hi', hd', hno, rfl⟩ := mem_addedRows hr
    have e1 : fillRow f itemCol dateCol (blankRow itemCol dateCol i d) itemCol = i := by
      rw [fillRow_key.1]; simp [blankRow]
    have e2 : fillRow f itemCol dateCol (blankRow itemCol dateCol i d) dateCol = d := by
      rw [fillRow_key.2]; simp [blankRow, hne.symm]
    have e3 : Spec.rowsAt f itemCol dateCol i d = 0 := by
      unfold Spec.rowsAt
      rw [List.countP_eq_zero]
      intro r' hr'
      simpa using hno r' hr'
    refine ⟨fun c hcf h1 h2 => ?_, ?_, ?_⟩
    · simpa [fillRow, blankRow, h1, h2, Cell.isNull] using hz c hcf h1 h2
    · rw [e1, e2, e3]
    · rw [e1, e2, fill_rowsAt h hi' hd', e3]
      rfl

/-- **C43.**  Filling twice equals filling once. -/
theorem C43_idempotent (f out : Frame K) (itemCol dateCol : String) (h : fillMissing f itemCol dateCol = .ok out) :
    fillMissing out itemCol dateCol = .ok out := fill_fill h

end

/-- **C43.**  The total of every metric is unchanged. -/
theorem C43_totals_unchanged [Field K] [LinearOrder K] (f out : Frame K) (itemCol dateCol : String)
    (h : fillMissing f itemCol dateCol = .ok out) (c : String) (hc : c ≠ itemCol) (hc' : c ≠ dateCol)
    (hnum : ∀ r ∈ f.rows, Spec.IsNumber (r c)) : sumCol out.rows c = sumCol f.rows c :=
  fill_total h hc hc' hnum

/-- Two items on two dates, one combination missing and one null. -/
def fillExample : Frame ℚ where
  cols := ["item_id", "date", "clicks"]
  rows := [fun c => if c = "item_id" then .str "a" else if c = "date" then .time 0 else if c = "clicks" then .num 3 else .null,
    fun c => if c = "item_id" then .str "b" else if c = "date" then .time 0 else .null,
    fun c => if c = "item_id" then .str "a" else if c = "date" then .time 1 else if c = "clicks" then .num 5 else .null]

/-- C42 and C43 are not vacuous: filling the example returns four rows, the input has at most one row per item and date and its
metric is numeric. -/
example : (∃ out, fillMissing fillExample "item_id" "date" = .ok out ∧
      out.rows.map (fun r => r "clicks") = [.num 3, .num 5, .num 0, .num 0]) ∧
    (∀ i d, Spec.rowsAt fillExample "item_id" "date" i d ≤ 1) ∧
    (∀ r ∈ fillExample.rows, ∀ c ∈ fillExample.cols, c ≠ "item_id" → c ≠ "date" → Spec.IsNumber (r c)) := by
  refine ⟨⟨_, rfl, by decide +kernel⟩, ?_, ?_⟩
  · intro i d
    simp only [Spec.rowsAt, fillExample, List.countP_cons, List.countP_nil]
    by_cases h1 : Cell.str "a" = i <;> by_cases h2 : Cell.str "b" = i <;> by_cases h3 : Cell.time 0 = d <;>
      by_cases h4 : Cell.time 1 = d <;> subst_vars <;> simp_all
  · intro r hr c hc h1 h2
    simp only [fillExample, List.mem_cons, List.not_mem_nil, or_false] at hr hc
    rcases hc with rfl | rfl | rfl
    · exact absurd rfl h1
    · exact absurd rfl h2
    · rcases hr with rfl | rfl | rfl <;> simp [Spec.IsNumber]

end Feedx
