import Mathlib.Data.List.Basic
import Mathlib.Data.List.Nodup
import Mathlib.Data.List.Perm.Basic

/-! Small list functions used by the model. -/

namespace Feedx

variable {α β : Type}

/-- `drop_duplicates()` / `.unique()`: keep the first occurrence of every value, in order. -/
def dropDup [DecidableEq α] : List α → List α
  | [] => []
  | a :: l => a :: (dropDup l).filter (fun b => decide (b ≠ a))

theorem mem_dropDup [DecidableEq α] {l : List α} {a : α} : a ∈ dropDup l ↔ a ∈ l := by
  induction l with
  | nil => simp [dropDup]
  | cons b l ih =>
    simp only [dropDup, List.mem_cons, List.mem_filter, ih, decide_eq_true_eq]
    by_cases h : a = b <;> simp [h]

theorem nodup_dropDup [DecidableEq α] (l : List α) : (dropDup l).Nodup := by
  induction l with
  | nil => simp [dropDup]
  | cons b l ih =>
    simp only [dropDup, List.nodup_cons, List.mem_filter]
    exact ⟨by simp, ih.filter _⟩

theorem dropDup_eq_self [DecidableEq α] {l : List α} (h : l.Nodup) : dropDup l = l := by
  induction l with
  | nil => rfl
  | cons a l ih =>
    rw [List.nodup_cons] at h
    simp only [dropDup, ih h.2, List.cons.injEq, true_and]
    rw [List.filter_eq_self]
    intro b hb
    simp only [ne_eq, decide_eq_true_eq]
    rintro rfl
    exact h.1 hb

theorem dropDup_perm [DecidableEq α] {l l' : List α} (h : l.Perm l') :
    (dropDup l).Perm (dropDup l') := by
  rw [List.perm_ext_iff_of_nodup (nodup_dropDup l) (nodup_dropDup l')]
  intro a
  rw [mem_dropDup, mem_dropDup, h.mem_iff]

end Feedx
