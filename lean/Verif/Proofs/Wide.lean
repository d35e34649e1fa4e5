import Verif.Spec.Wide
import Mathlib.Data.List.Forall2

/-!
Lemmas about joining and splitting column names.
-/

set_option linter.unusedSectionVars false

namespace Feedx

theorem splitScores_plain {s : List Char} (h : ¬ Spec.HasDoubleScore s) (acc : List Char) :
    splitScores acc s = [acc.reverse ++ s] := by
  induction s generalizing acc with
  | nil => simp [splitScores]
  | cons a s ih =>
    have h' : ¬ Spec.HasDoubleScore s := by
      rintro ⟨x, y, rfl⟩
      exact h ⟨a :: x, y, by simp⟩
    cases s with
    | nil => simp [splitScores]
    | cons b s =>
      have hn : ¬ (a = '_' ∧ b = '_') := by
        rintro ⟨rfl, rfl⟩
        exact h ⟨[], s, by simp⟩
      rw [splitScores, if_neg hn, ih h']
      simp

theorem splitScores_join {s t : List Char} (h : ¬ Spec.HasDoubleScore s) (he : s.getLast? ≠ some '_') (acc : List Char) :
    splitScores acc (s ++ '_' :: '_' :: t) = (acc.reverse ++ s) :: splitScores [] t := by
  induction s generalizing acc with
  | nil => simp [splitScores]
  | cons a s ih =>
    have h' : ¬ Spec.HasDoubleScore s := by
      rintro ⟨x, y, rfl⟩
      exact h ⟨a :: x, y, by simp⟩
    cases s with
    | nil =>
      have ha : a ≠ '_' := by
        intro hc; subst hc; simp at he
      simp [splitScores, ha]
    | cons b s =>
      have hn : ¬ (a = '_' ∧ b = '_') := by
        rintro ⟨rfl, rfl⟩
        exact h ⟨[], s, by simp⟩
      have he' : (b :: s).getLast? ≠ some '_' := by simpa [List.getLast?_cons_cons] using he
      have e := ih h' he' (a :: acc)
      simp only [List.cons_append] at e ⊢
      rw [splitScores, if_neg hn, e]
      simp

theorem dropWhile_of_head {s : List Char} (h : s.head? ≠ some '_') : s.dropWhile (fun c => c = '_') = s := by
  cases s with
  | nil => rfl
  | cons a s =>
    have ha : a ≠ '_' := by simpa using h
    simp [ha]

theorem stripScores_of {s : List Char} (h : Spec.NoOuterScore s) : stripScores s = s := by
  unfold stripScores
  rw [dropWhile_of_head h.1, dropWhile_of_head (by rw [List.head?_reverse]; exact h.2), List.reverse_reverse]

theorem joinScores_two (m p : String) : (joinScores [m, p]).toList = m.toList ++ '_' :: '_' :: p.toList := by
  show (m ++ "__" ++ p).toList = _
  rw [String.toList_append, String.toList_append]
  simp

theorem flatName_two {m p : String} (hm : Spec.PlainName m) (hp : Spec.PlainName p) :
    (flatName [m, p]).toList = m.toList ++ '_' :: '_' :: p.toList := by
  unfold flatName
  rw [String.toList_ofList, joinScores_two]
  apply stripScores_of
  constructor
  · rw [List.head?_append]
    cases hml : m.toList with
    | nil => exact absurd hml hm.1
    | cons a s => have := hm.2.2.1; rw [hml] at this; simpa using this
  · have hpne := hp.1
    have e : m.toList ++ '_' :: '_' :: p.toList = (m.toList ++ ['_', '_']) ++ p.toList := by simp
    rw [e, List.getLast?_append_of_ne_nil _ hpne]
    exact hp.2.2.2

theorem unflat_flat {m p : String} (hm : Spec.PlainName m) (hp : Spec.PlainName p) : unflatName (flatName [m, p]) = [m, p] := by
  unfold unflatName
  rw [flatName_two hm hp, splitScores_join hm.2.1 hm.2.2.2, splitScores_plain hp.2.1]
  simp

theorem flatName_item {s : String} (h : Spec.NoOuterScore s.toList) : flatName [s, ""] = s := by
  have e : (joinScores [s, ""]).toList = s.toList ++ ['_', '_'] := by rw [joinScores_two]; rfl
  unfold flatName
  rw [e]
  have : stripScores (s.toList ++ ['_', '_']) = s.toList := by
    unfold stripScores
    cases hs : s.toList with
    | nil => rfl
    | cons a l =>
      rw [hs] at h
      have ha : (a :: l ++ ['_', '_']).head? ≠ some '_' := by simpa using h.1
      rw [dropWhile_of_head ha, List.reverse_append]
      have e2 : (['_', '_'] : List Char).reverse ++ (a :: l).reverse = '_' :: '_' :: (a :: l).reverse := rfl
      rw [e2, List.dropWhile_cons_of_pos (by simp), List.dropWhile_cons_of_pos (by simp),
        dropWhile_of_head (by rw [List.head?_reverse]; exact h.2), List.reverse_reverse]
  rw [this, String.ofList_toList]

end Feedx
