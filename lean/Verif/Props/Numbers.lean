import Verif.Props.Describe
import Verif.Spec.Numbers

/-!
Property C95: the whole numbers in the printed description of a design stand for the numbers of the design.
-/

namespace Feedx

theorem decimal_reprNat (n : ℕ) : Spec.decimal (reprNat n) = n := by
  unfold reprNat
  split_ifs with h
  · subst h; rfl
  · have hd : ∀ a < 10, (digitChar a).toNat - '0'.toNat = a := by decide
    have key : ∀ l : List ℕ, (∀ a ∈ l, a < 10) → Spec.decimal (l.reverse.map digitChar) = Nat.ofDigits 10 l := by
      intro l
      induction l with
      | nil => intro _; rfl
      | cons a l ih =>
        intro hl
        have := ih (fun b hb => hl b (by simp [hb]))
        unfold Spec.decimal at this ⊢
        rw [List.reverse_cons, List.map_append, List.foldl_append, this, Nat.ofDigits_cons]
        simp only [List.map_cons, List.map_nil, List.foldl_cons, List.foldl_nil, hd a (hl a (by simp))]
        push_cast
        omega
    rw [key _ (fun a ha => Nat.digits_lt_base (by norm_num) ha), Nat.ofDigits_digits]

/-- **C95, numbers.**  The text printed for a whole number stands for that number in the decimal system: it consists of its digits, after a minus sign if it is
negative. -/
theorem C95_numbers_read_back (i : ℤ) : Spec.wholeNumber (reprInt i) = i := by
  cases i with
  | ofNat n =>
    have h : ∀ l, reprNat n ≠ '-' :: l := fun l e => by
      have := reprNat_mem (n := n) (c := '-') (by rw [e]; simp)
      revert this; decide
    show Spec.wholeNumber (reprNat n) = _
    unfold Spec.wholeNumber
    split
    · next l e => exact absurd e (h l)
    · rw [decimal_reprNat]; rfl
  | negSucc n =>
    show -((Spec.decimal (reprNat (n + 1)) : ℕ) : ℤ) = _
    rw [decimal_reprNat]
    rfl

/-- Numbers with several digits. -/
example : reprInt 120 = "120".toList ∧ reprInt (-37) = "-37".toList := by decide +kernel

end Feedx
