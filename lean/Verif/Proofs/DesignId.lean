import Verif.Model.DesignId
import Verif.Proofs.Design
import Mathlib.Data.Nat.Digits.Lemmas

/-! Unique readability of the textual representation of designs. -/

set_option linter.unusedSectionVars false
set_option linter.unusedTactic false
set_option linter.unreachableTactic false

namespace Feedx

/-- A character that ends a number-like token. -/
def isDelim (c : Char) : Prop := c = ',' ∨ c = ')'

/-- The rest of the text starts with a delimiter. -/
def StartsDelim : List Char → Prop
  | [] => False
  | c :: _ => isDelim c

theorem token_split {u u' r r' : List Char} (hu : ∀ c ∈ u, ¬ isDelim c) (hu' : ∀ c ∈ u', ¬ isDelim c)
    (hr : StartsDelim r) (hr' : StartsDelim r') (h : u ++ r = u' ++ r') : u = u' ∧ r = r' := by
  induction u generalizing u' with
  | nil =>
    cases u' with
    | nil => exact ⟨rfl, by simpa using h⟩
    | cons c u' =>
      cases r with
      | nil => exact hr.elim
      | cons d r =>
        simp only [List.nil_append, List.cons_append, List.cons.injEq] at h
        exact absurd (h.1 ▸ hr) (hu' c (by simp))
  | cons c u ih =>
    cases u' with
    | nil =>
      cases r' with
      | nil => exact hr'.elim
      | cons d r =>
        simp only [List.nil_append, List.cons_append, List.cons.injEq] at h
        exact absurd (h.1.symm ▸ hr') (hu c (by simp))
    | cons c' u' =>
      simp only [List.cons_append, List.cons.injEq] at h
      obtain ⟨rfl, h⟩ := h
      obtain ⟨rfl, rfl⟩ := ih (fun c hc => hu c (by simp [hc])) (fun c hc => hu' c (by simp [hc])) h
      exact ⟨rfl, rfl⟩

theorem digitChar_inj {a b : ℕ} (ha : a < 10) (hb : b < 10) (h : digitChar a = digitChar b) :
    a = b := by
  have : ∀ a : Fin 10, ∀ b : Fin 10, digitChar a.1 = digitChar b.1 → a.1 = b.1 := by decide
  exact this ⟨a, ha⟩ ⟨b, hb⟩ h

theorem digitChar_mem {a : ℕ} (ha : a < 10) : digitChar a ∈ "0123456789".toList := by
  have : ∀ a : Fin 10, digitChar a.1 ∈ "0123456789".toList := by decide
  exact this ⟨a, ha⟩

theorem reprNat_mem {n : ℕ} {c : Char} (h : c ∈ reprNat n) : c ∈ "0123456789".toList := by
  unfold reprNat at h
  split at h
  · simp only [List.mem_singleton] at h; subst h; decide
  · simp only [List.mem_map, List.mem_reverse] at h
    obtain ⟨a, ha, rfl⟩ := h
    exact digitChar_mem (Nat.digits_lt_base (by norm_num) ha)

theorem map_inj_on {α β : Type} {f : α → β} {p : α → Prop} (hf : ∀ a b, p a → p b → f a = f b → a = b) :
    ∀ {l l' : List α}, (∀ a ∈ l, p a) → (∀ a ∈ l', p a) → l.map f = l'.map f → l = l' := by
  intro l
  induction l with
  | nil => intro l' _ _ h; cases l' <;> simp_all
  | cons a l ih =>
    intro l' h1 h2 h
    cases l' with
    | nil => simp at h
    | cons b l' =>
      simp only [List.map_cons, List.cons.injEq] at h
      rw [hf a b (h1 a (by simp)) (h2 b (by simp)) h.1,
        ih (fun a ha => h1 a (by simp [ha])) (fun a ha => h2 a (by simp [ha])) h.2]

theorem reprNat_head_zero {n : ℕ} (h : reprNat n = ['0']) : n = 0 := by
  by_contra hn
  unfold reprNat at h
  rw [if_neg hn] at h
  have h1 : (Nat.digits 10 n).reverse.map digitChar = [0].map digitChar := by rw [h]; rfl
  have h2 := map_inj_on (fun a b => digitChar_inj) (p := fun a => a < 10) (by
    intro a ha; rw [List.mem_reverse] at ha; exact Nat.digits_lt_base (by norm_num) ha) (by simp) h1
  have h3 : Nat.digits 10 n = [0] := by
    have := congrArg List.reverse h2; simpa using this
  have h4 := Nat.ofDigits_digits 10 n
  rw [h3] at h4
  simp at h4
  exact hn h4.symm

theorem reprNat_inj {n m : ℕ} (h : reprNat n = reprNat m) : n = m := by
  by_cases hn : n = 0
  · subst hn; exact (reprNat_head_zero h.symm).symm
  · by_cases hm : m = 0
    · subst hm; exact reprNat_head_zero h
    · unfold reprNat at h
      rw [if_neg hn, if_neg hm] at h
      have h2 := map_inj_on (fun a b => digitChar_inj) (p := fun a => a < 10) (by
        intro a ha; rw [List.mem_reverse] at ha; exact Nat.digits_lt_base (by norm_num) ha) (by
        intro a ha; rw [List.mem_reverse] at ha; exact Nat.digits_lt_base (by norm_num) ha) h
      have h3 := List.reverse_injective h2
      exact Nat.digits_inj_iff.mp h3

theorem reprInt_mem {i : ℤ} {c : Char} (h : c ∈ reprInt i) : c ∈ "-0123456789".toList := by
  have hsub : ∀ c, c ∈ "0123456789".toList → c ∈ "-0123456789".toList := by
    intro c hc; simp at hc ⊢; tauto
  cases i with
  | ofNat n => exact hsub c (reprNat_mem h)
  | negSucc n =>
    simp only [reprInt, List.mem_cons] at h
    rcases h with rfl | h
    · decide
    · exact hsub c (reprNat_mem h)

theorem reprInt_inj {i j : ℤ} (h : reprInt i = reprInt j) : i = j := by
  have hminus : ∀ n m, reprNat n ≠ '-' :: reprNat m := by
    intro n m h
    have : '-' ∈ reprNat n := by rw [h]; simp
    have := reprNat_mem this
    revert this; decide
  cases i with
  | ofNat n =>
    cases j with
    | ofNat m => rw [reprNat_inj h]
    | negSucc m => exact absurd h (hminus _ _)
  | negSucc n =>
    cases j with
    | ofNat m => exact absurd h.symm (hminus _ _)
    | negSucc m =>
      simp only [reprInt, List.cons.injEq, true_and] at h
      have := reprNat_inj h
      have : n = m := by omega
      rw [this]

theorem not_delim_of_mem {l : List Char} (h : ',' ∉ l ∧ ')' ∉ l) : ∀ c ∈ l, ¬ isDelim c := by
  rintro c hc (rfl | rfl)
  · exact h.1 hc
  · exact h.2 hc

theorem reprInt_noDelim (i : ℤ) : ∀ c ∈ reprInt i, ¬ isDelim c := by
  intro c hc hd
  have := reprInt_mem hc
  rcases hd with rfl | rfl <;> revert this <;> decide

theorem reprOptInt_noDelim (i : Option ℤ) : ∀ c ∈ reprOptInt i, ¬ isDelim c := by
  cases i with
  | none => exact not_delim_of_mem (by decide)
  | some i => exact reprInt_noDelim i

theorem reprOptInt_inj {i j : Option ℤ} (h : reprOptInt i = reprOptInt j) : i = j := by
  have hN : ∀ i, reprInt i ≠ "None".toList := by
    intro i h
    have : 'N' ∈ reprInt i := by rw [h]; decide
    have := reprInt_mem this
    revert this; decide
  cases i <;> cases j
  · rfl
  · exact absurd h.symm (hN _)
  · exact absurd h (hN _)
  · rw [reprInt_inj h]

theorem reprBool_noDelim (b : Bool) : ∀ c ∈ reprBool b, ¬ isDelim c := by
  cases b <;> exact not_delim_of_mem (by decide)

theorem reprBool_inj {a b : Bool} (h : reprBool a = reprBool b) : a = b := by
  revert h; cases a <;> cases b <;> decide

section
variable {K : Type} {fr : K → List Char} (F : FloatReprOk fr)
include F

theorem reprNum_noDelim (x : PyNum K) : ∀ c ∈ reprNum fr x, ¬ isDelim c := by
  cases x with
  | int i => exact reprInt_noDelim i
  | float x =>
    rintro c hc (h | h)
    · exact (F.noDelim x c hc).1 h
    · exact (F.noDelim x c hc).2 h

theorem reprNum_inj {x y : PyNum K} (h : reprNum fr x = reprNum fr y) : x = y := by
  cases x <;> cases y
  · rw [reprInt_inj h]
  · exact absurd h.symm (F.neInt _ _)
  · exact absurd h (F.neInt _ _)
  · rw [F.inj h]
end

/-! Strings -/

theorem hexDigit_inj {a b : ℕ} (ha : a < 16) (hb : b < 16) (h : Md5.hexDigit a = Md5.hexDigit b) :
    a = b := by
  have : ∀ a : Fin 16, ∀ b : Fin 16, Md5.hexDigit a.1 = Md5.hexDigit b.1 → a.1 = b.1 := by decide
  exact this ⟨a, ha⟩ ⟨b, hb⟩ h

theorem hexFixed_length (w n : ℕ) : (hexFixed w n).length = w := by
  induction w generalizing n with
  | zero => rfl
  | succ w ih => simp [hexFixed, ih]

theorem hexFixed_inj {w n m : ℕ} (hn : n < 16 ^ w) (hm : m < 16 ^ w)
    (h : hexFixed w n = hexFixed w m) : n = m := by
  induction w generalizing n m with
  | zero => simp at hn hm; omega
  | succ w ih =>
    simp only [hexFixed] at h
    obtain ⟨h1, h2⟩ := List.append_inj h (by simp [hexFixed_length])
    have h2' : Md5.hexDigit (n % 16) = Md5.hexDigit (m % 16) := by simpa using h2
    have h3 := hexDigit_inj (Nat.mod_lt _ (by norm_num)) (Nat.mod_lt _ (by norm_num)) h2'
    have h4 := ih (by rw [pow_succ] at hn; omega) (by rw [pow_succ] at hm; omega) h1
    omega

theorem char_toNat_lt (c : Char) : c.toNat < 16 ^ 8 := by
  have : c.toNat < 2 ^ 32 := c.val.toNat_lt
  norm_num at this ⊢
  omega

theorem char_ext {c c' : Char} (h : c.toNat = c'.toNat) : c = c' := Char.toNat_inj.mp h

variable (pr : Char → Bool)

/-- Escapes: either the character itself, or a backslash escape described by its tag character. -/
theorem escChar_cases (q c : Char) :
    (escChar pr q c = [c] ∧ c ≠ '\\' ∧ c ≠ q) ∨
    (escChar pr q c = ['\\', c] ∧ (c = q ∨ c = '\\')) ∨
    (escChar pr q c = ['\\', 't'] ∧ c = '\t') ∨
    (escChar pr q c = ['\\', 'n'] ∧ c = '\n') ∨
    (escChar pr q c = ['\\', 'r'] ∧ c = '\r') ∨
    (escChar pr q c = '\\' :: 'x' :: hexFixed 2 c.toNat ∧ c.toNat < 16 ^ 2) ∨
    (escChar pr q c = '\\' :: 'u' :: hexFixed 4 c.toNat ∧ c.toNat < 16 ^ 4) ∨
    (escChar pr q c = '\\' :: 'U' :: hexFixed 8 c.toNat ∧ c.toNat < 16 ^ 8) := by
  unfold escChar
  split_ifs with h1 h2 h3 h4 h5 h6 h7 h8 h9
  · exact .inr (.inl ⟨rfl, h1⟩)
  · exact .inr (.inr (.inl ⟨rfl, h2⟩))
  · exact .inr (.inr (.inr (.inl ⟨rfl, h3⟩)))
  · exact .inr (.inr (.inr (.inr (.inl ⟨rfl, h4⟩))))
  · exact .inr (.inr (.inr (.inr (.inr (.inl ⟨rfl, by norm_num; omega⟩)))))
  · push Not at h1; exact .inl ⟨rfl, h1.2, h1.1⟩
  · push Not at h1; exact .inl ⟨rfl, h1.2, h1.1⟩
  · exact .inr (.inr (.inr (.inr (.inr (.inl ⟨rfl, by norm_num; omega⟩)))))
  · exact .inr (.inr (.inr (.inr (.inr (.inr (.inl ⟨rfl, by norm_num; omega⟩))))))
  · exact .inr (.inr (.inr (.inr (.inr (.inr (.inr ⟨rfl, char_toNat_lt c⟩))))))

theorem hex_tail {w : ℕ} {c c' : Char} {x x' : List Char} (hc : c.toNat < 16 ^ w)
    (hc' : c'.toNat < 16 ^ w) (h : hexFixed w c.toNat ++ x = hexFixed w c'.toNat ++ x') :
    c = c' ∧ x = x' := by
  obtain ⟨h1, h2⟩ := List.append_inj h (by simp [hexFixed_length])
  exact ⟨char_ext (hexFixed_inj hc hc' h1), h2⟩

theorem escChar_prefix {q c c' : Char} {x x' : List Char} (hq : q = '\'' ∨ q = '"')
    (h : escChar pr q c ++ x = escChar pr q c' ++ x') : c = c' ∧ x = x' := by
  rcases escChar_cases pr q c with ⟨e, a, a'⟩ | ⟨e, a⟩ | ⟨e, a⟩ | ⟨e, a⟩ | ⟨e, a⟩ | ⟨e, a⟩ | ⟨e, a⟩ | ⟨e, a⟩ <;>
  rcases escChar_cases pr q c' with ⟨e', b, b'⟩ | ⟨e', b⟩ | ⟨e', b⟩ | ⟨e', b⟩ | ⟨e', b⟩ | ⟨e', b⟩ | ⟨e', b⟩ | ⟨e', b⟩ <;>
  rw [e, e'] at h <;>
  simp only [List.cons_append, List.nil_append, List.cons.injEq, true_and, Char.reduceEq, false_and] at h
  all_goals first
    | exact h.elim
    | exact h
    | exact absurd h.1 a
    | exact absurd h.1.symm b
    | exact hex_tail a b h
    | (exfalso; rcases hq with rfl | rfl <;> simp_all; done)
    | (refine ⟨a.trans b.symm, h⟩)
    | (exfalso; obtain ⟨h1, _⟩ := h; subst h1; have ha := a
       rcases hq with rfl | rfl <;> revert ha <;> decide)
    | (exfalso; obtain ⟨h1, _⟩ := h; subst h1; have hb := b
       rcases hq with rfl | rfl <;> revert hb <;> decide)

theorem escChar_head {q c : Char} (hq : q = '\'' ∨ q = '"') :
    ∃ d l, escChar pr q c = d :: l ∧ d ≠ q := by
  rcases escChar_cases pr q c with ⟨e, a, a'⟩ | ⟨e, a⟩ | ⟨e, a⟩ | ⟨e, a⟩ | ⟨e, a⟩ | ⟨e, a⟩ | ⟨e, a⟩ | ⟨e, a⟩
  · exact ⟨c, [], e, a'⟩
  all_goals (refine ⟨'\\', _, e, ?_⟩; rcases hq with rfl | rfl <;> decide)

theorem escBody_inj {q : Char} (hq : q = '\'' ∨ q = '"') {s s' t t' : List Char}
    (h : s.flatMap (escChar pr q) ++ q :: t = s'.flatMap (escChar pr q) ++ q :: t') :
    s = s' ∧ t = t' := by
  induction s generalizing s' with
  | nil =>
    cases s' with
    | nil => exact ⟨rfl, by simpa using h⟩
    | cons c s' =>
      obtain ⟨d, l, e, hd⟩ := escChar_head pr (c := c) hq
      simp only [List.flatMap_nil, List.nil_append, List.flatMap_cons, e, List.cons_append,
        List.cons.injEq] at h
      exact absurd h.1.symm hd
  | cons c s ih =>
    cases s' with
    | nil =>
      obtain ⟨d, l, e, hd⟩ := escChar_head pr (c := c) hq
      simp only [List.flatMap_nil, List.nil_append, List.flatMap_cons, e, List.cons_append,
        List.cons.injEq] at h
      exact absurd h.1 hd
    | cons c' s' =>
      simp only [List.flatMap_cons, List.append_assoc] at h
      obtain ⟨rfl, h'⟩ := escChar_prefix pr hq h
      obtain ⟨rfl, rfl⟩ := ih h'
      exact ⟨rfl, rfl⟩

theorem quoteChar_cases (s : List Char) : quoteChar s = '\'' ∨ quoteChar s = '"' := by
  unfold quoteChar; split <;> simp

theorem reprStr_prefix {s s' r r' : List Char}
    (h : reprStr pr s ++ r = reprStr pr s' ++ r') : s = s' ∧ r = r' := by
  unfold reprStr at h
  simp only [List.cons_append, List.cons.injEq, List.append_assoc, List.nil_append] at h
  obtain ⟨h1, h2⟩ := h
  rw [← h1] at h2
  exact escBody_inj pr (quoteChar_cases s) h2

end Feedx

namespace Feedx

theorem tok_field {α : Type} {lit r r' : List Char} {enc : α → List Char} {a b : α}
    (hd : ∀ a, ∀ c ∈ enc a, ¬ isDelim c) (hi : ∀ {a b}, enc a = enc b → a = b)
    (hr : StartsDelim r) (hr' : StartsDelim r') (h : lit ++ enc a ++ r = lit ++ enc b ++ r') :
    a = b ∧ r = r' := by
  rw [List.append_assoc, List.append_assoc] at h
  obtain ⟨h1, h2⟩ := token_split (hd a) (hd b) hr hr' (List.append_cancel_left h)
  exact ⟨hi h1, h2⟩

theorem str_field (pr : Char → Bool) {lit r r' s s' : List Char}
    (h : lit ++ reprStr pr s ++ r = lit ++ reprStr pr s' ++ r') : s = s' ∧ r = r' := by
  rw [List.append_assoc, List.append_assoc] at h
  exact reprStr_prefix pr (List.append_cancel_left h)

theorem startsDelim_lit {l r r' : List Char} (h : StartsDelim l) : StartsDelim (l ++ r ++ r') := by
  cases l with
  | nil => exact h.elim
  | cons c l => exact h

theorem reprDesign_inj {K : Type} {fr : K → List Char} (F : FloatReprOk fr) (pr : Char → Bool)
    {d d' : Design K} (hs : d.salt = none) (hs' : d'.salt = none)
    (h : reprDesign fr pr d = reprDesign fr pr d') : d = d' := by
  unfold reprDesign at h
  have D : ∀ l : List Char, ∀ r r' : List Char, l.head? = some ',' → StartsDelim (l ++ r ++ r') := by
    intro l r r' hl
    cases l with
    | nil => cases hl
    | cons c l => simp only [List.head?_cons, Option.some.injEq] at hl; subst hl; exact .inl rfl
  obtain ⟨e1, h⟩ := tok_field reprInt_noDelim reprInt_inj (D _ _ _ rfl) (D _ _ _ rfl) h
  obtain ⟨e2, h⟩ := tok_field reprInt_noDelim reprInt_inj (D _ _ _ rfl) (D _ _ _ rfl) h
  obtain ⟨e3, h⟩ := str_field pr h
  rw [String.toList_inj] at e3
  obtain ⟨e4, h⟩ := tok_field reprInt_noDelim reprInt_inj (D _ _ _ rfl) (D _ _ _ rfl) h
  obtain ⟨e5, h⟩ := tok_field reprBool_noDelim reprBool_inj (D _ _ _ rfl) (D _ _ _ rfl) h
  obtain ⟨e6, h⟩ := tok_field (reprNum_noDelim F) (reprNum_inj F) (D _ _ _ rfl) (D _ _ _ rfl) h
  obtain ⟨e7, h⟩ := tok_field (reprNum_noDelim F) (reprNum_inj F) (D _ _ _ rfl) (D _ _ _ rfl) h
  obtain ⟨e8, h⟩ := tok_field (reprNum_noDelim F) (reprNum_inj F) (D _ _ _ rfl) (D _ _ _ rfl) h
  obtain ⟨e9, h⟩ := tok_field reprOptInt_noDelim reprOptInt_inj (D _ _ _ rfl) (D _ _ _ rfl) h
  obtain ⟨e10, h⟩ := tok_field (reprNum_noDelim F) (reprNum_inj F) (D _ _ _ rfl) (D _ _ _ rfl) h
  obtain ⟨e11, h⟩ := tok_field (reprNum_noDelim F) (reprNum_inj F) (D _ _ _ rfl) (D _ _ _ rfl) h
  rw [hs, hs'] at h
  have h := List.append_cancel_left h
  obtain ⟨e13, h⟩ := tok_field reprInt_noDelim reprInt_inj (D _ _ _ rfl) (D _ _ _ rfl) h
  obtain ⟨e14, h⟩ := tok_field reprInt_noDelim reprInt_inj (r := ")".toList) (r' := ")".toList)
    (Or.inr rfl : isDelim ')') (Or.inr rfl : isDelim ')') h
  obtain ⟨⟨n, rt, pm, pt, ic, t, b, po, w, al, pw, s⟩, a1, a2⟩ := d
  obtain ⟨⟨n', rt', pm', pt', ic', t', b', po', w', al', pw', s'⟩, a1', a2'⟩ := d'
  simp only at *
  subst e1 e2 e3 e4 e5 e6 e7 e8 e9 e10 e11 e13 e14 hs hs'
  rfl

end Feedx
