import Mathlib.Algebra.Order.Field.Basic

/-!
Floating point values with numpy's treatment of non-finite results.

Finite values are exact elements of an ordered field `K`.  There is a single zero (no `-0.0`), so
`x / 0` is `+inf` for `x > 0`, `-inf` for `x < 0` and `nan` for `x = 0`, as numpy gives for a
positive zero divisor.
-/

set_option linter.unusedSectionVars false

namespace Feedx

/-- A float: not-a-number, an infinity, or a finite value. -/
inductive Fl (K : Type) where
  | nan
  | ninf
  | pinf
  | fin (x : K)
  deriving DecidableEq

namespace Fl
variable {K : Type} [Field K] [LinearOrder K]

/-- Addition. -/
def add : Fl K → Fl K → Fl K
  | nan, _ => nan
  | _, nan => nan
  | pinf, ninf => nan
  | ninf, pinf => nan
  | pinf, _ => pinf
  | _, pinf => pinf
  | ninf, _ => ninf
  | _, ninf => ninf
  | fin x, fin y => fin (x + y)

/-- Negation. -/
def neg : Fl K → Fl K
  | nan => nan
  | pinf => ninf
  | ninf => pinf
  | fin x => fin (-x)

/-- Subtraction. -/
def sub (a b : Fl K) : Fl K := add a (neg b)

/-- An infinity with the sign of `x`, or nan for zero. -/
def infSign (x : K) : Fl K := if 0 < x then pinf else if x < 0 then ninf else nan

/-- Multiplication. -/
def mul : Fl K → Fl K → Fl K
  | nan, _ => nan
  | _, nan => nan
  | pinf, pinf => pinf
  | pinf, ninf => ninf
  | ninf, pinf => ninf
  | ninf, ninf => pinf
  | pinf, fin x => infSign x
  | fin x, pinf => infSign x
  | ninf, fin x => infSign (-x)
  | fin x, ninf => infSign (-x)
  | fin x, fin y => fin (x * y)

/-- numpy division (never raises). -/
def div : Fl K → Fl K → Fl K
  | nan, _ => nan
  | _, nan => nan
  | pinf, fin y => if y < 0 then ninf else pinf
  | ninf, fin y => if y < 0 then pinf else ninf
  | pinf, _ => nan
  | ninf, _ => nan
  | fin _, pinf => fin 0
  | fin _, ninf => fin 0
  | fin x, fin y => if y = 0 then infSign x else fin (x / y)

instance : Add (Fl K) := ⟨add⟩
instance : Neg (Fl K) := ⟨neg⟩
instance : Sub (Fl K) := ⟨sub⟩
instance : Mul (Fl K) := ⟨mul⟩
instance : Div (Fl K) := ⟨div⟩
instance : Zero (Fl K) := ⟨fin 0⟩

/-- `a <= b` (false when either is nan). -/
def le : Fl K → Fl K → Bool
  | nan, _ => false
  | _, nan => false
  | ninf, _ => true
  | _, pinf => true
  | pinf, _ => false
  | _, ninf => false
  | fin x, fin y => decide (x ≤ y)

/-- `a < b` (false when either is nan). -/
def lt : Fl K → Fl K → Bool
  | nan, _ => false
  | _, nan => false
  | ninf, ninf => false
  | ninf, _ => true
  | _, ninf => false
  | pinf, _ => false
  | fin _, pinf => true
  | fin x, fin y => decide (x < y)

/-- `np.isfinite`. -/
def isFinite : Fl K → Bool
  | fin _ => true
  | _ => false

/-- `np.isnan`. -/
def isNan : Fl K → Bool
  | nan => true
  | _ => false

/-- pandas `sum` with `skipna=True`. -/
def sumSkip (l : List (Fl K)) : Fl K := (l.filter (fun x => !x.isNan)).foldr (· + ·) (fin 0)

@[simp] theorem fin_add (x y : K) : (fin x + fin y : Fl K) = fin (x + y) := rfl
@[simp] theorem fin_sub (x y : K) : (fin x - fin y : Fl K) = fin (x - y) := by
  show fin (x + -y) = _; rw [sub_eq_add_neg]
@[simp] theorem fin_mul (x y : K) : (fin x * fin y : Fl K) = fin (x * y) := rfl
@[simp] theorem fin_neg (x : K) : (-fin x : Fl K) = fin (-x) := rfl
theorem fin_div (x y : K) : (fin x / fin y : Fl K) = if y = 0 then infSign x else fin (x / y) := rfl
theorem fin_div_ne {x y : K} (h : y ≠ 0) : (fin x / fin y : Fl K) = fin (x / y) := by
  rw [fin_div, if_neg h]
@[simp] theorem le_fin (x y : K) : le (fin x) (fin y) = decide (x ≤ y) := rfl
@[simp] theorem lt_fin (x y : K) : lt (fin x) (fin y) = decide (x < y) := rfl

theorem add_comm' (a b : Fl K) : a + b = b + a := by
  cases a <;> cases b <;> first | rfl | (show fin _ = fin _; rw [add_comm])

theorem add_assoc' (a b c : Fl K) : a + b + c = a + (b + c) := by
  cases a <;> cases b <;> cases c <;> first | rfl | (show fin _ = fin _; rw [add_assoc])

theorem zero_add' (a : Fl K) : fin 0 + a = a := by
  cases a <;> first | rfl | (show fin _ = fin _; rw [zero_add])

/-- The sum does not depend on the order of the terms. -/
theorem sumSkip_perm {l l' : List (Fl K)} (h : l.Perm l') : sumSkip l = sumSkip l' := by
  unfold sumSkip
  have h2 := h.filter (fun x => !x.isNan)
  generalize l.filter (fun x => !x.isNan) = a at h2
  generalize l'.filter (fun x => !x.isNan) = b at h2
  induction h2 with
  | nil => rfl
  | cons x _ ih => simp only [List.foldr_cons, ih]
  | swap x y l => simp only [List.foldr_cons]; rw [← add_assoc', add_comm' y x, add_assoc']
  | trans _ _ ih1 ih2 => rw [ih1, ih2]

/-- On finite values the pandas sum is the ordinary sum. -/
theorem sumSkip_fin (l : List K) : sumSkip (l.map fin) = fin l.sum := by
  unfold sumSkip
  have : (l.map fin).filter (fun x => !x.isNan) = l.map (fin : K → Fl K) := by
    rw [List.filter_eq_self]
    intro a ha
    obtain ⟨x, _, rfl⟩ := List.mem_map.mp ha
    rfl
  rw [this]
  induction l with
  | nil => rfl
  | cons x l ih =>
    simp only [List.map_cons, List.foldr_cons, List.sum_cons]
    rw [ih (by rw [List.filter_eq_self]; intro a ha
               obtain ⟨x, _, rfl⟩ := List.mem_map.mp ha
               rfl)]
    rfl

end Fl
end Feedx
