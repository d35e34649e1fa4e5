/-!
Python exceptions as values.

Every modelled function that can raise returns `Except PyErr α`.  One constructor per Python
exception class raised by the modelled code (message texts are not modelled).
-/

namespace Feedx



/-- The Python exception classes the modelled code can raise.
`outOfModel` marks inputs of a dynamic type the model does not cover (it never stands for a
value the code would return). -/
inductive PyErr where
  | valueError
  | keyError
  | typeError
  | indexError
  | zeroDivision
  | runtimeError
  | assertionError
  | outOfModel
  deriving DecidableEq, Repr

/-- Result of a Python call that may raise. -/
abbrev Py (α : Type) := Except PyErr α

/-- `isOk` as a proposition: the call returns normally. -/
def Py.Returns {α : Type} (r : Py α) : Prop := ∃ a, r = .ok a

/-- `if cond: raise e`. -/
def raiseIf (e : PyErr) (c : Prop) [Decidable c] : Py Unit := if c then .error e else .ok ()

theorem raiseIf_bind_ok {α : Type} {e : PyErr} {c : Prop} [Decidable c] {r : Py α} {x : α} :
    (raiseIf e c >>= fun _ => r) = .ok x ↔ ¬ c ∧ r = .ok x := by
  unfold raiseIf
  by_cases h : c <;> simp [h, bind, Except.bind]

theorem raiseIf_ok {e : PyErr} {c : Prop} [Decidable c] {u : Unit} :
    raiseIf e c = .ok u ↔ ¬ c := by
  unfold raiseIf
  by_cases h : c <;> simp [h]

theorem raiseIf_bind_err {α : Type} {e e' : PyErr} {c : Prop} [Decidable c] {r : Py α} :
    (raiseIf e c >>= fun _ => r) = .error e' ↔ (c ∧ e = e') ∨ (¬ c ∧ r = .error e') := by
  unfold raiseIf
  by_cases h : c <;> simp [h, bind, Except.bind]

theorem raiseIf_err {e e' : PyErr} {c : Prop} [Decidable c] :
    raiseIf e c = .error e' ↔ c ∧ e = e' := by
  unfold raiseIf
  by_cases h : c <;> simp [h]

theorem Py.bind_eq_ok {α β : Type} {r : Py α} {f : α → Py β} {b : β} :
    (r >>= f) = .ok b ↔ ∃ a, r = .ok a ∧ f a = .ok b := by
  cases r <;> simp [bind, Except.bind]

theorem Py.bind_eq_error {α β : Type} {r : Py α} {f : α → Py β} {e : PyErr} :
    (r >>= f) = .error e ↔ r = .error e ∨ ∃ a, r = .ok a ∧ f a = .error e := by
  cases r <;> simp [bind, Except.bind]

instance {α : Type} [DecidableEq α] : DecidableEq (Py α) := fun a b =>
  match a, b with
  | .ok x, .ok y => if h : x = y then isTrue (by rw [h]) else isFalse (by simpa using h)
  | .error x, .error y => if h : x = y then isTrue (by rw [h]) else isFalse (by simpa using h)
  | .ok _, .error _ => isFalse (by simp)
  | .error _, .ok _ => isFalse (by simp)

instance {α : Type} (r : Py α) (e : PyErr) : Decidable (r = .error e) :=
  match r with
  | .ok _ => isFalse (by simp)
  | .error x => if h : x = e then isTrue (by rw [h]) else isFalse (by simpa using h)

end Feedx
