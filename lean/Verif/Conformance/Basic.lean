import Verif.Model.Pipeline
import Verif.Model.Assign
import Verif.Model.Binom

/-!
Helpers for running the model on the inputs of the repository's own unit tests.

The modules in this directory are tests of the model, not proofs of properties: each `example` evaluates the model on the literal input of one
unit test of the repository and compares the result with what that test expects.  They say that the model agrees with the code where the
repository's authors wrote down what the code does.
-/

namespace Feedx.Conformance

/-- A column of integers, of strings, of floats and of days of October 2023. -/
def ints (l : List ℤ) : List (Cell ℚ) := l.map .int
/-- see `ints` -/
def strs (l : List String) : List (Cell ℚ) := l.map .str
/-- see `ints` -/
def nums (l : List ℚ) : List (Cell ℚ) := l.map .num
/-- see `ints`; day 0 is September 30 -/
def oct (l : List ℤ) : List (Cell ℚ) := l.map (fun d => .time (d * dayNs))

/-- `pd.DataFrame({name: column, ...})`. -/
def frame (l : List (String × List (Cell ℚ))) : Frame ℚ := ofColumns (match l with | [] => 0 | p :: _ => p.2.length) l

/-- `assert_frame_equal(actual, expected, check_like=True)`: the same columns in any order, the same rows in order. -/
def same (actual : Py (Frame ℚ)) (expected : List (String × List (Cell ℚ))) : Bool :=
  match actual with
  | .error _ => false
  | .ok f => f.cols.isPerm (expected.map Prod.fst) && decide (expected.map (fun p => f.col p.1) = expected.map Prod.snd)

/-- `assertRaises(ValueError)`. -/
def raisesValueError {α : Type} (r : Py α) : Bool := match r with | .error .valueError => true | _ => false

/-- The call returns. -/
def returns {α : Type} (r : Py α) : Bool := match r with | .ok _ => true | _ => false

/-- Sorted by date, in the order given among equal dates. -/
def bySortedDate : DateSorter ℚ where
  sort := fun l => l.insertionSort (fun a b => Cell.rank a.2 ≠ 5 ∧ Cell.rank b.2 ≠ 5 ∨ Cell.rank a.2 = 5 ∧ (Cell.rank b.2 ≠ 5 ∨ (a.2.le b.2 = true)))
  perm := fun l => List.perm_insertionSort _ l
  sorted := fun l => by
    have : (l.insertionSort (fun a b => Cell.rank a.2 ≠ 5 ∧ Cell.rank b.2 ≠ 5 ∨ Cell.rank a.2 = 5 ∧ (Cell.rank b.2 ≠ 5 ∨ (a.2.le b.2 = true)))).Pairwise
        (fun a b => Cell.rank a.2 ≠ 5 ∧ Cell.rank b.2 ≠ 5 ∨ Cell.rank a.2 = 5 ∧ (Cell.rank b.2 ≠ 5 ∨ (a.2.le b.2 = true))) := by
      refine @List.pairwise_insertionSort _ _ _ ⟨?_⟩ ⟨?_⟩ l
      · rintro ⟨a1, a⟩ ⟨b1, b⟩
        cases a <;> cases b <;> simp [Cell.rank, Cell.le]
        exact le_total _ _
      · rintro ⟨a1, a⟩ ⟨b1, b⟩ ⟨c1, c⟩
        cases a <;> cases b <;> cases c <;> simp [Cell.rank, Cell.le]
        exact le_trans
    refine this.imp ?_
    rintro ⟨a1, a⟩ ⟨b1, b⟩
    cases a <;> cases b <;> simp [Cell.rank, Cell.le, dateLe]

/-- The conversions of pandas on the values of the tests: integers and a few texts. -/
def ext : Ext ℚ where
  toStr := fun c => match c with | .str s => s | .int 1 => "1" | .int 2 => "2" | .int 3 => "3" | _ => ""
  toStr_str := fun _ => rfl
  toInt := fun c => match c with | .int i => .ok i | _ => .error .valueError
  toInt_int := fun _ => rfl
  toDate := fun c => match c with
    | .time t => .ok (some t)
    | .str s => ([("2023-10-01", 1), ("2023-10-02", 2), ("2023-10-03", 3), ("2023-10-08", 8)].lookup s).elim (.error .valueError) (fun d => .ok (some (d * dayNs)))
    | _ => .error .valueError
  toNumeric := fun c => match c with
    | .str s => ([("1", 1), ("2", 2), ("3", 3), ("5", 5), ("2.3", 23 / 10), ("4.2", 42 / 10), ("5.0", 5)].lookup s).elim (.error .valueError) (fun x => .ok (.fin x))
    | c => .ok c.toFl
  toFloat := fun c => .ok c.toFl
  strptime := fun s => [("2023-10-01", 1 * dayNs), ("2023-10-02", 2 * dayNs)].lookup s

/-- `sample(frac=1.0)` that leaves the order as it is. -/
def inOrder : Shuffle := ⟨List.range, fun _ => List.Perm.refl _⟩

/-- `sample(n)` that takes the first entries. -/
def firstOnes : Sampler (Cell ℚ) where
  draw := fun l n => l.take n
  subperm := fun l n => (List.take_sublist n l).subperm
  length := fun l n h => by simp [h]

end Feedx.Conformance
