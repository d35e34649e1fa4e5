import Verif.Base.Frame
import Mathlib.Data.Finset.Card
import Mathlib.Order.Bounds.Basic
import Mathlib.Algebra.Order.Ring.Int

/-!
Specification vocabulary for the prepared data.
-/

set_option linter.unusedSectionVars false

namespace Feedx.Spec

variable {K : Type}

/-- Number of rows of item `i` on date `d`. -/
def rowsAt [DecidableEq K] (f : Frame K) (itemCol dateCol : String) (i d : Cell K) : ℕ :=
  f.rows.countP (fun r => decide (r itemCol = i ∧ r dateCol = d))

/-- The cell is the number zero. -/
def IsZero [Zero K] (c : Cell K) : Prop := c = .int 0 ∨ c = .num 0

/-- Cells a metric column may hold: numbers or missing. -/
def IsNumber (c : Cell K) : Prop := (∀ s, c ≠ .str s) ∧ (∀ t, c ≠ .time t)

/-- The cell is a number greater than zero. -/
def IsPositive [Zero K] [LT K] (c : Cell K) : Prop :=
  (∃ i : ℤ, c = .int i ∧ 0 < i) ∨ (∃ x : K, c = .num x ∧ 0 < x) ∨ c = .inf false

/-- `d` is a date of the column. -/
def HasDate (f : Frame K) (dateCol : String) (t : ℤ) : Prop := ∃ r ∈ f.rows, r dateCol = .time t

/-- Every date of the column is followed, if at all, by one that many days (rounded down) later; no date is missing if there are
any. -/
def SpacedBy (n : ℤ) (f : Frame K) (dateCol : String) : Prop :=
  (∀ t, HasDate f dateCol t → ∀ r ∈ f.rows, r dateCol ≠ .null) ∧
  ∀ a b, HasDate f dateCol a → HasDate f dateCol b → a < b → (∀ t, HasDate f dateCol t → ¬ (a < t ∧ t < b)) →
    n * 86400000000000 ≤ b - a ∧ b - a < (n + 1) * 86400000000000

/-- The distinct dates of the rows with a given key. -/
noncomputable def datesOf [DecidableEq K] (f : Frame K) (keys : List String) (k : List (Cell K)) (dateCol : String) : Finset (Cell K) :=
  (((f.rows.filter (fun r => decide (keys.map r = k))).map (fun r => r dateCol)).toFinset).erase .null

end Feedx.Spec
