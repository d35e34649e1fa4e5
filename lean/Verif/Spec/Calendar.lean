import Verif.Model.Prepare
import Verif.Model.DesignStudy
import Verif.Spec.ReportUnits

/-!
Specification for C132 and C133: the same data at another time.
-/

namespace Feedx.Spec

/-- The cell at another time: a date is `τ` later, and everything else stays as it is. -/
def later {K : Type} (τ : ℤ) : Cell K → Cell K
  | .time t => .time (t + τ)
  | c => c

/-- The tables are the same, except that the dates in the columns `S` are `τ` later in the second one. -/
def TableLater {K : Type} (S : List String) (τ : ℤ) (f f' : Frame K) : Prop :=
  f'.cols = f.cols ∧ List.Forall₂ (fun r r' => ∀ x, r' x = if x ∈ S then later τ (r x) else r x) f.rows f'.rows

/-- The raw tables are the same except in the column `dateCol`: there, both have a cell that cannot be read as a date, with the same error, or the date read
from the second table is `τ` later than that of the first one, or both dates are missing. -/
def RawLater {K : Type} (E : Ext K) (dateCol : String) (τ : ℤ) (raw raw' : Frame K) : Prop :=
  raw'.cols = raw.cols ∧ List.Forall₂ (fun r r' => (∀ x, x ≠ dateCol → r' x = r x) ∧
    SameOutcome (fun t t' => t' = t.map (· + τ)) (E.toDate (r dateCol)) (E.toDate (r' dateCol))) raw.rows raw'.rows

/-- The same designs, in the same order and with the same settings, estimates and simulation results; only the dates in the columns `S` of the historical data that
the analyses hold are `τ` later. -/
def SessionLater (S : List String) (τ : ℤ) (s s' : Study) : Prop :=
  List.Forall₂ (fun e e' => e'.1 = e.1 ∧ e'.2.1 = e.2.1 ∧ TableLater S τ e.2.2.data e'.2.2.data ∧ e'.2.2.mde = e.2.2.mde ∧
    e'.2.2.relativeMde = e.2.2.relativeMde ∧ e'.2.2.average = e.2.2.average ∧ e'.2.2.sd = e.2.2.sd ∧ e'.2.2.aa = e.2.2.aa ∧ e'.2.2.ab = e.2.2.ab) s s'

end Feedx.Spec
