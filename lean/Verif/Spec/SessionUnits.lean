import Verif.Model.DesignStudy
import Verif.Spec.DesignUnits

/-!
Specification for C130: a session of the experiment designer, with the primary metric in other units.
-/

namespace Feedx.Spec

/-- How the values of the primary metric are read from the cells of the raw table: as numbers, or (for a metric of the user) as floats. -/
def readMetric (E : Ext ℝ) (primary : String) : Cell ℝ → Py (Fl ℝ) := if primary = "other" then E.toFloat else E.toNumeric

/-- The raw tables are the same except in the column `col`: there, both have a cell that cannot be read, with the same error, or the value read from the
second table is the one of the first table times `c`. -/
def RawUnits (E : Ext ℝ) (primary col : String) (c : ℝ) (raw raw' : Frame ℝ) : Prop :=
  raw'.cols = raw.cols ∧ List.Forall₂ (fun r r' => (∀ x, x ≠ col → r' x = r x) ∧
    SameOutcome (fun v v' => v' = .fin c * v) (readMetric E primary (r col)) (readMetric E primary (r' col))) raw.rows raw'.rows

/-- The same designs, in the same order and with the same settings, and for each the analysis in other units. -/
def SessionTimes (c : ℝ) (metric : String) (s s' : Study) : Prop :=
  List.Forall₂ (fun e e' => e'.1 = e.1 ∧ e'.2.1 = e.2.1 ∧ StudyTimes c metric e.2.2 e'.2.2) s s'

/-- A value of a summary in other units. -/
noncomputable def timesValue (c : ℝ) : SVal ℝ → SVal ℝ
  | .flt x => .flt (.fin c * x)
  | v => v

/-- A cell of the displayed table in other units: only the value in the column of the minimum detectable effect is multiplied by `c`. -/
noncomputable def cellInUnits (c : ℝ) (col : String) (cell : ShownCell ℝ) : ShownCell ℝ :=
  if col = "Minimum Detectable Effect" then { cell with value := timesValue c cell.value } else cell

/-- The displayed table in other units. -/
noncomputable def shownInUnits (c : ℝ) (t : ShownSummary ℝ) : ShownSummary ℝ :=
  { t with rows := t.rows.map (fun r => (r.1, List.zipWith (cellInUnits c) t.cols r.2)) }

end Feedx.Spec
