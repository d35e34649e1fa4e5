import Verif.Spec.TimePeriod
import Verif.Base.Frame
import Mathlib.Data.Real.Basic
import Mathlib.Algebra.Order.Archimedean.Real.Basic

/-!
Specification for the design simulations.
-/

namespace Feedx.Spec

/-- Historical data that is complete for a design and its start weeks: weeks are integers (or missing), the primary metric has no
infinite values, and for every start week the items with a row in the experiment's weeks are as many as the design says. -/
structure CompleteHistory (d : Design ℝ) (itemCol weekCol : String) (starts : List ℤ) (rows : List (Row ℝ)) : Prop where
  weeks : ∀ r ∈ rows, r weekCol = .null ∨ ∃ w : ℤ, r weekCol = .int w
  finite : ∀ r ∈ rows, (r d.primaryMetric).toFl = .nan ∨ ∃ x, (r d.primaryMetric).toFl = .fin x
  items : ∀ start ∈ starts, ∃ items : List (Cell ℝ), items.Nodup ∧ (items.length : ℤ) = d.nBefore ∧
    ∀ x, x ∈ items ↔ x ≠ .null ∧ ∃ r ∈ rows, r itemCol = x ∧ ∃ w : ℤ, r weekCol = .int w ∧ ∃ label, InPeriod d.toDesignParams start label w

/-- Complete historical data with the needed columns, and with some row in every period (that has weeks) of every start week. -/
structure UsableHistory (d : Design ℝ) (itemCol weekCol periodCol : String) (starts : List ℤ) (f : Frame ℝ) : Prop where
  complete : CompleteHistory d itemCol weekCol starts f.rows
  columns : itemCol ∈ f.cols ∧ weekCol ∈ f.cols ∧ d.primaryMetric ∈ f.cols ∧ periodCol ∉ f.cols
  periods : ∀ start ∈ starts, ∀ label lo hi, (label, lo, hi) ∈ timeline d.toDesignParams start → lo < hi →
    ∃ r ∈ f.rows, r itemCol ≠ .null ∧ ∃ w : ℤ, r weekCol = .int w ∧ lo ≤ w ∧ w < hi

/-- When CUPED cannot fail for lack of variation: it is not used, or values are trimmed afterwards. -/
def NoPlainCuped (R : Rounding ℝ) (d : Design ℝ) : Prop :=
  d.isCrossover = true ∨ d.pretest = 0 ∨ 0 < ⌊R.rnd (d.postTrim.val * d.nAfterPre)⌋

end Feedx.Spec
