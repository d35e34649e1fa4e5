import Verif.Base.Fl
import Verif.Spec.Prepare

/-!
Vocabulary for trimming items.
-/

set_option linter.unusedSectionVars false

namespace Feedx.Spec

variable {K : Type} [Field K] [LinearOrder K]

/-- `kept` is what is left of `all`, in the same order, after cutting `a` with the highest and `b` with the lowest values. -/
def CutsExtremes {α : Type} (value : α → Fl K) (a b : ℤ) (all kept : List α) : Prop :=
  ∃ high low, all.Perm (high ++ kept ++ low) ∧ kept.Sublist all ∧ (high.length : ℤ) = a ∧ (low.length : ℤ) = b ∧
    (∀ x ∈ high, ∀ y ∈ kept, Fl.le (value y) (value x) = true) ∧ (∀ y ∈ kept, ∀ z ∈ low, Fl.le (value z) (value y) = true) ∧
    ∀ x ∈ high, ∀ z ∈ low, Fl.le (value z) (value x) = true

/-- The same when some values are missing: nothing is cut if `a` and `b` are zero; otherwise all those without a value are cut, and they
count as the lowest ones. -/
def CutsExtremesOrMissing {α : Type} (value : α → Fl K) (a b : ℤ) (all kept : List α) : Prop :=
  (a = 0 ∧ b = 0 → kept = all) ∧
  (¬ (a = 0 ∧ b = 0) → kept.Sublist all ∧ ∃ high low missing, all.Perm (high ++ kept ++ low ++ missing) ∧
    (∀ x ∈ missing, (value x).isNan = true) ∧ (∀ x ∈ high ++ kept ++ low, (value x).isNan = false) ∧
    (high.length : ℤ) = min a (all.length - missing.length) ∧
    ((low ++ missing).length : ℤ) = max b missing.length ∧
    (∀ x ∈ high, ∀ y ∈ kept, Fl.le (value y) (value x) = true) ∧ (∀ y ∈ kept, ∀ z ∈ low, Fl.le (value z) (value y) = true) ∧
    ∀ x ∈ high, ∀ z ∈ low, Fl.le (value z) (value x) = true)

/-- The row is from one of the last `n` weeks of the data. -/
def InLastWeeks (f : Frame K) (weekCol : String) (n : ℤ) (r : Row K) : Prop :=
  ∃ w, r weekCol = .int w ∧ ∀ r' ∈ f.rows, ∀ w', r' weekCol = .int w' → w' - n < w

/-- Total of a metric of an item over the last `n` weeks of the data, skipping missing values. -/
noncomputable def lastWeeksTotal (f : Frame K) (weekCol : String) (n : ℤ) (itemCol metric : String) (i : Cell K) : Fl K :=
  open Classical in Fl.sumSkip ((f.rows.filter (fun r => decide (r itemCol = i ∧ InLastWeeks f weekCol n r))).map (fun r => (r metric).toFl))

end Feedx.Spec
