import Verif.Spec.History
import Verif.Spec.Estimate
import Verif.Model.DesignStudy

/-!
Specification for C126: the estimates of the experiment designer in terms of the rows of the raw data.
-/

namespace Feedx.Spec

/-- Total of the raw values of an item with a date in the weeks `[lo, hi)`, counted in sevens of days from `first`. -/
noncomputable def rowsTotal (E : Ext ℝ) (raw : Frame ℝ) (itemCol : String) (time : Row ℝ → ℤ) (value : Row ℝ → ℝ) (first lo hi : ℤ) (item : String) : ℝ :=
  ((raw.rows.filter (fun q => decide (E.toStr (q itemCol) = item ∧
    first + lo * (7 * 86400000000000) ≤ time q ∧ time q < first + hi * (7 * 86400000000000)))).map value).sum

/-- The same per week. -/
noncomputable def rowsAverage (E : Ext ℝ) (raw : Frame ℝ) (itemCol : String) (time : Row ℝ → ℤ) (value : Row ℝ → ℝ) (first lo hi : ℤ) (item : String) :
    ℝ := rowsTotal E raw itemCol time value first lo hi item / ((hi - lo : ℤ) : ℝ)

/-- The start weeks that the designer tries, for raw data of `weeks` complete weeks: the longest pretest fits before and the experiment ends in time. -/
def TriedStarts (pretests : List ℤ) (weeks : ℤ) (d : Design ℝ) (starts : List ℤ) : Prop :=
  starts.Nodup ∧ ∀ start, start ∈ starts ↔ (∀ p ∈ pretests, p ≤ start) ∧ start + d.runtime ≤ weeks

/-- Nothing is trimmed. -/
def Untrimmed (d : Design ℝ) : Prop := d.preTop.val = 0 ∧ d.preBottom.val = 0 ∧ d.postTrim.val = 0

/-- The designer is run on usable raw data, with at most 2^51 items and a fraction of them to keep that leaves at least one. -/
structure RawStudy (V : StudyEnv) (form : StudyForm) (raw : Frame ℝ) (first step n : ℤ) (time : Row ℝ → ℤ) (value : Row ℝ → ℝ) : Prop where
  usable : Spec.UsableRaw V.ext raw form.itemCol form.dateCol form.primary form.primaryCol first step n time value
  pos : 0 < form.fraction
  le_one : form.fraction ≤ 1
  some_items : 1 ≤ form.fraction * ((raw.rows.map (fun q => V.ext.toStr (q form.itemCol))).toFinset.card : ℝ)
  size : (raw.rows.map (fun q => V.ext.toStr (q form.itemCol))).toFinset.card ≤ 2 ^ 51

end Feedx.Spec
