import Verif.Model.AnalyseStudy
import Verif.Model.DesignStudy
import Verif.Props.CorrectRun

/-!
Specification for the way from the designer to the analyser (C119).
-/

set_option linter.unusedSectionVars false

namespace Feedx.Spec

/-- The designer, with any data and any cells run in any order, exported this assignment table and this design file. -/
def Exported (V : StudyEnv) (form : StudyForm) (raw data : Frame ℝ) (cells : List StudyCell) (binom : ℕ → ℕ → Py ℝ) (items : Frame ℝ)
    (file : Dict (YVal ℝ)) : Prop :=
  ∃ s σ bytes id fileName s', openStudy V form raw = .ok (data, s) ∧
    exportStudy V binom σ bytes data id fileName (runCells V data s cells) = (.ok (items, file), s')

/-- `assign` is the exported assignment table, possibly with other column names, its rows in another order and the cells read back as other values with
the same texts (of the items) and integers (of the assignments). -/
def ReadBack (E : Ext ℝ) (items assign : Frame ℝ) (itemCol treatCol : String) : Prop :=
  assign.cols = [itemCol, treatCol] ∧
  (assign.rows.map (fun r => (E.toStr (r itemCol), E.toInt (r treatCol)))).Perm
    (items.rows.map (fun r => (E.toStr (r "item_id"), E.toInt (r "treatment_assignment"))))

/-- The columns of the standard metrics that the user gave. -/
def givenColumns (form : AnalyserForm) : List String :=
  [form.clicks, form.impressions, form.totalCost, form.conversions, form.totalConversionValue].filter (fun c => decide (c ≠ ""))

/-- The names in the analyser's form fit the performance data: it has the columns named, no two of them the same, and the other metrics are not called
like a column of the prepared data. -/
structure FormFits (perf : Frame ℝ) (form : AnalyserForm) : Prop where
  columns : ∀ c ∈ form.itemCol :: form.dateCol :: (givenColumns form ++ form.others), c ∈ perf.cols
  distinct : (form.itemCol :: form.dateCol :: (givenColumns form ++ form.others)).Nodup
  different : form.itemCol ≠ form.treatCol
  others : ∀ c ∈ form.others, c ∉ standardNames ∧ c ∉ calendarNames ∧
    c ∉ ["at_least_one_click", "at_least_one_impression", "at_least_one_conversion"]

/-- All five standard metrics are given. -/
def AllGiven (form : AnalyserForm) : Prop :=
  form.clicks ≠ "" ∧ form.impressions ≠ "" ∧ form.totalCost ≠ "" ∧ form.conversions ≠ "" ∧ form.totalConversionValue ≠ ""

/-- The data given to the analyser is that of a concluded experiment that was run according to the design `d` from the date `start` on, with the exported
items, and no check is skipped. -/
structure StudyRun (E : Ext ℝ) (d : Design ℝ) (items perf assign : Frame ℝ) (form : AnalyserForm) (start : ℤ) : Prop where
  table : ReadBack E items assign form.itemCol form.treatCol
  names : FormFits perf form
  date : E.strptime form.startDate = some start
  performance : CorrectPerformance E d perf form.itemCol form.dateCol form.args start
  concluded : form.concluded = true
  checked : form.skip = []

/-- The group of an item by its coinflip. -/
def FlippedTo (salt : String) (b : Bool) (item : String) : Prop := (Coinflip.mk salt).flip item = if b then 1 else 0

end Feedx.Spec
