import Verif.Proofs.ScalingSession
import Verif.Props.DesignExportExample
import Verif.Props.DesignUnitsExample
import Verif.Props.UnitsExample

/-!
Property C130: a session of the experiment designer does not depend on the unit of the primary metric.
-/

set_option linter.unusedSectionVars false

namespace Feedx

open Fl

/-- **C130.**  Take two raw tables that are the same except for the unit of the primary metric: in its column, the value that is read from the second table
is the one of the first table times a number `c > 0` (where a cell cannot be read, neither can the other, with the same error).  With the same form and the
same random draws the designer opens a session for both, or raises the same error for both.  The prepared histories and the estimates are the same in the
new unit, for the same designs.  After any sequence of validations and assignments this is still so; the next validation returns in both sessions, or
raises the same error in both; the next assignment gives the same assignment table and the same design file, or raises the same error; and the table that
is shown has the same rows in the same order, with the same caption, texts and colours and the same values except that the minimum detectable effects are
in the new unit.  The designs may trim items before and after the experiment and may be crossovers, and the designer may use a part of the items. -/
theorem C130_session_units {c : ℝ} (hc : 0 < c) (V : StudyEnv) (hsort : Spec.SortsInUnits V.argsort c) (ht1 : Spec.MeansInUnits V.tests.t1 c)
    (form : StudyForm) {raw raw' : Frame ℝ} (hraw : Spec.RawUnits V.ext form.primary form.primaryCol c raw raw')
    (hname : form.metric ∉ ["week_id", "week_start", "time_period"]) :
    Spec.SameOutcome (fun (S S' : Frame ℝ × Study) => Spec.ColumnTimes c form.metric S.1 S'.1 ∧ ∀ cells : List StudyCell,
        let s := runCells V S.1 S.2 cells
        let s' := runCells V S'.1 S'.2 cells
        Spec.SessionTimes c form.metric s s' ∧
        (∀ force targets, (validateStudy V force targets s').1 = (validateStudy V force targets s).1) ∧
        (∀ binom σ bytes id fileName, (exportStudy V binom σ bytes S'.1 id fileName s').1 = (exportStudy V binom σ bytes S.1 id fileName s).1) ∧
        ∀ sorter text withValidation, showStudy V sorter text withValidation s' = (showStudy V sorter text withValidation s).map (Spec.shownInUnits c))
      (openStudy V form raw) (openStudy V form raw') := by
  have hn := hname
  simp only [List.mem_cons, List.not_mem_nil, or_false, not_or] at hn
  refine (openStudy_units hc V hsort form hraw hname).imp fun S S' _ _ h => ?_
  obtain ⟨hf, hi, hs⟩ := h
  refine ⟨hf.times, fun cells => ?_⟩
  have hr := runCells_units hc V hsort ht1 hi hn.1 hn.2.2 hf cells hs
  exact ⟨hr.times, fun force targets => (validateStudy_units hc V hsort hi hn.1 hn.2.2 force targets hr).1,
    fun binom σ bytes id fileName => (exportStudy_units hc V ht1 hi hn.1 binom σ bytes hf id fileName hr).1,
    fun sorter text b => showStudy_units hc V ht1 sorter text b hr⟩

/-- C130 for a session that is opened and assigned. -/
theorem session_units_ok {c : ℝ} (hc : 0 < c) (V : StudyEnv) (hsort : Spec.SortsInUnits V.argsort c) (ht1 : Spec.MeansInUnits V.tests.t1 c)
    (form : StudyForm) {raw raw' : Frame ℝ} (hraw : Spec.RawUnits V.ext form.primary form.primaryCol c raw raw')
    (hname : form.metric ∉ ["week_id", "week_start", "time_period"]) {data : Frame ℝ} {s : Study} (h : openStudy V form raw = .ok (data, s)) :
    ∃ data' s', openStudy V form raw' = .ok (data', s') ∧ ∀ cells, Spec.SessionTimes c form.metric (runCells V data s cells) (runCells V data' s' cells) ∧
      ∀ {binom σ bytes id fileName}, (exportStudy V binom σ bytes data' id fileName (runCells V data' s' cells)).1 =
        (exportStudy V binom σ bytes data id fileName (runCells V data s cells)).1 := by
  have key := C130_session_units hc V hsort ht1 form hraw hname
  rw [h] at key
  cases h' : openStudy V form raw' with
  | error e => rw [h'] at key; exact key.elim
  | ok S' =>
    rw [h'] at key
    obtain ⟨-, k⟩ := key
    exact ⟨S'.1, S'.2, rfl, fun cells => ⟨(k cells).1, (k cells).2.2.1 _ _ _ _ _⟩⟩

theorem cents_raw : Spec.RawUnits studyExt "other" "profit" 100 (studyRaw "profit") centsRaw := by
  refine ⟨rfl, ?_⟩
  show List.Forall₂ _ (List.map _ _) (List.map _ _)
  rw [List.forall₂_map_left_iff, List.forall₂_map_right_iff, List.forall₂_same]
  intro p _
  refine ⟨fun x hx => if_neg hx, ?_⟩
  rw [centsRow_value, studyRow_value (by decide) (by decide)]
  show Spec.SameOutcome _ (Except.ok _) (Except.ok _)
  show (Cell.num _ : Cell ℝ).toFl = fin 100 * (Cell.num _ : Cell ℝ).toFl
  simp only [Cell.toFl, fin_mul]

/-- `C130_session_units` is not vacuous: the study of C118 that cuts items, with sixty items over five weeks, is opened, validated and exported for the
values in cents too, with the same table of 54 items and the same design file. -/
example : ∃ (V : StudyEnv) (data data' : Frame ℝ) (s s' : Study) (cells : List StudyCell) (id : List Char) (items : Frame ℝ) (file : Dict (YVal ℝ)),
    openStudy V trimForm (studyRaw "profit") = .ok (data, s) ∧ openStudy V trimForm centsRaw = .ok (data', s') ∧ items.rows.length = 54 ∧
    (exportStudy V (fun _ _ => .ok 1) noShuffle [1] data id "design.yaml" (runCells V data s cells)).1 = .ok (items, file) ∧
    (exportStudy V (fun _ _ => .ok 1) noShuffle [1] data' id "design.yaml" (runCells V data' s' cells)).1 = .ok (items, file) ∧
    Spec.SessionTimes 100 "profit" s s' := by
  obtain ⟨V, data, s, cells, id, hV, hsort, ht, h, -, items, file, s1, hexp, hlen⟩ := trimForm_exported
  have h100 : (0 : ℝ) < 100 := by norm_num
  have k1 : Spec.SortsInUnits V.argsort 100 := by rw [hsort]; exact stableArgsort_units h100
  have k2 : Spec.MeansInUnits V.tests.t1 100 := fun l m => (ht _ _).trans (ht _ _).symm
  have k3 : Spec.RawUnits V.ext trimForm.primary trimForm.primaryCol 100 (studyRaw "profit") centsRaw := by rw [hV]; exact cents_raw
  have k4 : trimForm.metric = "profit" := rfl
  have k5 : trimForm.metric ∉ ["week_id", "week_start", "time_period"] := by rw [k4]; decide
  obtain ⟨data', s', h', k⟩ := session_units_ok h100 V k1 k2 trimForm k3 k5 h
  exact ⟨V, data, data', s, s', cells, id, items, file, h, h', hlen, by rw [hexp], by rw [(k cells).2, hexp], (k []).1⟩

end Feedx
