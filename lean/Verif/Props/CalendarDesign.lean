import Verif.Proofs.CalendarDesign
import Verif.Props.DesignExportExample

/-!
Property C133: a session of the experiment designer does not depend on when the history was recorded.
-/

set_option linter.unusedSectionVars false

namespace Feedx

/-- **C133, the data.**  Take historical data, and the same data with all dates later (or earlier, for a negative `τ`) by the same time.  Both are prepared and
accepted, or refused with the same error; and the prepared tables are the same except that the dates and the starts of the weeks are `τ` later. -/
theorem C133_prepared_data {K : Type} [Field K] [LinearOrder K] [IsStrictOrderedRing K] [FloorRing K] (R : Rounding K) (rng : Sampler (Cell K)) (E : Ext K)
    (D : DateSorter K) (raw raw' : Frame K) (itemCol dateCol primary primaryCol : String) (fraction : K) (skip : List String) (τ : ℤ)
    (h : Spec.RawLater E dateCol τ raw raw') :
    Spec.SameOutcome (Spec.TableLater ["date", "week_start"] τ) (prepareHistorical R rng E D raw itemCol dateCol primary primaryCol fraction skip)
      (prepareHistorical R rng E D raw' itemCol dateCol primary primaryCol fraction skip) := by
  rw [prepareHistorical_later h]
  cases prepareHistorical R rng E D raw itemCol dateCol primary primaryCol fraction skip with
  | error e => rfl
  | ok f => exact laterFrame_table f

theorem laterStudy_session {τ : ℤ} {S : List String} (s : Study) : Spec.SessionLater S τ s (laterStudy τ S s) := by
  unfold Spec.SessionLater laterStudy
  rw [List.forall₂_map_right_iff, List.forall₂_same]
  exact fun e _ => ⟨rfl, rfl, laterFrame_table _, rfl, rfl, rfl, rfl, rfl, rfl⟩

/-- **C133.**  Take two raw tables that are the same except that all dates in the second one are later (or earlier) by the same time.  With the same form and the
same random draws the designer opens a session for both, or raises the same error for both.  The prepared histories are the same except for the dates, and the
designs, their estimates and later their simulation results are the same.  After any sequence of validations and assignments this is still so; the next validation
returns in both sessions, or raises the same error in both; the next assignment gives the same assignment table and the same design file, or raises the same error;
and the table that is shown is the same. -/
theorem C133_session_calendar (V : StudyEnv) (form : StudyForm) {raw raw' : Frame ℝ} (τ : ℤ) (hraw : Spec.RawLater V.ext form.dateCol τ raw raw') :
    Spec.SameOutcome (fun (S S' : Frame ℝ × Study) => Spec.TableLater ["date", "week_start"] τ S.1 S'.1 ∧ ∀ cells : List StudyCell,
        let s := runCells V S.1 S.2 cells
        let s' := runCells V S'.1 S'.2 cells
        Spec.SessionLater ["date", "week_start"] τ s s' ∧
        (∀ force targets, (validateStudy V force targets s').1 = (validateStudy V force targets s).1) ∧
        (∀ binom σ bytes id fileName, (exportStudy V binom σ bytes S'.1 id fileName s').1 = (exportStudy V binom σ bytes S.1 id fileName s).1) ∧
        ∀ sorter text withValidation, showStudy V sorter text withValidation s' = showStudy V sorter text withValidation s)
      (openStudy V form raw) (openStudy V form raw') := by
  rw [openStudy_later V form hraw]
  cases e : openStudy V form raw with
  | error x => rfl
  | ok S =>
    have hn : StudyNames ["date", "week_start"] S.2 := openStudy_names (by decide) e
    refine ⟨laterFrame_table S.1, fun cells => ?_⟩
    obtain ⟨h1, h2⟩ := runCells_later (τ := τ) (by decide) (by decide) (by decide) V S.1 cells hn
    simp only
    rw [h1]
    exact ⟨laterStudy_session _, fun force targets => by rw [(validateStudy_later (by decide) V force targets h2).1],
      fun binom σ bytes id fileName => by rw [(exportStudy_later (by decide) (by decide) V binom σ bytes S.1 id fileName h2).1],
      fun sorter text b => showStudy_later V sorter text b _⟩

/-- C133 for a session that is opened and assigned. -/
theorem session_calendar_ok (V : StudyEnv) (form : StudyForm) {raw raw' : Frame ℝ} (τ : ℤ) (hraw : Spec.RawLater V.ext form.dateCol τ raw raw')
    {data : Frame ℝ} {s : Study} (h : openStudy V form raw = .ok (data, s)) :
    ∃ data' s', openStudy V form raw' = .ok (data', s') ∧ ∀ {cells binom σ bytes id fileName},
      (exportStudy V binom σ bytes data' id fileName (runCells V data' s' cells)).1 =
        (exportStudy V binom σ bytes data id fileName (runCells V data s cells)).1 := by
  have key := C133_session_calendar V form τ hraw
  rw [h] at key
  cases h' : openStudy V form raw' with
  | error e => rw [h'] at key; exact key.elim
  | ok S' =>
    rw [h'] at key
    exact ⟨S'.1, S'.2, rfl, fun {cells} {_} {_} {_} {_} {_} => (key.2 cells).2.2.1 _ _ _ _ _⟩

/-- The example history with all dates later by any time. -/
theorem study_later (τ : ℤ) (name : String) : Spec.RawLater studyExt "day" τ (studyRaw name) (laterFrame τ ["day"] (studyRaw name)) := by
  refine ⟨rfl, ?_⟩
  show List.Forall₂ _ (studyRaw name).rows ((studyRaw name).rows.map _)
  rw [List.forall₂_map_right_iff, List.forall₂_same]
  intro r hr
  refine ⟨fun x hx => laterRow_of_not_mem (by simpa using hx) r, ?_⟩
  rw [laterRow_of_mem (by decide)]
  cases r "day" <;> exact rfl

/-- `C133_session_calendar` is not vacuous: the study of C118 that cuts items, with sixty items over five weeks, is opened, validated and exported for the same history
a hundred days later too, with the same table of 54 items and the same design file. -/
example : ∃ (V : StudyEnv) (data data' : Frame ℝ) (s s' : Study) (cells : List StudyCell) (id : List Char) (items : Frame ℝ) (file : Dict (YVal ℝ)),
    openStudy V trimForm (studyRaw "profit") = .ok (data, s) ∧
    openStudy V trimForm (laterFrame (100 * 86400000000000) ["day"] (studyRaw "profit")) = .ok (data', s') ∧ items.rows.length = 54 ∧
    (exportStudy V (fun _ _ => .ok 1) noShuffle [1] data id "design.yaml" (runCells V data s cells)).1 = .ok (items, file) ∧
    (exportStudy V (fun _ _ => .ok 1) noShuffle [1] data' id "design.yaml" (runCells V data' s' cells)).1 = .ok (items, file) := by
  obtain ⟨V, data, s, cells, id, hV, -, -, h, -, items, file, s1, hexp, hlen⟩ := trimForm_exported
  have k : Spec.RawLater V.ext trimForm.dateCol (100 * 86400000000000) (studyRaw "profit") (laterFrame (100 * 86400000000000) ["day"] (studyRaw "profit")) := by
    rw [hV]
    exact study_later _ _
  obtain ⟨data', s', h', k⟩ := session_calendar_ok V trimForm _ k h
  exact ⟨V, data, data', s, s', cells, id, items, file, h, h', hlen, by rw [hexp], by rw [k, hexp]⟩

end Feedx
