import Verif.Props.RowOrder
import Verif.Proofs.RowOrderStudy

/-!
Properties: C122 for the designer notebook.  The order of the rows of the loaded historical data makes no difference to what the notebook shows, whatever
cells are run in whatever order, and only changes the order of the rows of the exported assignment.
-/

set_option linter.unusedSectionVars false

namespace Feedx

/-- If the prepared data has the same rows, so have the results of the notebook. -/
theorem openStudy_prepared (V : StudyEnv) (form : StudyForm) {raw raw' : Frame ℝ}
    (hprep : ∀ f, prepareHistorical V.R V.rng V.ext V.sorter raw form.itemCol form.dateCol form.primary form.primaryCol form.fraction form.skip = .ok f →
      ∃ f', prepareHistorical V.R V.rng V.ext V.sorter raw' form.itemCol form.dateCol form.primary form.primaryCol form.fraction form.skip = .ok f' ∧
        f'.cols = f.cols ∧ f'.rows.Perm f.rows)
    (data : Frame ℝ) (study : Study) (h : openStudy V form raw = .ok (data, study)) :
    ∃ data' study', openStudy V form raw' = .ok (data', study') ∧ data'.cols = data.cols ∧ data'.rows.Perm data.rows ∧
      ∀ cells : List StudyCell,
        (∀ S text withValidation, showStudy V S text withValidation (runCells V data' study' cells) =
          showStudy V S text withValidation (runCells V data study cells)) ∧
        (∀ force targets, (validateStudy V force targets (runCells V data' study' cells)).1 =
          (validateStudy V force targets (runCells V data study cells)).1) ∧
        (∀ binom σ bytes id fileName,
          (∀ table file, (exportStudy V binom σ bytes data id fileName (runCells V data study cells)).1 = .ok (table, file) →
            ∃ table', (exportStudy V binom σ bytes data' id fileName (runCells V data' study' cells)).1 = .ok (table', file) ∧
              table'.cols = table.cols ∧ table'.rows.Perm table.rows) ∧
          (∀ e, (exportStudy V binom σ bytes data id fileName (runCells V data study cells)).1 = .error e →
            (exportStudy V binom σ bytes data' id fileName (runCells V data' study' cells)).1 = .error e)) := by
  unfold openStudy at h
  obtain ⟨f, ef, h⟩ := Py.bind_eq_ok.mp h
  obtain ⟨hw, h⟩ := raiseIf_bind_ok.mp h
  obtain ⟨designs, ed, h⟩ := Py.bind_eq_ok.mp h
  obtain ⟨minStart, em, h⟩ := Py.bind_eq_ok.mp h
  obtain ⟨st, es, h⟩ := Py.bind_eq_ok.mp h
  obtain ⟨rfl, rfl⟩ := Prod.mk.inj (Except.ok.inj h)
  obtain ⟨f', ef', hc, hr⟩ := hprep f ef
  have hs : Spec.SameRows f f' := ⟨hc, hr⟩
  have hest := estimateDesigns_same (V := V) hs minStart designs
  rw [es] at hest
  cases es' : estimateDesigns V f' minStart designs with
  | error e => rw [es'] at hest; exact hest.elim
  | ok st' =>
    rw [es'] at hest
    replace hest : SameStudy st st' := hest
    refine ⟨f', st', ?_, hc, hr, fun cells => ?_⟩
    · unfold openStudy
      refine Py.bind_eq_ok.mpr ⟨f', ef', raiseIf_bind_ok.mpr ⟨hw, Py.bind_eq_ok.mpr ⟨designs, ?_, Py.bind_eq_ok.mpr ⟨minStart, ?_,
        Py.bind_eq_ok.mpr ⟨st', es', rfl⟩⟩⟩⟩⟩
      · rw [← ed]
        unfold StudyForm.candidates
        rw [nunique_perm (hs.col "item_id")]
      · rw [← em]
        have hi : (ints (dropDup (f'.col "week_id"))).Perm (ints (dropDup (f.col "week_id"))) := (dropDup_perm (hs.col "week_id")).filterMap _
        exact minStartWeek_perm _ _ hi
    · have hcells := runCells_same (V := V) hs cells hest
      refine ⟨fun S text b => showStudy_same hcells, fun force targets => (validateStudy_same targets hcells).1, fun binom σ bytes id fileName => ?_⟩
      have hx := (exportStudy_same (V := V) (binom := binom) (σ := σ) (bytes := bytes) hs (id := id) (fileName := fileName) hcells).1
      constructor
      · intro table file e
        rw [e] at hx
        cases e' : (exportStudy V binom σ bytes f' id fileName (runCells V f' st' cells)).1 with
        | error x => rw [e'] at hx; exact hx.elim
        | ok y =>
          rw [e'] at hx
          obtain ⟨t', file'⟩ := y
          obtain ⟨h1, h2⟩ := hx
          simp only at h1 h2
          subst h2
          exact ⟨t', rfl, h1.cols, h1.rows⟩
      · intro x e
        rw [e] at hx
        cases e' : (exportStudy V binom σ bytes f' id fileName (runCells V f' st' cells)).1 with
        | error x' => rw [e'] at hx; rw [show x' = x from hx]
        | ok y => rw [e'] at hx; exact hx.elim

/-- **C122, designer notebook.**  If the historical data is accepted and not reduced to a sample, then with its rows in any other order it is accepted too,
and whatever cells are run afterwards, and in whatever order, with the same random values:
the tables of designs displayed are the same, validating has the same outcome, and exporting a design gives the same file and the same assignments,
possibly listed in another order, or the same error. -/
theorem C122_designer (V : StudyEnv) (form : StudyForm) (hall : form.fraction = 1) {raw raw' : Frame ℝ} (hraw : Spec.SameRows raw raw')
    (data : Frame ℝ) (study : Study) (h : openStudy V form raw = .ok (data, study)) :
    ∃ data' study', openStudy V form raw' = .ok (data', study') ∧ data'.cols = data.cols ∧ data'.rows.Perm data.rows ∧
      ∀ cells : List StudyCell,
        (∀ S text withValidation, showStudy V S text withValidation (runCells V data' study' cells) =
          showStudy V S text withValidation (runCells V data study cells)) ∧
        (∀ force targets, (validateStudy V force targets (runCells V data' study' cells)).1 =
          (validateStudy V force targets (runCells V data study cells)).1) ∧
        (∀ binom σ bytes id fileName,
          (∀ table file, (exportStudy V binom σ bytes data id fileName (runCells V data study cells)).1 = .ok (table, file) →
            ∃ table', (exportStudy V binom σ bytes data' id fileName (runCells V data' study' cells)).1 = .ok (table', file) ∧
              table'.cols = table.cols ∧ table'.rows.Perm table.rows) ∧
          (∀ e, (exportStudy V binom σ bytes data id fileName (runCells V data study cells)).1 = .error e →
            (exportStudy V binom σ bytes data' id fileName (runCells V data' study' cells)).1 = .error e)) :=
  openStudy_prepared V form (fun f hf => by rw [hall] at hf ⊢; exact C122_historical_data hraw hf) data study h

/-- **C122, designer notebook, daily data.**  If the dates of the data are consecutive days, nothing at all depends on the order of its rows, whatever part
of the items is kept: the notebook opens with exactly the same data and analyses. -/
theorem C122_designer_daily (V : StudyEnv) (form : StudyForm) {raw raw' : Frame ℝ} (hraw : Spec.SameRows raw raw') (first n : ℤ)
    (hdaily : ∀ t, (∃ r ∈ raw.rows, V.ext.toDate (r form.dateCol) = .ok (some t)) ↔ ∃ k : ℤ, 0 ≤ k ∧ k < n ∧ t = first + k * 86400000000000)
    (data : Frame ℝ) (study : Study) (h : openStudy V form raw = .ok (data, study)) :
    openStudy V form raw' = .ok (data, study) := by
  unfold openStudy at h ⊢
  obtain ⟨f, ef, h⟩ := Py.bind_eq_ok.mp h
  exact Py.bind_eq_ok.mpr ⟨f, C122_daily_history hraw first n hdaily ef, h⟩

end Feedx
