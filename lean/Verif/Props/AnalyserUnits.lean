import Verif.Proofs.ScalingExperiment
import Verif.Props.ReportUnits

/-!
C131: a session of the experiment analyser does not depend on the unit of a metric.
-/

set_option linter.unusedSectionVars false
set_option maxHeartbeats 1000000

namespace Feedx

open Fl

/-- **C131, the data.**  Take the performance data of an experiment in two units of a metric (`col` is its column, `m` its name in the prepared data).  The data
is prepared and accepted in both units, or refused with the same error in both, and the prepared data is the same except for the unit of that metric.  (So the
at-least-one metrics are the same.) -/
theorem C131_prepared_data (C : Checker ℝ) (perf perf' assign : Frame ℝ) (d : Design ℝ) (startDate itemCol dateCol treatCol : String) (a : ExperimentArgs)
    (m col : String) (hm : (m, col) ∈ Spec.metricSources a) (hcol : col ∉ [itemCol, dateCol])
    (hn : m ∉ ["week_id", "week_start", "time_period", "treatment_assignment"]) (hl : m ∉ a.atLeastOne.map Prod.snd)
    (c : ℝ) (hc : 0 < c) (h : Spec.PerfUnits C.ext a m col c perf perf') :
    Spec.SameOutcome (Spec.ColumnTimes c m) (prepareExperiment C perf assign d startDate itemCol dateCol treatCol a)
      (prepareExperiment C perf' assign d startDate itemCol dateCol treatCol a) := by
  simp only [List.mem_cons, List.not_mem_nil, or_false, not_or] at hcol
  exact (prepareExperiment_units hc C hm h assign d startDate itemCol dateCol treatCol hn hl (Ne.symm hcol.1) (Ne.symm hcol.2)).imp
    fun f f' _ _ hf => hf.1.times

theorem FrameUnits.not_integer {c : ℝ} {m : String} {f f' : Frame ℝ} (h : FrameUnits c m f f') (hne : f.rows ≠ []) :
    ¬ Spec.IntegerColumn f m ∧ ¬ Spec.IntegerColumn f' m := by
  obtain ⟨-, hrows⟩ := h
  unfold Spec.IntegerColumn
  revert hrows hne
  generalize f.rows = l
  generalize f'.rows = l'
  intro hne hrows
  cases hrows with
  | nil => exact absurd rfl hne
  | cons hr _ =>
    obtain ⟨-, v, e, e'⟩ := hr
    refine ⟨fun hi => ?_, fun hi => ?_⟩
    · obtain ⟨n, hn⟩ := hi _ List.mem_cons_self
      rw [e] at hn
      cases v <;> cases hn
    · obtain ⟨n, hn⟩ := hi _ List.mem_cons_self
      rw [e'] at hn
      generalize fin c * v = u at hn
      cases u <;> cases hn

theorem daysPerPeriod_units {c : ℝ} {m : String} {f f' : Frame ℝ} (h : FrameUnits c m f f') (hd : "date" ≠ m) (hp : "time_period" ≠ m) :
    daysPerPeriod f' = daysPerPeriod f := by
  unfold daysPerPeriod
  rw [h.cols, rel_map_eq h.rows (fun r => (r "date", r "time_period")) (fun r => (r "date", r "time_period")) fun r r' e => by
    rw [e.1 _ hd, e.1 _ hp]]

theorem FrameUnits.dropCol {c : ℝ} {m : String} {f f' : Frame ℝ} (h : FrameUnits c m f f') (x : String) : FrameUnits c m (f.dropCol x) (f'.dropCol x) :=
  ⟨by show f'.cols.filter _ = f.cols.filter _; rw [h.cols], h.rows⟩

/-- **C131.**  Take the performance data of an experiment in two units of a metric, with the same design file, assignment table and form.  The session opens
with both or fails with the same error in both.  The design is the same, the prepared data is the same in the new unit, the table of the days per period is
the same, and the analysis (with any metrics) returns the same report in the new unit or raises the same error.  Here the metric of a crossover may consist of
whole numbers: the preparation makes it a column of floats. -/
theorem C131_session_units (R : Rounding ℝ) (dflt05 dflt08 : ℝ) (C : Checker ℝ) (argsort : List ℝ → List ℕ) (D : TDist) (form : AnalyserForm)
    (file : Dict (YVal ℝ)) (perf perf' assign : Frame ℝ) (metrics : List Metric) (m col : String) (hm : (m, col) ∈ Spec.metricSources form.args)
    (hcol : col ∉ [form.itemCol, form.dateCol])
    (hn : m ∉ ["week_id", "week_start", "time_period", "treatment_assignment", "at_least_one_click", "at_least_one_impression", "at_least_one_conversion"])
    (c : ℝ) (hc : 0 < c) (hs : Spec.SortsInUnits argsort c) (h : Spec.PerfUnits C.ext form.args m col c perf perf') :
    Spec.SameOutcome
      (fun p p' => p'.1 = p.1 ∧ Spec.ColumnTimes c m p.2 p'.2 ∧ daysPerPeriod p'.2 = daysPerPeriod p.2 ∧
        Spec.SameOutcome (Spec.ReportInUnits c m p.1.isCrossover metrics) (analyseData R argsort D metrics p) (analyseData R argsort D metrics p'))
      (prepareStudy R dflt05 dflt08 C form file perf assign) (prepareStudy R dflt05 dflt08 C form file perf' assign) := by
  simp only [List.mem_cons, List.not_mem_nil, or_false, not_or] at hcol hn
  have hl : m ∉ form.args.atLeastOne.map Prod.snd := by
    intro hx
    obtain ⟨p, hp, e⟩ := List.mem_map.mp hx
    have hp := (List.mem_filter.mp hp).1
    simp only [List.mem_cons, List.not_mem_nil, or_false] at hp
    rcases hp with rfl | rfl | rfl
    · exact hn.2.2.2.2.1 e.symm
    · exact hn.2.2.2.2.2.1 e.symm
    · exact hn.2.2.2.2.2.2 e.symm
  unfold prepareStudy
  refine (Spec.SameOutcome.refl (P := fun a b => b = a) (fun _ => rfl) _).bind fun d d' e => ?_
  cases e
  refine (prepareExperiment_units hc C hm h assign d form.startDate form.itemCol form.dateCol form.treatCol (by
    simp only [List.mem_cons, List.not_mem_nil, or_false, not_or]
    exact ⟨hn.1, hn.2.1, hn.2.2.1, hn.2.2.2.1⟩) hl (Ne.symm hcol.1) (Ne.symm hcol.2)).bind fun f f' ⟨hf, hmi, hmd, hne⟩ => ?_
  refine ⟨rfl, hf.times, daysPerPeriod_units hf (Ne.symm hmd) (Ne.symm hn.2.2.1), ?_⟩
  unfold analyseData
  simp only [hf.cols]
  refine (Spec.SameOutcome.raiseIf Iff.rfl).bind fun _ _ _ => ?_
  exact C128_report_units R argsort D c hc hs d.toDesignParams metrics "week_id" "item_id" "treatment_assignment" m (by
    simp only [List.mem_cons, List.not_mem_nil, or_false, not_or]
    exact ⟨hmi, hn.1, hn.2.2.2.1, hn.2.2.1⟩) (by decide) (by decide) _ _ (hf.dropCol "time_period").times
    fun _ => (hf.dropCol "time_period").not_integer hne

/-! ### Tables -/

theorem rowStyle_units {k : ℝ} (hk : 0 < k) {r r' : TestResult} (h : Spec.ReportTimes k r r') :
    rowStyle r'.isSignificant r'.absoluteDifference = rowStyle r.isSignificant r.absoluteDifference := by
  unfold rowStyle
  rw [h.isSignificant, h.absoluteDifference, lt_zero_scale hk]

/-- The related results of two reports. -/
def RowsUnits (bounds : Bool) (e e' : String × TestResult) : Prop :=
  e'.1 = e.1 ∧ (∃ k : ℝ, 0 < k ∧ Spec.ReportTimes k e.2 e'.2) ∧ (bounds = true → Spec.SameRelativeBounds e.2 e'.2)

theorem shownRow_units (R : Rounding ℝ) (general : ℕ → Fl ℝ → String) (o : FormatOptions) (ci : String) {e e' : String × TestResult}
    (h : RowsUnits o.relative e e') : Spec.ShownAlike (shownRow R general o ci (ResultRow.ofTest e)) (shownRow R general o ci (ResultRow.ofTest e')) := by
  obtain ⟨h1, ⟨k, hk, h2⟩, h3⟩ := h
  refine ⟨h1, rowStyle_units hk h2, ?_, ?_⟩
  · unfold shownRow
    cases o.relative <;> cases o.absolute <;> cases o.yearly <;> rfl
  · intro head text hhead
    unfold shownRow ResultRow.ofTest
    simp only [List.mem_cons, List.not_mem_nil, or_false, not_or] at hhead
    rw [h2.pValue, h2.alpha, h2.relativeDifference]
    have hr : o.relative = true → e'.2.relativeLower = e.2.relativeLower ∧ e'.2.relativeUpper = e.2.relativeUpper := h3
    cases ho : o.relative
    · cases o.absolute <;> cases o.yearly <;>
        simp [Prod.ext_iff, hhead.1, hhead.2]
    · rw [(hr ho).1, (hr ho).2]
      cases o.absolute <;> cases o.yearly <;>
        simp [Prod.ext_iff, hhead.1, hhead.2]

theorem formatResults_units (R : Rounding ℝ) (general : ℕ → Fl ℝ → String) (o : FormatOptions) {l l' : List (String × TestResult)}
    (h : List.Forall₂ (RowsUnits o.relative) l l') :
    Spec.SameOutcome (List.Forall₂ Spec.ShownAlike) (formatResults R general o (l.map ResultRow.ofTest)) (formatResults R general o (l'.map ResultRow.ofTest)) := by
  cases h with
  | nil => rfl
  | @cons e e' l l' he hl =>
    have hall := List.Forall₂.cons he hl
    have ha : (ResultRow.ofTest e').alpha = (ResultRow.ofTest e).alpha := by
      obtain ⟨-, ⟨k, -, h2⟩, -⟩ := he
      exact h2.alpha
    unfold formatResults
    simp only [List.map_cons]
    refine (Spec.SameOutcome.raiseIf ?_).bind fun _ _ _ => (Spec.SameOutcome.raiseIf ?_).bind fun _ _ _ => ?_
    · by_cases ho : o.relative = true
      · simp only [ho, true_and]
        rw [← List.map_cons, ← List.map_cons, List.all_map, List.all_map, List.all_map, List.all_map, List.all_map, List.all_map]
        rw [rel_all hall ((fun r : ResultRow ℝ => r.relativeDifference.isNone) ∘ ResultRow.ofTest)
            ((fun r : ResultRow ℝ => r.relativeDifference.isNone) ∘ ResultRow.ofTest) fun x x' hx => by
            obtain ⟨-, ⟨k, -, h2⟩, -⟩ := hx
            exact congrArg Option.isNone h2.relativeDifference,
          rel_all hall ((fun r : ResultRow ℝ => r.relativeLower.isNone) ∘ ResultRow.ofTest)
            ((fun r : ResultRow ℝ => r.relativeLower.isNone) ∘ ResultRow.ofTest) fun x x' hx => congrArg Option.isNone (hx.2.2 ho).1,
          rel_all hall ((fun r : ResultRow ℝ => r.relativeUpper.isNone) ∘ ResultRow.ofTest)
            ((fun r : ResultRow ℝ => r.relativeUpper.isNone) ∘ ResultRow.ofTest) fun x x' hx => congrArg Option.isNone (hx.2.2 ho).2]
      · exact ⟨fun h => absurd h.1 ho, fun h => absurd h.1 ho⟩
    · rw [← List.map_cons, ← List.map_cons, ← List.map_cons, ← List.map_cons]
      rw [List.map_map, List.map_map, rel_map_eq hall (ResultRow.metric ∘ ResultRow.ofTest) (ResultRow.metric ∘ ResultRow.ofTest) fun x x' hx => hx.1]
    · rw [ha]
      show List.Forall₂ _ ((ResultRow.ofTest e :: l.map ResultRow.ofTest).map _) ((ResultRow.ofTest e' :: l'.map ResultRow.ofTest).map _)
      rw [← List.map_cons, ← List.map_cons, List.map_map, List.map_map, List.forall₂_map_left_iff, List.forall₂_map_right_iff]
      exact hall.imp fun x x' hx => shownRow_units R general o _ hx

theorem factorOf_pos {c : ℝ} (hc : 0 < c) (m : String) (μ : Metric) : 0 < Spec.factorOf c m μ := by
  unfold Spec.factorOf
  refine div_pos ?_ ?_ <;> split <;> first | exact hc | exact one_pos

theorem reportInUnits_rows {c : ℝ} (hc : 0 < c) {m : String} {x : Bool} {metrics : List Metric} {rows rows' : List (String × TestResult)}
    (h : Spec.ReportInUnits c m x metrics rows rows') : List.Forall₂ (fun e e' => e'.1 = e.1 ∧ ∃ k : ℝ, 0 < k ∧ Spec.ReportTimes k e.2 e'.2) rows rows' := by
  obtain ⟨h1, h2, h3⟩ := h
  induction metrics generalizing rows rows' with
  | nil =>
    rw [List.eq_nil_of_length_eq_zero h1, List.eq_nil_of_length_eq_zero h2]
    exact List.Forall₂.nil
  | cons μ l ih =>
    cases rows with
    | nil => cases h1
    | cons e rows =>
      cases rows' with
      | nil => cases h2
      | cons e' rows' =>
        rw [List.zip_cons_cons] at h3
        cases h3 with
        | cons hr ht =>
          exact List.Forall₂.cons ⟨hr.2.1.trans hr.1.symm, _, factorOf_pos hc m μ, hr.2.2.1⟩ (ih (Nat.succ.inj h1) (Nat.succ.inj h2) ht)

/-- **C131, the tables.**  Of reports in two units (as in `C131_session_units`), the projections to a year are both shown or fail with the same error, with the same metrics, colours
and p-values in the same order.  If the bounds of the relative effects are the same, so is the table of the results: only the texts of the absolute effects
may differ. -/
theorem C131_tables (R : Rounding ℝ) (general : ℕ → Fl ℝ → String) (c : ℝ) (hc : 0 < c) (m : String) (x : Bool) (metrics : List Metric)
    (rows rows' : List (String × TestResult)) (h : Spec.ReportInUnits c m x metrics rows rows') (names : List String) :
    Spec.SameOutcome (List.Forall₂ Spec.ShownAlike) (showProjection R general names rows) (showProjection R general names rows') ∧
    (List.Forall₂ (fun e e' => Spec.SameRelativeBounds e.2 e'.2) rows rows' →
      Spec.SameOutcome (List.Forall₂ Spec.ShownAlike) (showResults R general rows) (showResults R general rows')) := by
  have hr := reportInUnits_rows hc h
  refine ⟨?_, fun hb => ?_⟩
  · unfold showProjection
    refine formatResults_units R general _ ?_
    exact rel_filter (hr.imp fun e e' he => (⟨he.1, he.2, fun h => by cases h⟩ : RowsUnits false e e')) _ _ fun e e' he => by rw [he.1]
  · unfold showResults
    refine formatResults_units R general _ ?_
    revert hr
    clear h
    induction hb with
    | nil => exact fun _ => List.Forall₂.nil
    | cons h1 _ ih =>
      rintro (_ | ⟨h2, h3⟩)
      exact List.Forall₂.cons ⟨h2.1, h2.2, fun _ => h1⟩ (ih h3)

end Feedx
