import Verif.Proofs.CalendarChecks
import Verif.Props.RowOrder
import Verif.Props.CorrectRun

/-!
C132: the report of an experiment does not depend on when the experiment was run.
-/

set_option linter.unusedSectionVars false

namespace Feedx

section
variable {K : Type} [Field K] [LinearOrder K]

theorem prepareExperiment_later {τ : ℤ} {C : Checker K} {perf perf' assign : Frame K} {d : Design K} {s s' itemCol dateCol treatCol : String}
    {a : ExperimentArgs} (h : Spec.RawLater C.ext dateCol τ perf perf') (hne : itemCol ≠ dateCol)
    (hs : C.ext.strptime s' = (C.ext.strptime s).map (· + τ)) (hnames : ∀ p ∈ a.atLeastOne, p.2 ≠ "week_id" ∧ p.2 ≠ "date") :
    prepareExperiment C perf' assign d s' itemCol dateCol treatCol a =
      (prepareExperiment C perf assign d s itemCol dateCol treatCol a).map (laterFrame τ ["date", "week_start"]) := by
  unfold prepareExperiment
  rw [buildExperiment_later h hne hs]
  cases e : buildExperiment C.ext perf assign d s itemCol dateCol treatCol a with
  | error x => rfl
  | ok f =>
    simp only [Except.map, bind, Except.bind]
    rw [validateExperiment_later f (by decide) (by decide) (by decide) (by decide) hs (buildExperiment_weeks ?_ ?_ e)]
    · cases validateExperiment C f d "item_id" "date" "week_id" "treatment_assignment" (preparedMetrics a) s a.concluded a.canBeNegative a.skip <;> rfl
    · intro hc
      obtain ⟨p, hp, e⟩ := List.mem_map.mp hc
      exact (hnames p hp).1 e
    · intro hc
      obtain ⟨p, hp, e⟩ := List.mem_map.mp hc
      exact (hnames p hp).2 e

/-- **C132, the data.**  Take the performance data of an experiment, and the same data with all dates later (or earlier, for a negative `τ`) by the same time,
with the start date moved by that time too.  The data is prepared and accepted in both cases, or refused with the same error in both; and the prepared tables
are the same except that the dates and the starts of the weeks are `τ` later: the week numbers, the time periods, the metrics and the assignments are the same. -/
theorem C132_prepared_data (C : Checker K) (perf perf' assign : Frame K) (d : Design K) (s s' itemCol dateCol treatCol : String) (a : ExperimentArgs) (τ : ℤ)
    (h : Spec.RawLater C.ext dateCol τ perf perf') (hne : itemCol ≠ dateCol) (hs : C.ext.strptime s' = (C.ext.strptime s).map (· + τ))
    (hnames : ∀ p ∈ a.atLeastOne, p.2 ≠ "week_id" ∧ p.2 ≠ "date") :
    Spec.SameOutcome (Spec.TableLater ["date", "week_start"] τ) (prepareExperiment C perf assign d s itemCol dateCol treatCol a)
      (prepareExperiment C perf' assign d s' itemCol dateCol treatCol a) := by
  rw [prepareExperiment_later h hne hs hnames]
  cases prepareExperiment C perf assign d s itemCol dateCol treatCol a with
  | error e => rfl
  | ok f => exact laterFrame_table f

end

/-- **C132.**  Take the performance data of an experiment, and the same data with all dates moved by the same time `τ`, with the same design file, assignment table
and form except for the start date, which is moved by `τ` too.  The session of the analyser opens with both or fails with the same error in both.  The design is the
same, the prepared data is the same except for the dates, the table of the days per period is the same, and the analysis (with any metrics) returns the same
report or raises the same error. -/
theorem C132_session (R : Rounding ℝ) (dflt05 dflt08 : ℝ) (C : Checker ℝ) (argsort : List ℝ → List ℕ) (D : TDist) (form : AnalyserForm) (s' : String)
    (file : Dict (YVal ℝ)) (perf perf' assign : Frame ℝ) (metrics : List Metric) (τ : ℤ) (h : Spec.RawLater C.ext form.dateCol τ perf perf')
    (hne : form.itemCol ≠ form.dateCol) (hs : C.ext.strptime s' = (C.ext.strptime form.startDate).map (· + τ)) :
    Spec.SameOutcome
      (fun p p' => p'.1 = p.1 ∧ Spec.TableLater ["date", "week_start"] τ p.2 p'.2 ∧ daysPerPeriod p'.2 = daysPerPeriod p.2 ∧
        analyseData R argsort D metrics p' = analyseData R argsort D metrics p)
      (prepareStudy R dflt05 dflt08 C form file perf assign)
      (prepareStudy R dflt05 dflt08 C { form with startDate := s' } file perf' assign) := by
  have hnames : ∀ p ∈ form.args.atLeastOne, p.2 ≠ "week_id" ∧ p.2 ≠ "date" := by
    intro p hp
    have hp := (List.mem_filter.mp hp).1
    simp only [List.mem_cons, List.not_mem_nil, or_false] at hp
    rcases hp with rfl | rfl | rfl <;> decide
  unfold prepareStudy
  refine (Spec.SameOutcome.refl (P := fun a b => b = a) (fun _ => rfl) _).bind fun d d' e => ?_
  cases e
  show Spec.SameOutcome _ _ (prepareExperiment C perf' assign d s' form.itemCol form.dateCol form.treatCol form.args >>= _)
  rw [prepareExperiment_later h hne hs hnames]
  cases prepareExperiment C perf assign d form.startDate form.itemCol form.dateCol form.treatCol form.args with
  | error e => rfl
  | ok f =>
    refine ⟨rfl, laterFrame_table f, daysPerPeriod_later f (by decide) (by decide), ?_⟩
    unfold analyseData
    rw [laterFrame_cols, laterFrame_dropCol, analyzeExperiment_later R argsort D d.toDesignParams metrics (by decide) (by decide) (by decide)]

/-! ### A concrete run -/

section
variable {K : Type} [Field K] [LinearOrder K]

/-- The conversions of the example run, with two start dates. -/
def calendarChecker (K : Type) [Field K] [LinearOrder K] : Checker K :=
  { runChecker K with
    ext := { (runChecker K).ext with
      strptime := fun s => if s = "2024-01-08" then some (7 * 86400000000000) else if s = "2025-01-08" then some (373 * 86400000000000) else none } }

theorem calendar_starts : (calendarChecker K).ext.strptime "2024-01-08" = some (7 * 86400000000000) ∧
    (calendarChecker K).ext.strptime "2025-01-08" = some (373 * 86400000000000) :=
  ⟨by simp [calendarChecker], by simp [calendarChecker]⟩

theorem calendar_moved : (calendarChecker K).ext.strptime "2025-01-08" =
    ((calendarChecker K).ext.strptime "2024-01-08").map (· + 366 * 86400000000000) := by
  rw [calendar_starts.1, calendar_starts.2, Option.map_some]
  norm_num

/-- The table with all dates in the column "day" later by a leap year. -/
theorem run_later : Spec.RawLater (calendarChecker K).ext "day" (366 * 86400000000000) (runPerf K) (laterFrame (366 * 86400000000000) ["day"] (runPerf K)) := by
  refine ⟨rfl, ?_⟩
  show List.Forall₂ _ (runPerf K).rows ((runPerf K).rows.map _)
  rw [List.forall₂_map_right_iff, List.forall₂_same]
  intro r hr
  refine ⟨fun x hx => laterRow_of_not_mem (by simpa using hx) r, ?_⟩
  rw [laterRow_of_mem (by decide)]
  cases r "day" <;> exact rfl

/-- The example run is accepted on its first dates, so (by C132) a year later, with the same weeks and clicks. -/
example [IsStrictOrderedRing K] [FloorRing K] (R : Rounding K) (x : Bool) :
    ∃ out out', prepareExperiment (calendarChecker K) (runPerf K) (runAssign K) (sixtyDesign K x) "2024-01-08" "id" "day" "t" runArgs = .ok out ∧
      prepareExperiment (calendarChecker K) (laterFrame (366 * 86400000000000) ["day"] (runPerf K)) (runAssign K) (sixtyDesign K x) "2025-01-08" "id" "day" "t"
        runArgs = .ok out' ∧
      Spec.TableLater ["date", "week_start"] (366 * 86400000000000) out out' := by
  have hp := run_performance (K := K) x
  have ha := run_assignment (K := K) x
  obtain ⟨out, ho⟩ := C104_correct_run_accepted R _ _ (sixtyDesign_created R x) (calendarChecker K) (runPerf K) (runAssign K) "2024-01-08" "id" "day" "t" runArgs
    (7 * 86400000000000) "abc" 1 calendar_starts.1 run_names
    ⟨⟨hp.dates, hp.first, hp.last, hp.spaced, hp.once, hp.numbers, hp.primary⟩, ⟨ha.ids, ha.count, ha.salted, ha.treated, ha.ratio⟩⟩ (by decide)
  refine ⟨out, laterFrame (366 * 86400000000000) ["date", "week_start"] out, ho, ?_, laterFrame_table out⟩
  refine (prepareExperiment_later run_later (by decide) calendar_moved ?_).trans (congrArg (Except.map _) ho)
  intro p hp
  rw [List.mem_singleton.mp hp]
  decide

end

end Feedx
