import Verif.Props.Generate
import Verif.Props.Units
import Verif.Props.DesignUnits
import Verif.Proofs.ScalingPrepare

/-!
Lemmas for C130: a session of the designer, with the metric in other units.
-/

set_option linter.unusedSectionVars false
set_option maxHeartbeats 1000000

namespace Feedx

open Fl

section units
variable {c : ℝ} {m : String}

/-- The names that an analysis of the designer uses. -/
structure NotebookNames (m : String) (C : SimConfig) : Prop where
  metric : C.design.primaryMetric = m
  item : C.itemCol = "item_id"
  week : C.weekCol = "week_id"
  period : C.periodCol = "time_period"
  treat : C.treatCol = "treatment"

/-- Related analyses. -/
structure AnalysisUnits (c : ℝ) (m : String) (a a' : SimConfig × SimState) : Prop where
  names : NotebookNames m a.1
  config : a'.1 = a.1
  state : Spec.StudyTimes c m a.2 a'.2

/-- Related sessions. -/
def SessionUnits (c : ℝ) (m : String) : Study → Study → Prop := List.Forall₂ (fun e e' => e'.1 = e.1 ∧ AnalysisUnits c m e.2 e'.2)

theorem SessionUnits.times {s s' : Study} (h : SessionUnits c m s s') : Spec.SessionTimes c m s s' :=
  List.Forall₂.imp (fun _ _ e => ⟨e.1, e.2.config, e.2.state⟩) h

theorem SessionUnits.get {s s' : Study} (h : SessionUnits c m s s') (id : List Char) : Spec.SameOutcome (AnalysisUnits c m) (s.get id) (s'.get id) := by
  unfold Study.get
  unfold SessionUnits at h
  induction h with
  | nil => exact rfl
  | @cons p p' l l' hp hl ih =>
    obtain ⟨k, v⟩ := p
    obtain ⟨k', v'⟩ := p'
    obtain ⟨h1, h2⟩ := hp
    simp only at h1 h2
    subst h1
    rw [List.lookup_cons, List.lookup_cons]
    by_cases hk : id = k'
    · subst hk
      simpa [Spec.SameOutcome] using h2
    · simp only [beq_eq_false_iff_ne.mpr hk]
      exact ih

theorem NotebookNames.sim {C : SimConfig} (h : NotebookNames m C) (hi : m ≠ "item_id") (hw : m ≠ "week_id") (hp : m ≠ "time_period") : SimNames C :=
  ⟨by rw [h.item, h.metric]; exact hi.symm, by rw [h.week, h.metric]; exact hw.symm, by rw [h.period, h.metric]; exact hp.symm⟩

theorem mkSimulation_units {f f' : Frame ℝ} (h : FrameUnits c m f f') (d : Design ℝ) (hd : d.primaryMetric = m) (hw : m ≠ "week_id") (minStart : ℤ)
    (threshold : ℝ) : Spec.SameOutcome (AnalysisUnits c m) (mkSimulation d f "item_id" "week_id" "time_period" "treatment" minStart threshold)
      (mkSimulation d f' "item_id" "week_id" "time_period" "treatment" minStart threshold) := by
  unfold mkSimulation
  rw [h.cols, h.col hw.symm]
  refine (Spec.SameOutcome.raiseIf Iff.rfl).bind fun _ _ _ => (Spec.SameOutcome.raiseIf Iff.rfl).bind fun _ _ _ => ?_
  cases (ints (f.col "week_id")).max? with
  | none => rfl
  | some last => exact ⟨⟨hd, rfl, rfl, rfl, rfl⟩, rfl, ⟨h.times, rfl, rfl, rfl, rfl, Option.Rel.none, Option.Rel.none⟩⟩

theorem analyseDesign_units (hc : 0 < c) (V : StudyEnv) (hs : Spec.SortsInUnits V.argsort c) {f f' : Frame ℝ} (h : FrameUnits c m f f') (d : Design ℝ)
    (hd : d.primaryMetric = m) (hi : m ≠ "item_id") (hw : m ≠ "week_id") (hp : m ≠ "time_period") (minStart : ℤ) (σ : ℤ → Shuffle) :
    Spec.SameOutcome (AnalysisUnits c m) (analyseDesign V f minStart σ d) (analyseDesign V f' minStart σ d) := by
  unfold analyseDesign
  refine (mkSimulation_units h d hd hw minStart _).bind ?_
  rintro ⟨C, s⟩ ⟨C', s'⟩ ⟨h1, h2, h3⟩
  simp only at h1 h2 h3
  subst h2
  have hm := h1.metric
  rw [← hm] at h3
  have he := estimateMde_scale hc V.R V.argsort hs V.tdist σ (h1.sim hi hw hp) h3
  rw [hm] at he
  simp only [he.1]
  exact (Spec.SameOutcome.refl (P := fun _ _ => True) (fun _ => trivial) _).bind fun _ _ _ => ⟨h1, rfl, he.2⟩

theorem estimateDesigns_units (hc : 0 < c) (V : StudyEnv) (hs : Spec.SortsInUnits V.argsort c) {f f' : Frame ℝ} (h : FrameUnits c m f f')
    (hi : m ≠ "item_id") (hw : m ≠ "week_id") (hp : m ≠ "time_period") (minStart : ℤ) (designs : List (Design ℝ)) (hd : ∀ d ∈ designs, d.primaryMetric = m) :
    Spec.SameOutcome (SessionUnits c m) (estimateDesigns V f minStart designs) (estimateDesigns V f' minStart designs) := by
  unfold estimateDesigns
  refine Spec.SameOutcome.bind (P := List.Forall₂ (fun e e' => e'.1 = e.1 ∧ AnalysisUnits c m e.2 e'.2)) ?_ fun l l' hl => dictOf_pairs hl
  refine rel_mapM (P := fun p p' => p' = p ∧ p.1.primaryMetric = m) (l := designs.zipIdx) (l' := designs.zipIdx) ?_ _ _ ?_
  · rw [List.forall₂_same]
    exact fun p hp => ⟨rfl, hd _ (List.fst_mem_of_mem_zipIdx hp)⟩
  · rintro q q' ⟨e, hpm⟩
    subst e
    refine (analyseDesign_units hc V hs h q'.1 hpm hi hw hp minStart (V.shuffle q'.2)).bind fun a a' ha => ?_
    rw [ha.config]
    exact (Spec.SameOutcome.refl (P := fun a b => b = a) (fun _ => rfl) _).bind fun id id' e => ⟨e, ha⟩

theorem openStudy_units (hc : 0 < c) (V : StudyEnv) (hs : Spec.SortsInUnits V.argsort c) (form : StudyForm) {raw raw' : Frame ℝ}
    (h : Spec.RawUnits V.ext form.primary form.primaryCol c raw raw') (hname : form.metric ∉ ["week_id", "week_start", "time_period"]) :
    Spec.SameOutcome (fun S S' => FrameUnits c form.metric S.1 S'.1 ∧ form.metric ≠ "item_id" ∧ SessionUnits c form.metric S.2 S'.2)
      (openStudy V form raw) (openStudy V form raw') := by
  simp only [List.mem_cons, List.not_mem_nil, or_false, not_or] at hname
  unfold openStudy
  refine (prepareHistorical_units hc V.R V.rng V.ext V.sorter h form.itemCol form.dateCol form.fraction form.skip ?_).bind fun f f' hf => ?_
  · simp only [List.mem_cons, List.not_mem_nil, or_false, not_or]
    exact ⟨hname.1, hname.2.1⟩
  obtain ⟨hf, hi⟩ := hf
  change FrameUnits c form.metric f f' at hf
  change form.metric ≠ "item_id" at hi
  have hcand : form.candidates f' = form.candidates f := by
    unfold StudyForm.candidates
    rw [hf.col hi.symm]
  rw [hcand, hf.col (Ne.symm hname.1)]
  refine (Spec.SameOutcome.raiseIf Iff.rfl).bind fun _ _ _ => ?_
  cases hg : generateDesigns V.R (form.candidates f) with
  | error e => rfl
  | ok designs =>
    show Spec.SameOutcome _
      (minStartWeek form.runtimes form.pretests (ints (dropDup (f.col "week_id"))) >>= fun k => estimateDesigns V f k designs >>= fun s => pure (f, s))
      (minStartWeek form.runtimes form.pretests (ints (dropDup (f.col "week_id"))) >>= fun k => estimateDesigns V f' k designs >>= fun s => pure (f', s))
    refine (Spec.SameOutcome.refl (P := fun a b => b = a) (fun _ => rfl) _).bind fun a b e => ?_
    subst e
    refine (estimateDesigns_units hc V hs hf hi hname.1 hname.2.2 b designs fun d hd => ?_).bind fun s s' hss => ⟨hf, hi, hss⟩
    exact ((C64_members V.R _ designs hg d).mp hd).2.2.1

/-! ### Validation -/

theorem validateOne_units (hc : 0 < c) (V : StudyEnv) (hs : Spec.SortsInUnits V.argsort c) (hi : m ≠ "item_id") (hw : m ≠ "week_id")
    (hp : m ≠ "time_period") (force : Bool) (draws : List SimDraw) (id : List Char) {s s' : Study} (h : SessionUnits c m s s') :
    (validateOne V force draws id s').1 = (validateOne V force draws id s).1 ∧
      SessionUnits c m (validateOne V force draws id s).2 (validateOne V force draws id s').2 := by
  have hg := h.get id
  unfold validateOne
  cases e : s.get id with
  | error x =>
    cases e' : s'.get id with
    | error x' => rw [e, e'] at hg; exact ⟨by rw [show x = x' from hg], h⟩
    | ok a' => rw [e, e'] at hg; exact hg.elim
  | ok a =>
    cases e' : s'.get id with
    | error x' => rw [e, e'] at hg; exact hg.elim
    | ok a' =>
      rw [e, e'] at hg
      have h3 := hg.state
      simp only [hg.config, falsePositiveRate_units h3]
      cases falsePositiveRate a.1.design a.2 with
      | error x => exact ⟨rfl, h⟩
      | ok rate =>
        simp only
        have hm := hg.names.metric
        rw [← hm] at h3
        have hv := validateSim_scale hc V.R V.argsort hs V.tdist draws (hg.names.sim hi hw hp) (by rw [hg.names.item]; decide)
          (by rw [hg.names.treat]; decide) h3
        rw [hm] at hv
        split
        · exact ⟨rfl, h⟩
        · refine ⟨hv.1, dictSet_pairs (P := AnalysisUnits c m) ?_ h⟩
          exact ⟨hg.names, rfl, hv.2⟩

theorem validateStudy_units (hc : 0 < c) (V : StudyEnv) (hs : Spec.SortsInUnits V.argsort c) (hi : m ≠ "item_id") (hw : m ≠ "week_id")
    (hp : m ≠ "time_period") (force : Bool) (targets : List (List Char × List SimDraw)) {s s' : Study} (h : SessionUnits c m s s') :
    (validateStudy V force targets s').1 = (validateStudy V force targets s).1 ∧
      SessionUnits c m (validateStudy V force targets s).2 (validateStudy V force targets s').2 := by
  induction targets generalizing s s' with
  | nil => exact ⟨rfl, h⟩
  | cons t rest ih =>
    obtain ⟨id, draws⟩ := t
    have h1 := validateOne_units hc V hs hi hw hp force draws id h
    unfold validateStudy
    generalize validateOne V force draws id s = x at h1 ⊢
    generalize validateOne V force draws id s' = x' at h1 ⊢
    obtain ⟨a, g⟩ := x
    obtain ⟨a', g'⟩ := x'
    obtain ⟨rfl, h2⟩ := h1
    simp only at h2
    cases a' with
    | error e => exact ⟨rfl, h2⟩
    | ok u => exact ih h2

/-! ### Assignment -/

theorem eligibleItems_units (hc : 0 < c) (R : Rounding ℝ) (σ : Shuffle) {f f' : Frame ℝ} (h : FrameUnits c m f f') (d : Design ℝ) (hd : d.primaryMetric = m)
    {i w : String} (hi : m ≠ i) (hw : m ≠ w) : eligibleItems R σ f' d i (some w) = eligibleItems R σ f d i (some w) := by
  unfold eligibleItems
  by_cases hpre : d.hasPreTrim
  · rw [if_pos hpre, if_pos hpre]
    have hrows : List.Forall₂ (RowUnits c m) (pretestRows f w d.pretest) (pretestRows f' w d.pretest) := by
      unfold pretestRows
      rw [h.col hw.symm]
      cases (ints (f.col w)).max? with
      | none => exact List.Forall₂.nil
      | some l => exact rel_filter h.rows _ _ fun r r' e => by rw [e.1 w hw.symm]
    have hkeys : groupKeys (pretestRows f' w d.pretest) [i] = groupKeys (pretestRows f w d.pretest) [i] := by
      unfold groupKeys
      rw [rel_map_eq hrows (fun r => [i].map r) (fun r => [i].map r) fun r r' e => by simp only [List.map_cons, List.map_nil, e.1 i hi.symm]]
    have hg : ∀ k, List.Forall₂ (RowUnits c m) (groupRows (pretestRows f w d.pretest) [i] k) (groupRows (pretestRows f' w d.pretest) [i] k) := fun k =>
      rel_filter hrows _ _ fun r r' e => by simp only [List.map_cons, List.map_nil, e.1 i hi.symm]
    have ht : Spec.SameOutcome (fun t t' : Frame ℝ => t'.cols = t.cols ∧ List.Forall₂ (fun r r' : Row ℝ => r' i = r i) t.rows t'.rows ∧
        List.Forall₂ (fun r r' : Row ℝ => (r' m).toFl = fin c * (r m).toFl ∧ (r' m).isNumeric = (r m).isNumeric) t.rows t'.rows)
        (pretestTotals f d i w) (pretestTotals f' d i w) := by
      unfold pretestTotals
      dsimp only
      rw [h.cols, h.col hw.symm, hkeys, hd]
      refine (Spec.SameOutcome.raiseIf Iff.rfl).bind fun _ _ _ => (Spec.SameOutcome.raiseIf Iff.rfl).bind fun _ _ _ =>
        (Spec.SameOutcome.raiseIf ?_).bind fun _ _ _ => ⟨rfl, ?_, ?_⟩
      · rw [rel_any h.rows (fun r => !(r m).isNumeric) (fun r => !(r m).isNumeric) fun r r' e => by rw [e.numeric]]
      · rw [List.forall₂_map_left_iff, List.forall₂_map_right_iff, List.forall₂_same]
        intro k hk
        obtain ⟨⟨r, hr, hrk⟩, -⟩ := mem_groupKeys.mp hk
        unfold weekRow
        rw [← hrk]
        simp
      · rw [List.forall₂_map_left_iff, List.forall₂_map_right_iff, List.forall₂_same]
        intro k hk
        obtain ⟨⟨r, hr, hrk⟩, -⟩ := mem_groupKeys.mp hk
        have hne : groupRows (pretestRows f w d.pretest) [i] k ≠ [] := List.ne_nil_of_mem (List.mem_filter.mpr ⟨hr, by simp [hrk]⟩)
        have hlk : ([i].zip k).lookup m = none := by
          have e1 : (m == i) = false := by simpa using hi
          rw [← hrk]
          simp [List.lookup_cons, e1]
        unfold weekRow
        rw [hlk]
        obtain ⟨q1, q2⟩ := sumCell_units hc (hg k) hne
        change (sumCell _ m).toFl = fin c * (sumCell _ m).toFl ∧ (sumCell _ m).isNumeric = (sumCell _ m).isNumeric
        rw [q1, q2, ofFl_reads, ofFl_reads, ofFl_numeric, ofFl_numeric]
        exact ⟨rfl, rfl⟩
    simp only [Option.getD_some, hd]
    revert ht
    generalize pretestTotals f d i w = T
    generalize pretestTotals f' d i w = T'
    intro ht
    cases T with
    | error e =>
      cases T' with
      | error e' => exact congrArg Except.error (Eq.symm ht)
      | ok _ => exact ht.elim
    | ok t =>
      cases T' with
      | error e' => exact ht.elim
      | ok t' =>
        obtain ⟨t1, t2, t3⟩ := ht
        have := trimOutliers_scale hc R σ t1 t2 (fun _ => t3) d.preTop.val d.preBottom.val
        revert this
        show Spec.SameOutcome _ _ _ → (trimOutliers R σ t' m d.preTop.val d.preBottom.val >>= _) = (trimOutliers R σ t m d.preTop.val d.preBottom.val >>= _)
        generalize trimOutliers R σ t m d.preTop.val d.preBottom.val = A
        generalize trimOutliers R σ t' m d.preTop.val d.preBottom.val = A'
        intro ha
        cases A with
        | error e =>
          cases A' with
          | error e' => exact congrArg Except.error (Eq.symm ha)
          | ok _ => exact ha.elim
        | ok a =>
          cases A' with
          | error e' => exact ha.elim
          | ok a' => exact congrArg Except.ok ha
  · rw [if_neg hpre, if_neg hpre, h.col hi.symm]

theorem performAssignment_units (hc : 0 < c) (R : Rounding ℝ) (σ : Shuffle) (E : Ext ℝ) (binom : ℕ → ℕ → Py ℝ) (bytes : List ℕ) {f f' : Frame ℝ}
    (h : FrameUnits c m f f') (d : Design ℝ) (hd : d.primaryMetric = m) {i w : String} (hi : m ≠ i) (hw : m ≠ w) (t : String) :
    performAssignment R σ E binom bytes f' d i (some w) t = performAssignment R σ E binom bytes f d i (some w) t := by
  unfold performAssignment
  rw [h.cols, eligibleItems_units hc R σ h d hd hi hw]

theorem assigned_metric (R : Rounding ℝ) (σ : Shuffle) (E : Ext ℝ) (binom : ℕ → ℕ → Py ℝ) (bytes : List ℕ) (f : Frame ℝ) (d : Design ℝ) (i : String)
    (w : Option String) (t : String) : (performAssignment R σ E binom bytes f d i w t).1.primaryMetric = d.primaryMetric := by
  unfold performAssignment
  split_ifs
  · rfl
  · rfl
  · rfl
  · cases chooseCoin d bytes <;> rfl

theorem exportStudy_units (hc : 0 < c) (V : StudyEnv) (ht1 : Spec.MeansInUnits V.tests.t1 c) (hi : m ≠ "item_id") (hw : m ≠ "week_id")
    (binom : ℕ → ℕ → Py ℝ) (σ : Shuffle) (bytes : List ℕ) {f f' : Frame ℝ} (hf : FrameUnits c m f f') (id : List Char) (fileName : String) {s s' : Study}
    (h : SessionUnits c m s s') :
    (exportStudy V binom σ bytes f' id fileName s').1 = (exportStudy V binom σ bytes f id fileName s).1 ∧
      SessionUnits c m (exportStudy V binom σ bytes f id fileName s).2 (exportStudy V binom σ bytes f' id fileName s').2 := by
  have hg := h.get id
  unfold exportStudy
  cases e : s.get id with
  | error x =>
    cases e' : s'.get id with
    | error x' => rw [e, e'] at hg; exact ⟨by rw [show x = x' from hg], h⟩
    | ok a' => rw [e, e'] at hg; exact hg.elim
  | ok a =>
    cases e' : s'.get id with
    | error x' => rw [e, e'] at hg; exact hg.elim
    | ok a' =>
      rw [e, e'] at hg
      have h3 := hg.state
      simp only [hg.config, falsePositiveRate_units h3, allChecksPass_units h3 _ _ ht1]
      cases (falsePositiveRate a.1.design a.2 >>= fun rate => raiseIf .valueError (rate = none) >>= fun _ =>
          allChecksPass V.tests a.1 a.2 >>= fun pass => raiseIf .valueError (pass ≠ some true)) with
      | error x => exact ⟨rfl, h⟩
      | ok u =>
        simp only [performAssignment_units hc V.R σ V.ext binom bytes hf a.1.design hg.names.metric hi hw]
        refine ⟨by trivial, dictSet_pairs (P := AnalysisUnits c m) ?_ h⟩
        refine ⟨⟨?_, hg.names.item, hg.names.week, hg.names.period, hg.names.treat⟩, rfl, h3⟩
        show (performAssignment _ _ _ _ _ _ _ _ _ _).1.primaryMetric = m
        rw [assigned_metric, hg.names.metric]

theorem runCells_units (hc : 0 < c) (V : StudyEnv) (hs : Spec.SortsInUnits V.argsort c) (ht1 : Spec.MeansInUnits V.tests.t1 c) (hi : m ≠ "item_id")
    (hw : m ≠ "week_id") (hp : m ≠ "time_period") {f f' : Frame ℝ} (hf : FrameUnits c m f f') (cells : List StudyCell) {s s' : Study}
    (h : SessionUnits c m s s') : SessionUnits c m (runCells V f s cells) (runCells V f' s' cells) := by
  unfold runCells
  induction cells generalizing s s' with
  | nil => exact h
  | cons x l ih =>
    refine ih ?_
    cases x with
    | validate force targets => exact (validateStudy_units hc V hs hi hw hp force targets h).2
    | assign binom σ bytes id fileName => exact (exportStudy_units hc V ht1 hi hw binom σ bytes hf id fileName h).2

/-! ### The displayed table -/

theorem timesValue_missing (hc : 0 < c) (v : SVal ℝ) : (Spec.timesValue c v).isMissing = v.isMissing := by
  cases v with
  | flt x =>
    cases x with
    | nan => rfl
    | ninf => rw [Spec.timesValue, sc_ninf hc]
    | pinf => rw [Spec.timesValue, sc_pinf hc]
    | fin x => rfl
  | _ => rfl

/-- A value in the column `col` of a summary, in other units. -/
noncomputable def unitsAt (c : ℝ) (col : String) (v : SVal ℝ) : SVal ℝ := if col = "minimum_detectable_effect" then Spec.timesValue c v else v

/-- A summary in other units. -/
noncomputable def summaryUnits (c : ℝ) (t : SummaryTable ℝ) : SummaryTable ℝ := { t with rows := t.rows.map (fun r => (r.1, fun col => unitsAt c col (r.2 col))) }

theorem lookup_at {α β γ : Type} [BEq α] [LawfulBEq α] (g : α → β → γ) (l : List (α × β)) (k : α) :
    (l.map (fun p => (p.1, g p.1 p.2))).lookup k = (l.lookup k).map (g k) := by
  induction l with
  | nil => rfl
  | cons p l ih =>
    obtain ⟨a, b⟩ := p
    rw [List.map_cons, List.lookup_cons, List.lookup_cons]
    by_cases h : (k == a) = true
    · rw [h]
      have := eq_of_beq h
      subst this
      rfl
    · rw [Bool.not_eq_true] at h
      rw [h]
      exact ih

theorem summaryDict_units {s s' : SimState} (h : Spec.StudyTimes c m s s') (R : Rounding ℝ) (fr : ℝ → List Char) (printable : Char → Bool)
    (X : RobustnessTests) (ht1 : Spec.MeansInUnits X.t1 c) (C : SimConfig) :
    summaryDict R fr printable X C s' = (summaryDict R fr printable X C s).map (fun d => (d.1, d.2.map (fun p => (p.1, unitsAt c p.1 p.2)))) := by
  have hm : (SVal.ofOption .flt s'.mde : SVal ℝ) = Spec.timesValue c (.ofOption .flt s.mde) := by
    rw [h.mde]; cases s.mde <;> rfl
  unfold summaryDict
  rw [falsePositiveRate_units h, simulatedPower_units h, nullPValue_units h, powerPValue_units h, falsePositivePValue_units h, aaPointPValue_units h X ht1,
    abPointPValue_units h X ht1, allChecksPass_units h X C ht1, h.relativeMde, hm]
  cases designId R fr printable C.design with
  | error e => rfl
  | ok id =>
    cases falsePositiveRate C.design s with
    | error e => rfl
    | ok a1 =>
      cases simulatedPower C.design s with
      | error e => rfl
      | ok a2 =>
        cases aboveThreshold C (nullPValue X s) with
        | error e => rfl
        | ok a3 =>
          cases aboveThreshold C (powerPValue X C.design s) with
          | error e => rfl
          | ok a4 =>
            cases aboveThreshold C (falsePositivePValue X C.design s) with
            | error e => rfl
            | ok a5 =>
              cases aboveThreshold C (aaPointPValue X s) with
              | error e => rfl
              | ok a6 =>
                cases aboveThreshold C (abPointPValue X s) with
                | error e => rfl
                | ok a7 =>
                  cases allChecksPass X C s with
                  | error e => rfl
                  | ok a8 => rfl

/-- The columns of a summary. -/
def summaryColumns : List String :=
  ["n_items_before_trimming", "runtime_weeks", "primary_metric", "pretest_weeks", "is_crossover", "pre_trim_top_percentile", "pre_trim_bottom_percentile",
   "post_trim_percentile", "crossover_washout_weeks", "alpha", "power", "n_items_after_pre_trim", "n_items_after_post_trim", "minimum_detectable_effect",
   "relative_minimum_detectable_effect", "simulated_false_positive_rate", "simulated_power_at_minimum_detectable_effect",
   "null_p_value_robustness_check_pass", "power_robustness_check_pass", "false_positive_rate_robustness_check_pass",
   "aa_point_estimate_robustness_check_pass", "ab_point_estimate_robustness_check_pass", "all_robustness_checks_pass"]

theorem summaryDict_columns {R : Rounding ℝ} {fr : ℝ → List Char} {printable : Char → Bool} {X : RobustnessTests} {C : SimConfig} {s : SimState}
    {d : String × List (String × SVal ℝ)} (h : summaryDict R fr printable X C s = .ok d) : d.2.map Prod.fst = summaryColumns := by
  unfold summaryDict at h
  iterate 9 obtain ⟨_, -, h⟩ := Py.bind_eq_ok.mp h
  cases h
  rfl

theorem makeSummary_units (V : StudyEnv) (ht1 : Spec.MeansInUnits V.tests.t1 c) (S : SummarySorter) {s s' : Study} (h : SessionUnits c m s s') (k : String)
    (hk : k ≠ "minimum_detectable_effect") :
    Spec.SameOutcome (fun t t' => t' = summaryUnits c t ∧ t.cols = summaryColumns)
      (makeSummary V.R V.fr V.printable V.tests S (s.map Prod.snd) k)
      (makeSummary V.R V.fr V.printable V.tests S (s'.map Prod.snd) k) := by
  unfold makeSummary
  have hd : Spec.SameOutcome (List.Forall₂ fun (d d' : String × List (String × SVal ℝ)) => d' = (d.1, d.2.map (fun p => (p.1, unitsAt c p.1 p.2))) ∧
      d.2.map Prod.fst = summaryColumns)
      ((s.map Prod.snd).mapM (fun a => summaryDict V.R V.fr V.printable V.tests a.1 a.2))
      ((s'.map Prod.snd).mapM (fun a => summaryDict V.R V.fr V.printable V.tests a.1 a.2)) := by
    refine rel_mapM (P := AnalysisUnits c m) ?_ _ _ fun a a' ha => ?_
    · rw [List.forall₂_map_left_iff, List.forall₂_map_right_iff]
      exact List.Forall₂.imp (fun _ _ e => e.2) h
    · rw [ha.config, summaryDict_units ha.state V.R V.fr V.printable V.tests ht1]
      cases hx : summaryDict V.R V.fr V.printable V.tests a.1 a.2 with
      | error e => rfl
      | ok d => exact ⟨rfl, summaryDict_columns hx⟩
  refine hd.bind fun l l' hl => ?_
  cases hl with
  | nil => rfl
  | @cons d d' l l' h1 h2 =>
    have hall : d' :: l' = (d :: l).map (fun d => (d.1, d.2.map (fun p => (p.1, unitsAt c p.1 p.2)))) := by
      have : List.Forall₂ (fun (d d' : String × List (String × SVal ℝ)) => d' = (d.1, d.2.map (fun p => (p.1, unitsAt c p.1 p.2))) ∧
        d.2.map Prod.fst = summaryColumns) (d :: l) (d' :: l') := List.Forall₂.cons h1 h2
      clear hd
      revert this
      generalize d :: l = u
      generalize d' :: l' = u'
      intro this
      induction this with
      | nil => rfl
      | cons e _ ih => rw [List.map_cons, e.1, ih]
    have hcols : d'.2.map Prod.fst = d.2.map Prod.fst := by
      rw [h1.1, List.map_map]; rfl
    have hrows : (d' :: l').map (fun d => (d.1, fun col => (d.2.lookup col).getD .null)) =
        ((d :: l).map (fun d => (d.1, fun col => (d.2.lookup col).getD .null))).map (fun r => (r.1, fun col => unitsAt c col (r.2 col))) := by
      rw [hall, List.map_map, List.map_map]
      refine List.map_congr_left fun e _ => ?_
      refine Prod.ext rfl (funext fun col => ?_)
      simp only [Function.comp]
      rw [lookup_at (unitsAt c)]
      cases e.2.lookup col with
      | some v => rfl
      | none =>
        simp only [Option.map_none, Option.getD_none]
        unfold unitsAt
        split <;> rfl
    have hkeys : ((d' :: l').map (fun d => ((d.1, fun col => (d.2.lookup col).getD .null) : String × (String → SVal ℝ)))).map (fun r =>
          if k = "design_id" then .str r.1 else r.2 k) =
        ((d :: l).map (fun d => ((d.1, fun col => (d.2.lookup col).getD .null) : String × (String → SVal ℝ)))).map (fun r =>
          if k = "design_id" then .str r.1 else r.2 k) := by
      rw [hrows]
      generalize (d :: l).map (fun d => ((d.1, fun col => (d.2.lookup col).getD .null) : String × (String → SVal ℝ))) = rows
      rw [List.map_map]
      refine List.map_congr_left fun e _ => ?_
      show (if k = "design_id" then SVal.str e.1 else unitsAt c k (e.2 k)) = _
      rw [show unitsAt c k (e.2 k) = e.2 k from if_neg hk]
    simp only
    rw [hcols, hkeys, hrows]
    refine (Spec.SameOutcome.raiseIf Iff.rfl).bind fun _ _ _ => ⟨?_, h1.2⟩
    unfold summaryUnits
    simp only [SummaryTable.mk.injEq, true_and]
    rw [List.map_filterMap]
    refine List.filterMap_congr fun i _ => ?_
    rw [List.getElem?_map]

theorem extractConstant_units (text : SVal ℝ → String) (t : SummaryTable ℝ) :
    extractConstant text (summaryUnits c t) = (extractConstant text t).map (fun p => (summaryUnits c p.1, p.2)) := by
  have hcell : ∀ (x : String), x ∈ designAttributes → ∀ v : SVal ℝ, unitsAt c x v = v := by
    intro x hx v
    unfold unitsAt
    rw [if_neg]
    rintro rfl
    exact absurd hx (by decide)
  have hconst : ∀ x ∈ designAttributes, isConstant (summaryUnits c t) x = isConstant t x := by
    intro x hx
    unfold isConstant summaryUnits
    cases t.rows with
    | nil => rfl
    | cons a l =>
      simp only [List.map_cons, List.all_map, Function.comp_def, hcell x hx]
  have hfilter : designAttributes.filter (isConstant (summaryUnits c t)) = designAttributes.filter (isConstant t) :=
    List.filter_congr hconst
  unfold extractConstant
  rw [hfilter]
  have hc0 : (summaryUnits c t).cols = t.cols := rfl
  rw [hc0]
  by_cases hk : ∃ x ∈ designAttributes, x ∉ t.cols
  · simp only [raiseIf, if_pos hk]; rfl
  · simp only [raiseIf, if_neg hk]
    show Except.ok _ = Except.ok _
    refine congrArg Except.ok (Prod.ext rfl ?_)
    refine congrArg (String.intercalate ", ") (List.map_congr_left fun x hx => ?_)
    have hx := (List.mem_filter.mp hx).1
    unfold summaryUnits
    cases t.rows with
    | nil => rfl
    | cons a l => simp only [List.map_cons, hcell x hx]

theorem shownCell_units (hc : 0 < c) (R : Rounding ℝ) (t : SummaryTable ℝ) (col : String) (v : SVal ℝ)
    (hcol : cleanName col = "Minimum Detectable Effect" ↔ col = "minimum_detectable_effect") :
    shownCell R (summaryUnits c t) col (unitsAt c col v) = (shownCell R t col v).map (Spec.cellInUnits c (cleanName col)) := by
  unfold shownCell
  by_cases h : col = "minimum_detectable_effect"
  · have h' := hcol.mpr h
    have hp : cleanName col ∉ percentColumns := by rw [h']; decide
    have hs : " Pass".toList.isSuffixOf (cleanName col).toList = false := by rw [h']; decide
    unfold shownText
    rw [if_neg hp, if_neg hp, hs]
    have hu : unitsAt c col v = Spec.timesValue c v := if_pos h
    rw [hu, timesValue_missing hc]
    refine congrArg Except.ok ?_
    unfold Spec.cellInUnits
    rw [if_pos h']
    rfl
  · have h' := fun e => h (hcol.mp e)
    have hv : unitsAt c col v = v := if_neg h
    have ht : shownText R (summaryUnits c t) col v = shownText R t col v := by
      unfold shownText columnValue
      have : (summaryUnits c t).rows.all (fun r => decide (r.2 col = .null)) = t.rows.all (fun r => decide (r.2 col = .null)) := by
        unfold summaryUnits
        simp only [List.all_map, Function.comp_def, unitsAt, if_neg h]
      rw [this]
    rw [hv, ht]
    have hid : Spec.cellInUnits c (cleanName col) = id := by
      funext cell
      exact if_neg h'
    rw [hid]
    cases shownText R t col v <;> rfl

theorem mapM_shown {α β : Type} (l : List α) (f g : α → Py β) (u : α → β → β) (h : ∀ x ∈ l, g x = (f x).map (u x)) :
    l.mapM g = (l.mapM f).map (fun cells => List.zipWith u l cells) := by
  induction l with
  | nil => rfl
  | cons x l ih =>
    rw [List.mapM_cons, List.mapM_cons, h x List.mem_cons_self, ih fun y hy => h y (List.mem_cons_of_mem _ hy)]
    cases f x with
    | error e => rfl
    | ok b =>
      cases l.mapM f <;> rfl

theorem formatSummary_units (hc : 0 < c) (R : Rounding ℝ) (text : SVal ℝ → String) (t : SummaryTable ℝ) (b : Bool)
    (hcols : ∀ col ∈ t.cols, cleanName col = "Minimum Detectable Effect" ↔ col = "minimum_detectable_effect") :
    formatSummary R text (summaryUnits c t) b = (formatSummary R text t b).map (Spec.shownInUnits c) := by
  unfold formatSummary
  have h0 : (if b then summaryUnits c t else dropValidation (summaryUnits c t)) = summaryUnits c (if b then t else dropValidation t) := by
    cases b <;> rfl
  have hcols0 : ∀ col ∈ (if b then t else dropValidation t).cols, cleanName col = "Minimum Detectable Effect" ↔ col = "minimum_detectable_effect" := by
    intro col hcol
    cases b
    · exact hcols col (List.mem_filter.mp hcol).1
    · exact hcols col hcol
  simp only [h0]
  generalize (if b then t else dropValidation t) = t0 at hcols0 ⊢
  rw [extractConstant_units]
  cases he : extractConstant text t0 with
  | error e => rfl
  | ok p =>
    obtain ⟨t1, constant⟩ := p
    have hcols1 : ∀ col ∈ t1.cols, cleanName col = "Minimum Detectable Effect" ↔ col = "minimum_detectable_effect" := by
      unfold extractConstant at he
      obtain ⟨-, he⟩ := raiseIf_bind_ok.mp he
      cases he
      exact fun col hcol => hcols0 col (List.mem_filter.mp hcol).1
    show (do
      raiseIf PyErr.keyError (¬ ((summaryUnits c t1).rows.map Prod.fst).Nodup)
      let rows ← (summaryUnits c t1).rows.mapM (fun r => do
        let cells ← t1.cols.mapM (fun x => shownCell R (summaryUnits c t1) x (r.2 x))
        return (r.1, cells))
      return _) = Except.map _ (do
      raiseIf PyErr.keyError (¬ (t1.rows.map Prod.fst).Nodup)
      let rows ← t1.rows.mapM (fun r => do
        let cells ← t1.cols.mapM (fun x => shownCell R t1 x (r.2 x))
        return (r.1, cells))
      return _)
    have hf : (summaryUnits c t1).rows.map Prod.fst = t1.rows.map Prod.fst := by
      unfold summaryUnits; rw [List.map_map]; rfl
    rw [hf]
    by_cases hn : (t1.rows.map Prod.fst).Nodup
    swap
    · simp only [raiseIf, if_pos hn]; rfl
    have hr : (summaryUnits c t1).rows.mapM (m := Py) (fun r => do
          let cells ← t1.cols.mapM (fun x => shownCell R (summaryUnits c t1) x (r.2 x))
          return ((r.1, cells) : String × List (ShownCell ℝ))) = (t1.rows.mapM (m := Py) (fun r => do
          let cells ← t1.cols.mapM (fun x => shownCell R t1 x (r.2 x))
          return ((r.1, cells) : String × List (ShownCell ℝ))) : Py (List (String × List (ShownCell ℝ)))).map (List.map fun r : String × List (ShownCell ℝ) => (r.1, List.zipWith (Spec.cellInUnits c) (t1.cols.map cleanName) r.2)) := by
      show (t1.rows.map _).mapM _ = _
      rw [List.mapM_map]
      have hrow : ∀ r : String × (String → SVal ℝ), (do
            let cells ← t1.cols.mapM (fun x => shownCell R (summaryUnits c t1) x (unitsAt c x (r.2 x)))
            return (r.1, cells) : Py (String × List (ShownCell ℝ))) = (do
            let cells ← t1.cols.mapM (fun x => shownCell R t1 x (r.2 x))
            return (r.1, cells) : Py (String × List (ShownCell ℝ))).map (fun r : String × List (ShownCell ℝ) => (r.1, List.zipWith (Spec.cellInUnits c) (t1.cols.map cleanName) r.2)) := by
        intro r
        rw [mapM_shown t1.cols (fun x => shownCell R t1 x (r.2 x)) _ (fun col => Spec.cellInUnits c (cleanName col))
          fun x hx => shownCell_units hc R t1 x (r.2 x) (hcols1 x hx)]
        cases t1.cols.mapM (fun x => shownCell R t1 x (r.2 x)) with
        | error e => rfl
        | ok cells =>
          show Except.ok (r.1, List.zipWith (fun col => Spec.cellInUnits c (cleanName col)) t1.cols cells) =
            Except.ok (r.1, List.zipWith (Spec.cellInUnits c) (List.map cleanName t1.cols) cells)
          rw [List.zipWith_map_left]
      generalize t1.rows = rows
      induction rows with
      | nil => rfl
      | cons r l ih =>
        rw [List.mapM_cons, List.mapM_cons, ih, Function.comp]
        rw [hrow r]
        cases (do
            let cells ← t1.cols.mapM (fun x => shownCell R t1 x (r.2 x))
            return (r.1, cells) : Py (String × List (ShownCell ℝ))) with
        | error e => rfl
        | ok b =>
          cases (l.mapM fun r => (do
            let cells ← t1.cols.mapM (fun x => shownCell R t1 x (r.2 x))
            return (r.1, cells) : Py (String × List (ShownCell ℝ)))) <;> rfl
    rw [hr]
    simp only [raiseIf, if_neg (not_not.mpr hn)]
    cases (t1.rows.mapM fun r => (do
        let cells ← t1.cols.mapM (fun x => shownCell R t1 x (r.2 x))
        return (r.1, cells) : Py (String × List (ShownCell ℝ)))) <;> rfl

theorem showStudy_units (hc : 0 < c) (V : StudyEnv) (ht1 : Spec.MeansInUnits V.tests.t1 c) (S : SummarySorter) (text : SVal ℝ → String) (b : Bool)
    {s s' : Study} (h : SessionUnits c m s s') : showStudy V S text b s' = (showStudy V S text b s).map (Spec.shownInUnits c) := by
  have := makeSummary_units V ht1 S h "relative_minimum_detectable_effect" (by decide)
  unfold showStudy
  revert this
  generalize makeSummary V.R V.fr V.printable V.tests S (s.map Prod.snd) "relative_minimum_detectable_effect" = T
  generalize makeSummary V.R V.fr V.printable V.tests S (s'.map Prod.snd) "relative_minimum_detectable_effect" = T'
  intro this
  cases T with
  | error e =>
    cases T' with
    | error e' => exact congrArg Except.error (Eq.symm this)
    | ok _ => exact this.elim
  | ok t =>
    cases T' with
    | error e' => exact this.elim
    | ok t' =>
      obtain ⟨rfl, hcols⟩ := this
      refine formatSummary_units hc V.R text t b ?_
      rw [hcols]
      decide +kernel

end units

end Feedx
