import Verif.Proofs.ItemShuffle
import Verif.Proofs.ItemNameBuild
import Verif.Props.RowOrder
import Verif.Spec.AnyNames

/-!
Lemmas for C138: data with other names of the items, whatever order the names are in.
-/

set_option linter.unusedSectionVars false
set_option linter.unusedSimpArgs false
set_option maxHeartbeats 1000000

namespace Feedx

open Spec (named)

theorem Spec.SameOutcome.both {α β : Type} {P : α → β → Prop} {x : Py α} {y : Py β} (h : Spec.SameOutcome P x y) : Spec.BothReturn P x y := by
  cases x <;> cases y <;> first | exact h | trivial

theorem Spec.BothReturn.bind {α β α' β' : Type} {P : α → β → Prop} {Q : α' → β' → Prop} {x : Py α} {y : Py β} (h : Spec.BothReturn P x y)
    {f : α → Py α'} {g : β → Py β'} (hfg : ∀ a b, P a b → Spec.BothReturn Q (f a) (g b)) : Spec.BothReturn Q (x >>= f) (y >>= g) := by
  cases x <;> cases y <;> first | exact hfg _ _ h | exact h | exact h.elim

theorem Spec.BothReturn.imp {α β : Type} {P Q : α → β → Prop} {x : Py α} {y : Py β} (h : Spec.BothReturn P x y) (hpq : ∀ a b, x = .ok a → y = .ok b → P a b → Q a b) :
    Spec.BothReturn Q x y := by
  cases x <;> cases y <;> first | exact hpq _ _ rfl rfl h | exact h

/-- A step that returns with the rows in any order returns the same rows. -/
theorem Spec.BothReturn.ofRows {K : Type} {x y : Py (Frame K)} (h : ∀ a, x = .ok a → ∃ b, y = .ok b ∧ Spec.SameRows a b)
    (h' : ∀ b, y = .ok b → ∃ a, x = .ok a ∧ Spec.SameRows b a) : Spec.BothReturn Spec.SameRows x y := by
  cases x with
  | error e =>
    cases y with
    | error e' => trivial
    | ok b => obtain ⟨a, ha, -⟩ := h' b rfl; cases ha
  | ok a =>
    obtain ⟨b, hb, hs⟩ := h a rfl
    subst hb
    exact hs

section build
variable {K : Type} [Field K] [LinearOrder K] {ρ : String → String}

/-- The rows of the items without data, merged in. -/
theorem mergeMissing_renamed (f : Frame K) (missing : List (Row K)) :
    Spec.SameRows (namedFrame ρ (mergeMissing f missing)) (mergeMissing (namedFrame ρ f) (missing.map (namedRow ρ))) := by
  unfold mergeMissing namedFrame
  refine ⟨rfl, ?_⟩
  refine (List.perm_insertionSort _ _).trans ?_
  rw [← List.map_append]
  exact (List.perm_insertionSort _ _).symm.map _

/-- A step of the preparation, with the items renamed and the rows in another order. -/
theorem step_renamed {S : Frame K → Py (Frame K)} (hn : ∀ f, S (namedFrame ρ f) = (S f).map (namedFrame ρ))
    (hs : ∀ f f' out, Spec.SameRows f f' → S f = .ok out → ∃ out', S f' = .ok out' ∧ Spec.SameRows out out') {f f' : Frame K}
    (h : Spec.SameRows (namedFrame ρ f) f') : Spec.BothReturn (fun g g' => Spec.SameRows (namedFrame ρ g) g') (S f) (S f') := by
  have key := Spec.BothReturn.ofRows (hs _ _ · h) (hs _ _ · h.symm)
  rw [hn] at key
  cases e : S f <;> cases e' : S f' <;> rw [e, e'] at key <;> first | exact key | trivial

theorem buildExperiment_renamed [IsStrictOrderedRing K] [FloorRing K] (hρ : Function.Injective ρ) {E : Ext K} {perf perf' assign assign' : Frame K}
    {d : Design K} {s itemCol dateCol treatCol : String} {a : ExperimentArgs} (h : Spec.RawNamed E itemCol ρ perf perf')
    (h' : Spec.RawNamed E itemCol ρ assign assign') (hne : itemCol ≠ dateCol) (hnt : itemCol ≠ treatCol) (hmem : itemCol ∈ assign.cols) :
    Spec.BothReturn (fun f f' => ∃ g, BuiltNamed ρ a f g ∧ Spec.SameRows g f') (buildExperiment E perf assign d s itemCol dateCol treatCol a)
      (buildExperiment E perf' assign' d s itemCol dateCol treatCol a) := by
  unfold buildExperiment
  refine (cleanAssignment_named h' hnt hmem).both.bind fun b b' hb => ?_
  obtain ⟨hb, hi, ht⟩ := hb
  rw [missingRows_named hρ h hne b b' (TableNamed.items hb hi)]
  cases missingRows E perf b itemCol dateCol with
  | error e => exact trivial
  | ok missing =>
    simp only [Except.map, bind, Except.bind]
    rw [standardize_named h]
    cases e1 : standardize E perf itemCol dateCol a.std (a.other.map (fun c => (c, c))) (a.other.map (fun c => (c, floatParse E))) with
    | error e => exact trivial
    | ok f1 =>
      refine (step_renamed (S := fun f => fillMissing f "item_id" "date") (fillMissing_named hρ) (fun _ _ _ => fillMissing_sameRows)
        (mergeMissing_renamed f1 missing)).imp (Q := fun f2 f2' => Spec.SameRows (namedFrame ρ f2) f2' ∧ fillMissing (mergeMissing f1 missing) "item_id" "date" = .ok f2)
        (fun _ _ e _ hf => ⟨hf, e⟩) |>.bind fun f2 f2' ⟨k2, e2⟩ => ?_
      refine (step_renamed (S := fun f => addWeeks E f "date" (some s) "week_id" "week_start") (fun f => addWeeks_named E f _)
        (fun _ _ _ => addWeeks_sameRows) k2).imp (Q := fun f3 f3' => Spec.SameRows (namedFrame ρ f3) f3' ∧ addWeeks E f2 "date" (some s) "week_id" "week_start" = .ok f3)
        (fun _ _ e _ hf => ⟨hf, e⟩) |>.bind fun f3 f3' ⟨k3, e3⟩ => ?_
      refine (step_renamed (S := addTimePeriodColumn d.toDesignParams 0 "week_id" "time_period") (fun f => addTimePeriodColumn_named _ _ f)
        (fun _ _ _ => addTimePeriodColumn_sameRows) k3).imp (Q := fun f4 f4' => Spec.SameRows (namedFrame ρ f4) f4' ∧
          addTimePeriodColumn d.toDesignParams 0 "week_id" "time_period" f3 = .ok f4)
        (fun _ _ e _ hf => ⟨hf, e⟩) |>.bind fun f4 f4' ⟨k4, e4⟩ => ?_
      refine (step_renamed (S := addAtLeastOne a.atLeastOne) (fun f => addAtLeastOne_named _ f)
        (fun _ _ _ => addAtLeastOne_sameRows) k4).imp (Q := fun f5 f5' => Spec.SameRows (namedFrame ρ f5) f5' ∧ addAtLeastOne a.atLeastOne f4 = .ok f5)
        (fun _ _ e _ hf => ⟨hf, e⟩) |>.bind fun f5 f5' ⟨k5, e5⟩ => ?_
      have key := mergeAssignment_named hρ f5 hb hi
      have hrows := Spec.BothReturn.ofRows (fun g => mergeAssignment_sameRows (out := g) k5 (Spec.SameRows.refl b'))
        (fun g => mergeAssignment_sameRows (out := g) k5.symm (Spec.SameRows.refl b'))
      cases m1 : mergeAssignment f5 b <;> cases m2 : mergeAssignment (namedFrame ρ f5) b' <;> cases m3 : mergeAssignment f5' b' <;>
        rw [m1, m2] at key <;> rw [m2, m3] at hrows <;> first | exact trivial | exact key.elim | exact hrows.elim | skip
      rename_i g g'' g'
      have hg : Spec.TableNamed ρ g g'' ∧ g.cols = _ := key
      refine ⟨g'', ⟨hg.1, fun c hc => ?_⟩, hrows⟩
      rw [hg.2, List.mem_append]
      by_cases hct : c = "treatment_assignment"
      · subst hct
        exact Or.inr (List.mem_filter.mpr ⟨ht, by decide⟩)
      · left
        rw [before_merge_cols e1 e2 e3 e4 e5]
        simp only [List.mem_append, List.mem_cons, List.not_mem_nil, or_false] at hc ⊢
        tauto

theorem TableNamed.weeks {f f' : Frame K} (h : Spec.TableNamed ρ f f') (hd : "date" ∈ f.cols) (hw : "week_id" ∈ f.cols)
    (hg : Spec.DateGivesWeek f "week_id" "date") : Spec.DateGivesWeek f' "week_id" "date" := by
  have key : ∀ r' ∈ f'.rows, ∃ r ∈ f.rows, r' "date" = r "date" ∧ r' "week_id" = r "week_id" := by
    intro r' hr'
    obtain ⟨r, hr, e⟩ := forall₂_exists h.2.flip hr'
    exact ⟨r, hr, by simpa using e "date" hd, by simpa using e "week_id" hw⟩
  intro r' hr' t' ht' e
  obtain ⟨r, hr, e1, e2⟩ := key r' hr'
  obtain ⟨t, ht, e3, e4⟩ := key t' ht'
  rw [e2, e4]
  exact hg r hr t ht (by rw [← e1, ← e3, e])

theorem prepareExperiment_renamed [IsStrictOrderedRing K] [FloorRing K] (hρ : Function.Injective ρ) {C : Checker K} {perf perf' assign assign' : Frame K}
    {d : Design K} {s itemCol dateCol treatCol : String} {a : ExperimentArgs} (h : Spec.RawNamed C.ext itemCol ρ perf perf')
    (h' : Spec.RawNamed C.ext itemCol ρ assign assign') (hne : itemCol ≠ dateCol) (hnt : itemCol ≠ treatCol) (hmem : itemCol ∈ assign.cols)
    (hnames : ∀ p ∈ a.atLeastOne, p.2 ≠ "week_id" ∧ p.2 ≠ "date") (hskip : "coinflip_salt_validation" ∈ a.skip) :
    Spec.BothReturn (fun f f' => ∃ g, BuiltNamed ρ a f g ∧ Spec.SameRows g f') (prepareExperiment C perf assign d s itemCol dateCol treatCol a)
      (prepareExperiment C perf' assign' d s itemCol dateCol treatCol a) := by
  unfold prepareExperiment
  refine ((buildExperiment_renamed hρ h h' hne hnt hmem).imp (Q := fun f f' => (∃ g, BuiltNamed ρ a f g ∧ Spec.SameRows g f') ∧
    buildExperiment C.ext perf assign d s itemCol dateCol treatCol a = .ok f) (fun _ _ e _ hf => ⟨hf, e⟩)).bind fun f f' ⟨⟨g, hf, hs⟩, e⟩ => ?_
  have hw := TableNamed.weeks hf.table (hf.names "date" (by simp)) (hf.names "week_id" (by simp)) (buildExperiment_weeks (by
    rintro hc
    obtain ⟨p, hp, e⟩ := List.mem_map.mp hc
    exact (hnames p hp).1 e) (by
    rintro hc
    obtain ⟨p, hp, e⟩ := List.mem_map.mp hc
    exact (hnames p hp).2 e) e)
  have hn : checkNulls g = checkNulls (namedFrame ρ f) := by
    unfold checkNulls
    rw [hf.table.1, namedFrame_cols]
    rw [RowsAgree.any (TableNamed.agree hf.table).rows (p := fun r => f.cols.any (fun c => (r c).isNull)) (fun r r' e => ?_)]
    rw [Bool.eq_iff_iff, List.any_eq_true, List.any_eq_true]
    exact exists_congr fun c => and_congr_right fun hc => by rw [e c hc]
  have hv := validateExperiment_agree C (TableNamed.agree hf.table) d (metrics := preparedMetrics a) s a.concluded a.canBeNegative a.skip
    (hf.names "item_id" (by simp)) (hf.names "date" (by simp)) (hf.names "week_id" (by simp)) (hf.names "treatment_assignment" (by simp))
    (fun c hc => hf.names c (List.mem_append_right _ hc)) (by rw [hn])
  rw [validateExperiment_sameRows hs hw, hv, validateExperiment_named hρ f hskip]
  cases validateExperiment C f d "item_id" "date" "week_id" "treatment_assignment" (preparedMetrics a) s a.concluded a.canBeNegative a.skip with
  | error e => exact trivial
  | ok u => exact ⟨g, hf, hs⟩

/-- The number of days per period does not depend on the order of the rows. -/
theorem daysPerPeriod_sameRows {f f' : Frame K} (h : Spec.SameRows f f') : daysPerPeriod f' = daysPerPeriod f := by
  have hp : (dropDup (f'.rows.map (fun r => (r "date", r "time_period")))).Perm (dropDup (f.rows.map (fun r => (r "date", r "time_period")))) :=
    dropDup_perm (h.rows.map _)
  have hl : (dropDup ((dropDup (f'.rows.map (fun r => (r "date", r "time_period")))).filterMap (fun p => periodText p.2))).insertionSort (· ≤ ·) =
      (dropDup ((dropDup (f.rows.map (fun r => (r "date", r "time_period")))).filterMap (fun p => periodText p.2))).insertionSort (· ≤ ·) :=
    List.Perm.eq_of_pairwise' (List.pairwise_insertionSort _ _) (List.pairwise_insertionSort _ _)
      ((List.perm_insertionSort _ _).trans ((dropDup_perm (hp.filterMap _)).trans (List.perm_insertionSort _ _).symm))
  unfold daysPerPeriod
  simp only [h.cols, hl, hp.countP_eq, hp.mem_iff]

end build

/-! ### The analysis -/

theorem mapM_ok_iff {α β : Type} {g g' : α → Py β} (l : List α) (h : ∀ x ∈ l, ∀ r, g' x = .ok r ↔ g x = .ok r) (out : List β) :
    l.mapM g' = .ok out ↔ l.mapM g = .ok out := by
  induction l generalizing out with
  | nil => exact Iff.rfl
  | cons x l ih =>
    simp only [List.mapM_cons, Py.bind_eq_ok]
    refine exists_congr fun a => and_congr (h x (by simp) a) (exists_congr fun b => and_congr (ih (fun y hy => h y (by simp [hy])) b) Iff.rfl)

theorem groupKeys_length {K : Type} [Field K] [LinearOrder K] {rows : List (Row K)} {cols : List String} {k : List (Cell K)} (h : k ∈ groupKeys rows cols) :
    k.length = cols.length := by
  unfold groupKeys at h
  have h := (List.perm_insertionSort _ _).mem_iff.mp h
  obtain ⟨r, -, rfl⟩ := List.mem_map.mp (List.mem_of_mem_filter (mem_dropDup.mp h))
  simp

theorem weekBetween_empty (start : ℤ) (y : Fl ℝ) : weekBetween y (start - 0) (start - 1) = false := by
  unfold weekBetween
  cases y with
  | nan => rfl
  | pinf => simp [Fl.le]
  | ninf => simp [Fl.le]
  | fin x =>
    simp only [Fl.le, Bool.and_eq_false_iff, decide_eq_false_iff_not, not_le]
    push_cast
    by_cases h : x < start
    · left; linarith
    · right; linarith

/-- Without pretest weeks no row of a regular experiment is labelled with a pretest. -/
theorem pivotTimeAssignment_pretest {d : DesignParams ℝ} (hx : d.isCrossover = false) (hp : d.pretest = 0) {start : ℤ} {metrics : List String}
    {item week period : String} {treat : Option String} {f : Frame ℝ} {piv : Pivoted ℝ}
    (e : (pivotTimeAssignment d start metrics item week treat period f).1 = .ok piv) : ∀ x ∈ piv.periods, x = .null ∨ x = .str "test" := by
  unfold pivotTimeAssignment at e
  split_ifs at e
  · cases eg : labelRows d start week period f with
    | error y => rw [eg] at e; cases e
    | ok g =>
      rw [eg] at e
      simp only at e
      split_ifs at e
      · obtain rfl := Except.ok.inj e
        intro x hxm
        unfold pivotTable at hxm
        simp only [mem_dropDup, List.mem_map, List.mem_filter] at hxm
        obtain ⟨r, ⟨hr, -⟩, rfl⟩ := hxm
        unfold labelRows at eg
        obtain ⟨-, eg⟩ := raiseIf_bind_ok.mp eg
        obtain ⟨-, eg⟩ := raiseIf_bind_ok.mp eg
        obtain rfl := Except.ok.inj eg
        obtain ⟨r0, -, rfl⟩ := List.mem_map.mp hr
        have hl : ∀ y : Fl ℝ, designLabel d start y = .ok none ∨ designLabel d start y = .ok (some "test") := by
          intro y
          unfold designLabel
          have hb := weekBetween_empty start y
          simp only [hx, hp, Bool.false_eq_true, if_false, regularLabel, lastLabel, hb, List.foldl_cons, List.foldl_nil]
          split_ifs
          · exact .inr rfl
          · exact .inl rfl
        rcases hl ((r0 week).toFl) with k | k
        · left; simp [Function.update_self, k, labelCell]
        · right; simp [Function.update_self, k, labelCell]

section
variable {ρ : String → String}

/-- The pivoted tables: the same entries, with the items in the order of their new names. -/
theorem pivotTimeAssignment_renamed (hρ : Function.Injective ρ) (d : DesignParams ℝ) (metrics : List String) (f : Frame ℝ) :
    Spec.BothReturn (fun piv piv' => ∃ l : List (List (Cell ℝ)), l.Perm piv.index ∧ (∀ k ∈ piv.index, k.length = 2) ∧
        PivotNamed ρ ["item_id", "treatment_assignment"] { piv with index := l } piv')
      (pivotTimeAssignment d 0 metrics "item_id" "week_id" (some "treatment_assignment") "time_period" f).1
      (pivotTimeAssignment d 0 metrics "item_id" "week_id" (some "treatment_assignment") "time_period" (namedFrame ρ f)).1 := by
  unfold pivotTimeAssignment
  rw [namedFrame_cols]
  split_ifs with h1 h2
  · trivial
  · trivial
  · rw [labelRows_named d 0 f]
    cases labelRows d 0 "week_id" "time_period" f with
    | error e => trivial
    | ok g =>
      simp only [Except.map]
      have hper : (pivotTable d (indexColumns "item_id" (some "treatment_assignment")) "time_period" (namedFrame ρ g).rows).periods =
          (pivotTable d (indexColumns "item_id" (some "treatment_assignment")) "time_period" g.rows).periods := by
        unfold pivotTable
        show dropDup _ = dropDup _
        rw [namedFrame_rows, List.filter_map, map_named_col (by decide)]
        simp only [Function.comp_def, namedRow_isNull]
      rw [hper]
      split_ifs
      · trivial
      · have hidx : (pivotTable d (indexColumns "item_id" (some "treatment_assignment")) "time_period" (namedFrame ρ g).rows).index.Perm
            ((pivotTable d (indexColumns "item_id" (some "treatment_assignment")) "time_period" g.rows).index.map
              (namedKey ρ ["item_id", "treatment_assignment"])) := by
          unfold pivotTable
          show (groupKeys _ _).Perm (List.map _ (groupKeys _ _))
          rw [namedFrame_rows, List.filter_map]
          simp only [Function.comp_def, namedRow_isNull]
          exact groupKeys_named_perm hρ _ _
        obtain ⟨l, hl, he⟩ := exists_perm_map hidx
        refine ⟨l, hl, fun k hk => groupKeys_length hk, he, hper, ?_, ?_⟩
        · intro k m p
          unfold pivotTable
          simp only
          rw [namedFrame_rows, List.filter_map, sumCol_named]
          simp only [Function.comp_def, namedKey_map, namedKey_inj hρ, namedRow_other (x := "time_period") (by decide), indexColumns, Option.toList_some]
          rfl
        · funext m
          exact whole_named g.rows m

theorem analyzeExperiment_renamed (hρ : Function.Injective ρ) (R : Rounding ℝ) {argsort : List ℝ → List ℕ} (ha : ArgsortOk argsort) (D : TDist)
    (d : DesignParams ℝ) {metrics : List Metric} (hq : ∀ m ∈ metrics, Spec.OrderFreeMetric d m) (f : Frame ℝ) (rows : List (String × TestResult)) :
    (analyzeExperiment R argsort D d metrics "week_id" "item_id" "treatment_assignment" (namedFrame ρ f)).1 = .ok rows ↔
      (analyzeExperiment R argsort D d metrics "week_id" "item_id" "treatment_assignment" f).1 = .ok rows := by
  unfold analyzeExperiment
  split_ifs
  · simp
  · have key := pivotTimeAssignment_renamed hρ d (metricColumns metrics) f
    cases e : (pivotTimeAssignment d 0 (metricColumns metrics) "item_id" "week_id" (some "treatment_assignment") "time_period" f).1 with
    | error x =>
      cases e' : (pivotTimeAssignment d 0 (metricColumns metrics) "item_id" "week_id" (some "treatment_assignment") "time_period" (namedFrame ρ f)).1 with
      | error x' => simp only [e, e']; simp
      | ok piv' => rw [e, e'] at key; exact key.elim
    | ok piv =>
      cases e' : (pivotTimeAssignment d 0 (metricColumns metrics) "item_id" "week_id" (some "treatment_assignment") "time_period" (namedFrame ρ f)).1 with
      | error x' => rw [e, e'] at key; exact key.elim
      | ok piv' =>
        rw [e, e'] at key
        obtain ⟨l, hl, hk, hn⟩ : ∃ l : List (List (Cell ℝ)), _ := key
        simp only [e, e']
        refine mapM_ok_iff _ (fun m hm r => ?_) rows
        have hq : m.override.getD d.postTrim.val = 0 ∨ (m.denominator = none ∧ d.isCrossover = false ∧ .str "pretest" ∉ piv.periods) :=
          (hq m hm).imp_right fun k => ⟨k.1, k.2.1, fun hmem => by
            rcases pivotTimeAssignment_pretest k.2.1 k.2.2 e _ hmem with h | h
            · cases h
            · exact absurd (Cell.str.inj h) (by decide)⟩
        rw [analyzeSingleMetric_named R argsort D hn]
        simp only [Py.bind_eq_ok]
        refine exists_congr fun t => and_congr_left fun _ => ⟨fun h => ?_, fun h => ?_⟩
        · exact analyzeSingleMetric_shuffle (piv := { piv with index := l }) (l' := piv.index) ha D hl.symm (fun k hk' => hk k (hl.mem_iff.mp hk'))
            (by decide) (by decide) hq h
        · exact analyzeSingleMetric_shuffle ha D hl hk (by decide) (by decide) hq h

theorem BuiltNamed.analysis_renamed (hρ : Function.Injective ρ) {a : ExperimentArgs} {f g f' : Frame ℝ} (h : BuiltNamed ρ a f g) (hs : Spec.SameRows g f')
    (R : Rounding ℝ) {argsort : List ℝ → List ℕ} (ha : ArgsortOk argsort) (D : TDist) {metrics : List Metric} {d : Design ℝ}
    (hq : ∀ m ∈ metrics, Spec.OrderFreeMetric d.toDesignParams m) (rows : List (String × TestResult)) :
    analyseData R argsort D metrics (d, f') = .ok rows ↔ analyseData R argsort D metrics (d, f) = .ok rows := by
  unfold analyseData
  simp only
  rw [hs.cols, h.table.1, analyzeExperiment_sameRows (hs.dropCol "time_period")]
  rw [analyzeExperiment_agree (f := (namedFrame ρ f).dropCol "time_period") (dropCol_agree (TableNamed.agree h.table) "time_period") (h.names "item_id" (by simp))
    (h.names "week_id" (by simp)) (h.names "treatment_assignment" (by simp)) (h.names "time_period" (by simp))
    (fun c _ => by unfold Frame.dropCol; rw [h.table.1]; rfl) (fun c _ hc => List.mem_of_mem_filter hc), namedFrame_dropCol,
    raiseIf_bind_ok, raiseIf_bind_ok, analyzeExperiment_renamed hρ R ha D d.toDesignParams hq]

end

end Feedx
