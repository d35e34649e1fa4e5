import Verif.Proofs.ItemNameChecks

/-!
Lemmas for C136: the prepared data of an experiment with other names of the items.
-/

set_option linter.unusedSectionVars false
set_option linter.unusedSimpArgs false
set_option maxHeartbeats 1000000

namespace Feedx

open Spec (named)

variable {K : Type} [Field K] [LinearOrder K] {ρ : String → String}

theorem daysPerPeriod_named (f : Frame K) : daysPerPeriod (namedFrame ρ f) = daysPerPeriod f := by
  unfold daysPerPeriod
  have h : (namedFrame ρ f).rows.map (fun r => (r "date", r "time_period")) = f.rows.map (fun r => (r "date", r "time_period")) := by
    rw [namedFrame_rows]
    simp only [List.map_map, Function.comp_def, namedRow_other (x := "date") (by decide), namedRow_other (x := "time_period") (by decide)]
  rw [h, namedFrame_cols]

/-! ### The assignment table -/

theorem cleanAssignment_named {E : Ext K} {itemCol treatCol : String} {assign assign' : Frame K} (h : Spec.RawNamed E itemCol ρ assign assign')
    (hne : itemCol ≠ treatCol) (hmem : itemCol ∈ assign.cols) :
    Spec.SameOutcome (fun b b' => Spec.TableNamed ρ b b' ∧ "item_id" ∈ b.cols ∧ "treatment_assignment" ∈ b.cols)
      (cleanAssignment E assign itemCol treatCol) (cleanAssignment E assign' itemCol treatCol) := by
  unfold cleanAssignment
  rw [h.1]
  by_cases n : ¬ (assign.cols.map (renameCol itemCol treatCol)).Nodup
  · simp only [n, raiseIf, if_true]; exact rfl
  have n := not_not.mp n
  by_cases h1 : "item_id" ∉ assign.cols.map (renameCol itemCol treatCol)
  · simp only [n, h1, raiseIf, if_true, not_true_eq_false, if_false]; exact rfl
  by_cases h2 : "treatment_assignment" ∉ assign.cols.map (renameCol itemCol treatCol)
  · simp only [n, h1, h2, raiseIf, if_true, not_true_eq_false, if_false]; exact rfl
  simp only [n, h1, h2, raiseIf, not_true_eq_false, if_false]
  have hitem : (assign.cols.find? (fun k => decide (renameCol itemCol treatCol k = "item_id"))).getD "item_id" = itemCol := by
    have := old_name n hmem
    rwa [rename_item hne] at this
  have hother : ∀ k ∈ assign.cols, renameCol itemCol treatCol k ≠ "item_id" →
      (assign.cols.find? (fun k' => decide (renameCol itemCol treatCol k' = renameCol itemCol treatCol k))).getD (renameCol itemCol treatCol k) ≠ itemCol := by
    intro k hk hc
    rw [old_name n hk]
    rintro rfl
    exact hc (rename_item hne)
  iterate 3 refine Spec.SameOutcome.bind (P := fun _ _ => True) trivial fun _ _ _ => ?_
  refine Spec.SameOutcome.bind (rel_mapM (Q := fun r r' : Row K => ∀ x ∈ assign.cols.map (renameCol itemCol treatCol),
    r' x = if x = "item_id" then named ρ (r x) else r x) h.2 _ _ ?_) fun rows rows' hr => ?_
  · intro r r' hr
    have ht : r' ((assign.cols.find? (fun k => decide (renameCol itemCol treatCol k = "treatment_assignment"))).getD "treatment_assignment") =
        r ((assign.cols.find? (fun k => decide (renameCol itemCol treatCol k = "treatment_assignment"))).getD "treatment_assignment") := by
      obtain ⟨k, hk, e⟩ := List.mem_map.mp (not_not.mp h2)
      refine hr.1 _ ?_
      have := hother k hk (by rw [e]; decide)
      rwa [e] at this
    rw [ht]
    cases E.toInt (r ((assign.cols.find? (fun k => decide (renameCol itemCol treatCol k = "treatment_assignment"))).getD "treatment_assignment")) with
    | error e => exact rfl
    | ok t =>
      show ∀ x ∈ _, _
      intro x hx
      by_cases hxi : x = "item_id"
      · subst hxi
        simp only [if_true, hitem, hr.2]
        rfl
      · by_cases hxt : x = "treatment_assignment"
        · subst hxt
          simp
        · simp only [hxi, hxt, if_false]
          obtain ⟨k, hk, rfl⟩ := List.mem_map.mp hx
          exact hr.1 _ (hother k hk hxi)
  · exact ⟨⟨rfl, hr⟩, not_not.mp h1, not_not.mp h2⟩

theorem TableNamed.agree {f f' : Frame K} (h : Spec.TableNamed ρ f f') : AgreeOn f.cols (namedFrame ρ f) f' where
  cols := fun c _ => by rw [h.1]; rfl
  rows := by
    show List.Forall₂ _ (f.rows.map _) _
    rw [List.forall₂_map_left_iff]
    exact h.2

theorem TableNamed.items {f f' : Frame K} (h : Spec.TableNamed ρ f f') (hi : "item_id" ∈ f.cols) : f'.col "item_id" = (f.col "item_id").map (named ρ) := by
  rw [(TableNamed.agree h).col hi, namedFrame_items]

/-- Merging the assignment tables. -/
theorem mergeAssignment_named (hρ : Function.Injective ρ) (f : Frame K) {b b' : Frame K} (h : Spec.TableNamed ρ b b') (hi : "item_id" ∈ b.cols) :
    Spec.SameOutcome (fun g g' => Spec.TableNamed ρ g g' ∧ g.cols = f.cols ++ b.cols.filter (fun c => decide (c ≠ "item_id")))
      (mergeAssignment f b) (mergeAssignment (namedFrame ρ f) b') := by
  unfold mergeAssignment
  rw [namedFrame_cols, h.1]
  by_cases h1 : b.cols.any (fun c => decide (c ≠ "item_id" ∧ c ∈ f.cols)) = true
  · simp only [h1, raiseIf]; exact rfl
  simp only [h1, raiseIf]
  show Spec.TableNamed ρ _ _ ∧ _
  refine ⟨⟨rfl, ?_⟩, rfl⟩
  show List.Forall₂ _ (f.rows.flatMap _) ((f.rows.map _).flatMap _)
  rw [List.flatMap_map]
  refine rel_flatMap _ _ _ fun r _ => ?_
  have hf := RowsAgree.filter (TableNamed.agree h).rows (p := fun a => decide (a "item_id" = namedRow ρ r "item_id")) (fun r r' e => by rw [e _ hi])
  have he : (namedFrame ρ b).rows.filter (fun a => decide (a "item_id" = namedRow ρ r "item_id")) =
      (b.rows.filter (fun a => decide (a "item_id" = r "item_id"))).map (namedRow ρ) := by
    rw [namedFrame_rows, List.filter_map]
    simp only [Function.comp_def, namedRow_inj hρ]
  rw [he] at hf
  unfold RowsAgree at hf
  rw [List.forall₂_map_left_iff] at hf
  rw [List.forall₂_map_left_iff, List.forall₂_map_right_iff]
  refine hf.imp fun a a' e x hx => ?_
  unfold joinRow
  by_cases hc : x ∈ f.cols
  · rw [if_pos hc, if_pos hc]; rfl
  · rw [if_neg hc, if_neg hc]
    exact e x (List.mem_of_mem_filter ((List.mem_append.mp hx).resolve_left hc))

/-! ### The experiment data -/

/-- The built tables. -/
structure BuiltNamed (ρ : String → String) (a : ExperimentArgs) (f f' : Frame K) : Prop where
  table : Spec.TableNamed ρ f f'
  names : ∀ c ∈ ["item_id", "date", "week_id", "week_start", "time_period", "treatment_assignment"] ++ preparedMetrics a, c ∈ f.cols

theorem buildExperiment_named [IsStrictOrderedRing K] [FloorRing K] (hρ : StrictMono ρ) {E : Ext K} {perf perf' assign assign' : Frame K} {d : Design K} {s itemCol dateCol treatCol : String}
    {a : ExperimentArgs} (h : Spec.RawNamed E itemCol ρ perf perf') (h' : Spec.RawNamed E itemCol ρ assign assign') (hne : itemCol ≠ dateCol)
    (hnt : itemCol ≠ treatCol) (hmem : itemCol ∈ assign.cols) :
    Spec.SameOutcome (BuiltNamed ρ a) (buildExperiment E perf assign d s itemCol dateCol treatCol a)
      (buildExperiment E perf' assign' d s itemCol dateCol treatCol a) := by
  unfold buildExperiment
  refine (cleanAssignment_named h' hnt hmem).bind fun b b' hb => ?_
  obtain ⟨hb, hi, ht⟩ := hb
  rw [missingRows_named hρ.injective h hne b b' (TableNamed.items hb hi)]
  cases missingRows E perf b itemCol dateCol with
  | error e => exact rfl
  | ok missing =>
    simp only [Except.map, bind, Except.bind]
    rw [standardize_named h]
    cases e1 : standardize E perf itemCol dateCol a.std (a.other.map (fun c => (c, c))) (a.other.map (fun c => (c, floatParse E))) with
    | error e => exact rfl
    | ok f1 =>
      simp only [Except.map]
      rw [mergeMissing_named hρ, fillMissing_named hρ.injective]
      cases e2 : fillMissing (mergeMissing f1 missing) "item_id" "date" with
      | error e => exact rfl
      | ok f2 =>
        simp only [Except.map]
        rw [addWeeks_named]
        cases e3 : addWeeks E f2 "date" (some s) "week_id" "week_start" with
        | error e => exact rfl
        | ok f3 =>
          simp only [Except.map]
          rw [addTimePeriodColumn_named]
          cases e4 : addTimePeriodColumn d.toDesignParams 0 "week_id" "time_period" f3 with
          | error e => exact rfl
          | ok f4 =>
            simp only [Except.map]
            rw [addAtLeastOne_named]
            cases e5 : addAtLeastOne a.atLeastOne f4 with
            | error e => exact rfl
            | ok f5 =>
              simp only [Except.map]
              refine (mergeAssignment_named hρ.injective f5 hb hi).imp fun g g' _ _ hg => ⟨hg.1, fun c hc => ?_⟩
              rw [hg.2, List.mem_append]
              by_cases hct : c = "treatment_assignment"
              · subst hct
                exact Or.inr (List.mem_filter.mpr ⟨ht, by decide⟩)
              · left
                rw [before_merge_cols e1 e2 e3 e4 e5]
                simp only [List.mem_append, List.mem_cons, List.not_mem_nil, or_false] at hc ⊢
                tauto

theorem prepareExperiment_named [IsStrictOrderedRing K] [FloorRing K] (hρ : StrictMono ρ) {C : Checker K} {perf perf' assign assign' : Frame K} {d : Design K}
    {s itemCol dateCol treatCol : String} {a : ExperimentArgs} (h : Spec.RawNamed C.ext itemCol ρ perf perf')
    (h' : Spec.RawNamed C.ext itemCol ρ assign assign') (hne : itemCol ≠ dateCol) (hnt : itemCol ≠ treatCol) (hmem : itemCol ∈ assign.cols)
    (hskip : "coinflip_salt_validation" ∈ a.skip) :
    Spec.SameOutcome (BuiltNamed ρ a) (prepareExperiment C perf assign d s itemCol dateCol treatCol a)
      (prepareExperiment C perf' assign' d s itemCol dateCol treatCol a) := by
  unfold prepareExperiment
  refine (buildExperiment_named hρ h h' hne hnt hmem).bind fun f f' hf => ?_
  have hn : checkNulls f' = checkNulls (namedFrame ρ f) := by
    unfold checkNulls
    rw [hf.table.1, namedFrame_cols]
    rw [RowsAgree.any (TableNamed.agree hf.table).rows (p := fun r => f.cols.any (fun c => (r c).isNull)) (fun r r' e => ?_)]
    rw [Bool.eq_iff_iff, List.any_eq_true, List.any_eq_true]
    exact exists_congr fun c => and_congr_right fun hc => by rw [e c hc]
  have hv := validateExperiment_agree C (TableNamed.agree hf.table) d (metrics := preparedMetrics a) s a.concluded a.canBeNegative a.skip
    (hf.names "item_id" (by simp)) (hf.names "date" (by simp)) (hf.names "week_id" (by simp)) (hf.names "treatment_assignment" (by simp))
    (fun c hc => hf.names c (List.mem_append_right _ hc)) (by rw [hn])
  rw [hv, validateExperiment_named hρ.injective f hskip]
  cases validateExperiment C f d "item_id" "date" "week_id" "treatment_assignment" (preparedMetrics a) s a.concluded a.canBeNegative a.skip with
  | error e => exact rfl
  | ok u => exact hf

theorem BuiltNamed.days {a : ExperimentArgs} {f f' : Frame K} (h : BuiltNamed ρ a f f') : daysPerPeriod f' = daysPerPeriod f := by
  rw [daysPerPeriod_agree (TableNamed.agree h.table) (h.names "date" (by simp)) (h.names "time_period" (by simp)), daysPerPeriod_named]

theorem BuiltNamed.analysis (hρ : StrictMono ρ) {a : ExperimentArgs} {f f' : Frame ℝ} (h : BuiltNamed ρ a f f') (R : Rounding ℝ)
    (argsort : List ℝ → List ℕ) (D : TDist) (metrics : List Metric) (d : Design ℝ) :
    analyseData R argsort D metrics (d, f') = analyseData R argsort D metrics (d, f) := by
  unfold analyseData
  simp only
  rw [h.table.1]
  rw [analyzeExperiment_agree (f := (namedFrame ρ f).dropCol "time_period") (dropCol_agree (TableNamed.agree h.table) "time_period") (h.names "item_id" (by simp))
    (h.names "week_id" (by simp)) (h.names "treatment_assignment" (by simp)) (h.names "time_period" (by simp))
    (fun c _ => by unfold Frame.dropCol; rw [h.table.1]; rfl) (fun c _ hc => List.mem_of_mem_filter hc), namedFrame_dropCol,
    analyzeExperiment_named hρ]

end Feedx
