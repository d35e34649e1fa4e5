import Verif.Spec.FurtherColumns
import Verif.Proofs.AgreeOn
import Verif.Proofs.ScalingPrepare
import Verif.Props.AnalyseColumns

/-!
Lemmas for C134: the prepared data with further columns in the assignment table.
-/

set_option linter.unusedSectionVars false
set_option linter.unusedSimpArgs false

namespace Feedx

variable {K : Type} [Field K] [LinearOrder K] [FloorRing K]

/-- The cleaned tables. -/
structure CleanPair (E : Ext K) (itemCol treatCol : String) (assign' b b' : Frame K) : Prop where
  cols : b.cols = ["item_id", "treatment_assignment"]
  cols' : ∀ c, c ∈ b'.cols ↔ c = "item_id" ∨ c = "treatment_assignment" ∨ Spec.Further assign' itemCol treatCol c
  rows : RowsAgree ["item_id", "treatment_assignment"] b.rows b'.rows
  further : List.Forall₂ (fun s s' : Row K => s' "item_id" = .str (E.toStr (s itemCol)) ∧ ∀ c, Spec.Further assign' itemCol treatCol c → s' c = s c)
    assign'.rows b'.rows

section clean
variable {itemCol treatCol : String} {assign assign' : Frame K}

theorem rename_item (hne : itemCol ≠ treatCol) : renameCol itemCol treatCol itemCol = "item_id" := by simp [renameCol, hne]

theorem rename_treat : renameCol itemCol treatCol treatCol = "treatment_assignment" := by simp [renameCol]

theorem rename_further {c : String} (hc : Spec.Further assign' itemCol treatCol c) : renameCol itemCol treatCol c = c := by
  simp [renameCol, hc.2.1, hc.2.2]

/-- Looking up the old name of a column. -/
theorem old_name {cols : List String} (hn : (cols.map (renameCol itemCol treatCol)).Nodup) {k : String} (hk : k ∈ cols) :
    (cols.find? (fun k' => decide (renameCol itemCol treatCol k' = renameCol itemCol treatCol k))).getD (renameCol itemCol treatCol k) = k := by
  obtain ⟨x, hx⟩ : ∃ x, cols.find? (fun k' => decide (renameCol itemCol treatCol k' = renameCol itemCol treatCol k)) = some x := by
    rw [← Option.isSome_iff_exists, List.find?_isSome]
    exact ⟨k, hk, by simp⟩
  rw [hx]
  have e := List.find?_some hx
  simp only [decide_eq_true_eq] at e
  exact List.inj_on_of_nodup_map hn (List.mem_of_find?_eq_some hx) hk e

theorem further_cases (h : Spec.FurtherColumns itemCol treatCol assign assign') {c : String} (hc : c ∈ assign'.cols) :
    c = itemCol ∨ c = treatCol ∨ Spec.Further assign' itemCol treatCol c := by
  unfold Spec.Further
  tauto

theorem renamed_nodup (h : Spec.FurtherColumns itemCol treatCol assign assign')
    (hf : ∀ c, Spec.Further assign' itemCol treatCol c → c ≠ "item_id" ∧ c ≠ "treatment_assignment") :
    (assign'.cols.map (renameCol itemCol treatCol)).Nodup := by
  refine h.nodup.map_on fun x hx y hy e => ?_
  rcases further_cases h hx with rfl | rfl | fx <;> rcases further_cases h hy with rfl | rfl | fy
  · rfl
  · rw [rename_item h.different, rename_treat] at e; simp at e
  · rw [rename_item h.different, rename_further fy] at e; exact absurd e.symm (hf _ fy).1
  · rw [rename_item h.different, rename_treat] at e; simp at e
  · rfl
  · rw [rename_treat, rename_further fy] at e; exact absurd e.symm (hf _ fy).2
  · rw [rename_item h.different, rename_further fx] at e; exact absurd e (hf _ fx).1
  · rw [rename_treat, rename_further fx] at e; exact absurd e (hf _ fx).2
  · rwa [rename_further fx, rename_further fy] at e

theorem cleanAssignment_further (E : Ext K) (h : Spec.FurtherColumns itemCol treatCol assign assign')
    (hf : ∀ c, Spec.Further assign' itemCol treatCol c → c ≠ "item_id" ∧ c ≠ "treatment_assignment") :
    Spec.SameOutcome (CleanPair E itemCol treatCol assign') (cleanAssignment E assign itemCol treatCol) (cleanAssignment E assign' itemCol treatCol) := by
  have n' := renamed_nodup h hf
  have c0 : assign.cols.map (renameCol itemCol treatCol) = ["item_id", "treatment_assignment"] := by
    rw [h.narrow, List.map_cons, List.map_cons, rename_item h.different, rename_treat, List.map_nil]
  have n : (assign.cols.map (renameCol itemCol treatCol)).Nodup := by rw [c0]; decide
  have i' : "item_id" ∈ assign'.cols.map (renameCol itemCol treatCol) := List.mem_map.mpr ⟨_, h.item, rename_item h.different⟩
  have t' : "treatment_assignment" ∈ assign'.cols.map (renameCol itemCol treatCol) := List.mem_map.mpr ⟨_, h.treat, rename_treat⟩
  have oi := old_name (k := itemCol) n (by rw [h.narrow]; simp)
  have ot := old_name (k := treatCol) n (by rw [h.narrow]; simp)
  have oi' := old_name n' h.item
  have ot' := old_name n' h.treat
  rw [rename_item h.different] at oi oi'
  rw [rename_treat] at ot ot'
  have cols' : ∀ c, c ∈ assign'.cols.map (renameCol itemCol treatCol) ↔
      c = "item_id" ∨ c = "treatment_assignment" ∨ Spec.Further assign' itemCol treatCol c := by
    intro c
    rw [List.mem_map]
    constructor
    · rintro ⟨k, hk, rfl⟩
      rcases further_cases h hk with rfl | rfl | fk
      · exact Or.inl (rename_item h.different)
      · exact Or.inr (Or.inl rename_treat)
      · rw [rename_further fk]; exact Or.inr (Or.inr fk)
    · rintro (rfl | rfl | fc)
      · exact ⟨_, h.item, rename_item h.different⟩
      · exact ⟨_, h.treat, rename_treat⟩
      · exact ⟨c, fc.1, rename_further fc⟩
  unfold cleanAssignment
  simp only [c0]
  refine (Spec.SameOutcome.raiseIf (iff_of_false (by decide) (not_not.mpr n'))).bind fun _ _ _ =>
    (Spec.SameOutcome.raiseIf (iff_of_false (by decide) (not_not.mpr i'))).bind fun _ _ _ =>
    (Spec.SameOutcome.raiseIf (iff_of_false (by decide) (not_not.mpr t'))).bind fun _ _ _ => ?_
  have rel := rel_mapM (Q := fun s s' : Row K => ∀ c ∈ ["item_id", "treatment_assignment"], s' c = s c) h.rows
    (fun r => do
      let t ← E.toInt (r ((assign.cols.find? (fun k => decide (renameCol itemCol treatCol k = "treatment_assignment"))).getD "treatment_assignment"))
      pure ((fun c => if c = "item_id" then .str (E.toStr (r ((assign.cols.find? (fun k => decide (renameCol itemCol treatCol k = "item_id"))).getD "item_id")))
        else if c = "treatment_assignment" then .int t
        else r ((assign.cols.find? (fun k => decide (renameCol itemCol treatCol k = c))).getD c)) : Row K))
    (fun r => do
      let t ← E.toInt (r ((assign'.cols.find? (fun k => decide (renameCol itemCol treatCol k = "treatment_assignment"))).getD "treatment_assignment"))
      pure ((fun c => if c = "item_id" then .str (E.toStr (r ((assign'.cols.find? (fun k => decide (renameCol itemCol treatCol k = "item_id"))).getD "item_id")))
        else if c = "treatment_assignment" then .int t
        else r ((assign'.cols.find? (fun k => decide (renameCol itemCol treatCol k = c))).getD c)) : Row K))
    (by
      intro r r' e
      rw [oi, ot, oi', ot', e.1, e.2]
      refine (Spec.SameOutcome.refl (P := fun a b => b = a) (fun _ => rfl) _).bind fun t t' et => ?_
      subst et
      intro c hc
      simp only [List.mem_cons, List.not_mem_nil, or_false] at hc
      rcases hc with rfl | rfl <;> simp)
  refine Spec.SameOutcome.bind (rel.imp fun l l' e e' hl => (⟨hl, e'⟩ : _ ∧ _)) fun l l' hl => ?_
  refine ⟨rfl, cols', hl.1, (Py.mapM_ok hl.2).imp fun s s' e => ?_⟩
  obtain ⟨t, -, e⟩ := Py.bind_eq_ok.mp e
  cases e
  refine ⟨by simp only [if_true]; rw [oi'], fun c fc => ?_⟩
  have := old_name n' fc.1
  rw [rename_further fc] at this
  simp only [(hf c fc).1, (hf c fc).2, if_false, this]

end clean

theorem missingRows_rows (E : Ext K) (perf : Frame K) {b b' : Frame K} (h : RowsAgree ["item_id", "treatment_assignment"] b.rows b'.rows)
    (itemCol dateCol : String) : missingRows E perf b' itemCol dateCol = missingRows E perf b itemCol dateCol := by
  have : b'.col "item_id" = b.col "item_id" := RowsAgree.map h (fun r r' e => e _ (by simp))
  unfold missingRows missingItems
  simp only [this]

/-- The columns of the data before the assignment is merged. -/
theorem before_merge_cols {E : Ext K} {perf f1 f2 f3 f4 f5 : Frame K} {missing : List (Row K)} {d : Design K} {startDate itemCol dateCol : String}
    {a : ExperimentArgs}
    (e1 : standardize E perf itemCol dateCol a.std (a.other.map (fun c => (c, c))) (a.other.map (fun c => (c, floatParse E))) = .ok f1)
    (e2 : fillMissing (mergeMissing f1 missing) "item_id" "date" = .ok f2)
    (e3 : addWeeks E f2 "date" (some startDate) "week_id" "week_start" = .ok f3)
    (e4 : addTimePeriodColumn d.toDesignParams 0 "week_id" "time_period" f3 = .ok f4) (e5 : addAtLeastOne a.atLeastOne f4 = .ok f5) (c : String) :
    c ∈ f5.cols ↔ c ∈ ["item_id", "date", "week_id", "week_start", "time_period"] ++ preparedMetrics a ++ a.atLeastOne.map Prod.snd := by
  obtain ⟨-, -, start, -, -, hf3⟩ := addWeeks_ok e3
  unfold addTimePeriodColumn at e4
  obtain ⟨-, e4⟩ := raiseIf_bind_ok.mp e4
  obtain ⟨-, e4⟩ := raiseIf_bind_ok.mp e4
  unfold labelRows at e4
  obtain ⟨-, e4⟩ := raiseIf_bind_ok.mp e4
  obtain ⟨-, e4⟩ := raiseIf_bind_ok.mp e4
  replace e4 := (Except.ok.inj e4).symm
  unfold fillMissing at e2
  obtain ⟨-, e2⟩ := raiseIf_bind_ok.mp e2
  obtain ⟨-, e2⟩ := raiseIf_bind_ok.mp e2
  replace e2 := (Except.ok.inj e2).symm
  have h1 : f1.cols = "item_id" :: "date" :: preparedMetrics a := by
    rw [(standardize_ok (standardize_nodup e1) e1).2.2.2.1, columnNames_eq, List.map_cons, List.map_cons, preparedMetrics_eq]
  have h2 : ∀ k, k ∈ f2.cols ↔ k = "item_id" ∨ k = "date" ∨ k ∈ preparedMetrics a := by
    intro k
    rw [e2]
    simp only [mergeMissing, h1, List.mem_cons, List.mem_filter, decide_eq_true_eq]
    by_cases k1 : k = "item_id" <;> by_cases k2 : k = "date" <;> simp [k1, k2]
  rw [addAtLeastOne_cols e5, e4, setCol_mem, hf3]
  clear e1 e2 e3 e4 e5
  simp only [withWeeks, setCol_mem, h2, List.mem_append, List.mem_cons, List.not_mem_nil, or_false]
  tauto

/-- The prepared tables. -/
structure BuiltPair (E : Ext K) (itemCol treatCol : String) (a : ExperimentArgs) (assign' f f' : Frame K) : Prop where
  names : ∀ c, c ∈ f.cols ↔ c ∈ Spec.preparedNames a
  names' : ∀ c, c ∈ f'.cols ↔ c ∈ f.cols ∨ Spec.Further assign' itemCol treatCol c
  rows : RowsAgree f.cols f.rows f'.rows
  source : ∀ r ∈ f'.rows, ∃ s ∈ assign'.rows, r "item_id" = .str (E.toStr (s itemCol)) ∧ ∀ c, Spec.Further assign' itemCol treatCol c → r c = s c
  used : ∀ s ∈ assign'.rows, (∃ r ∈ f.rows, r "item_id" = .str (E.toStr (s itemCol))) →
    ∃ r ∈ f'.rows, ∀ c, Spec.Further assign' itemCol treatCol c → r c = s c

theorem mergeAssignment_further {E : Ext K} {itemCol treatCol : String} {a : ExperimentArgs} {assign' b b' f5 : Frame K}
    (h : CleanPair E itemCol treatCol assign' b b')
    (h5 : ∀ c, c ∈ f5.cols ↔ c ∈ ["item_id", "date", "week_id", "week_start", "time_period"] ++ preparedMetrics a ++ a.atLeastOne.map Prod.snd)
    (hf : ∀ c, Spec.Further assign' itemCol treatCol c → c ∉ Spec.preparedNames a) :
    Spec.SameOutcome (BuiltPair E itemCol treatCol a assign') (mergeAssignment f5 b) (mergeAssignment f5 b') := by
  have hn : ∀ c, Spec.Further assign' itemCol treatCol c → c ∉ f5.cols ∧ c ≠ "item_id" := by
    intro c fc
    have := hf c fc
    simp only [Spec.preparedNames, List.mem_append, List.mem_cons, List.not_mem_nil, or_false] at this
    rw [h5]
    simp only [List.mem_append, List.mem_cons, List.not_mem_nil, or_false]
    tauto
  have hi : "item_id" ∈ f5.cols := (h5 _).mpr (by simp)
  unfold mergeAssignment
  refine (Spec.SameOutcome.raiseIf ?_).bind fun _ _ _ => ?_
  · rw [List.any_eq_true, List.any_eq_true, h.cols]
    constructor
    · rintro ⟨c, hc, hc'⟩
      refine ⟨c, (h.cols' c).mpr ?_, hc'⟩
      simp only [List.mem_cons, List.not_mem_nil, or_false] at hc
      tauto
    · rintro ⟨c, hc, hc'⟩
      simp only [decide_eq_true_eq] at hc'
      rcases (h.cols' c).mp hc with rfl | rfl | fc
      · exact absurd rfl hc'.1
      · exact ⟨"treatment_assignment", by simp, by simpa using hc'.2⟩
      · exact absurd hc'.2 (hn c fc).1
  · have hfc : b.cols.filter (fun c => decide (c ≠ "item_id")) = ["treatment_assignment"] := by rw [h.cols]; decide
    refine ⟨fun c => ?_, fun c => ?_, ?_, ?_, ?_⟩
    · simp only [hfc, List.mem_append, h5, Spec.preparedNames, List.mem_cons, List.not_mem_nil, or_false]
      tauto
    · simp only [hfc, List.mem_append, List.mem_filter, h.cols', List.mem_cons, List.not_mem_nil, or_false, decide_eq_true_eq]
      constructor
      · rintro (hc | ⟨rfl | rfl | fc, hc⟩)
        · exact Or.inl (Or.inl hc)
        · exact absurd rfl hc
        · exact Or.inl (Or.inr rfl)
        · exact Or.inr fc
      · rintro ((hc | rfl) | fc)
        · exact Or.inl hc
        · exact Or.inr ⟨Or.inr (Or.inl rfl), by decide⟩
        · exact Or.inr ⟨Or.inr (Or.inr fc), (hn c fc).2⟩
    · simp only [hfc]
      refine rel_flatMap f5.rows _ _ fun r _ => ?_
      rw [List.forall₂_map_left_iff, List.forall₂_map_right_iff]
      refine (h.rows.filter (fun s s' e => by rw [e "item_id" (by simp)])).imp fun s s' e c hc => ?_
      unfold joinRow
      split_ifs with hc5
      · rfl
      · simp only [List.mem_append, hc5, false_or, List.mem_cons, List.not_mem_nil, or_false] at hc
        exact e c (by simp [hc])
    · intro r hr
      simp only [List.mem_flatMap, List.mem_map, List.mem_filter, decide_eq_true_eq] at hr
      obtain ⟨r5, h5r, s', ⟨hs', hi'⟩, rfl⟩ := hr
      obtain ⟨s, hs, e1, e2⟩ := forall₂_mem_right h.further hs'
      refine ⟨s, hs, ?_, fun c fc => ?_⟩
      · rw [joinRow, if_pos hi, ← hi', e1]
      · rw [joinRow, if_neg (hn c fc).1, e2 c fc]
    · rintro s hs ⟨r, hr, hri⟩
      simp only [List.mem_flatMap, List.mem_map, List.mem_filter, decide_eq_true_eq] at hr
      obtain ⟨r5, h5r, t', ⟨ht', hi'⟩, rfl⟩ := hr
      rw [joinRow, if_pos hi] at hri
      obtain ⟨s', hs', e1, e2⟩ := forall₂_mem_left h.further hs
      refine ⟨joinRow f5.cols r5 s', ?_, fun c fc => by rw [joinRow, if_neg (hn c fc).1, e2 c fc]⟩
      simp only [List.mem_flatMap, List.mem_map, List.mem_filter, decide_eq_true_eq]
      exact ⟨r5, h5r, s', ⟨hs', by rw [hri, e1]⟩, rfl⟩

theorem bind_sameOutcome {α β γ : Type} {P : β → γ → Prop} {x : Py α} {g : α → Py β} {g' : α → Py γ}
    (h : ∀ v, x = .ok v → Spec.SameOutcome P (g v) (g' v)) : Spec.SameOutcome P (x >>= g) (x >>= g') := by
  cases x with
  | error e => exact rfl
  | ok v => exact h v rfl

/-- The data before validation. -/
theorem buildExperiment_further (E : Ext K) (perf : Frame K) {assign assign' : Frame K} (d : Design K) (startDate : String) {itemCol treatCol : String}
    (dateCol : String) (a : ExperimentArgs) (h : Spec.FurtherColumns itemCol treatCol assign assign')
    (hf : ∀ c, Spec.Further assign' itemCol treatCol c → c ∉ Spec.preparedNames a) :
    Spec.SameOutcome (BuiltPair E itemCol treatCol a assign') (buildExperiment E perf assign d startDate itemCol dateCol treatCol a)
      (buildExperiment E perf assign' d startDate itemCol dateCol treatCol a) := by
  unfold buildExperiment
  refine (cleanAssignment_further E h (fun c fc => ?_)).bind fun b b' hb => ?_
  · have := hf c fc
    simp only [Spec.preparedNames, List.mem_append, List.mem_cons, List.not_mem_nil, or_false] at this
    tauto
  · rw [missingRows_rows E perf hb.rows itemCol dateCol]
    exact bind_sameOutcome fun missing _ => bind_sameOutcome fun f1 e1 => bind_sameOutcome fun f2 e2 => bind_sameOutcome fun f3 e3 =>
      bind_sameOutcome fun f4 e4 => bind_sameOutcome fun f5 e5 => mergeAssignment_further hb (before_merge_cols e1 e2 e3 e4 e5) hf

theorem BuiltPair.agree {E : Ext K} {itemCol treatCol : String} {a : ExperimentArgs} {assign' f f' : Frame K}
    (h : BuiltPair E itemCol treatCol a assign' f f') : AgreeOn f.cols f f' where
  cols := fun c hc => ⟨fun _ => hc, fun _ => (h.names' c).mpr (Or.inl hc)⟩
  rows := h.rows

theorem checkNulls_further {E : Ext K} {itemCol treatCol : String} {a : ExperimentArgs} {assign' f f' : Frame K}
    (h : BuiltPair E itemCol treatCol a assign' f f')
    (hn : ∀ s ∈ assign'.rows, ∀ c, Spec.Further assign' itemCol treatCol c → s c ≠ .null) : checkNulls f' = checkNulls f := by
  unfold checkNulls
  have h1 : f'.rows.any (fun r => f'.cols.any (fun c => (r c).isNull)) = f'.rows.any (fun r => f.cols.any (fun c => (r c).isNull)) := by
    rw [Bool.eq_iff_iff, List.any_eq_true, List.any_eq_true]
    refine exists_congr fun r => and_congr_right fun hr => ?_
    rw [List.any_eq_true, List.any_eq_true]
    constructor
    · rintro ⟨c, hc, hnull⟩
      rcases (h.names' c).mp hc with hc | fc
      · exact ⟨c, hc, hnull⟩
      · obtain ⟨s, hs, -, e⟩ := h.source r hr
        have := hn s hs c fc
        rw [← e c fc] at this
        cases hrc : r c <;> simp_all [Cell.isNull]
    · rintro ⟨c, hc, hnull⟩
      exact ⟨c, (h.names' c).mpr (Or.inl hc), hnull⟩
  rw [h1, RowsAgree.any h.rows (fun r r' e => ?_)]
  rw [Bool.eq_iff_iff, List.any_eq_true, List.any_eq_true]
  exact exists_congr fun c => and_congr_right fun hc => by rw [e c hc]

end Feedx
