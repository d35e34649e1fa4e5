import Verif.Model.Suffixes
import Verif.Spec.Suffixes
import Verif.Proofs.FurtherColumns

/-!
Lemmas for C135: the merge with suffixes.
-/

set_option linter.unusedSectionVars false
set_option linter.unusedSimpArgs false

namespace Feedx

variable {K : Type} [Field K] [LinearOrder K] [FloorRing K]

theorem suffixed_nil (suffix c : String) : suffixed [] suffix c = c := by simp [suffixed]

theorem mem_overlapping {f assign : Frame K} {c : String} : c ∈ overlapping f assign ↔ c ∈ assign.cols ∧ c ≠ "item_id" ∧ c ∈ f.cols := by
  unfold overlapping
  rw [List.mem_filter, decide_eq_true_eq]

/-- Without columns in common there are no suffixes. -/
theorem mergeSuffixed_plain {f assign : Frame K} (h : overlapping f assign = []) : mergeSuffixed f assign = mergeAssignment f assign := by
  have h1 : ¬ (assign.cols.any (fun c => decide (c ≠ "item_id" ∧ c ∈ f.cols)) = true) := by
    rw [List.any_eq_true]
    rintro ⟨c, hc, hc'⟩
    have : c ∈ overlapping f assign := List.mem_filter.mpr ⟨hc, hc'⟩
    rw [h] at this
    cases this
  have hs : ∀ s : String, suffixed (overlapping f assign) s = id := by
    intro s
    funext c
    rw [h, suffixed_nil]
    rfl
  have hj : joinSuffixed f assign = joinRow f.cols := by
    funext r a c
    unfold joinSuffixed joinRow
    simp only [hs, id]
    by_cases hc : c ∈ f.cols
    · rw [if_pos hc]
      obtain ⟨k, hk⟩ : ∃ k, f.cols.find? (fun k => decide (k = c)) = some k := by
        rw [← Option.isSome_iff_exists, List.find?_isSome]
        exact ⟨c, hc, by simp⟩
      have := List.find?_some hk
      simp only [decide_eq_true_eq] at this
      subst this
      rw [hk]
    · rw [if_neg hc]
      have hn : f.cols.find? (fun k => decide (k = c)) = none := by
        rw [List.find?_eq_none]
        intro k hk
        simp only [decide_eq_true_eq]
        rintro rfl
        exact hc hk
      rw [hn]
      simp only
      cases hf : (assign.cols.filter (fun k => decide (k ≠ "item_id"))).find? (fun k => decide (k = c)) with
      | none => rfl
      | some k =>
        have := List.find?_some hf
        simp only [decide_eq_true_eq] at this
        rw [this]
  unfold mergeSuffixed mergeAssignment
  simp only [hs, hj, List.map_id, raiseIf, if_neg h1]
  rw [if_neg (fun k => k.1 h)]

section names
variable {f b : Frame K} {a : ExperimentArgs}

/-- A name of the prepared data that is a column of the merged table is not one that got a suffix. -/
theorem kept_name (hs : Spec.NoSuffixedNames a) (hf : ∀ c ∈ f.cols, c ∈ Spec.preparedNames a) {n : String} (hn : n ∈ Spec.preparedNames a)
    (hc : n ∈ f.cols.map (suffixed (overlapping f b) "_x") ++ (b.cols.filter (fun c => decide (c ≠ "item_id"))).map (suffixed (overlapping f b) "_y")) :
    n ∉ overlapping f b := by
  rw [List.mem_append, List.mem_map, List.mem_map] at hc
  rcases hc with ⟨k, hk, e⟩ | ⟨k, hk, e⟩
  · unfold suffixed at e
    split_ifs at e with ho
    · exact absurd e.symm (hs n hn k (hf k hk)).1
    · rwa [← e]
  · unfold suffixed at e
    split_ifs at e with ho
    · exact absurd e.symm (hs n hn k (hf k (mem_overlapping.mp ho).2.2)).2
    · rwa [← e]

/-- The cell of a column of the data that got no suffix. -/
theorem join_kept (hs : Spec.NoSuffixedNames a) (hf : ∀ c ∈ f.cols, c ∈ Spec.preparedNames a) {c : String} (hc : c ∈ f.cols)
    (ho : c ∉ overlapping f b) (r s : Row K) : joinSuffixed f b r s c = r c := by
  unfold joinSuffixed
  obtain ⟨k, hk⟩ : ∃ k, f.cols.find? (fun k => decide (suffixed (overlapping f b) "_x" k = c)) = some k := by
    rw [← Option.isSome_iff_exists, List.find?_isSome]
    exact ⟨c, hc, by simp [suffixed, ho]⟩
  rw [hk]
  have e := List.find?_some hk
  simp only [decide_eq_true_eq] at e
  unfold suffixed at e
  split_ifs at e with hok
  · exact absurd e.symm (hs c (hf c hc) k (hf k (List.mem_of_find?_eq_some hk))).1
  · simp only [e]

/-- The cell of a column of the data that got a suffix. -/
theorem join_suffixed (hs : Spec.NoSuffixedNames a) (hf : ∀ c ∈ f.cols, c ∈ Spec.preparedNames a) {c : String} (hc : c ∈ f.cols)
    (ho : c ∈ overlapping f b) (r s : Row K) : joinSuffixed f b r s (c ++ "_x") = r c := by
  unfold joinSuffixed
  obtain ⟨k, hk⟩ : ∃ k, f.cols.find? (fun k => decide (suffixed (overlapping f b) "_x" k = c ++ "_x")) = some k := by
    rw [← Option.isSome_iff_exists, List.find?_isSome]
    exact ⟨c, hc, by simp [suffixed, ho]⟩
  rw [hk]
  have e := List.find?_some hk
  simp only [decide_eq_true_eq] at e
  unfold suffixed at e
  split_ifs at e with hok
  · have : k = c := by
      have := congrArg String.toList e
      simp only [String.toList_append] at this
      exact String.toList_inj.mp (List.append_cancel_right this)
    rw [this]
  · exact absurd e (hs k (hf k (List.mem_of_find?_eq_some hk)) c (hf c hc)).1

/-- The cell of a column of the assignment table that got no suffix. -/
theorem join_right (hs : Spec.NoSuffixedNames a) (hf : ∀ c ∈ f.cols, c ∈ Spec.preparedNames a) {c : String} (hp : c ∈ Spec.preparedNames a)
    (hc : c ∉ f.cols) (hb : c ∈ b.cols) (hi : c ≠ "item_id") (r s : Row K) : joinSuffixed f b r s c = s c := by
  have ho : c ∉ overlapping f b := fun h => hc (mem_overlapping.mp h).2.2
  have hl : f.cols.find? (fun k => decide (suffixed (overlapping f b) "_x" k = c)) = none := by
    rw [List.find?_eq_none]
    intro k hk
    simp only [decide_eq_true_eq]
    unfold suffixed
    split_ifs with hok
    · exact fun e => (hs c hp k (hf k hk)).1 e.symm
    · rintro rfl; exact hc hk
  unfold joinSuffixed
  rw [hl]
  simp only
  obtain ⟨k, hk⟩ : ∃ k, (b.cols.filter (fun k => decide (k ≠ "item_id"))).find? (fun k => decide (suffixed (overlapping f b) "_y" k = c)) = some k := by
    rw [← Option.isSome_iff_exists, List.find?_isSome]
    exact ⟨c, List.mem_filter.mpr ⟨hb, by simpa using hi⟩, by simp [suffixed, ho]⟩
  rw [hk]
  have e := List.find?_some hk
  simp only [decide_eq_true_eq] at e
  unfold suffixed at e
  split_ifs at e with hok
  · exact absurd e.symm (hs c hp k (hf k (mem_overlapping.mp hok).2.2)).2
  · simp only [e]

end names

/-! ### What accepted data must have -/

theorem runCheck_returned {skip : List String} {name : String} {c : Py Bool} {u : Unit} (h : runCheck skip name c = .ok u) : ∃ v, c = .ok v := by
  unfold runCheck at h
  obtain ⟨v, hv, -⟩ := Py.bind_eq_ok.mp h
  exact ⟨v, hv⟩

theorem checkFinite_cols {f : Frame K} {metrics : List String} (h : checkFinite f metrics = .ok false) : ∀ m ∈ metrics, m ∈ f.cols := by
  induction metrics with
  | nil => intro m hm; cases hm
  | cons x rest ih =>
    unfold checkFinite at h
    obtain ⟨h1, h⟩ := raiseIf_bind_ok.mp h
    obtain ⟨-, h⟩ := raiseIf_bind_ok.mp h
    obtain ⟨-, h⟩ := raiseIf_bind_ok.mp h
    by_cases hc : (f.col x).any (fun c => !c.toFl.isFinite) = true
    · rw [if_pos hc] at h; cases h
    · rw [if_neg hc] at h
      intro m hm
      rcases List.mem_cons.mp hm with rfl | hm
      · exact not_not.mp h1
      · exact ih h m hm

section agree
variable {Y : List String} {f f' : Frame K}

theorem checkFinite_returned (h : AgreeOn Y f f') {metrics : List String} (hm : ∀ c ∈ metrics, c ∈ f'.cols → c ∈ Y) {v : Bool}
    (hv : checkFinite f' metrics = .ok v) : checkFinite f metrics = .ok v := by
  induction metrics with
  | nil => exact hv
  | cons m rest ih =>
    have h1 : m ∈ Y := by
      refine hm m (by simp) ?_
      unfold checkFinite at hv
      exact not_not.mp (raiseIf_bind_ok.mp hv).1
    unfold checkFinite at hv ⊢
    rw [h.col h1] at hv
    simp only [h.cols _ h1] at hv
    obtain ⟨k1, hv⟩ := raiseIf_bind_ok.mp hv
    obtain ⟨k2, hv⟩ := raiseIf_bind_ok.mp hv
    obtain ⟨k3, hv⟩ := raiseIf_bind_ok.mp hv
    refine raiseIf_bind_ok.mpr ⟨k1, raiseIf_bind_ok.mpr ⟨k2, raiseIf_bind_ok.mpr ⟨k3, ?_⟩⟩⟩
    by_cases hc : (f.col m).any (fun c => !c.toFl.isFinite) = true
    · rw [if_pos hc] at hv ⊢; exact hv
    · rw [if_neg hc] at hv ⊢
      exact ih (fun c hc => hm c (by simp [hc])) hv

theorem checkNonNegative_returned (h : AgreeOn Y f f') {metrics : List String} (hm : ∀ c ∈ metrics, c ∈ f'.cols → c ∈ Y) {v : Bool}
    (hv : checkNonNegative f' metrics = .ok v) : checkNonNegative f metrics = .ok v := by
  induction metrics with
  | nil => exact hv
  | cons m rest ih =>
    have h1 : m ∈ Y := by
      refine hm m (by simp) ?_
      unfold checkNonNegative at hv
      exact not_not.mp (raiseIf_bind_ok.mp hv).1
    unfold checkNonNegative at hv ⊢
    rw [h.col h1] at hv
    simp only [h.cols _ h1] at hv
    obtain ⟨k1, hv⟩ := raiseIf_bind_ok.mp hv
    obtain ⟨k2, hv⟩ := raiseIf_bind_ok.mp hv
    refine raiseIf_bind_ok.mpr ⟨k1, raiseIf_bind_ok.mpr ⟨k2, ?_⟩⟩
    by_cases hc : (f.col m).any (fun c => Fl.lt c.toFl (.fin 0)) = true
    · rw [if_pos hc] at hv ⊢; exact hv
    · rw [if_neg hc] at hv ⊢
      exact ih (fun c hc => hm c (by simp [hc])) hv

theorem runCheck_congr {skip : List String} {name : String} {c c' : Py Bool} (h : ∀ v, c' = .ok v → c = .ok v) {u : Unit}
    (hr : runCheck skip name c' = .ok u) : runCheck skip name c = .ok u := by
  obtain ⟨v, hv⟩ := runCheck_returned hr
  rw [h v hv, ← hv]
  exact hr

/-- The columns that accepted data has. -/
theorem validated_cols {C : Checker K} {d : Design K} {itemCol dateCol weekCol treatCol startDate : String} {metrics canBeNegative skip : List String}
    {concluded : Bool} {u : Unit}
    (h : validateExperiment C f d itemCol dateCol weekCol treatCol metrics startDate concluded canBeNegative skip = .ok u) :
    itemCol ∈ f.cols ∧ dateCol ∈ f.cols ∧ weekCol ∈ f.cols ∧ treatCol ∈ f.cols ∧ ("all_metrics_are_finite" ∉ skip → ∀ m ∈ metrics, m ∈ f.cols) := by
  unfold validateExperiment at h
  obtain ⟨_, -, h⟩ := Py.bind_eq_ok.mp h
  obtain ⟨_, -, h⟩ := Py.bind_eq_ok.mp h
  obtain ⟨_, -, h⟩ := Py.bind_eq_ok.mp h
  obtain ⟨_, h1, h⟩ := Py.bind_eq_ok.mp h
  obtain ⟨_, -, h⟩ := Py.bind_eq_ok.mp h
  obtain ⟨_, h2, h⟩ := Py.bind_eq_ok.mp h
  obtain ⟨_, h3, h⟩ := Py.bind_eq_ok.mp h
  obtain ⟨_, -, h⟩ := Py.bind_eq_ok.mp h
  obtain ⟨_, -, h⟩ := Py.bind_eq_ok.mp h
  obtain ⟨_, -, h⟩ := Py.bind_eq_ok.mp h
  obtain ⟨_, h4, -⟩ := Py.bind_eq_ok.mp h
  obtain ⟨_, e1⟩ := runCheck_returned h1
  obtain ⟨_, e2⟩ := runCheck_returned h2
  obtain ⟨v3, e3⟩ := runCheck_returned h3
  obtain ⟨_, e4⟩ := runCheck_returned h4
  unfold checkDuplicates at e1
  unfold checkWeekIds at e2
  unfold checkUnique at e4
  have k1 := not_or.mp (raiseIf_bind_ok.mp e1).1
  have k4 := not_or.mp (raiseIf_bind_ok.mp e4).1
  refine ⟨not_not.mp k1.2, not_not.mp k1.1, not_not.mp (raiseIf_bind_ok.mp e2).1, not_not.mp k4.2, fun hs => ?_⟩
  cases v3 with
  | false => exact checkFinite_cols e3
  | true =>
    rw [e3] at h3
    simp [runCheck, raiseIf, hs, bind, Except.bind] at h3

theorem validated_agree {C : Checker K} (h : AgreeOn Y f f') {d : Design K} {itemCol dateCol weekCol treatCol startDate : String}
    {metrics canBeNegative skip : List String} {concluded : Bool} {u : Unit} (h1 : itemCol ∈ Y) (h2 : dateCol ∈ Y) (h3 : weekCol ∈ Y)
    (h4 : treatCol ∈ Y) (hm : ∀ c ∈ metrics, c ∈ f'.cols → c ∈ Y) (hn : checkNulls f' = .ok false → checkNulls f = .ok false)
    (hv : validateExperiment C f' d itemCol dateCol weekCol treatCol metrics startDate concluded canBeNegative skip = .ok u) :
    validateExperiment C f d itemCol dateCol weekCol treatCol metrics startDate concluded canBeNegative skip = .ok u := by
  unfold validateExperiment at hv ⊢
  simp only [checkDuplicates_agree h h1 h2, checkSpacing_agree h h2, checkWeekIds_agree C.sorter h h3 h2,
    checkItemCount_agree h d h1, checkDateRange_agree C.ext h d h2, checkUnique_agree h h1 h4, checkCoinflip_agree C.ext h d h4 h1,
    checkRatio_agree C.binom h h1 h4] at hv
  obtain ⟨_, a1, hv⟩ := Py.bind_eq_ok.mp hv
  obtain ⟨_, a2, hv⟩ := Py.bind_eq_ok.mp hv
  obtain ⟨_, a3, hv⟩ := Py.bind_eq_ok.mp hv
  obtain ⟨_, a4, hv⟩ := Py.bind_eq_ok.mp hv
  obtain ⟨_, a5, hv⟩ := Py.bind_eq_ok.mp hv
  obtain ⟨_, a6, hv⟩ := Py.bind_eq_ok.mp hv
  obtain ⟨_, a7, hv⟩ := Py.bind_eq_ok.mp hv
  obtain ⟨_, a8, hv⟩ := Py.bind_eq_ok.mp hv
  have b3 : runCheck skip "no_nulls" (checkNulls f) = .ok () := by
    by_cases hs : "no_nulls" ∈ skip
    · simp [runCheck, checkNulls, raiseIf, hs, bind, Except.bind]
    · have : checkNulls f' = .ok false := by
        obtain ⟨v, ev⟩ := runCheck_returned a3
        cases v with
        | false => exact ev
        | true => rw [ev] at a3; simp [runCheck, raiseIf, hs, bind, Except.bind] at a3
      rw [hn this]
      simp [runCheck, raiseIf, bind, Except.bind]
  have b8 : runNonNegative f metrics canBeNegative skip = .ok () := by
    unfold runNonNegative at a8 ⊢
    by_cases he : (metrics.filter (fun m => decide (m ∉ canBeNegative))).isEmpty = true
    · simp only [if_pos he]
    · simp only [if_neg he] at a8 ⊢
      exact runCheck_congr (fun v => checkNonNegative_returned h (fun c hc => hm c (List.mem_of_mem_filter hc))) a8
  rw [a1, a2, b3, a4, a5, a6, runCheck_congr (fun v => checkFinite_returned h hm) a7, b8]
  exact hv

end agree

theorem analysed_cols {R : Rounding ℝ} {argsort : List ℝ → List ℕ} {D : TDist} {d : DesignParams ℝ} {metrics : List Metric}
    {weekCol itemCol treatmentCol : String} {f : Frame ℝ} {rows : List (String × TestResult)}
    (h : (analyzeExperiment R argsort D d metrics weekCol itemCol treatmentCol f).1 = .ok rows) : ∀ c ∈ metricColumns metrics, c ∈ f.cols := by
  intro c hc
  by_contra hcf
  unfold analyzeExperiment at h
  by_cases hne : metrics = []
  · rw [if_pos hne] at h; cases h
  rw [if_neg hne] at h
  have ha : (itemCol :: weekCol :: (metricColumns metrics ++ (some treatmentCol).toList)).any (fun c => decide (c ∉ f.cols)) = true :=
    List.any_eq_true.mpr ⟨c, by simp [hc], by simpa using hcf⟩
  have he : (pivotTimeAssignment d 0 (metricColumns metrics) itemCol weekCol (some treatmentCol) "time_period" f).1 = .error .valueError := by
    unfold pivotTimeAssignment
    by_cases hp : "time_period" ∈ f.cols
    · rw [if_pos hp]
    · rw [if_neg hp, if_pos ha]
  simp only [he] at h
  cases h

/-! ### The merge -/

section merge
variable {E : Ext K} {itemCol treatCol : String} {a : ExperimentArgs} {assign assign' b b' f5 f' : Frame K}

theorem cleaned_further (h : Spec.FurtherColumns itemCol treatCol assign assign') (hc : cleanAssignment E assign' itemCol treatCol = .ok b') :
    ∀ c, Spec.Further assign' itemCol treatCol c → c ≠ "item_id" ∧ c ≠ "treatment_assignment" := by
  intro c fc
  unfold cleanAssignment at hc
  have hn := not_not.mp (raiseIf_bind_ok.mp hc).1
  have inj := List.inj_on_of_nodup_map hn
  constructor
  · rintro rfl
    exact fc.2.1 (inj fc.1 h.item (by rw [rename_further fc, rename_item h.different]))
  · rintro rfl
    exact fc.2.2 (inj fc.1 h.treat (by rw [rename_further fc, rename_treat]))

/-- What the tables with and without further columns have in common. -/
structure MergedPair (a : ExperimentArgs) (f f' : Frame K) : Prop where
  names : ∀ c, c ∈ f.cols ↔ c ∈ Spec.preparedNames a
  agree : AgreeOn ((Spec.preparedNames a).filter (fun c => decide (c ∈ f'.cols))) f f'
  found : List.Forall₂ (fun r r' : Row K => ∀ c ∈ f.cols, ∃ k ∈ f'.cols, r' k = r c) f.rows f'.rows

theorem mergeSuffixed_further (h : CleanPair E itemCol treatCol assign' b b') (hs : Spec.NoSuffixedNames a)
    (h5 : ∀ c, c ∈ f5.cols ↔ c ∈ ["item_id", "date", "week_id", "week_start", "time_period"] ++ preparedMetrics a ++ a.atLeastOne.map Prod.snd)
    (hm : mergeSuffixed f5 b' = .ok f') (ht : "treatment_assignment" ∈ f'.cols) : ∃ f, mergeAssignment f5 b = .ok f ∧ MergedPair a f f' := by
  have hf : ∀ c ∈ f5.cols, c ∈ Spec.preparedNames a := by
    intro c hc
    have := (h5 c).mp hc
    simp only [List.mem_append, List.mem_cons, List.not_mem_nil, or_false, Spec.preparedNames] at this ⊢
    tauto
  have hor : ∀ c ∈ Spec.preparedNames a, c ∉ f5.cols → c = "treatment_assignment" := by
    intro c hc hn
    rw [h5] at hn
    simp only [List.mem_append, List.mem_cons, List.not_mem_nil, or_false, Spec.preparedNames] at hc hn
    tauto
  unfold mergeSuffixed at hm
  obtain ⟨-, hm⟩ := raiseIf_bind_ok.mp hm
  replace hm := (Except.ok.inj hm).symm
  have hcols : ∀ c, c ∈ f'.cols ↔ c ∈ f5.cols.map (suffixed (overlapping f5 b') "_x") ++
      (b'.cols.filter (fun c => decide (c ≠ "item_id"))).map (suffixed (overlapping f5 b') "_y") := by rw [hm]; exact fun c => Iff.rfl
  have hkept : ∀ c ∈ Spec.preparedNames a, c ∈ f'.cols → c ∉ overlapping f5 b' := fun c hc hc' => kept_name hs hf hc ((hcols c).mp hc')
  have htb : "treatment_assignment" ∈ b'.cols := (h.cols' _).mpr (Or.inr (Or.inl rfl))
  have ht5 : "treatment_assignment" ∉ f5.cols := by
    intro hin
    exact hkept _ (hf _ hin) ht (mem_overlapping.mpr ⟨htb, by decide, hin⟩)
  have hno : ¬ b.cols.any (fun c => decide (c ≠ "item_id" ∧ c ∈ f5.cols)) = true := by
    rw [h.cols, List.any_eq_true]
    rintro ⟨c, hc, hc'⟩
    simp only [List.mem_cons, List.not_mem_nil, or_false, decide_eq_true_eq] at hc hc'
    rcases hc with rfl | rfl
    · exact hc'.1 rfl
    · exact ht5 hc'.2
  have hfc : b.cols.filter (fun c => decide (c ≠ "item_id")) = ["treatment_assignment"] := by rw [h.cols]; decide
  have hn : ∀ c, c ∈ f5.cols ++ b.cols.filter (fun c => decide (c ≠ "item_id")) ↔ c ∈ Spec.preparedNames a := by
    intro c
    rw [hfc, List.mem_append, List.mem_singleton]
    constructor
    · rintro (hc | rfl)
      · exact hf c hc
      · simp [Spec.preparedNames]
    · intro hc
      by_cases h5c : c ∈ f5.cols
      · exact Or.inl h5c
      · exact Or.inr (hor c hc h5c)
  have hrows : List.Forall₂ (fun r r' : Row K => (∀ c ∈ Spec.preparedNames a, c ∈ f'.cols → r' c = r c) ∧ ∀ c ∈ Spec.preparedNames a, ∃ k ∈ f'.cols, r' k = r c)
      (f5.rows.flatMap (fun r => (b.rows.filter (fun s => decide (s "item_id" = r "item_id"))).map (joinRow f5.cols r))) f'.rows := by
    rw [hm]
    refine rel_flatMap f5.rows _ _ fun r _ => ?_
    rw [List.forall₂_map_left_iff, List.forall₂_map_right_iff]
    refine (h.rows.filter (fun s s' e => by rw [e "item_id" (by simp)])).imp fun s s' e => ?_
    rw [← hm]
    have h1 : ∀ c ∈ Spec.preparedNames a, c ∈ f'.cols → joinSuffixed f5 b' r s' c = joinRow f5.cols r s c := by
      intro c hc hc'
      unfold joinRow
      by_cases h5c : c ∈ f5.cols
      · rw [if_pos h5c, join_kept hs hf h5c (hkept c hc hc')]
      · rw [if_neg h5c]
        obtain rfl := hor c hc h5c
        rw [join_right hs hf hc h5c htb (by decide), e _ (by simp)]
    refine ⟨h1, fun c hc => ?_⟩
    by_cases hc' : c ∈ f'.cols
    · exact ⟨c, hc', h1 c hc hc'⟩
    · have h5c : c ∈ f5.cols := by
        by_contra h5c
        exact hc' (hor c hc h5c ▸ ht)
      have ho : c ∈ overlapping f5 b' := by
        by_contra ho
        exact hc' ((hcols c).mpr (List.mem_append_left _ (List.mem_map.mpr ⟨c, h5c, by simp [suffixed, ho]⟩)))
      refine ⟨c ++ "_x", (hcols _).mpr (List.mem_append_left _ (List.mem_map.mpr ⟨c, h5c, by simp [suffixed, ho]⟩)), ?_⟩
      rw [join_suffixed hs hf h5c ho, joinRow, if_pos h5c]
  refine ⟨{
    cols := f5.cols ++ b.cols.filter (fun c => decide (c ≠ "item_id"))
    rows := f5.rows.flatMap (fun r => (b.rows.filter (fun s => decide (s "item_id" = r "item_id"))).map (joinRow f5.cols r)) }, ?_, hn, ⟨?_, ?_⟩, ?_⟩
  · unfold mergeAssignment
    exact raiseIf_bind_ok.mpr ⟨hno, rfl⟩
  · intro c hc
    rw [List.mem_filter, decide_eq_true_eq] at hc
    exact ⟨fun _ => (hn c).mpr hc.1, fun _ => hc.2⟩
  · refine hrows.imp fun r r' e c hc => ?_
    rw [List.mem_filter, decide_eq_true_eq] at hc
    exact e.1 c hc.1 hc.2
  · exact hrows.imp fun r r' e c hc => e.2 c ((hn c).mp hc)

theorem MergedPair.nulls {f : Frame K} (h : MergedPair a f f') (hn : checkNulls f' = .ok false) : checkNulls f = .ok false := by
  unfold checkNulls at hn ⊢
  replace hn := Except.ok.inj hn
  refine congrArg _ ?_
  rw [Bool.eq_false_iff] at hn ⊢
  intro hc
  apply hn
  rw [List.any_eq_true] at hc ⊢
  obtain ⟨r, hr, hc⟩ := hc
  rw [List.any_eq_true] at hc
  obtain ⟨c, hc, hnull⟩ := hc
  obtain ⟨r', hr', e⟩ := forall₂_mem_left h.found hr
  obtain ⟨k, hk, hkc⟩ := e c hc
  exact ⟨r', hr', List.any_eq_true.mpr ⟨k, hk, by rw [hkc]; exact hnull⟩⟩

end merge

/-- Data that is accepted with further columns is accepted without them. -/
theorem prepareSuffixed_further {C : Checker K} {perf assign assign' f' : Frame K} {d : Design K} {startDate itemCol dateCol treatCol : String}
    {a : ExperimentArgs} (h : Spec.FurtherColumns itemCol treatCol assign assign') (hs : Spec.NoSuffixedNames a)
    (ho : prepareSuffixed C perf assign' d startDate itemCol dateCol treatCol a = .ok f') :
    ∃ f, prepareExperiment C perf assign d startDate itemCol dateCol treatCol a = .ok f ∧ MergedPair a f f' ∧
      "item_id" ∈ f'.cols ∧ "date" ∈ f'.cols ∧ "week_id" ∈ f'.cols ∧ "treatment_assignment" ∈ f'.cols ∧
      ("all_metrics_are_finite" ∉ a.skip → ∀ m ∈ preparedMetrics a, m ∈ f'.cols) := by
  unfold prepareSuffixed at ho
  obtain ⟨g, eb, ho⟩ := Py.bind_eq_ok.mp ho
  obtain ⟨u, hv, ho⟩ := Py.bind_eq_ok.mp ho
  obtain rfl : g = f' := Except.ok.inj ho
  obtain ⟨k1, k2, k3, k4, k5⟩ := validated_cols hv
  unfold buildSuffixed at eb
  obtain ⟨b', ec, eb⟩ := Py.bind_eq_ok.mp eb
  obtain ⟨missing, e0, eb⟩ := Py.bind_eq_ok.mp eb
  obtain ⟨f1, e1, eb⟩ := Py.bind_eq_ok.mp eb
  obtain ⟨f2, e2, eb⟩ := Py.bind_eq_ok.mp eb
  obtain ⟨f3, e3, eb⟩ := Py.bind_eq_ok.mp eb
  obtain ⟨f4, e4, eb⟩ := Py.bind_eq_ok.mp eb
  obtain ⟨f5, e5, eb⟩ := Py.bind_eq_ok.mp eb
  have hcl := cleanAssignment_further C.ext h (cleaned_further h ec)
  rw [ec] at hcl
  cases ec0 : cleanAssignment C.ext assign itemCol treatCol with
  | error e => rw [ec0] at hcl; exact hcl.elim
  | ok b =>
    rw [ec0] at hcl
    replace hcl : CleanPair C.ext itemCol treatCol assign' b b' := hcl
    obtain ⟨f, em, hp⟩ := mergeSuffixed_further hcl hs (before_merge_cols e1 e2 e3 e4 e5) eb k4
    have hmem : ∀ c ∈ Spec.preparedNames a, c ∈ g.cols → c ∈ (Spec.preparedNames a).filter (fun c => decide (c ∈ g.cols)) :=
      fun c hc hc' => List.mem_filter.mpr ⟨hc, by simpa using hc'⟩
    have hv' := validated_agree hp.agree (hmem _ (by simp [Spec.preparedNames]) k1) (hmem _ (by simp [Spec.preparedNames]) k2)
      (hmem _ (by simp [Spec.preparedNames]) k3) (hmem _ (by simp [Spec.preparedNames]) k4)
      (fun c hc => hmem c (by simp [Spec.preparedNames, hc])) hp.nulls hv
    refine ⟨f, ?_, hp, k1, k2, k3, k4, k5⟩
    rw [missingRows_rows C.ext perf hcl.rows itemCol dateCol] at e0
    unfold prepareExperiment buildExperiment
    simp only [bind, Except.bind, ec0, e0, e1, e2, e3, e4, e5, em, hv', pure, Except.pure]

/-! ### A further column called "week_start" -/

theorem setCol_nodup {f : Frame K} (h : f.cols.Nodup) (c : String) (v : Row K → Cell K) : (f.setCol c v).cols.Nodup := by
  unfold Frame.setCol
  simp only
  split_ifs with hc
  · exact h
  · rw [List.nodup_append]
    refine ⟨h, by simp, ?_⟩
    rintro x hx y hy rfl
    rw [List.mem_singleton] at hy
    exact hc (hy ▸ hx)

theorem addAtLeastOne_nodup {l : List (String × String)} {f out : Frame K} (h : f.cols.Nodup) (ho : addAtLeastOne l f = .ok out) : out.cols.Nodup := by
  induction l generalizing f with
  | nil => cases ho; exact h
  | cons p rest ih =>
    unfold addAtLeastOne at ho
    obtain ⟨-, ho⟩ := raiseIf_bind_ok.mp ho
    obtain ⟨-, ho⟩ := raiseIf_bind_ok.mp ho
    exact ih (setCol_nodup h _ _) ho

theorem preparedMetrics_nodup {E : Ext K} {perf f1 : Frame K} {itemCol dateCol : String} {a : ExperimentArgs}
    (e1 : standardize E perf itemCol dateCol a.std (a.other.map (fun c => (c, c))) (a.other.map (fun c => (c, floatParse E))) = .ok f1) :
    (preparedMetrics a).Nodup := by
  have h1 := standardize_nodup e1
  unfold standardize at e1
  have h2 := (raiseIf_bind_ok.mp e1).1
  have h3 : ∀ c ∈ a.other, c ∉ standardNames := by
    intro c hc hs
    exact h2 (List.any_eq_true.mpr ⟨(c, c), List.mem_map.mpr ⟨c, hc, rfl⟩, by simpa using hs⟩)
  have h4 : a.other.Nodup := by simpa [List.map_map, Function.comp_def] using h1
  unfold preparedMetrics
  rw [List.nodup_append]
  refine ⟨?_, h4, ?_⟩
  · cases a.std.clicks <;> cases a.std.impressions <;> cases a.std.totalCost <;> cases a.std.conversions <;> cases a.std.totalConversionValue <;> simp
  · rintro x hx y hy rfl
    refine h3 x hy ?_
    obtain ⟨q, hq, e⟩ := List.mem_filterMap.mp hx
    obtain ⟨_, -, rfl⟩ := Option.map_eq_some_iff.mp e
    simp only [List.mem_cons, List.not_mem_nil, or_false] at hq
    rcases hq with rfl | rfl | rfl | rfl | rfl <;> simp [standardNames]

theorem before_merge_nodup {E : Ext K} {perf f1 f2 f3 f4 f5 : Frame K} {missing : List (Row K)} {d : Design K} {startDate itemCol dateCol : String}
    {a : ExperimentArgs}
    (e1 : standardize E perf itemCol dateCol a.std (a.other.map (fun c => (c, c))) (a.other.map (fun c => (c, floatParse E))) = .ok f1)
    (e2 : fillMissing (mergeMissing f1 missing) "item_id" "date" = .ok f2)
    (e3 : addWeeks E f2 "date" (some startDate) "week_id" "week_start" = .ok f3)
    (e4 : addTimePeriodColumn d.toDesignParams 0 "week_id" "time_period" f3 = .ok f4) (e5 : addAtLeastOne a.atLeastOne f4 = .ok f5) : f5.cols.Nodup := by
  obtain ⟨-, -, start, -, -, hf3⟩ := addWeeks_ok e3
  unfold addTimePeriodColumn at e4
  obtain ⟨-, e4⟩ := raiseIf_bind_ok.mp e4
  obtain ⟨-, e4⟩ := raiseIf_bind_ok.mp e4
  unfold labelRows at e4
  obtain ⟨-, e4⟩ := raiseIf_bind_ok.mp e4
  obtain ⟨-, e4⟩ := raiseIf_bind_ok.mp e4
  replace e4 := (Except.ok.inj e4).symm
  unfold fillMissing at e2
  obtain ⟨-, e2⟩ := raiseIf_bind_ok.mp e2
  obtain ⟨-, e2⟩ := raiseIf_bind_ok.mp e2
  replace e2 := (Except.ok.inj e2).symm
  have h1 : f1.cols = "item_id" :: "date" :: preparedMetrics a := by
    rw [(standardize_ok (standardize_nodup e1) e1).2.2.2.1, columnNames_eq, List.map_cons, List.map_cons, preparedMetrics_eq]
  have h2 : f2.cols.Nodup := by
    rw [e2]
    simp only [mergeMissing, h1]
    have hn : (("item_id" :: "date" :: preparedMetrics a).filter (fun c => decide (c ≠ "item_id" ∧ c ≠ "date"))).Nodup := by
      rw [List.filter_cons_of_neg (by simp), List.filter_cons_of_neg (by simp)]
      exact (preparedMetrics_nodup e1).filter _
    rw [List.nodup_cons, List.nodup_cons]
    refine ⟨?_, ?_, hn⟩
    · simp only [List.mem_cons, List.mem_filter, decide_eq_true_eq]
      rintro (h | ⟨-, h⟩)
      · exact absurd h (by decide)
      · exact h.1 rfl
    · simp only [List.mem_filter, decide_eq_true_eq]
      rintro ⟨-, h⟩
      exact h.2 rfl
  refine addAtLeastOne_nodup ?_ e5
  rw [e4]
  refine setCol_nodup ?_ _ _
  rw [hf3]
  exact setCol_nodup (setCol_nodup h2 _ _) _ _

/-- Each cell of a merged row comes from one of the tables. -/
theorem join_cases {f b : Frame K} {c : String}
    (hc : c ∈ f.cols.map (suffixed (overlapping f b) "_x") ++ (b.cols.filter (fun c => decide (c ≠ "item_id"))).map (suffixed (overlapping f b) "_y")) :
    (∃ k ∈ f.cols, ∀ r s, joinSuffixed f b r s c = r k) ∨ ∃ k ∈ b.cols, k ≠ "item_id" ∧ ∀ r s, joinSuffixed f b r s c = s k := by
  unfold joinSuffixed
  cases h1 : f.cols.find? (fun k => decide (suffixed (overlapping f b) "_x" k = c)) with
  | some k => exact Or.inl ⟨k, List.mem_of_find?_eq_some h1, fun _ _ => rfl⟩
  | none =>
    cases h2 : (b.cols.filter (fun k => decide (k ≠ "item_id"))).find? (fun k => decide (suffixed (overlapping f b) "_y" k = c)) with
    | some k =>
      have := List.mem_filter.mp (List.mem_of_find?_eq_some h2)
      exact Or.inr ⟨k, this.1, by simpa using this.2, fun _ _ => rfl⟩
    | none =>
      rw [List.find?_eq_none] at h1 h2
      rw [List.mem_append, List.mem_map, List.mem_map] at hc
      rcases hc with ⟨k, hk, e⟩ | ⟨k, hk, e⟩
      · exact absurd (by simpa using e) (h1 k hk)
      · exact absurd (by simpa using e) (h2 k hk)

section week
variable {E : Ext K} {itemCol treatCol : String} {a : ExperimentArgs} {assign assign' b b' f f5 f' : Frame K}

theorem mergeSuffixed_accepts (h : CleanPair E itemCol treatCol assign' b b') (hs : Spec.NoSuffixedNames a)
    (h5 : ∀ c, c ∈ f5.cols ↔ c ∈ ["item_id", "date", "week_id", "week_start", "time_period"] ++ preparedMetrics a ++ a.atLeastOne.map Prod.snd)
    (n5 : f5.cols.Nodup) (nb : b'.cols.Nodup)
    (hw : ∀ c, Spec.Further assign' itemCol treatCol c → (c ∈ Spec.preparedNames a → c = "week_start") ∧ c ≠ "week_start_x" ∧ c ≠ "week_start_y")
    (hm : mergeAssignment f5 b = .ok f) :
    ∃ f', mergeSuffixed f5 b' = .ok f' ∧ (∀ c ∈ Spec.preparedNames a, c ≠ "week_start" → c ∈ f'.cols) ∧
      ((∀ s ∈ assign'.rows, ∀ c, Spec.Further assign' itemCol treatCol c → s c ≠ .null) → checkNulls f = .ok false → checkNulls f' = .ok false) := by
  have hf : ∀ c ∈ f5.cols, c ∈ Spec.preparedNames a := by
    intro c hc
    have := (h5 c).mp hc
    simp only [List.mem_append, List.mem_cons, List.not_mem_nil, or_false, Spec.preparedNames] at this ⊢
    tauto
  have hor : ∀ c ∈ Spec.preparedNames a, c ∉ f5.cols → c = "treatment_assignment" := by
    intro c hc hn
    rw [h5] at hn
    simp only [List.mem_append, List.mem_cons, List.not_mem_nil, or_false, Spec.preparedNames] at hc hn
    tauto
  have hws : "week_start" ∈ Spec.preparedNames a := by simp [Spec.preparedNames]
  unfold mergeAssignment at hm
  obtain ⟨hno, hm⟩ := raiseIf_bind_ok.mp hm
  replace hm := (Except.ok.inj hm).symm
  have ht5 : "treatment_assignment" ∉ f5.cols := by
    intro hin
    exact hno (List.any_eq_true.mpr ⟨"treatment_assignment", by rw [h.cols]; simp, by simpa using hin⟩)
  have hov : ∀ c ∈ overlapping f5 b', c = "week_start" := by
    intro c hc
    obtain ⟨h1, h2, h3⟩ := mem_overlapping.mp hc
    rcases (h.cols' c).mp h1 with rfl | rfl | fc
    · exact absurd rfl h2
    · exact absurd h3 ht5
    · exact (hw c fc).1 (hf c h3)
  have hxb : ∀ c ∈ b'.cols, c ≠ "week_start_x" ∧ c ≠ "week_start_y" := by
    intro c hc
    rcases (h.cols' c).mp hc with rfl | rfl | fc
    · decide
    · decide
    · exact (hw c fc).2
  have hx5 : ∀ c ∈ f5.cols, c ≠ "week_start_x" ∧ c ≠ "week_start_y" := fun c hc => hs c (hf c hc) _ hws
  have hnd : (f5.cols.map (suffixed (overlapping f5 b') "_x") ++
      (b'.cols.filter (fun c => decide (c ≠ "item_id"))).map (suffixed (overlapping f5 b') "_y")).Nodup := by
    rw [List.nodup_append]
    refine ⟨List.Nodup.map_on ?_ n5, List.Nodup.map_on ?_ (nb.filter _), ?_⟩
    · intro x hx y hy e
      unfold suffixed at e
      split_ifs at e with h1 h2 h2
      · rw [hov x h1, hov y h2]
      · rw [hov x h1] at e; exact absurd e.symm (hx5 y hy).1
      · rw [hov y h2] at e; exact absurd e (hx5 x hx).1
      · exact e
    · intro x hx y hy e
      have hx := List.mem_of_mem_filter hx
      have hy := List.mem_of_mem_filter hy
      unfold suffixed at e
      split_ifs at e with h1 h2 h2
      · rw [hov x h1, hov y h2]
      · rw [hov x h1] at e; exact absurd e.symm (hxb y hy).2
      · rw [hov y h2] at e; exact absurd e (hxb x hx).2
      · exact e
    · intro x hx y hy e
      obtain ⟨k, hk, rfl⟩ := List.mem_map.mp hx
      obtain ⟨l, hl, rfl⟩ := List.mem_map.mp hy
      obtain ⟨hl, hli⟩ := List.mem_filter.mp hl
      unfold suffixed at e
      split_ifs at e with h1 h2 h2
      · rw [hov k h1, hov l h2] at e; exact absurd e (by decide)
      · rw [hov k h1] at e; exact absurd e.symm (hxb l hl).1
      · rw [hov l h2] at e; exact absurd e (hx5 k hk).2
      · subst e
        exact h1 (mem_overlapping.mpr ⟨hl, by simpa using hli, hk⟩)
  refine ⟨_, raiseIf_bind_ok.mpr ⟨fun k => k.2 hnd, rfl⟩, ?_, ?_⟩
  · intro c hc hcw
    have ho : c ∉ overlapping f5 b' := fun ho => hcw (hov c ho)
    by_cases h5c : c ∈ f5.cols
    · exact List.mem_append_left _ (List.mem_map.mpr ⟨c, h5c, by simp [suffixed, ho]⟩)
    · refine List.mem_append_right _ (List.mem_map.mpr ⟨c, List.mem_filter.mpr ⟨?_, ?_⟩, by simp [suffixed, ho]⟩)
      · exact (h.cols' c).mpr (Or.inr (Or.inl (hor c hc h5c)))
      · rw [hor c hc h5c]; decide
  · intro hn hnf
    unfold checkNulls at hnf ⊢
    replace hnf := Except.ok.inj hnf
    refine congrArg _ ?_
    rw [Bool.eq_false_iff] at hnf ⊢
    intro hc
    apply hnf
    rw [List.any_eq_true] at hc ⊢
    obtain ⟨r', hr', hc⟩ := hc
    rw [List.any_eq_true] at hc
    obtain ⟨c, hc, hnull⟩ := hc
    simp only [List.mem_flatMap, List.mem_map, List.mem_filter, decide_eq_true_eq] at hr'
    obtain ⟨r, hr, s', ⟨hs', hi⟩, rfl⟩ := hr'
    obtain ⟨s, hs0, es⟩ := forall₂_mem_right h.rows hs'
    have hin : joinRow f5.cols r s ∈ f.rows := by
      rw [hm]
      simp only [List.mem_flatMap, List.mem_map, List.mem_filter, decide_eq_true_eq]
      exact ⟨r, hr, s, ⟨hs0, by rw [← es "item_id" (by simp), hi]⟩, rfl⟩
    refine ⟨_, hin, List.any_eq_true.mpr ?_⟩
    rcases join_cases hc with ⟨k, hk, e⟩ | ⟨k, hk, hki, e⟩
    · refine ⟨k, by rw [hm]; exact List.mem_append_left _ hk, ?_⟩
      rw [joinRow, if_pos hk, ← e r s']
      exact hnull
    · rcases (h.cols' k).mp hk with rfl | rfl | fk
      · exact absurd rfl hki
      · refine ⟨"treatment_assignment", by rw [hm]; exact List.mem_append_right _ (by rw [h.cols]; decide), ?_⟩
        rw [joinRow, if_neg ht5, ← es _ (by simp), ← e r s']
        exact hnull
      · obtain ⟨s0, hs0, -, e2⟩ := forall₂_mem_right h.further hs'
        have := hn s0 hs0 k fk
        rw [← e2 k fk, ← e r s'] at this
        rw [isNull_iff] at hnull
        exact absurd hnull this

end week

end Feedx
