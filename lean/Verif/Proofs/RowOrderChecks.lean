import Verif.Proofs.RowOrder

/-!
Reordering the rows of a table does not change the outcome of the validation checks.
-/

set_option linter.unusedSectionVars false

namespace Feedx

variable {K : Type} [Field K] [LinearOrder K]

theorem checkNulls_sameRows {f f' : Frame K} (hs : Spec.SameRows f f') : checkNulls f' = checkNulls f := by
  unfold checkNulls
  rw [hs.cols, hs.rows.any_eq]

theorem checkDuplicates_sameRows {f f' : Frame K} (hs : Spec.SameRows f f') (itemCol dateCol : String) :
    checkDuplicates f' itemCol dateCol = checkDuplicates f itemCol dateCol := by
  unfold checkDuplicates
  rw [hs.cols, groupKeys_perm hs.rows]
  have hp : ∀ k, (itemsOn f' itemCol dateCol k).Perm (itemsOn f itemCol dateCol k) := by
    intro k
    unfold itemsOn
    exact ((groupRows_perm hs.rows _ _).map _).filter _
  simp only [List.any_map, Function.comp_def, fun k => (hp k).length_eq, fun k => nunique_perm (hp k)]
  cases groupKeys f.rows [dateCol] with
  | nil => rfl
  | cons k ks => simp only [List.map_cons, List.any_cons, fun k => (hp k).length_eq]

theorem isTimeColumn_perm {l l' : List (Cell K)} (h : l'.Perm l) : isTimeColumn l' = isTimeColumn l := h.all_eq

theorem checkSpacing_sameRows {f f' : Frame K} (hs : Spec.SameRows f f') (dateCol : String) :
    checkSpacing f' dateCol = checkSpacing f dateCol := by
  unfold checkSpacing
  rw [hs.cols, isTimeColumn_perm (hs.col dateCol), spacedBy_perm 7 (hs.col dateCol), spacedBy_perm 1 (hs.col dateCol)]

/-- Rows with the same date are in the same week. -/
def Spec.DateGivesWeek (f : Frame K) (weekCol dateCol : String) : Prop :=
  ∀ r ∈ f.rows, ∀ r' ∈ f.rows, r dateCol = r' dateCol → r weekCol = r' weekCol

theorem checkWeekIds_sameRows {S : DateSorter K} {f f' : Frame K} (hs : Spec.SameRows f f') {weekCol dateCol : String}
    (hw : Spec.DateGivesWeek f weekCol dateCol) : checkWeekIds S f' weekCol dateCol = checkWeekIds S f weekCol dateCol := by
  unfold checkWeekIds
  rw [hs.cols, (hs.col weekCol).all_eq, isTimeColumn_perm (hs.col dateCol)]
  by_cases ht : isTimeColumn (f.col dateCol) = false
  · simp [ht, raiseIf]
  have he : S.sort (dropDup (f'.rows.map (fun r => (r weekCol, r dateCol)))) = S.sort (dropDup (f.rows.map (fun r => (r weekCol, r dateCol)))) := by
    refine List.Perm.eq_of_pairwise ?_ (S.sorted _) (S.sorted _)
      (((S.perm _).trans (dropDup_perm (hs.rows.map _))).trans (S.perm _).symm)
    intro x y hx hy h1 h2
    have hx := mem_dropDup.mp ((S.perm _).mem_iff.mp hx)
    have hy := mem_dropDup.mp ((S.perm _).mem_iff.mp hy)
    obtain ⟨r, hr, rfl⟩ := List.mem_map.mp hx
    obtain ⟨r', hr', rfl⟩ := List.mem_map.mp hy
    have hr := hs.rows.mem_iff.mp hr
    have time : ∀ r ∈ f.rows, (∃ t, r dateCol = .time t) ∨ r dateCol = .null := by
      intro r hr
      have := List.all_eq_true.mp (by simpa using ht : isTimeColumn (f.col dateCol) = true) _ (List.mem_map.mpr ⟨r, hr, rfl⟩)
      revert this
      cases r dateCol <;> simp
    have hd : r dateCol = r' dateCol := by
      simp only at h1 h2
      rcases time r hr with ⟨t, e⟩ | e <;> rcases time r' hr' with ⟨t', e'⟩ | e' <;> rw [e, e'] at h1 h2 <;> rw [e, e']
      · simp only [dateLe] at h1 h2
        rw [le_antisymm h1 h2]
      · exact absurd h2 (by simp [dateLe])
      · exact absurd h1 (by simp [dateLe])
    rw [hw r hr r' hr' hd, hd]
  rw [he]

theorem checkFinite_sameRows {f f' : Frame K} (hs : Spec.SameRows f f') (metrics : List String) : checkFinite f' metrics = checkFinite f metrics := by
  induction metrics with
  | nil => rfl
  | cons m rest ih =>
    unfold checkFinite
    rw [hs.cols, (hs.col m).any_eq, (hs.col m).any_eq, (hs.col m).any_eq, ih]

theorem checkNonNegative_sameRows {f f' : Frame K} (hs : Spec.SameRows f f') (metrics : List String) :
    checkNonNegative f' metrics = checkNonNegative f metrics := by
  induction metrics with
  | nil => rfl
  | cons m rest ih =>
    unfold checkNonNegative
    rw [hs.cols, (hs.col m).any_eq, (hs.col m).any_eq, ih]

theorem checkItemCount_sameRows {f f' : Frame K} (hs : Spec.SameRows f f') (d : Design K) (itemCol : String) :
    checkItemCount f' d itemCol = checkItemCount f d itemCol := by
  unfold checkItemCount
  rw [hs.cols, nunique_perm (hs.col itemCol)]

theorem maxTime_perm {l l' : List (Cell K)} (h : l'.Perm l) : maxTime l' = maxTime l := by
  unfold maxTime
  have hp : (times l').Perm (times l) := h.filterMap _
  cases h1 : (times l).max? with
  | none =>
    rw [List.max?_eq_none_iff] at h1
    rw [h1] at hp
    rw [hp.eq_nil]
    rfl
  | some m =>
    rw [List.max?_eq_some_iff] at h1 ⊢
    exact ⟨hp.mem_iff.mpr h1.1, fun b hb => h1.2 b (hp.mem_iff.mp hb)⟩

theorem checkDateRange_sameRows {E : Ext K} {f f' : Frame K} (hs : Spec.SameRows f f') (d : Design K) (dateCol startDate : String) (concluded : Bool) :
    checkDateRange E f' d dateCol startDate concluded = checkDateRange E f d dateCol startDate concluded := by
  unfold checkDateRange
  rw [hs.cols, isTimeColumn_perm (hs.col dateCol), minTime_perm (hs.col dateCol), maxTime_perm (hs.col dateCol)]

theorem checkUnique_sameRows {f f' : Frame K} (hs : Spec.SameRows f f') (itemCol treatCol : String) :
    checkUnique f' itemCol treatCol = checkUnique f itemCol treatCol := by
  unfold checkUnique
  rw [hs.cols, groupKeys_perm hs.rows]
  have hn : ∀ k, nunique ((groupRows f'.rows [itemCol] k).map (fun r => r treatCol)) = nunique ((groupRows f.rows [itemCol] k).map (fun r => r treatCol)) :=
    fun k => nunique_perm ((groupRows_perm hs.rows _ _).map _)
  simp only [hn]

theorem checkCoinflip_sameRows {E : Ext K} {f f' : Frame K} (hs : Spec.SameRows f f') (d : Design K) (treatCol itemCol : String) :
    checkCoinflip E f' d treatCol itemCol = checkCoinflip E f d treatCol itemCol := by
  unfold checkCoinflip
  simp only [hs.cols, hs.rows.all_eq]

theorem checkRatio_sameRows {binom : ℕ → ℕ → Py K} {f f' : Frame K} (hs : Spec.SameRows f f') (itemCol treatCol : String) :
    checkRatio binom f' itemCol treatCol = checkRatio binom f itemCol treatCol := by
  unfold checkRatio
  have ha : ∀ v, armSize f' itemCol treatCol v = armSize f itemCol treatCol v := fun v => nunique_perm ((hs.rows.filter _).map _)
  simp only [hs.cols, ha]

theorem validateHistorical_sameRows {S : DateSorter K} {f f' : Frame K} (hs : Spec.SameRows f f') {itemCol dateCol weekCol primary : String}
    {skip : List String} (hw : Spec.DateGivesWeek f weekCol dateCol) :
    validateHistorical S f' itemCol dateCol weekCol primary skip = validateHistorical S f itemCol dateCol weekCol primary skip := by
  unfold validateHistorical
  rw [checkNulls_sameRows hs, checkDuplicates_sameRows hs, checkSpacing_sameRows hs, checkWeekIds_sameRows hs hw, checkFinite_sameRows hs,
    checkNonNegative_sameRows hs]

theorem validateExperiment_sameRows {C : Checker K} {f f' : Frame K} (hs : Spec.SameRows f f') {d : Design K}
    {itemCol dateCol weekCol treatCol : String} {metrics : List String} {startDate : String} {concluded : Bool} {canBeNegative skip : List String}
    (hw : Spec.DateGivesWeek f weekCol dateCol) :
    validateExperiment C f' d itemCol dateCol weekCol treatCol metrics startDate concluded canBeNegative skip =
      validateExperiment C f d itemCol dateCol weekCol treatCol metrics startDate concluded canBeNegative skip := by
  unfold validateExperiment runNonNegative
  simp only [checkNonNegative_sameRows hs]
  rw [checkNulls_sameRows hs, checkDuplicates_sameRows hs, checkSpacing_sameRows hs, checkWeekIds_sameRows hs hw, checkFinite_sameRows hs,
    checkItemCount_sameRows hs, checkDateRange_sameRows hs, checkUnique_sameRows hs, checkCoinflip_sameRows hs,
    checkRatio_sameRows hs]

/-! ### The analysis -/

/-- Pivoted tables that agree up to the order of the periods. -/
structure SamePivot (p p' : Pivoted K) : Prop where
  index : p'.index = p.index
  periods : p'.periods.Perm p.periods
  value : p'.value = p.value
  whole : p'.whole = p.whole

theorem pivotTable_sameRows {d : DesignParams K} {indexCols : List String} {periodCol : String} {rows rows' : List (Row K)} (h : rows'.Perm rows) :
    SamePivot (pivotTable d indexCols periodCol rows) (pivotTable d indexCols periodCol rows') where
  index := groupKeys_perm (h.filter _) _
  periods := dropDup_perm ((h.filter _).map _)
  value := by
    funext k m p
    unfold pivotTable
    simp only
    rw [sumCol_perm (h.filter _)]
  whole := by
    funext m
    exact h.all_eq

theorem labelRows_sameRows {d : DesignParams K} {start : ℤ} {weekCol periodCol : String} {f f' : Frame K} (hs : Spec.SameRows f f') :
    match labelRows d start weekCol periodCol f, labelRows d start weekCol periodCol f' with
    | .ok g, .ok g' => Spec.SameRows g g'
    | .error e, .error e' => e' = e
    | _, _ => False := by
  unfold labelRows
  rw [hs.rows.any_eq]
  by_cases h1 : d.isCrossover = true ∧ d.washout = none
  · simp [raiseIf, h1, bind, Except.bind]
  · by_cases h2 : f.rows.any (fun r => !(r weekCol).isNumeric) = true
    · simp only [raiseIf, h1, h2, bind, Except.bind, if_true, if_false]
    · simp only [raiseIf, h1, h2, bind, Except.bind, if_true, if_false]
      exact hs.setCol _ _

theorem pivotTimeAssignment_sameRows {d : DesignParams K} {start : ℤ} {metrics : List String} {itemCol weekCol : String}
    {treatmentCol : Option String} {periodCol : String} {f f' : Frame K} (hs : Spec.SameRows f f') :
    match (pivotTimeAssignment d start metrics itemCol weekCol treatmentCol periodCol f).1,
      (pivotTimeAssignment d start metrics itemCol weekCol treatmentCol periodCol f').1 with
    | .ok p, .ok p' => SamePivot p p'
    | .error e, .error e' => e' = e
    | _, _ => False := by
  unfold pivotTimeAssignment
  rw [hs.cols]
  split_ifs
  · rfl
  · rfl
  · have hl := labelRows_sameRows (d := d) (start := start) (weekCol := weekCol) (periodCol := periodCol) hs
    cases e : labelRows d start weekCol periodCol f with
    | error x =>
      cases e' : labelRows d start weekCol periodCol f' with
      | error x' => rw [e, e'] at hl; simpa using hl
      | ok g' => rw [e, e'] at hl; exact hl.elim
    | ok g =>
      cases e' : labelRows d start weekCol periodCol f' with
      | error x' => rw [e, e'] at hl; exact hl.elim
      | ok g' =>
        rw [e, e'] at hl
        simp only at hl ⊢
        have hp := pivotTable_sameRows (d := d) (indexCols := indexColumns itemCol treatmentCol) (periodCol := periodCol) hl.rows
        by_cases hc : d.isCrossover = false ∧ Cell.str "test" ∉ (pivotTable d (indexColumns itemCol treatmentCol) periodCol g.rows).periods
        · rw [if_pos hc, if_pos ⟨hc.1, fun h => hc.2 (hp.periods.mem_iff.mp h)⟩]
        · rw [if_neg hc, if_neg fun h => hc ⟨h.1, fun h' => h.2 (hp.periods.mem_iff.mpr h')⟩]
          exact hp

/-- Frames with the same rows and the same columns in any order. -/
structure SameCols (f f' : Frame K) : Prop where
  cols : ∀ c, c ∈ f'.cols ↔ c ∈ f.cols
  rows : f'.rows = f.rows

theorem SameCols.col {f f' : Frame K} (h : SameCols f f') (c : String) : f'.col c = f.col c := by
  unfold Frame.col
  rw [h.rows]

section real

theorem metricSubset_same {piv piv' : Pivoted ℝ} (hp : SamePivot piv piv') (metrics indexNames : List String) (m : String) :
    match metricSubset piv metrics indexNames m, metricSubset piv' metrics indexNames m with
    | .ok g, .ok g' => SameCols g g'
    | .error e, .error e' => e' = e
    | _, _ => False := by
  unfold metricSubset
  simp only [hp.index, hp.value, hp.periods.mem_iff]
  by_cases h1 : m ∈ metrics
  · by_cases h2 : (indexNames.any (fun c => decide (Cell.str c ∈ piv.periods))) = true
    · simp only [raiseIf, h1, h2, bind, Except.bind, not_true, if_true, if_false]
    · simp only [raiseIf, h1, h2, bind, Except.bind, not_true, if_true, if_false]
      refine ⟨fun c => ?_, rfl⟩
      simp only [List.mem_append]
      exact or_congr Iff.rfl (hp.periods.map _).mem_iff
  · simp [raiseIf, h1, bind, Except.bind]

theorem prepareRegular_same {R : Rounding ℝ} {argsort : List ℝ → List ℕ} {f f' : Frame ℝ} (h : SameCols f f') (treatmentCol : String) (q : ℝ) :
    prepareRegular R argsort f' treatmentCol q = prepareRegular R argsort f treatmentCol q := by
  unfold prepareRegular
  simp only [h.col, h.cols]

theorem crossoverItems_same {f f' : Frame ℝ} (h : SameCols f f') (treatmentCol : String) :
    crossoverItems f' treatmentCol = crossoverItems f treatmentCol := by
  unfold crossoverItems
  simp only [h.col]

theorem storeFirst_same {piv piv' : Pivoted ℝ} (hp : SamePivot piv piv') (m : String) : storeFirst piv' m = storeFirst piv m := by
  unfold storeFirst
  rw [hp.index, hp.value, hp.whole]

theorem analyzeSingleMetric_same {R : Rounding ℝ} {argsort : List ℝ → List ℕ} {D : TDist} {piv piv' : Pivoted ℝ} (hp : SamePivot piv piv')
    (metrics indexNames : List String) (d : DesignParams ℝ) (metric : String) (denominator : Option String) (treatmentName : String)
    (override : Option ℝ) :
    analyzeSingleMetric R argsort D piv' metrics indexNames d metric denominator treatmentName override =
      analyzeSingleMetric R argsort D piv metrics indexNames d metric denominator treatmentName override := by
  unfold analyzeSingleMetric
  have hf := metricSubset_same hp metrics indexNames metric
  cases e : metricSubset piv metrics indexNames metric with
  | error x =>
    cases e' : metricSubset piv' metrics indexNames metric with
    | error x' => rw [e, e'] at hf; simp only at hf; rw [hf]; rfl
    | ok g' => rw [e, e'] at hf; exact hf.elim
  | ok f =>
    cases e' : metricSubset piv' metrics indexNames metric with
    | error x' => rw [e, e'] at hf; exact hf.elim
    | ok f' =>
      rw [e, e'] at hf
      simp only at hf
      have h1 : storeFirst piv' = storeFirst piv := funext (storeFirst_same hp)
      rw [h1]
      cases denominator with
      | none =>
        simp only [bind, Except.bind, pure, Except.pure, hf.cols, analyzeCrossover, analyzeRegular, crossoverItems_same hf, prepareRegular_same hf]
      | some m =>
        have hg := metricSubset_same hp metrics indexNames m
        cases i : metricSubset piv metrics indexNames m with
        | error x =>
          cases i' : metricSubset piv' metrics indexNames m with
          | error x' => rw [i, i'] at hg; simp only at hg; simp only [i, i', hg]; rfl
          | ok g' => rw [i, i'] at hg; exact hg.elim
        | ok g =>
          cases i' : metricSubset piv' metrics indexNames m with
          | error x' => rw [i, i'] at hg; exact hg.elim
          | ok g' =>
            rw [i, i'] at hg
            simp only at hg
            simp only [i, i', bind, Except.bind, pure, Except.pure, hf.cols, hg.cols, analyzeCrossover, analyzeRegular, crossoverItems_same hf,
              prepareRegular_same hf, crossoverItems_same hg, prepareRegular_same hg]

theorem analyzeExperiment_sameRows {R : Rounding ℝ} {argsort : List ℝ → List ℕ} {D : TDist} {d : DesignParams ℝ} {metrics : List Metric}
    {weekCol itemCol treatmentCol : String} {f f' : Frame ℝ} (hs : Spec.SameRows f f') :
    (analyzeExperiment R argsort D d metrics weekCol itemCol treatmentCol f').1 =
      (analyzeExperiment R argsort D d metrics weekCol itemCol treatmentCol f).1 := by
  unfold analyzeExperiment
  split_ifs
  · rfl
  · have hp := pivotTimeAssignment_sameRows (d := d) (start := 0) (metrics := metricColumns metrics) (itemCol := itemCol) (weekCol := weekCol)
      (treatmentCol := some treatmentCol) (periodCol := "time_period") hs
    simp only
    cases e : (pivotTimeAssignment d 0 (metricColumns metrics) itemCol weekCol (some treatmentCol) "time_period" f).1 with
    | error x =>
      cases e' : (pivotTimeAssignment d 0 (metricColumns metrics) itemCol weekCol (some treatmentCol) "time_period" f').1 with
      | error x' => rw [e, e'] at hp; simp only at hp; rw [hp]
      | ok g' => rw [e, e'] at hp; exact hp.elim
    | ok piv =>
      cases e' : (pivotTimeAssignment d 0 (metricColumns metrics) itemCol weekCol (some treatmentCol) "time_period" f').1 with
      | error x' => rw [e, e'] at hp; exact hp.elim
      | ok piv' =>
        rw [e, e'] at hp
        simp only [analyzeSingleMetric_same hp]

end real

end Feedx
