import Verif.Model.AnalyseStudy

/-!
Two tables that agree on some columns: what is computed from those columns alone is the same.
-/

set_option linter.unusedSectionVars false
set_option linter.unusedSimpArgs false

namespace Feedx

variable {K : Type}

/-- The tables have the same cells, row by row, in the columns `Y`. -/
structure AgreeOn (Y : List String) (f f' : Frame K) : Prop where
  cols : ∀ c ∈ Y, (c ∈ f'.cols ↔ c ∈ f.cols)
  rows : List.Forall₂ (fun r r' : Row K => ∀ c ∈ Y, r' c = r c) f.rows f'.rows

/-- Rows that agree on the columns `Y`. -/
abbrev RowsAgree (Y : List String) : List (Row K) → List (Row K) → Prop := List.Forall₂ (fun r r' => ∀ c ∈ Y, r' c = r c)

theorem RowsAgree.map {α : Type} {Y : List String} {l l' : List (Row K)} (h : RowsAgree Y l l') {g : Row K → α}
    (hg : ∀ r r' : Row K, (∀ c ∈ Y, r' c = r c) → g r' = g r) : l'.map g = l.map g := by
  induction h with
  | nil => rfl
  | cons h1 _ ih => rw [List.map_cons, List.map_cons, ih, hg _ _ h1]

theorem RowsAgree.filter {Y : List String} {l l' : List (Row K)} (h : RowsAgree Y l l') {p : Row K → Bool}
    (hp : ∀ r r' : Row K, (∀ c ∈ Y, r' c = r c) → p r' = p r) : RowsAgree Y (l.filter p) (l'.filter p) := by
  induction h with
  | nil => exact .nil
  | cons h1 _ ih =>
    rw [List.filter_cons, List.filter_cons, hp _ _ h1]
    split_ifs
    · exact .cons h1 ih
    · exact ih

theorem RowsAgree.any {Y : List String} {l l' : List (Row K)} (h : RowsAgree Y l l') {p : Row K → Bool}
    (hp : ∀ r r' : Row K, (∀ c ∈ Y, r' c = r c) → p r' = p r) : l'.any p = l.any p := by
  induction h with
  | nil => rfl
  | cons h1 _ ih => rw [List.any_cons, List.any_cons, ih, hp _ _ h1]

theorem RowsAgree.all {Y : List String} {l l' : List (Row K)} (h : RowsAgree Y l l') {p : Row K → Bool}
    (hp : ∀ r r' : Row K, (∀ c ∈ Y, r' c = r c) → p r' = p r) : l'.all p = l.all p := by
  induction h with
  | nil => rfl
  | cons h1 _ ih => rw [List.all_cons, List.all_cons, ih, hp _ _ h1]

theorem AgreeOn.col {Y : List String} {f f' : Frame K} (h : AgreeOn Y f f') {c : String} (hc : c ∈ Y) : f'.col c = f.col c :=
  RowsAgree.map h.rows (fun _ _ e => e c hc)

theorem agree_keys {Y keys : List String} (hk : ∀ c ∈ keys, c ∈ Y) (r r' : Row K) (e : ∀ c ∈ Y, r' c = r c) : keys.map r' = keys.map r :=
  List.map_congr_left (fun c hc => e c (hk c hc))

section
variable [Field K] [LinearOrder K]

theorem RowsAgree.groupKeys {Y keys : List String} {l l' : List (Row K)} (h : RowsAgree Y l l') (hk : ∀ c ∈ keys, c ∈ Y) :
    groupKeys l' keys = groupKeys l keys := by
  unfold Feedx.groupKeys
  rw [h.map (g := fun r => keys.map r) (agree_keys hk)]

theorem RowsAgree.groupRows {Y keys : List String} {l l' : List (Row K)} (h : RowsAgree Y l l') (hk : ∀ c ∈ keys, c ∈ Y) (k : List (Cell K)) :
    RowsAgree Y (groupRows l keys k) (groupRows l' keys k) :=
  h.filter (fun r r' e => by rw [agree_keys hk r r' e])

theorem RowsAgree.sumCol {Y : List String} {l l' : List (Row K)} (h : RowsAgree Y l l') {c : String} (hc : c ∈ Y) : sumCol l' c = sumCol l c := by
  unfold Feedx.sumCol
  rw [h.map (g := fun r => (r c).toFl) (fun r r' e => by rw [e c hc])]

/-! ### The checks -/

variable {Y : List String} {f f' : Frame K}

theorem checkDuplicates_agree (h : AgreeOn Y f f') {itemCol dateCol : String} (h1 : itemCol ∈ Y) (h2 : dateCol ∈ Y) :
    checkDuplicates f' itemCol dateCol = checkDuplicates f itemCol dateCol := by
  have hk : ∀ c ∈ [dateCol], c ∈ Y := by simpa using h2
  have hi : itemsOn f' itemCol dateCol = itemsOn f itemCol dateCol := by
    funext k
    unfold itemsOn
    rw [(RowsAgree.groupRows h.rows hk k).map (g := fun r => r itemCol) (fun r r' e => e _ h1)]
  unfold checkDuplicates
  simp only [h.cols _ h1, h.cols _ h2, RowsAgree.groupKeys h.rows hk, hi]

theorem checkSpacing_agree (h : AgreeOn Y f f') {dateCol : String} (h2 : dateCol ∈ Y) : checkSpacing f' dateCol = checkSpacing f dateCol := by
  unfold checkSpacing
  simp only [h.cols _ h2, h.col h2]

theorem checkWeekIds_agree (S : DateSorter K) (h : AgreeOn Y f f') {weekCol dateCol : String} (h1 : weekCol ∈ Y) (h2 : dateCol ∈ Y) :
    checkWeekIds S f' weekCol dateCol = checkWeekIds S f weekCol dateCol := by
  unfold checkWeekIds
  simp only [h.cols _ h1, h.cols _ h2, h.col h1, h.col h2,
    RowsAgree.map h.rows (g := fun r => (r weekCol, r dateCol)) (fun r r' e => by rw [e _ h1, e _ h2])]

theorem checkFinite_agree (h : AgreeOn Y f f') {metrics : List String} (hm : ∀ c ∈ metrics, c ∈ Y) : checkFinite f' metrics = checkFinite f metrics := by
  induction metrics with
  | nil => rfl
  | cons m rest ih =>
    have h1 := hm m (by simp)
    unfold checkFinite
    simp only [h.cols _ h1, h.col h1, ih (fun c hc => hm c (by simp [hc]))]

theorem checkNonNegative_agree (h : AgreeOn Y f f') {metrics : List String} (hm : ∀ c ∈ metrics, c ∈ Y) :
    checkNonNegative f' metrics = checkNonNegative f metrics := by
  induction metrics with
  | nil => rfl
  | cons m rest ih =>
    have h1 := hm m (by simp)
    unfold checkNonNegative
    simp only [h.cols _ h1, h.col h1, ih (fun c hc => hm c (by simp [hc]))]

theorem checkItemCount_agree (h : AgreeOn Y f f') (d : Design K) {itemCol : String} (h1 : itemCol ∈ Y) :
    checkItemCount f' d itemCol = checkItemCount f d itemCol := by
  unfold checkItemCount
  simp only [h.cols _ h1, h.col h1]

theorem checkDateRange_agree (E : Ext K) (h : AgreeOn Y f f') (d : Design K) {dateCol : String} (h2 : dateCol ∈ Y) (startDate : String)
    (concluded : Bool) : checkDateRange E f' d dateCol startDate concluded = checkDateRange E f d dateCol startDate concluded := by
  unfold checkDateRange
  simp only [h.cols _ h2, h.col h2]

theorem checkUnique_agree (h : AgreeOn Y f f') {itemCol treatCol : String} (h1 : itemCol ∈ Y) (h2 : treatCol ∈ Y) :
    checkUnique f' itemCol treatCol = checkUnique f itemCol treatCol := by
  have hk : ∀ c ∈ [itemCol], c ∈ Y := by simpa using h1
  have hg : ∀ k, (groupRows f'.rows [itemCol] k).map (fun r => r treatCol) = (groupRows f.rows [itemCol] k).map (fun r => r treatCol) :=
    fun k => (RowsAgree.groupRows h.rows hk k).map (fun r r' e => e _ h2)
  unfold checkUnique
  simp only [h.cols _ h1, h.cols _ h2, RowsAgree.groupKeys h.rows hk, hg]

theorem checkCoinflip_agree (E : Ext K) (h : AgreeOn Y f f') (d : Design K) {treatCol itemCol : String} (h1 : treatCol ∈ Y) (h2 : itemCol ∈ Y) :
    checkCoinflip E f' d treatCol itemCol = checkCoinflip E f d treatCol itemCol := by
  have ha : ∀ coin : Coinflip, f'.rows.all (fun r => decide ((r treatCol).toFl = .fin ((coin.flip (E.toStr (r itemCol)) : ℕ) : K))) =
      f.rows.all (fun r => decide ((r treatCol).toFl = .fin ((coin.flip (E.toStr (r itemCol)) : ℕ) : K))) :=
    fun coin => RowsAgree.all h.rows (fun r r' e => by rw [e _ h1, e _ h2])
  unfold checkCoinflip
  simp only [h.cols _ h1, h.cols _ h2, ha]

theorem checkRatio_agree (binom : ℕ → ℕ → Py K) (h : AgreeOn Y f f') {itemCol treatCol : String} (h1 : itemCol ∈ Y) (h2 : treatCol ∈ Y) :
    checkRatio binom f' itemCol treatCol = checkRatio binom f itemCol treatCol := by
  have ha : ∀ v, armSize f' itemCol treatCol v = armSize f itemCol treatCol v := by
    intro v
    unfold armSize
    rw [(RowsAgree.filter h.rows (p := fun r => decide ((r treatCol).toFl = .fin v)) (fun r r' e => by rw [e _ h2])).map
      (g := fun r => r itemCol) (fun r r' e => e _ h1)]
  unfold checkRatio
  simp only [h.cols _ h1, h.cols _ h2, ha]

/-- The checks of the experiment data give the same on two tables that agree on the columns they name, if the check for missing values does. -/
theorem validateExperiment_agree (C : Checker K) (h : AgreeOn Y f f') (d : Design K) {itemCol dateCol weekCol treatCol : String} {metrics : List String}
    (startDate : String) (concluded : Bool) (canBeNegative skip : List String) (h1 : itemCol ∈ Y) (h2 : dateCol ∈ Y) (h3 : weekCol ∈ Y)
    (h4 : treatCol ∈ Y) (hm : ∀ c ∈ metrics, c ∈ Y) (hn : runCheck skip "no_nulls" (checkNulls f') = runCheck skip "no_nulls" (checkNulls f)) :
    validateExperiment C f' d itemCol dateCol weekCol treatCol metrics startDate concluded canBeNegative skip =
      validateExperiment C f d itemCol dateCol weekCol treatCol metrics startDate concluded canBeNegative skip := by
  have hnn : runNonNegative f' metrics canBeNegative skip = runNonNegative f metrics canBeNegative skip := by
    unfold runNonNegative
    simp only [checkNonNegative_agree h (metrics := metrics.filter (fun m => decide (m ∉ canBeNegative)))
      (fun c hc => hm c (List.mem_of_mem_filter hc))]
  unfold validateExperiment
  simp only [hn, checkDuplicates_agree h h1 h2, checkSpacing_agree h h2, checkWeekIds_agree C.sorter h h3 h2, checkFinite_agree h hm, hnn,
    checkItemCount_agree h d h1, checkDateRange_agree C.ext h d h2, checkUnique_agree h h1 h4, checkCoinflip_agree C.ext h d h4 h1,
    checkRatio_agree C.binom h h1 h4]

/-! ### The pivoted data -/

/-- Two pivoted tables with the same index and periods, and the same values of the metrics `M`. -/
structure PivotAgree (M : List String) (piv piv' : Pivoted K) : Prop where
  index : piv'.index = piv.index
  periods : piv'.periods = piv.periods
  value : ∀ k, ∀ m ∈ M, ∀ p, piv'.value k m p = piv.value k m p
  whole : ∀ m ∈ M, piv'.whole m = piv.whole m

theorem pivotTable_agree (d : DesignParams K) {indexCols : List String} {periodCol : String} {l l' : List (Row K)} (h : RowsAgree Y l l')
    (hi : ∀ c ∈ indexCols, c ∈ Y) (hp : periodCol ∈ Y) : PivotAgree Y (pivotTable d indexCols periodCol l) (pivotTable d indexCols periodCol l') where
  index := (h.filter (fun r r' e => by rw [e _ hp])).groupKeys hi
  periods := by
    unfold pivotTable
    refine congrArg dropDup ((h.filter (fun r r' e => ?_)).map (fun r r' e => e _ hp))
    have : indexCols.all (fun c => !(r' c).isNull) = indexCols.all (fun c => !(r c).isNull) := by
      rw [Bool.eq_iff_iff, List.all_eq_true, List.all_eq_true]
      exact forall_congr' fun c => imp_congr_right fun hc => by rw [e c (hi c hc)]
    rw [e _ hp, this]
  value := by
    intro k m hm p
    unfold pivotTable
    have := (h.filter (p := fun r => decide (indexCols.map r = k ∧ r periodCol = .str p))
      (fun r r' e => by rw [agree_keys hi r r' e, e _ hp])).sumCol hm
    simp only [this]
  whole := by
    intro m hm
    exact h.all (fun r r' e => by rw [e m hm])

theorem setCol_agree (h : AgreeOn Y f f') {c : String} (v : Row K → Cell K) (hv : ∀ r r' : Row K, (∀ c ∈ Y, r' c = r c) → v r' = v r) :
    RowsAgree Y (f.setCol c v).rows (f'.setCol c v).rows := by
  unfold Frame.setCol
  simp only [RowsAgree, List.forall₂_map_left_iff, List.forall₂_map_right_iff]
  refine h.rows.imp fun r r' e c' hc' => ?_
  by_cases hcc : c' = c
  · subst hcc; simp [hv r r' e]
  · rw [Function.update_of_ne hcc, Function.update_of_ne hcc, e _ hc']

theorem labelRows_agree (d : DesignParams K) (start : ℤ) {weekCol periodCol : String} (h : AgreeOn Y f f') (h2 : weekCol ∈ Y) :
    match labelRows d start weekCol periodCol f, labelRows d start weekCol periodCol f' with
    | .ok g, .ok g' => RowsAgree Y g.rows g'.rows
    | .error e, .error e' => e' = e
    | _, _ => False := by
  have hw : f'.rows.any (fun r => !(r weekCol).isNumeric) = f.rows.any (fun r => !(r weekCol).isNumeric) :=
    RowsAgree.any h.rows (fun r r' e => by rw [e _ h2])
  unfold labelRows
  by_cases c1 : d.isCrossover = true ∧ d.washout = none
  · simp only [raiseIf, if_pos c1]; rfl
  · by_cases c2 : f.rows.any (fun r => !(r weekCol).isNumeric) = true
    · simp only [raiseIf, if_neg c1, hw, if_pos c2]; rfl
    · simp only [raiseIf, if_neg c1, hw, if_neg c2, bind, Except.bind, pure, Except.pure]
      exact setCol_agree h _ (fun r r' e => by simp only [e _ h2])

/-- Pivoting two tables that agree on the columns named. -/
theorem pivotTimeAssignment_agree (d : DesignParams K) (start : ℤ) {metrics : List String} {itemCol weekCol : String} {treatmentCol : Option String}
    {periodCol : String} (h : AgreeOn Y f f') (h1 : itemCol ∈ Y) (h2 : weekCol ∈ Y) (h3 : ∀ c ∈ treatmentCol, c ∈ Y) (h4 : periodCol ∈ Y)
    (hm : ∀ c ∈ metrics, c ∈ f'.cols ↔ c ∈ f.cols) :
    match (pivotTimeAssignment d start metrics itemCol weekCol treatmentCol periodCol f).1,
      (pivotTimeAssignment d start metrics itemCol weekCol treatmentCol periodCol f').1 with
    | .ok piv, .ok piv' => (∀ c ∈ metrics, c ∈ f.cols) ∧ PivotAgree Y piv piv'
    | .error e, .error e' => e' = e
    | _, _ => False := by
  have hc : (itemCol :: weekCol :: (metrics ++ treatmentCol.toList)).any (fun c => decide (c ∉ f'.cols)) =
      (itemCol :: weekCol :: (metrics ++ treatmentCol.toList)).any (fun c => decide (c ∉ f.cols)) := by
    rw [Bool.eq_iff_iff, List.any_eq_true, List.any_eq_true]
    refine exists_congr fun c => and_congr_right fun hc => ?_
    have : c ∈ f'.cols ↔ c ∈ f.cols := by
      simp only [List.mem_cons, List.mem_append, Option.mem_toList] at hc
      rcases hc with rfl | rfl | hc | hc
      · exact h.cols _ h1
      · exact h.cols _ h2
      · exact hm _ hc
      · exact h.cols _ (h3 _ hc)
    simp [this]
  have hi : ∀ c ∈ indexColumns itemCol treatmentCol, c ∈ Y := by
    intro c hc
    simp only [indexColumns, List.mem_cons, Option.mem_toList] at hc
    rcases hc with rfl | hc
    · exact h1
    · exact h3 _ hc
  unfold pivotTimeAssignment
  by_cases hp : periodCol ∈ f.cols
  · rw [if_pos hp, if_pos ((h.cols _ h4).mpr hp)]
  · rw [if_neg hp, if_neg (mt (h.cols _ h4).mp hp), hc]
    by_cases ha : (itemCol :: weekCol :: (metrics ++ treatmentCol.toList)).any (fun c => decide (c ∉ f.cols)) = true
    · rw [if_pos ha, if_pos ha]
    · rw [if_neg ha, if_neg ha]
      have hmf : ∀ c ∈ metrics, c ∈ f.cols := by
        intro c hc
        by_contra hn
        exact ha (List.any_eq_true.mpr ⟨c, by simp [hc], by simp [hn]⟩)
      have hl := labelRows_agree d start (periodCol := periodCol) h h2
      cases e : labelRows d start weekCol periodCol f with
      | error x =>
        cases e' : labelRows d start weekCol periodCol f' with
        | error x' => rw [e, e'] at hl; exact hl
        | ok g' => rw [e, e'] at hl; exact hl.elim
      | ok g =>
        cases e' : labelRows d start weekCol periodCol f' with
        | error x' => rw [e, e'] at hl; exact hl.elim
        | ok g' =>
          rw [e, e'] at hl
          have pa := pivotTable_agree d hl hi h4
          simp only [pa.periods]
          by_cases c3 : d.isCrossover = false ∧ Cell.str "test" ∉ (pivotTable d (indexColumns itemCol treatmentCol) periodCol g.rows).periods
          · rw [if_pos c3, if_pos c3]
          · rw [if_neg c3, if_neg c3]
            exact ⟨hmf, pa⟩

theorem daysPerPeriod_agree (h : AgreeOn Y f f') (h1 : "date" ∈ Y) (h2 : "time_period" ∈ Y) : daysPerPeriod f' = daysPerPeriod f := by
  unfold daysPerPeriod
  simp only [h.cols _ h1, h.cols _ h2,
    RowsAgree.map h.rows (g := fun r => (r "date", r "time_period")) (fun r r' e => by rw [e _ h1, e _ h2])]

theorem dropCol_agree (h : AgreeOn Y f f') (c : String) : AgreeOn Y (f.dropCol c) (f'.dropCol c) where
  cols := by
    intro k hk
    unfold Frame.dropCol
    simp only [List.mem_filter, h.cols k hk]
  rows := h.rows

end

/-! ### The analysis -/

section
variable {Y : List String} {f f' : Frame ℝ}

theorem mapM_sameOn {α β : Type} {g g' : α → Py β} (l : List α) (h : ∀ x ∈ l, g' x = g x) : l.mapM g' = l.mapM g := by
  induction l with
  | nil => rfl
  | cons x l ih => rw [List.mapM_cons, List.mapM_cons, h x (by simp), ih (fun y hy => h y (by simp [hy]))]

theorem metricSubset_agree {piv piv' : Pivoted ℝ} (hp : PivotAgree Y piv piv') (metrics indexNames : List String) {m : String} (hm : m ∈ Y) :
    metricSubset piv' metrics indexNames m = metricSubset piv metrics indexNames m := by
  unfold metricSubset
  simp only [hp.index, hp.periods, (fun k p => hp.value k _ hm p)]

theorem storeFirst_agree {piv piv' : Pivoted ℝ} (hp : PivotAgree Y piv piv') {m : String} (hm : m ∈ Y) : storeFirst piv' m = storeFirst piv m := by
  unfold storeFirst
  have hv : ∀ k p, piv'.value k m p = piv.value k m p := fun k p => hp.value k m hm p
  have he : (piv'.whole m = true ∧ ∀ k ∈ piv'.index, ∃ n : ℤ, piv'.value k m "test_1" = .fin (n : ℝ)) ↔
      (piv.whole m = true ∧ ∀ k ∈ piv.index, ∃ n : ℤ, piv.value k m "test_1" = .fin (n : ℝ)) := by
    rw [hp.index, hp.whole _ hm]
    simp only [hv]
  by_cases hb : piv.whole m = true ∧ ∀ k ∈ piv.index, ∃ n : ℤ, piv.value k m "test_1" = .fin (n : ℝ)
  · rw [if_pos hb, if_pos (he.mpr hb)]
  · rw [if_neg hb, if_neg (mt he.mp hb)]

theorem analyzeSingleMetric_agree {R : Rounding ℝ} {argsort : List ℝ → List ℕ} {D : TDist} {piv piv' : Pivoted ℝ} (hp : PivotAgree Y piv piv')
    (metrics indexNames : List String) (d : DesignParams ℝ) {metric : String} {denominator : Option String} (treatmentName : String)
    (override : Option ℝ) (hm : metric ∈ Y) (hd : ∀ m ∈ denominator, m ∈ Y) :
    analyzeSingleMetric R argsort D piv' metrics indexNames d metric denominator treatmentName override =
      analyzeSingleMetric R argsort D piv metrics indexNames d metric denominator treatmentName override := by
  unfold analyzeSingleMetric
  cases denominator with
  | none => simp only [metricSubset_agree hp metrics indexNames hm, storeFirst_agree hp hm, Option.elim]
  | some m =>
    have := hd m rfl
    simp only [metricSubset_agree hp metrics indexNames hm, storeFirst_agree hp hm, Option.elim, metricSubset_agree hp metrics indexNames this,
      storeFirst_agree hp this]

/-- The analysis gives the same results on two tables that agree on the columns it names. -/
theorem analyzeExperiment_agree {R : Rounding ℝ} {argsort : List ℝ → List ℕ} {D : TDist} {d : DesignParams ℝ} {metrics : List Metric}
    {weekCol itemCol treatmentCol : String} (h : AgreeOn Y f f') (h1 : itemCol ∈ Y) (h2 : weekCol ∈ Y) (h3 : treatmentCol ∈ Y)
    (h4 : "time_period" ∈ Y) (hm : ∀ c ∈ metricColumns metrics, c ∈ f'.cols ↔ c ∈ f.cols) (hY : ∀ c ∈ metricColumns metrics, c ∈ f.cols → c ∈ Y) :
    (analyzeExperiment R argsort D d metrics weekCol itemCol treatmentCol f').1 =
      (analyzeExperiment R argsort D d metrics weekCol itemCol treatmentCol f).1 := by
  unfold analyzeExperiment
  by_cases hne : metrics = []
  · rw [if_pos hne, if_pos hne]
  rw [if_neg hne, if_neg hne]
  have key := pivotTimeAssignment_agree d 0 (metrics := metricColumns metrics) (itemCol := itemCol) (weekCol := weekCol)
    (treatmentCol := some treatmentCol) (periodCol := "time_period") h h1 h2 (by simpa using h3) h4 hm
  cases e : (pivotTimeAssignment d 0 (metricColumns metrics) itemCol weekCol (some treatmentCol) "time_period" f).1 with
  | error x =>
    cases e' : (pivotTimeAssignment d 0 (metricColumns metrics) itemCol weekCol (some treatmentCol) "time_period" f').1 with
    | error x' => rw [e, e'] at key; simp only at key; simp only [e, e', key]
    | ok g => rw [e, e'] at key; exact key.elim
  | ok piv =>
    cases e' : (pivotTimeAssignment d 0 (metricColumns metrics) itemCol weekCol (some treatmentCol) "time_period" f').1 with
    | error x' => rw [e, e'] at key; exact key.elim
    | ok piv' =>
      rw [e, e'] at key
      obtain ⟨k1, k2⟩ := key
      simp only [e, e']
      refine mapM_sameOn _ fun m hmm => ?_
      have m1 : m.column ∈ metricColumns metrics := List.mem_append_left _ (List.mem_map_of_mem hmm)
      have m2 : ∀ c ∈ m.denominator, c ∈ metricColumns metrics := fun c hc => List.mem_append_right _ (List.mem_filterMap.mpr ⟨m, hmm, hc⟩)
      rw [analyzeSingleMetric_agree k2 _ _ _ _ _ (hY _ m1 (k1 _ m1)) (fun c hc => hY _ (m2 c hc) (k1 _ (m2 c hc)))]

end

end Feedx
