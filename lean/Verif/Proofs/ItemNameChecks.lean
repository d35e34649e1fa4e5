import Verif.Proofs.ItemNames

/-!
Lemmas for C136: data with other names of the items passes the same checks (except that of the salt) and gives the same results.
-/

set_option linter.unusedSectionVars false
set_option linter.unusedSimpArgs false
set_option maxHeartbeats 1000000

namespace Feedx

open Spec (named)

section
variable {K : Type} [Field K] [LinearOrder K] {ρ : String → String}

/-- The key of a row with the item's new name. -/
def namedKey (ρ : String → String) : List String → List (Cell K) → List (Cell K)
  | c :: cs, x :: k => (if c = "item_id" then named ρ x else x) :: namedKey ρ cs k
  | _, k => k

theorem namedKey_map (cols : List String) (r : Row K) : cols.map (namedRow ρ r) = namedKey ρ cols (cols.map r) := by
  induction cols with
  | nil => rfl
  | cons c cs ih => rw [List.map_cons, ih]; rfl

theorem namedKey_inj (hρ : Function.Injective ρ) (cols : List String) (k k' : List (Cell K)) : namedKey ρ cols k = namedKey ρ cols k' ↔ k = k' := by
  induction cols generalizing k k' with
  | nil => cases k <;> cases k' <;> exact Iff.rfl
  | cons c cs ih =>
    cases k with
    | nil => cases k' <;> simp [namedKey]
    | cons a k =>
      cases k' with
      | nil => simp [namedKey]
      | cons b k' =>
        simp only [namedKey, List.cons.injEq, ih]
        split
        · rw [named_inj hρ]
        · rfl

theorem namedKey_le (hρ : StrictMono ρ) (cols : List String) (k k' : List (Cell K)) :
    keyLe (namedKey ρ cols k) (namedKey ρ cols k') = keyLe k k' := by
  induction cols generalizing k k' with
  | nil => cases k <;> cases k' <;> rfl
  | cons c cs ih =>
    cases k with
    | nil => cases k' <;> rfl
    | cons a k =>
      cases k' with
      | nil => rfl
      | cons b k' =>
        simp only [namedKey, keyLe, ih]
        split
        · simp only [named_inj hρ.injective, named_le hρ]
        · rfl

theorem namedKey_isNull (cols : List String) (k : List (Cell K)) :
    (namedKey ρ cols k).all (fun c => !c.isNull) = k.all (fun c => !c.isNull) := by
  induction cols generalizing k with
  | nil => cases k <;> rfl
  | cons c cs ih =>
    cases k with
    | nil => rfl
    | cons a k =>
      simp only [namedKey, List.all_cons, ih]
      split <;> simp

theorem groupKeys_named (hρ : StrictMono ρ) (rows : List (Row K)) (cols : List String) :
    groupKeys (rows.map (namedRow ρ)) cols = (groupKeys rows cols).map (namedKey ρ cols) := by
  unfold groupKeys
  have h : (rows.map (namedRow ρ)).map (fun r => cols.map r) = (rows.map (fun r => cols.map r)).map (namedKey ρ cols) := by
    simp only [List.map_map, Function.comp_def, namedKey_map]
  rw [h, List.filter_map, Function.comp_def]
  simp only [namedKey_isNull]
  rw [dropDup_map (namedKey_inj hρ.injective cols)]
  symm
  refine List.map_insertionSort _ _ _ _ fun k _ k' _ => ?_
  rw [namedKey_le hρ]

/-- Whatever the new names are, the groups are the same up to their order. -/
theorem groupKeys_named_perm (hρ : Function.Injective ρ) (rows : List (Row K)) (cols : List String) :
    (groupKeys (rows.map (namedRow ρ)) cols).Perm ((groupKeys rows cols).map (namedKey ρ cols)) := by
  unfold groupKeys
  have h : (rows.map (namedRow ρ)).map (fun r => cols.map r) = (rows.map (fun r => cols.map r)).map (namedKey ρ cols) := by
    simp only [List.map_map, Function.comp_def, namedKey_map]
  rw [h, List.filter_map, Function.comp_def]
  simp only [namedKey_isNull]
  rw [dropDup_map (namedKey_inj hρ cols)]
  exact (List.perm_insertionSort _ _).trans ((List.perm_insertionSort _ _).symm.map _)

/-- The groups of rows by another column. -/
theorem groupKeys_named_other {x : String} (hx : x ≠ "item_id") (rows : List (Row K)) : groupKeys (rows.map (namedRow ρ)) [x] = groupKeys rows [x] := by
  unfold groupKeys
  simp only [List.map_map, Function.comp_def, List.map_cons, List.map_nil, namedRow_other hx]

theorem namedKey_other {x : String} (hx : x ≠ "item_id") (k : List (Cell K)) : namedKey ρ [x] k = k := by
  cases k <;> simp [namedKey, hx]

theorem groupRows_named (hρ : Function.Injective ρ) (rows : List (Row K)) (cols : List String) (k : List (Cell K)) :
    groupRows (rows.map (namedRow ρ)) cols (namedKey ρ cols k) = (groupRows rows cols k).map (namedRow ρ) := by
  unfold groupRows
  rw [List.filter_map]
  congr 1
  refine List.filter_congr fun r _ => ?_
  simp only [Function.comp_def, namedKey_map, namedKey_inj hρ]

theorem map_named_col {x : String} (h : x ≠ "item_id") (rows : List (Row K)) :
    (rows.map (namedRow ρ)).map (fun r => r x) = rows.map (fun r => r x) := by
  simp only [List.map_map, Function.comp_def, namedRow_other h]

theorem map_named_items (rows : List (Row K)) :
    (rows.map (namedRow ρ)).map (fun r => r "item_id") = (rows.map (fun r => r "item_id")).map (named ρ) := by
  simp only [List.map_map, Function.comp_def, namedRow_item]

theorem itemsOn_named (hρ : Function.Injective ρ) (f : Frame K) (dateCol : String) (k : List (Cell K)) :
    itemsOn (namedFrame ρ f) "item_id" dateCol (namedKey ρ [dateCol] k) = (itemsOn f "item_id" dateCol k).map (named ρ) := by
  unfold itemsOn
  rw [namedFrame_rows, groupRows_named hρ, map_named_items, List.filter_map]
  simp only [Function.comp_def, named_isNull]

theorem checkNulls_named (f : Frame K) : checkNulls (namedFrame ρ f) = checkNulls f := by
  unfold checkNulls
  rw [namedFrame_rows, namedFrame_cols, List.any_map]
  simp only [Function.comp_def, namedRow_isNull]

theorem checkDuplicates_named (hρ : Function.Injective ρ) (f : Frame K) {dateCol : String} (hd : dateCol ≠ "item_id") :
    checkDuplicates (namedFrame ρ f) "item_id" dateCol = checkDuplicates f "item_id" dateCol := by
  unfold checkDuplicates
  have h : (groupKeys (namedFrame ρ f).rows [dateCol]).map (itemsOn (namedFrame ρ f) "item_id" dateCol) =
      ((groupKeys f.rows [dateCol]).map (itemsOn f "item_id" dateCol)).map (List.map (named ρ)) := by
    rw [namedFrame_rows, groupKeys_named_other hd, List.map_map]
    refine List.map_congr_left fun k _ => ?_
    have := itemsOn_named hρ f dateCol k
    rwa [namedKey_other hd] at this
  rw [h, namedFrame_cols]
  simp only [List.any_map, Function.comp_def, List.length_map, nunique_map_named hρ]
  cases (groupKeys f.rows [dateCol]).map (itemsOn f "item_id" dateCol) <;>
    simp only [List.map_nil, List.map_cons, List.any_map, List.all_map, Function.comp_def, List.length_map, nunique_map_named hρ]

theorem checkSpacing_named (f : Frame K) : checkSpacing (namedFrame ρ f) "date" = checkSpacing f "date" := by
  unfold checkSpacing
  rw [namedFrame_cols, namedFrame_col (by decide)]

theorem checkWeekIds_named {D : DateSorter K} (f : Frame K) : checkWeekIds D (namedFrame ρ f) "week_id" "date" = checkWeekIds D f "week_id" "date" := by
  unfold checkWeekIds
  have hl : (namedFrame ρ f).rows.map (fun r => (r "week_id", r "date")) = f.rows.map (fun r => (r "week_id", r "date")) := by
    rw [namedFrame_rows]
    simp only [List.map_map, Function.comp_def, namedRow_other (x := "week_id") (by decide), namedRow_other (x := "date") (by decide)]
  rw [namedFrame_cols, namedFrame_col (by decide), namedFrame_col (by decide), hl]

theorem col_any_named (f : Frame K) (m : String) {p : Cell K → Bool} (hp : ∀ c, p (named ρ c) = p c) :
    ((namedFrame ρ f).col m).any p = (f.col m).any p := by
  by_cases h : m = "item_id"
  · subst h
    rw [namedFrame_items, List.any_map]
    simp only [Function.comp_def, hp]
  · rw [namedFrame_col h]

theorem checkFinite_named (f : Frame K) (metrics : List String) : checkFinite (namedFrame ρ f) metrics = checkFinite f metrics := by
  induction metrics with
  | nil => rfl
  | cons m rest ih =>
    unfold checkFinite
    rw [namedFrame_cols, col_any_named f m (by intro c; cases c <;> rfl), col_any_named f m (by intro c; cases c <;> rfl),
      col_any_named f m (by intro c; cases c <;> rfl), ih]

theorem checkNonNegative_named (f : Frame K) (metrics : List String) : checkNonNegative (namedFrame ρ f) metrics = checkNonNegative f metrics := by
  induction metrics with
  | nil => rfl
  | cons m rest ih =>
    unfold checkNonNegative
    rw [namedFrame_cols, col_any_named f m (by intro c; cases c <;> rfl), col_any_named f m (by intro c; cases c <;> rfl), ih]

theorem checkItemCount_named (hρ : Function.Injective ρ) (f : Frame K) (d : Design K) : checkItemCount (namedFrame ρ f) d "item_id" = checkItemCount f d "item_id" := by
  unfold checkItemCount
  rw [namedFrame_cols, namedFrame_items, nunique_map_named hρ]

theorem checkDateRange_named {E : Ext K} (f : Frame K) (d : Design K) (s : String) (concluded : Bool) :
    checkDateRange E (namedFrame ρ f) d "date" s concluded = checkDateRange E f d "date" s concluded := by
  unfold checkDateRange
  rw [namedFrame_cols, namedFrame_col (by decide)]

theorem checkUnique_named (hρ : Function.Injective ρ) (f : Frame K) :
    checkUnique (namedFrame ρ f) "item_id" "treatment_assignment" = checkUnique f "item_id" "treatment_assignment" := by
  unfold checkUnique
  rw [namedFrame_cols, namedFrame_rows, (groupKeys_named_perm hρ _ _).any_eq, List.any_map]
  simp only [Function.comp_def, groupRows_named hρ, map_named_col (x := "treatment_assignment") (by decide)]

/-- The check of the salt depends on the names; if it is skipped, its result is not used. -/
theorem checkCoinflip_named {E : Ext K} (f : Frame K) (d : Design K) {skip : List String} (hskip : "coinflip_salt_validation" ∈ skip) :
    runCheck skip "coinflip_salt_validation" (checkCoinflip E (namedFrame ρ f) d "treatment_assignment" "item_id") =
      runCheck skip "coinflip_salt_validation" (checkCoinflip E f d "treatment_assignment" "item_id") := by
  unfold checkCoinflip runCheck
  rw [namedFrame_cols]
  by_cases h1 : "treatment_assignment" ∉ f.cols
  · simp only [h1, raiseIf]; rfl
  simp only [h1, raiseIf]
  cases mkCoinflip (d.salt.getD "") with
  | error e => rfl
  | ok coin =>
    by_cases h2 : "item_id" ∉ f.cols
    · simp only [h2]; rfl
    simp only [h2, bind, Except.bind, pure, Except.pure, if_false, not_true_eq_false, not_false_eq_true, hskip, and_false]

theorem checkRatio_named (hρ : Function.Injective ρ) {binom : ℕ → ℕ → Py K} (f : Frame K) :
    checkRatio binom (namedFrame ρ f) "item_id" "treatment_assignment" = checkRatio binom f "item_id" "treatment_assignment" := by
  have h : ∀ v, armSize (namedFrame ρ f) "item_id" "treatment_assignment" v = armSize f "item_id" "treatment_assignment" v := by
    intro v
    unfold armSize
    rw [namedFrame_rows, List.filter_map, map_named_items, nunique_map_named hρ]
    simp only [Function.comp_def, namedRow_toFl]
  unfold checkRatio
  simp only [namedFrame_cols, h]
  rfl

theorem validateExperiment_named (hρ : Function.Injective ρ) {C : Checker K} (f : Frame K) {d : Design K} {metrics : List String} {s : String} {concluded : Bool}
    {canBeNegative skip : List String} (hskip : "coinflip_salt_validation" ∈ skip) :
    validateExperiment C (namedFrame ρ f) d "item_id" "date" "week_id" "treatment_assignment" metrics s concluded canBeNegative skip =
      validateExperiment C f d "item_id" "date" "week_id" "treatment_assignment" metrics s concluded canBeNegative skip := by
  unfold validateExperiment runNonNegative
  simp only [checkNonNegative_named]
  rw [checkNulls_named, checkDuplicates_named hρ f (by decide), checkSpacing_named, checkWeekIds_named, checkFinite_named, checkItemCount_named hρ, checkDateRange_named,
    checkUnique_named hρ, checkCoinflip_named f d hskip, checkRatio_named hρ]

/-! ### The analysis -/

theorem sumCol_named (rows : List (Row K)) (m : String) : sumCol (rows.map (namedRow ρ)) m = sumCol rows m := by
  unfold sumCol
  simp only [List.map_map, Function.comp_def, namedRow_toFl]

theorem whole_named (rows : List (Row K)) (m : String) :
    (rows.map (namedRow ρ)).all (fun r => match r m with | .int _ => true | _ => false) =
      rows.all (fun r => match r m with | .int _ => true | _ => false) := by
  rw [List.all_map]
  congr 1
  funext r
  simp only [Function.comp_def]
  by_cases h : m = "item_id"
  · subst h
    rw [namedRow_item]
    cases r "item_id" <;> rfl
  · rw [namedRow_other h]

/-- The pivoted tables are the same except for the names of the items in the index. -/
structure PivotNamed (ρ : String → String) (idx : List String) (piv piv' : Pivoted K) : Prop where
  index : piv'.index = piv.index.map (namedKey ρ idx)
  periods : piv'.periods = piv.periods
  value : ∀ k m p, piv'.value (namedKey ρ idx k) m p = piv.value k m p
  whole : piv'.whole = piv.whole

theorem pivotTable_named (hρ : StrictMono ρ) (d : DesignParams K) (idx : List String) {periodCol : String} (hp : periodCol ≠ "item_id") (rows : List (Row K)) :
    PivotNamed ρ idx (pivotTable d idx periodCol rows) (pivotTable d idx periodCol (rows.map (namedRow ρ))) where
  index := by
    unfold pivotTable
    show groupKeys _ _ = List.map _ (groupKeys _ _)
    rw [List.filter_map, groupKeys_named hρ]
    simp only [Function.comp_def, namedRow_isNull]
  periods := by
    unfold pivotTable
    show dropDup _ = dropDup _
    rw [List.filter_map, map_named_col hp]
    simp only [Function.comp_def, namedRow_isNull]
  value := by
    intro k m p
    unfold pivotTable
    simp only
    rw [List.filter_map, sumCol_named]
    simp only [Function.comp_def, namedKey_map, namedKey_inj hρ.injective, namedRow_other hp]
  whole := by
    funext m
    exact whole_named rows m

theorem pivotTimeAssignment_named (hρ : StrictMono ρ) (d : DesignParams K) (metrics : List String) (f : Frame K) :
    Spec.SameOutcome (PivotNamed ρ ["item_id", "treatment_assignment"])
      (pivotTimeAssignment d 0 metrics "item_id" "week_id" (some "treatment_assignment") "time_period" f).1
      (pivotTimeAssignment d 0 metrics "item_id" "week_id" (some "treatment_assignment") "time_period" (namedFrame ρ f)).1 := by
  unfold pivotTimeAssignment
  rw [namedFrame_cols]
  split_ifs with h1 h2
  · rfl
  · rfl
  · rw [labelRows_named d 0 f]
    cases labelRows d 0 "week_id" "time_period" f with
    | error e => rfl
    | ok g =>
      simp only [Except.map]
      have hn := pivotTable_named hρ d (indexColumns "item_id" (some "treatment_assignment")) (periodCol := "time_period") (by decide) g.rows
      rw [namedFrame_rows, hn.periods]
      split_ifs
      · rfl
      · exact hn

end

section
variable {ρ : String → String} {piv piv' : Pivoted ℝ}

theorem flCell_named (x : Fl ℝ) : named ρ (flCell x) = flCell x := by cases x <;> rfl

/-- The columns of a metric's table, with the names of the items and without them. -/
theorem metricSubset_named (h : PivotNamed ρ ["item_id", "treatment_assignment"] piv piv') (metrics : List String) (m : String) :
    metricSubset piv' metrics ["item_id", "treatment_assignment"] m =
      (metricSubset piv metrics ["item_id", "treatment_assignment"] m).map (namedFrame ρ) := by
  unfold metricSubset
  rw [h.periods, h.index]
  by_cases h1 : m ∉ metrics
  · simp only [h1, raiseIf]; rfl
  by_cases h2 : (["item_id", "treatment_assignment"].any (fun c => decide (Cell.str c ∈ piv.periods))) = true
  · simp only [h1, h2, raiseIf]; rfl
  simp only [h1, h2, raiseIf]
  show (Except.ok _ : Py (Frame ℝ)) = Except.ok _
  congr 1
  unfold namedFrame
  simp only [List.map_map]
  congr 1
  refine List.map_congr_left fun k _ => ?_
  funext c
  simp only [Function.comp_def, h.value, namedRow]
  rcases k with _ | ⟨a, _ | ⟨b, k⟩⟩
  · by_cases hc : c = "item_id"
    · subst hc
      simp [namedKey, flCell_named]
    · simp [namedKey, hc]
  · by_cases hc : c = "item_id"
    · subst hc; simp [namedKey]
    · have : (c == "item_id") = false := by simpa using hc
      simp [namedKey, hc, List.lookup, this]
  · by_cases hc : c = "item_id"
    · subst hc; simp [namedKey]
    · have : (c == "item_id") = false := by simpa using hc
      simp [namedKey, hc, List.lookup, this]

theorem storeFirst_named (h : PivotNamed ρ ["item_id", "treatment_assignment"] piv piv') (m : String) : storeFirst piv' m = storeFirst piv m := by
  unfold storeFirst
  have he : (piv'.whole m = true ∧ ∀ k ∈ piv'.index, ∃ n : ℤ, piv'.value k m "test_1" = .fin (n : ℝ)) ↔
      (piv.whole m = true ∧ ∀ k ∈ piv.index, ∃ n : ℤ, piv.value k m "test_1" = .fin (n : ℝ)) := by
    rw [h.whole, h.index]
    simp only [List.forall_mem_map, h.value]
  by_cases hb : piv.whole m = true ∧ ∀ k ∈ piv.index, ∃ n : ℤ, piv.value k m "test_1" = .fin (n : ℝ)
  · rw [if_pos hb, if_pos (he.mpr hb)]
  · rw [if_neg hb, if_neg (mt he.mp hb)]

theorem prepareRegular_named (R : Rounding ℝ) (argsort : List ℝ → List ℕ) (f : Frame ℝ) (q : ℝ) :
    prepareRegular R argsort (namedFrame ρ f) "treatment_assignment" q = prepareRegular R argsort f "treatment_assignment" q := by
  unfold prepareRegular
  rw [namedFrame_cols, namedFrame_col (by decide), namedFrame_col (by decide), namedFrame_col (by decide)]

theorem crossoverItems_named (f : Frame ℝ) : crossoverItems (namedFrame ρ f) "treatment_assignment" = crossoverItems f "treatment_assignment" := by
  unfold crossoverItems
  rw [namedFrame_col (by decide), namedFrame_col (by decide), namedFrame_col (by decide)]

theorem analyzeSingleMetric_named (R : Rounding ℝ) (argsort : List ℝ → List ℕ) (D : TDist)
    (h : PivotNamed ρ ["item_id", "treatment_assignment"] piv piv') (metrics : List String) (d : DesignParams ℝ) (m : String) (dn : Option String)
    (override : Option ℝ) :
    analyzeSingleMetric R argsort D piv' metrics ["item_id", "treatment_assignment"] d m dn "treatment_assignment" override =
      analyzeSingleMetric R argsort D piv metrics ["item_id", "treatment_assignment"] d m dn "treatment_assignment" override := by
  unfold analyzeSingleMetric
  rw [metricSubset_named h, storeFirst_named h]
  have hs : dn.elim id (storeFirst piv') = dn.elim id (storeFirst piv) := by
    cases dn with
    | none => rfl
    | some x => exact storeFirst_named h x
  rw [hs]
  cases metricSubset piv metrics ["item_id", "treatment_assignment"] m with
  | error e => rfl
  | ok f =>
    simp only [Except.map, bind, Except.bind]
    cases dn with
    | none =>
      simp only [pure, Except.pure, namedFrame_cols, analyzeCrossover, analyzeRegular, prepareRegular_named, crossoverItems_named]
      rfl
    | some x =>
      simp only [metricSubset_named h]
      cases metricSubset piv metrics ["item_id", "treatment_assignment"] x with
      | error e => rfl
      | ok g =>
        simp only [Except.map, pure, Except.pure, namedFrame_cols, analyzeCrossover, analyzeRegular, prepareRegular_named, crossoverItems_named]
        rfl

theorem analyzeExperiment_named (hρ : StrictMono ρ) (R : Rounding ℝ) (argsort : List ℝ → List ℕ) (D : TDist) (d : DesignParams ℝ) (metrics : List Metric)
    (f : Frame ℝ) :
    (analyzeExperiment R argsort D d metrics "week_id" "item_id" "treatment_assignment" (namedFrame ρ f)).1 =
      (analyzeExperiment R argsort D d metrics "week_id" "item_id" "treatment_assignment" f).1 := by
  unfold analyzeExperiment
  split_ifs
  · rfl
  · have key := pivotTimeAssignment_named hρ d (metricColumns metrics) f
    cases e : (pivotTimeAssignment d 0 (metricColumns metrics) "item_id" "week_id" (some "treatment_assignment") "time_period" f).1 with
    | error x =>
      cases e' : (pivotTimeAssignment d 0 (metricColumns metrics) "item_id" "week_id" (some "treatment_assignment") "time_period" (namedFrame ρ f)).1 with
      | error x' => rw [e, e'] at key; simp only [e, e']; rw [show x = x' from key]
      | ok piv' => rw [e, e'] at key; exact key.elim
    | ok piv =>
      cases e' : (pivotTimeAssignment d 0 (metricColumns metrics) "item_id" "week_id" (some "treatment_assignment") "time_period" (namedFrame ρ f)).1 with
      | error x' => rw [e, e'] at key; exact key.elim
      | ok piv' =>
        rw [e, e'] at key
        simp only [e, e']
        refine mapM_sameOn _ fun m _ => ?_
        rw [analyzeSingleMetric_named R argsort D key]

end

end Feedx
