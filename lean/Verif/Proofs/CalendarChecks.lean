import Verif.Proofs.Calendar
import Verif.Proofs.Experiment
import Verif.Model.AnalyseStudy

/-!
Data at another time passes and fails the same validation checks.
-/

set_option linter.unusedSectionVars false

namespace Feedx
open Spec (later)

variable {K : Type} [Field K] [LinearOrder K] (τ : ℤ) (S : List String)

/-- A key at another time. -/
def laterKey : List String → List (Cell K) → List (Cell K)
  | c :: cs, x :: k => (if c ∈ S then later τ x else x) :: laterKey cs k
  | _, k => k

variable {τ S}

theorem laterKey_map (cols : List String) (r : Row K) : cols.map (laterRow τ S r) = laterKey τ S cols (cols.map r) := by
  induction cols with
  | nil => rfl
  | cons c cs ih => rw [List.map_cons, ih]; rfl

theorem laterKey_inj (cols : List String) (k k' : List (Cell K)) : laterKey τ S cols k = laterKey τ S cols k' ↔ k = k' := by
  induction cols generalizing k k' with
  | nil => cases k <;> cases k' <;> exact Iff.rfl
  | cons c cs ih =>
    cases k with
    | nil => cases k' <;> simp [laterKey]
    | cons a k =>
      cases k' with
      | nil => simp [laterKey]
      | cons b k' =>
        simp only [laterKey, List.cons.injEq, ih]
        split
        · rw [later_inj]
        · rfl

theorem laterKey_le (cols : List String) (k k' : List (Cell K)) : keyLe (laterKey τ S cols k) (laterKey τ S cols k') = keyLe k k' := by
  induction cols generalizing k k' with
  | nil => cases k <;> cases k' <;> rfl
  | cons c cs ih =>
    cases k with
    | nil => cases k' <;> rfl
    | cons a k =>
      cases k' with
      | nil => rfl
      | cons b k' =>
        simp only [laterKey, keyLe, ih]
        split
        · simp only [later_inj, later_le]
        · rfl

theorem laterKey_isNull (cols : List String) (k : List (Cell K)) :
    (laterKey τ S cols k).all (fun c => !c.isNull) = k.all (fun c => !c.isNull) := by
  induction cols generalizing k with
  | nil => cases k <;> rfl
  | cons c cs ih =>
    cases k with
    | nil => rfl
    | cons a k =>
      simp only [laterKey, List.all_cons, ih]
      split <;> simp

theorem groupKeys_later (rows : List (Row K)) (cols : List String) :
    groupKeys (rows.map (laterRow τ S)) cols = (groupKeys rows cols).map (laterKey τ S cols) := by
  unfold groupKeys
  have h : (rows.map (laterRow τ S)).map (fun r => cols.map r) = (rows.map (fun r => cols.map r)).map (laterKey τ S cols) := by
    simp only [List.map_map, Function.comp_def, laterKey_map]
  rw [h, List.filter_map, Function.comp_def]
  simp only [laterKey_isNull]
  rw [dropDup_map (laterKey_inj cols)]
  symm
  refine List.map_insertionSort _ _ _ _ fun k _ k' _ => ?_
  rw [laterKey_le]

theorem groupRows_later (rows : List (Row K)) (cols : List String) (k : List (Cell K)) :
    groupRows (rows.map (laterRow τ S)) cols (laterKey τ S cols k) = (groupRows rows cols k).map (laterRow τ S) := by
  unfold groupRows
  rw [List.filter_map]
  congr 1
  refine List.filter_congr fun r _ => ?_
  simp only [Function.comp_def, laterKey_map, laterKey_inj]

theorem map_later_col {x : String} (h : x ∉ S) (rows : List (Row K)) :
    (rows.map (laterRow τ S)).map (fun r => r x) = rows.map (fun r => r x) := by
  simp only [List.map_map, Function.comp_def, laterRow_of_not_mem h]

theorem itemsOn_later (f : Frame K) {itemCol : String} (dateCol : String) (hi : itemCol ∉ S) (k : List (Cell K)) :
    itemsOn (laterFrame τ S f) itemCol dateCol (laterKey τ S [dateCol] k) = itemsOn f itemCol dateCol k := by
  unfold itemsOn
  rw [laterFrame_rows, groupRows_later, map_later_col hi]

theorem checkNulls_later (f : Frame K) : checkNulls (laterFrame τ S f) = checkNulls f := by
  unfold checkNulls
  rw [laterFrame_rows, laterFrame_cols, List.any_map]
  simp only [Function.comp_def, laterRow_isNull]

theorem checkDuplicates_later (f : Frame K) {itemCol : String} (dateCol : String) (hi : itemCol ∉ S) :
    checkDuplicates (laterFrame τ S f) itemCol dateCol = checkDuplicates f itemCol dateCol := by
  unfold checkDuplicates
  have h : (groupKeys (laterFrame τ S f).rows [dateCol]).map (itemsOn (laterFrame τ S f) itemCol dateCol) =
      (groupKeys f.rows [dateCol]).map (itemsOn f itemCol dateCol) := by
    rw [laterFrame_rows, groupKeys_later, List.map_map]
    refine List.map_congr_left fun k _ => ?_
    rw [← itemsOn_later f dateCol hi]
    rfl
  rw [h, laterFrame_cols]

theorem checkSpacing_later (f : Frame K) {dateCol : String} (hd : dateCol ∈ S) :
    checkSpacing (laterFrame τ S f) dateCol = checkSpacing f dateCol := by
  unfold checkSpacing
  rw [laterFrame_cols, laterFrame_col_mem hd, isTimeColumn_later, spacedBy_later, spacedBy_later]

theorem dateLe_later (a b : Cell K) : dateLe (later τ a) (later τ b) ↔ dateLe a b := by
  cases a <;> cases b <;> simp [later, dateLe]

theorem checkWeekIds_later {D : DateSorter K} (f : Frame K) {weekCol dateCol : String} (hd : dateCol ∈ S) (hwk : weekCol ∉ S)
    (hw : Spec.DateGivesWeek f weekCol dateCol) :
    checkWeekIds D (laterFrame τ S f) weekCol dateCol = checkWeekIds D f weekCol dateCol := by
  unfold checkWeekIds
  rw [laterFrame_cols, laterFrame_col_mem hd, isTimeColumn_later, laterFrame_col_not_mem hwk]
  by_cases ht : isTimeColumn (f.col dateCol) = false
  · simp [ht, raiseIf]
  have hl : (laterFrame τ S f).rows.map (fun r => (r weekCol, r dateCol)) =
      (f.rows.map (fun r => (r weekCol, r dateCol))).map (fun p => (p.1, later τ p.2)) := by
    rw [laterFrame_rows]
    simp only [List.map_map, Function.comp_def, laterRow_of_not_mem hwk, laterRow_of_mem hd]
  have hdd : dropDup ((laterFrame τ S f).rows.map (fun r => (r weekCol, r dateCol))) =
      (dropDup (f.rows.map (fun r => (r weekCol, r dateCol)))).map (fun p => (p.1, later τ p.2)) := by
    rw [hl]
    refine dropDup_map (fun a b => ?_) _
    simp only [Prod.mk.injEq, later_inj, Prod.ext_iff]
  have he : D.sort (dropDup ((laterFrame τ S f).rows.map (fun r => (r weekCol, r dateCol)))) =
      (D.sort (dropDup (f.rows.map (fun r => (r weekCol, r dateCol))))).map (fun p => (p.1, later τ p.2)) := by
    have hp2 : ((D.sort (dropDup (f.rows.map (fun r => (r weekCol, r dateCol))))).map (fun p => (p.1, later τ p.2))).Pairwise
        (fun a b => dateLe a.2 b.2) := by
      rw [List.pairwise_map]
      refine (D.sorted _).imp fun h => ?_
      exact (dateLe_later _ _).mpr h
    refine List.Perm.eq_of_pairwise ?_ (D.sorted _) hp2 (((D.perm _).trans (by rw [hdd])).trans ((D.perm _).map _).symm)
    intro x y hx hy h1 h2
    have hx := (D.perm _).mem_iff.mp hx
    rw [hdd] at hx
    obtain ⟨p, hp, rfl⟩ := List.mem_map.mp hx
    obtain ⟨q, hq, rfl⟩ := List.mem_map.mp hy
    have hp := mem_dropDup.mp hp
    have hq := mem_dropDup.mp ((D.perm _).mem_iff.mp hq)
    obtain ⟨r, hr, rfl⟩ := List.mem_map.mp hp
    obtain ⟨r', hr', rfl⟩ := List.mem_map.mp hq
    simp only [dateLe_later] at h1 h2
    have time : ∀ r ∈ f.rows, (∃ t, r dateCol = .time t) ∨ r dateCol = .null := by
      intro r hr
      have := List.all_eq_true.mp (by simpa using ht : isTimeColumn (f.col dateCol) = true) _ (List.mem_map.mpr ⟨r, hr, rfl⟩)
      revert this
      cases r dateCol <;> simp
    have hd : r dateCol = r' dateCol := by
      rcases time r hr with ⟨t, e⟩ | e <;> rcases time r' hr' with ⟨t', e'⟩ | e' <;> rw [e, e'] at h1 h2 <;> rw [e, e']
      · simp only [dateLe] at h1 h2
        rw [le_antisymm h1 h2]
      · exact absurd h2 (by simp [dateLe])
      · exact absurd h1 (by simp [dateLe])
    rw [hw r hr r' hr' hd, hd]
  rw [he, List.map_map]
  rfl

theorem col_any_later (f : Frame K) (m : String) {p : Cell K → Bool} (hp : ∀ c, p (later τ c) = p c) :
    ((laterFrame τ S f).col m).any p = (f.col m).any p := by
  by_cases h : m ∈ S
  · rw [laterFrame_col_mem h, List.any_map]
    simp only [Function.comp_def, hp]
  · rw [laterFrame_col_not_mem h]

theorem checkFinite_later (f : Frame K) (metrics : List String) : checkFinite (laterFrame τ S f) metrics = checkFinite f metrics := by
  induction metrics with
  | nil => rfl
  | cons m rest ih =>
    unfold checkFinite
    rw [laterFrame_cols, col_any_later f m (by intro c; cases c <;> rfl), col_any_later f m (by intro c; cases c <;> rfl),
      col_any_later f m (by intro c; cases c <;> rfl), ih]

theorem checkNonNegative_later (f : Frame K) (metrics : List String) : checkNonNegative (laterFrame τ S f) metrics = checkNonNegative f metrics := by
  induction metrics with
  | nil => rfl
  | cons m rest ih =>
    unfold checkNonNegative
    rw [laterFrame_cols, col_any_later f m (by intro c; cases c <;> rfl), col_any_later f m (by intro c; cases c <;> rfl), ih]

theorem checkItemCount_later (f : Frame K) (d : Design K) {itemCol : String} (hi : itemCol ∉ S) :
    checkItemCount (laterFrame τ S f) d itemCol = checkItemCount f d itemCol := by
  unfold checkItemCount
  rw [laterFrame_cols, laterFrame_col_not_mem hi]

theorem checkDateRange_later {E : Ext K} (f : Frame K) (d : Design K) {dateCol : String} (hd : dateCol ∈ S) {s s' : String} (concluded : Bool)
    (hs : E.strptime s' = (E.strptime s).map (· + τ)) :
    checkDateRange E (laterFrame τ S f) d dateCol s' concluded = checkDateRange E f d dateCol s concluded := by
  unfold checkDateRange
  rw [hs]
  cases E.strptime s with
  | none => rfl
  | some start =>
    simp only [Option.map_some]
    rw [laterFrame_cols, laterFrame_col_mem hd, isTimeColumn_later]
    unfold minTime maxTime
    rw [times_later, min?_add, max?_add]
    have e1 : ∀ t, (t + τ > start + τ - d.pretest * 7 * dayNs) ↔ (t > start - d.pretest * 7 * dayNs) := fun t => by omega
    have e2 : ∀ t, (t + τ < start + τ + (d.runtime - 1) * 7 * dayNs) ↔ (t < start + (d.runtime - 1) * 7 * dayNs) := fun t => by omega
    simp only [Option.any_map, Function.comp_def, e1, e2]

theorem checkUnique_later (f : Frame K) {itemCol treatCol : String} (ht : treatCol ∉ S) :
    checkUnique (laterFrame τ S f) itemCol treatCol = checkUnique f itemCol treatCol := by
  unfold checkUnique
  rw [laterFrame_cols, laterFrame_rows, groupKeys_later, List.any_map]
  simp only [Function.comp_def, groupRows_later, map_later_col ht]

theorem checkCoinflip_later {E : Ext K} (f : Frame K) (d : Design K) {treatCol itemCol : String} (hi : itemCol ∉ S) :
    checkCoinflip E (laterFrame τ S f) d treatCol itemCol = checkCoinflip E f d treatCol itemCol := by
  unfold checkCoinflip
  rw [laterFrame_cols, laterFrame_rows]
  simp only [List.all_map, Function.comp_def, laterRow_toFl, laterRow_of_not_mem hi]

theorem checkRatio_later {binom : ℕ → ℕ → Py K} (f : Frame K) {itemCol treatCol : String} (hi : itemCol ∉ S) :
    checkRatio binom (laterFrame τ S f) itemCol treatCol = checkRatio binom f itemCol treatCol := by
  have h : ∀ v, armSize (laterFrame τ S f) itemCol treatCol v = armSize f itemCol treatCol v := by
    intro v
    unfold armSize
    rw [laterFrame_rows, List.filter_map, map_later_col hi]
    simp only [Function.comp_def, laterRow_toFl]
  unfold checkRatio
  simp only [laterFrame_cols, h]
  rfl

theorem validateHistorical_later {D : DateSorter K} (f : Frame K) {itemCol dateCol weekCol primary : String} {skip : List String}
    (hi : itemCol ∉ S) (hd : dateCol ∈ S) (hwk : weekCol ∉ S) (hw : Spec.DateGivesWeek f weekCol dateCol) :
    validateHistorical D (laterFrame τ S f) itemCol dateCol weekCol primary skip = validateHistorical D f itemCol dateCol weekCol primary skip := by
  unfold validateHistorical
  rw [checkNulls_later, checkDuplicates_later f dateCol hi, checkSpacing_later f hd, checkWeekIds_later f hd hwk hw, checkFinite_later,
    checkNonNegative_later]

theorem validateExperiment_later {C : Checker K} (f : Frame K) {d : Design K}
    {itemCol dateCol weekCol treatCol : String} {metrics : List String} {s s' : String} {concluded : Bool} {canBeNegative skip : List String}
    (hi : itemCol ∉ S) (hd : dateCol ∈ S) (hwk : weekCol ∉ S) (ht : treatCol ∉ S) (hs : C.ext.strptime s' = (C.ext.strptime s).map (· + τ))
    (hw : Spec.DateGivesWeek f weekCol dateCol) :
    validateExperiment C (laterFrame τ S f) d itemCol dateCol weekCol treatCol metrics s' concluded canBeNegative skip =
      validateExperiment C f d itemCol dateCol weekCol treatCol metrics s concluded canBeNegative skip := by
  unfold validateExperiment runNonNegative
  simp only [checkNonNegative_later]
  rw [checkNulls_later, checkDuplicates_later f dateCol hi, checkSpacing_later f hd, checkWeekIds_later f hd hwk hw, checkFinite_later,
    checkItemCount_later f d hi, checkDateRange_later f d hd concluded hs, checkUnique_later f ht, checkCoinflip_later f d hi,
    checkRatio_later f hi]

/-! ### The analysis -/

theorem laterKey_id {cols : List String} (h : ∀ c ∈ cols, c ∉ S) (k : List (Cell K)) : laterKey τ S cols k = k := by
  induction cols generalizing k with
  | nil => cases k <;> rfl
  | cons c cs ih =>
    cases k with
    | nil => rfl
    | cons a k =>
      simp only [laterKey]
      rw [if_neg (h c List.mem_cons_self), ih fun x hx => h x (List.mem_cons_of_mem _ hx)]

theorem sumCol_later (rows : List (Row K)) (m : String) : sumCol (rows.map (laterRow τ S)) m = sumCol rows m := by
  unfold sumCol
  simp only [List.map_map, Function.comp_def, laterRow_toFl]

theorem whole_later (rows : List (Row K)) (m : String) :
    (rows.map (laterRow τ S)).all (fun r => match r m with | .int _ => true | _ => false) =
      rows.all (fun r => match r m with | .int _ => true | _ => false) := by
  rw [List.all_map]
  congr 1
  funext r
  simp only [Function.comp_def]
  by_cases h : m ∈ S
  · rw [laterRow_of_mem h]
    cases r m <;> rfl
  · rw [laterRow_of_not_mem h]

theorem pivotTable_later (d : DesignParams K) {indexCols : List String} (hi : ∀ c ∈ indexCols, c ∉ S) {periodCol : String} (hp : periodCol ∉ S)
    (rows : List (Row K)) : pivotTable d indexCols periodCol (rows.map (laterRow τ S)) = pivotTable d indexCols periodCol rows := by
  have hmap : ∀ r : Row K, indexCols.map (laterRow τ S r) = indexCols.map r := fun r => by rw [laterKey_map, laterKey_id hi]
  unfold pivotTable
  congr 1
  · rw [List.filter_map]
    simp only [Function.comp_def, laterRow_isNull]
    rw [groupKeys_later]
    conv_rhs => rw [← List.map_id (groupKeys _ _)]
    exact List.map_congr_left fun k _ => laterKey_id hi k
  · rw [List.filter_map, map_later_col hp]
    simp only [Function.comp_def, laterRow_isNull]
  · funext k m p
    rw [List.filter_map, sumCol_later]
    simp only [Function.comp_def, hmap, laterRow_of_not_mem hp]
  · funext m
    exact whole_later rows m

theorem pivotTimeAssignment_later (d : DesignParams K) (start : ℤ) (metrics : List String) {itemCol : String} {treatmentCol : Option String}
    (hi : ∀ c ∈ indexColumns itemCol treatmentCol, c ∉ S) (hp : "time_period" ∉ S) (f : Frame K) :
    pivotTimeAssignment d start metrics itemCol "week_id" treatmentCol "time_period" (laterFrame τ S f) =
      ((pivotTimeAssignment d start metrics itemCol "week_id" treatmentCol "time_period" f).1,
        laterFrame τ S (pivotTimeAssignment d start metrics itemCol "week_id" treatmentCol "time_period" f).2) := by
  unfold pivotTimeAssignment
  rw [laterFrame_cols]
  split_ifs with h1 h2
  · rfl
  · rfl
  · rw [labelRows_later d start f hp]
    cases labelRows d start "week_id" "time_period" f with
    | error e => rfl
    | ok g =>
      simp only [Except.map]
      rw [laterFrame_rows, pivotTable_later d hi hp]
      split_ifs
      · rfl
      · rfl

theorem analyzeExperiment_later (R : Rounding ℝ) (argsort : List ℝ → List ℕ) (D : TDist) (d : DesignParams ℝ) (metrics : List Metric)
    {itemCol treatmentCol : String} (hi : itemCol ∉ S) (ht : treatmentCol ∉ S) (hp : "time_period" ∉ S) (f : Frame ℝ) :
    (analyzeExperiment R argsort D d metrics "week_id" itemCol treatmentCol (laterFrame τ S f)).1 =
      (analyzeExperiment R argsort D d metrics "week_id" itemCol treatmentCol f).1 := by
  unfold analyzeExperiment
  split_ifs
  · rfl
  · rw [pivotTimeAssignment_later d 0 _ (itemCol := itemCol) (treatmentCol := some treatmentCol) (by
      intro c hc
      simp only [indexColumns, Option.toList_some, List.mem_cons, List.not_mem_nil, or_false] at hc
      rcases hc with rfl | rfl
      · exact hi
      · exact ht) hp f]
    simp only
    cases (pivotTimeAssignment d 0 (metricColumns metrics) itemCol "week_id" (some treatmentCol) "time_period" f).1 <;> rfl

theorem daysPerPeriod_later (f : Frame K) (hd : "date" ∈ S) (hp : "time_period" ∉ S) : daysPerPeriod (laterFrame τ S f) = daysPerPeriod f := by
  unfold daysPerPeriod
  have h : dropDup ((laterFrame τ S f).rows.map (fun r => (r "date", r "time_period"))) =
      (dropDup (f.rows.map (fun r => (r "date", r "time_period")))).map (fun p => (later τ p.1, p.2)) := by
    rw [laterFrame_rows, List.map_map]
    rw [← dropDup_map (g := fun p : Cell K × Cell K => (later τ p.1, p.2)) (fun a b => by simp only [Prod.mk.injEq, later_inj, Prod.ext_iff]), List.map_map]
    simp only [Function.comp_def, laterRow_of_mem hd, laterRow_of_not_mem hp]
  have hn : ∀ c : Cell K, later τ c ≠ .null ↔ c ≠ .null := fun c => by cases c <;> simp [later]
  have hex : ∀ l : List (Cell K × Cell K), (∃ p ∈ l.map (fun p => (later τ p.1, p.2)), p.2 ≠ .null ∧ periodText p.2 = none) ↔
      ∃ p ∈ l, p.2 ≠ .null ∧ periodText p.2 = none := by
    intro l
    constructor
    · rintro ⟨p, hp, h⟩
      obtain ⟨q, hq, rfl⟩ := List.mem_map.mp hp
      exact ⟨q, hq, h⟩
    · rintro ⟨q, hq, h⟩
      exact ⟨_, List.mem_map.mpr ⟨q, hq, rfl⟩, h⟩
  rw [h, laterFrame_cols]
  simp only [hex, List.filterMap_map, List.countP_map, Function.comp_def, hn]

/-! ### The experiment data -/

theorem buildExperiment_later {E : Ext K} {perf perf' assign : Frame K} {d : Design K} {s s' itemCol dateCol treatCol : String} {a : ExperimentArgs}
    (h : Spec.RawLater E dateCol τ perf perf') (hne : itemCol ≠ dateCol) (hs : E.strptime s' = (E.strptime s).map (· + τ)) :
    buildExperiment E perf' assign d s' itemCol dateCol treatCol a =
      (buildExperiment E perf assign d s itemCol dateCol treatCol a).map (laterFrame τ ["date", "week_start"]) := by
  unfold buildExperiment
  cases cleanAssignment E assign itemCol treatCol with
  | error e => rfl
  | ok b =>
    simp only [bind, Except.bind]
    rw [missingRows_later h hne]
    cases missingRows E perf b itemCol dateCol with
    | error e => rfl
    | ok missing =>
      simp only [Except.map]
      rw [standardize_later h]
      cases standardize E perf itemCol dateCol a.std (a.other.map (fun c => (c, c))) (a.other.map (fun c => (c, floatParse E))) with
      | error e => rfl
      | ok f1 =>
        simp only [Except.map]
        rw [mergeMissing_later, fillMissing_later]
        cases fillMissing (mergeMissing f1 missing) "item_id" "date" with
        | error e => rfl
        | ok f2 =>
          simp only [Except.map]
          rw [addWeeks_later_start E f2 s s' hs]
          cases e3 : addWeeks E f2 "date" (some s) "week_id" "week_start" with
          | error e => rfl
          | ok f3 =>
            simp only [Except.map]
            rw [addTimePeriodColumn_later _ _ f3 (by decide)]
            cases e4 : addTimePeriodColumn d.toDesignParams 0 "week_id" "time_period" f3 with
            | error e => rfl
            | ok f4 =>
              simp only [Except.map]
              rw [addAtLeastOne_later]
              cases e5 : addAtLeastOne a.atLeastOne f4 with
              | error e => rfl
              | ok f5 =>
                simp only [Except.map]
                refine mergeAssignment_later f5 b (fun x hx => ?_) (by decide)
                obtain ⟨hd, -, t0, -, -, rfl⟩ := addWeeks_ok e3
                unfold addTimePeriodColumn at e4
                obtain ⟨-, e4⟩ := raiseIf_bind_ok.mp e4
                obtain ⟨-, e4⟩ := raiseIf_bind_ok.mp e4
                unfold labelRows at e4
                obtain ⟨-, e4⟩ := raiseIf_bind_ok.mp e4
                obtain ⟨-, e4⟩ := raiseIf_bind_ok.mp e4
                have e4 := (Except.ok.inj e4).symm
                refine (addAtLeastOne_keeps e5).1 x ?_
                rw [e4, setCol_mem]
                unfold withWeeks
                rw [setCol_mem, setCol_mem]
                simp only [List.mem_cons, List.not_mem_nil, or_false] at hx
                rcases hx with rfl | rfl
                · exact Or.inl (Or.inl (Or.inl hd))
                · exact Or.inl (Or.inr rfl)

end Feedx
