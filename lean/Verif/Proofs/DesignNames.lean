import Verif.Proofs.ItemNameChecks
import Verif.Proofs.CalendarDesign
import Verif.Spec.DesignNames

/-!
Lemmas for C139: the history of the designer, and everything that is computed from it, with other names of the items.
-/

set_option linter.unusedSectionVars false
set_option linter.unusedSimpArgs false
set_option maxHeartbeats 1000000

namespace Feedx

open Spec (named)

section
variable {K : Type} [Field K] [LinearOrder K] {ρ : String → String}

/-! ### Weekly data -/

theorem sumCell_named (rows : List (Row K)) (m : String) : sumCell (rows.map (namedRow ρ)) m = sumCell rows m := by
  unfold sumCell
  refine ite_congr (congrArg (· = true) (whole_named rows m)) (fun _ => ?_) (fun _ => by rw [sumCol_named])
  rw [List.map_map]
  congr 2
  refine List.map_congr_left fun r _ => ?_
  by_cases h : m = "item_id"
  · subst h
    simp only [Function.comp, namedRow_item]
    cases r "item_id" <;> rfl
  · simp only [Function.comp, namedRow_other h]

theorem named_sumCell (rows : List (Row K)) (m : String) : named ρ (sumCell rows m) = sumCell rows m := by
  unfold sumCell
  split
  · rfl
  · cases sumCol rows m <;> rfl

theorem lookup_namedKey (keys : List String) (k : List (Cell K)) (c : String) :
    (keys.zip (namedKey ρ keys k)).lookup c = ((keys.zip k).lookup c).map (fun v => if c = "item_id" then named ρ v else v) := by
  induction keys generalizing k with
  | nil => simp
  | cons a keys ih =>
    cases k with
    | nil => rfl
    | cons x k =>
      simp only [namedKey, List.zip_cons_cons, List.lookup_cons]
      by_cases h : c = a
      · subst h; simp
      · have h' : (c == a) = false := by simpa using h
        simp only [h', ih]

theorem weekRow_named (hρ : Function.Injective ρ) (rows : List (Row K)) (keys : List String) (k : List (Cell K)) :
    weekRow (rows.map (namedRow ρ)) keys (namedKey ρ keys k) = namedRow ρ (weekRow rows keys k) := by
  funext c
  unfold weekRow
  rw [lookup_namedKey, groupRows_named hρ, sumCell_named]
  unfold namedRow
  beta_reduce
  cases (keys.zip k).lookup c with
  | none =>
    simp only [Option.map_none]
    split
    · rw [named_sumCell]
    · rfl
  | some v => rfl

theorem groupWeeks_named (hρ : StrictMono ρ) (f : Frame K) :
    groupWeeks (namedFrame ρ f) "date" "item_id" "week_id" "week_start" [] =
      (groupWeeks f "date" "item_id" "week_id" "week_start" []).map (namedFrame ρ) := by
  unfold groupWeeks
  rw [namedFrame_cols, namedFrame_col (x := "date") (by decide)]
  generalize hkeys : ["week_id", "week_start", "item_id"] = keys
  by_cases h1 : "date" ∉ f.cols
  · simp only [h1, raiseIf]; rfl
  by_cases h2 : isTimeColumn (f.col "date") = false
  · simp only [h1, h2, raiseIf]; rfl
  by_cases h3 : spacedBy 1 (f.col "date") = true
  · simp only [h1, h2, h3, raiseIf]
    by_cases h4 : keys.any (fun c => decide (c ∉ f.cols)) = true
    · simp only [h4]; rfl
    by_cases h5 : ¬ keys.Nodup ∨ "date" ∈ keys ∨ "days_in_week" ∈ keys
    · simp only [h4, h5]; rfl
    have hany : ∀ metrics : List String, (namedFrame ρ f).rows.any (fun r => metrics.any (fun c => !(r c).isNumeric)) =
        f.rows.any (fun r => metrics.any (fun c => !(r c).isNumeric)) := by
      intro metrics
      rw [namedFrame_rows, List.any_map]
      simp only [Function.comp_def, namedRow_isNumeric]
    rw [hany]
    by_cases h6 : f.rows.any (fun r => (f.cols.filter (fun c => decide (c ∉ keys ∧ c ≠ "date"))).any (fun c => !(r c).isNumeric)) = true
    · simp only [h4, h5, h6]; rfl
    simp only [h4, h5, h6]
    show (Except.ok _ : Py (Frame K)) = Except.ok _
    congr 1
    unfold namedFrame
    simp only
    congr 1
    rw [groupKeys_named hρ, List.filter_map, List.map_map, List.map_map]
    have hf : (groupKeys f.rows keys).filter
        ((fun k => decide (nunique ((groupRows (f.rows.map (namedRow ρ)) keys k).map (fun r => r "date")) = 7)) ∘ namedKey ρ keys) =
        (groupKeys f.rows keys).filter (fun k => decide (nunique ((groupRows f.rows keys k).map (fun r => r "date")) = 7)) := by
      refine List.filter_congr fun k _ => ?_
      simp only [Function.comp, groupRows_named hρ.injective, map_named_col (x := "date") (by decide)]
    rw [hf]
    refine List.map_congr_left fun k _ => ?_
    exact weekRow_named hρ.injective _ _ _
  · by_cases h4 : spacedBy 7 (f.col "date") = true
    · simp only [h1, h2, h3, h4, raiseIf]; rfl
    · simp only [h1, h2, h3, h4, raiseIf]; rfl

theorem downsample_named [FloorRing K] (hρ : Function.Injective ρ) (R : Rounding K) {rng : Sampler (Cell K)} (hr : Spec.PicksPositions rng) (f : Frame K)
    (fraction : K) : downsample R rng (namedFrame ρ f) fraction "item_id" = (downsample R rng f fraction "item_id").map (namedFrame ρ) := by
  unfold downsample
  rw [namedFrame_cols, namedFrame_items, dropDup_map fun a b => named_inj hρ]
  by_cases h1 : fraction ≤ 0 ∨ 1 < fraction
  · simp only [h1, raiseIf]; rfl
  by_cases h2 : "item_id" ∉ f.cols
  · simp only [h1, h2, raiseIf]; rfl
  by_cases h3 : fraction = 1
  · simp only [h1, h2, raiseIf, if_pos h3]; rfl
  simp only [h1, h2, raiseIf, if_neg h3]
  show (Except.ok _ : Py (Frame K)) = Except.ok _
  congr 1
  unfold Frame.filterRows namedFrame
  simp only
  congr 1
  rw [List.filter_map, List.length_map, hr]
  congr 1
  refine List.filter_congr fun r _ => ?_
  simp only [Function.comp, namedRow_item]
  congr 1
  rw [eq_iff_iff]
  exact List.mem_map_of_injective fun a b h => (named_inj hρ).mp h

theorem cleanHistorical_named [FloorRing K] (hρ : StrictMono ρ) {R : Rounding K} {rng : Sampler (Cell K)} (hr : Spec.PicksPositions rng) {E : Ext K}
    {raw raw' : Frame K} {itemCol dateCol primary primaryCol : String} {fraction : K} (h : Spec.RawNamed E itemCol ρ raw raw') :
    cleanHistorical R rng E raw' itemCol dateCol primary primaryCol fraction =
      (cleanHistorical R rng E raw itemCol dateCol primary primaryCol fraction).map (fun p => (p.1, namedFrame ρ p.2)) := by
  unfold cleanHistorical
  by_cases h1 : primary ∉ allowedPrimaryMetrics
  · simp only [h1, raiseIf]; rfl
  simp only [h1, raiseIf, bind, Except.bind]
  rw [standardize_named h]
  simp only [Bool.false_eq_true, if_false]
  cases standardize E raw itemCol dateCol (stdColsOf primary primaryCol) (if primary = "other" then [(primaryCol, primaryCol)] else [])
      (if primary = "other" then [(primaryCol, floatParse E)] else []) with
  | error e => rfl
  | ok f1 =>
    simp only [Except.map]
    rw [fillMissing_named hρ.injective]
    cases fillMissing f1 "item_id" "date" with
    | error e => rfl
    | ok f2 =>
      simp only [Except.map]
      rw [addWeeks_named]
      cases addWeeks E f2 "date" none "week_id" "week_start" with
      | error e => rfl
      | ok f3 =>
        simp only [Except.map]
        rw [groupWeeks_named hρ]
        cases groupWeeks f3 "date" "item_id" "week_id" "week_start" [] with
        | error e => rfl
        | ok f4 =>
          simp only [Except.map]
          rw [downsample_named hρ.injective R hr]
          cases downsample R rng f4 fraction "item_id" <;> rfl

theorem validateHistorical_named (hρ : Function.Injective ρ) {D : DateSorter K} (f : Frame K) (primary : String) (skip : List String) :
    validateHistorical D (namedFrame ρ f) "item_id" "week_start" "week_id" primary skip = validateHistorical D f "item_id" "week_start" "week_id" primary skip := by
  have hsp : checkSpacing (namedFrame ρ f) "week_start" = checkSpacing f "week_start" := by
    unfold checkSpacing
    rw [namedFrame_cols, namedFrame_col (by decide)]
  have hw : checkWeekIds D (namedFrame ρ f) "week_id" "week_start" = checkWeekIds D f "week_id" "week_start" := by
    unfold checkWeekIds
    have hl : (namedFrame ρ f).rows.map (fun r => (r "week_id", r "week_start")) = f.rows.map (fun r => (r "week_id", r "week_start")) := by
      rw [namedFrame_rows]
      simp only [List.map_map, Function.comp_def, namedRow_other (x := "week_id") (by decide), namedRow_other (x := "week_start") (by decide)]
    rw [namedFrame_cols, hl, namedFrame_col (by decide), namedFrame_col (by decide)]
  unfold validateHistorical
  rw [checkNulls_named, checkDuplicates_named hρ f (by decide), hsp, hw, checkFinite_named, checkNonNegative_named]

theorem prepareHistorical_named [FloorRing K] (hρ : StrictMono ρ) {R : Rounding K} {rng : Sampler (Cell K)} (hr : Spec.PicksPositions rng) {E : Ext K}
    {D : DateSorter K} {raw raw' : Frame K} {itemCol dateCol primary primaryCol : String} {fraction : K} {skip : List String}
    (h : Spec.RawNamed E itemCol ρ raw raw') :
    prepareHistorical R rng E D raw' itemCol dateCol primary primaryCol fraction skip =
      (prepareHistorical R rng E D raw itemCol dateCol primary primaryCol fraction skip).map (namedFrame ρ) := by
  unfold prepareHistorical
  rw [cleanHistorical_named hρ hr h]
  cases cleanHistorical R rng E raw itemCol dateCol primary primaryCol fraction with
  | error x => rfl
  | ok p =>
    simp only [Except.map, bind, Except.bind]
    rw [validateHistorical_named hρ.injective]
    cases validateHistorical D p.2 "item_id" "week_start" "week_id" p.1 skip <;> rfl

theorem namedFrame_table (f : Frame K) : Spec.TableNamed ρ f (namedFrame ρ f) := by
  refine ⟨rfl, ?_⟩
  show List.Forall₂ _ f.rows (f.rows.map _)
  rw [List.forall₂_map_right_iff, List.forall₂_same]
  exact fun r _ x _ => rfl

end

/-! ### The simulations -/

section
variable {ρ : String → String}

/-- The table with the new names in its index. -/
def namedWide (ρ : String → String) (w : Wide ℝ) : Wide ℝ := { w with rows := w.rows.map (fun r => ⟨namedKey ρ ["item_id"] r.key, r.val⟩) }

/-- The column names that the notebook uses. -/
structure DesignerColumns (c : SimConfig) : Prop where
  week : c.weekCol = "week_id"
  period : c.periodCol = "time_period"
  item : c.itemCol = "item_id"

/-- An analysis with the new names. -/
def namedState (ρ : String → String) (s : SimState) : SimState := { s with data := namedFrame ρ s.data }

theorem historicalPivot_named (hρ : StrictMono ρ) (d : DesignParams ℝ) (start : ℤ) (metrics : List String) (f : Frame ℝ) :
    Spec.SameOutcome (PivotNamed ρ ["item_id"])
      (pivotTimeAssignment d start metrics "item_id" "week_id" none "time_period" f).1
      (pivotTimeAssignment d start metrics "item_id" "week_id" none "time_period" (namedFrame ρ f)).1 ∧
    (pivotTimeAssignment d start metrics "item_id" "week_id" none "time_period" (namedFrame ρ f)).2 =
      namedFrame ρ (pivotTimeAssignment d start metrics "item_id" "week_id" none "time_period" f).2 := by
  unfold pivotTimeAssignment
  rw [namedFrame_cols]
  split_ifs with h1 h2
  · exact ⟨rfl, rfl⟩
  · exact ⟨rfl, rfl⟩
  · rw [labelRows_named d start f]
    cases labelRows d start "week_id" "time_period" f with
    | error e => exact ⟨rfl, rfl⟩
    | ok g =>
      simp only [Except.map]
      have hn := pivotTable_named hρ d (indexColumns "item_id" none) (periodCol := "time_period") (by decide) g.rows
      rw [namedFrame_rows, hn.periods]
      split_ifs
      · exact ⟨rfl, rfl⟩
      · exact ⟨hn, rfl⟩

theorem wide_named {piv piv' : Pivoted ℝ} (h : PivotNamed ρ ["item_id"] piv piv') (metrics : List String) :
    piv'.wide metrics "item_id" = namedWide ρ (piv.wide metrics "item_id") := by
  unfold Pivoted.wide namedWide
  simp only
  rw [h.periods, h.index, List.map_map, List.map_map]
  congr 1
  refine List.map_congr_left fun k _ => ?_
  simp only [Function.comp]
  congr 1
  funext l
  split
  · exact h.value _ _ _
  · rfl

theorem bootstrap_named (draws : List ℕ) {w : Wide ℝ} (hw : w.names = ["item_id"]) : bootstrap draws (namedWide ρ w) "item_id" = bootstrap draws w "item_id" := by
  unfold bootstrap namedWide
  simp only [hw]
  congr 1
  funext _
  congr 2
  refine List.filterMap_congr fun p _ => ?_
  rw [List.getElem?_map]
  cases w.rows[p.1]? <;> rfl

theorem trimWide_named (R : Rounding ℝ) (σ : Shuffle) (w : Wide ℝ) (label : List String) (top bottom : ℝ) :
    trimWide R σ (namedWide ρ w) label top bottom = (trimWide R σ w label top bottom).map (namedWide ρ) := by
  unfold trimWide
  have h : (namedWide ρ w).rows.zipIdx.map (fun p c => if c = "position" then (.int (p.2 : ℤ) : Cell ℝ) else flCell (p.1.val label)) =
      w.rows.zipIdx.map (fun p c => if c = "position" then (.int (p.2 : ℤ) : Cell ℝ) else flCell (p.1.val label)) := by
    unfold namedWide
    simp only [List.zipIdx_map, List.map_map]
    rfl
  rw [h]
  have hc : (namedWide ρ w).cols = w.cols := rfl
  rw [hc]
  cases trimOutliers R σ ⟨if label ∈ w.cols then ["position", "order"] else ["position"],
      w.rows.zipIdx.map (fun p c => if c = "position" then (.int (p.2 : ℤ) : Cell ℝ) else flCell (p.1.val label))⟩ "order" top bottom with
  | error e => rfl
  | ok g =>
    show (Except.ok _ : Py (Wide ℝ)) = Except.ok _
    congr 1
    unfold namedWide
    simp only
    congr 1
    rw [List.map_filterMap]
    refine List.filterMap_congr fun i _ => ?_
    rw [List.getElem?_map]

theorem trimHistorical_boot (R : Rounding ℝ) (σ : Shuffle) {c : SimConfig} (hc : DesignerColumns c) (draws : List ℕ) {w : Wide ℝ} (hw : w.names = ["item_id"]) :
    trimHistorical R σ c (some draws) (namedWide ρ w) = trimHistorical R σ c (some draws) w := by
  unfold trimHistorical
  simp only [hc.item, bootstrap_named draws hw]

theorem trimHistorical_named (R : Rounding ℝ) (σ : Shuffle) (c : SimConfig) (w : Wide ℝ) :
    trimHistorical R σ c none (namedWide ρ w) = (trimHistorical R σ c none w).map (namedWide ρ) := by
  unfold trimHistorical
  have hl : ∀ w : Wide ℝ, (namedWide ρ w).rows.length = w.rows.length := fun w => List.length_map _
  have hb : ∀ {α β γ : Type} (x : Py α) (f : α → Py β) (g : β → γ), (x >>= f).map g = x >>= fun a => (f a).map g := by
    intro _ _ _ x f g
    cases x <;> rfl
  show (raiseIf _ _ >>= fun _ => _) = Except.map _ (raiseIf _ _ >>= fun _ => _)
  rw [hb, hl]
  congr 1
  funext _
  by_cases h2 : 0 < c.design.pretest
  · simp only [h2, if_true, trimWide_named]
    cases trimWide R σ w [c.design.primaryMetric, "pretest"] c.design.preTop.val c.design.preBottom.val with
    | error e => rfl
    | ok w2 =>
      show (raiseIf _ _ >>= fun _ => _) = Except.map _ (raiseIf _ _ >>= fun _ => _)
      rw [hb, hl]
      rfl
  · simp only [h2, if_false]
    show (raiseIf _ _ >>= fun _ => _) = Except.map _ (raiseIf _ _ >>= fun _ => _)
    rw [hb, hl]
    rfl

theorem historicalTable_boot (hρ : StrictMono ρ) (R : Rounding ℝ) (σ : Shuffle) {c : SimConfig} (hc : DesignerColumns c) (draws : List ℕ) (start : ℤ)
    (data : Frame ℝ) : historicalTable R σ c (some draws) start (namedFrame ρ data) =
      ((historicalTable R σ c (some draws) start data).1, namedFrame ρ (historicalTable R σ c (some draws) start data).2) := by
  unfold historicalTable
  rw [hc.week, hc.period, hc.item]
  obtain ⟨h1, h2⟩ := historicalPivot_named hρ c.design.toDesignParams start [c.design.primaryMetric] data
  revert h1 h2
  rcases pivotTimeAssignment c.design.toDesignParams start [c.design.primaryMetric] "item_id" "week_id" none "time_period" data with ⟨e | piv, data1⟩ <;>
    rcases pivotTimeAssignment c.design.toDesignParams start [c.design.primaryMetric] "item_id" "week_id" none "time_period" (namedFrame ρ data) with ⟨e' | piv', data2⟩ <;>
    intro h1 h2
  · cases h1
    cases h2
    rfl
  · exact h1.elim
  · exact h1.elim
  · cases h2
    have h1 : PivotNamed ρ ["item_id"] piv piv' := h1
    simp only [wide_named h1]
    rw [trimHistorical_boot R σ hc draws rfl]
    rfl

theorem historicalTable_named (hρ : StrictMono ρ) (R : Rounding ℝ) (σ : Shuffle) {c : SimConfig} (hc : DesignerColumns c) (start : ℤ)
    (data : Frame ℝ) : historicalTable R σ c none start (namedFrame ρ data) =
      ((historicalTable R σ c none start data).1.map (namedWide ρ), namedFrame ρ (historicalTable R σ c none start data).2) := by
  unfold historicalTable
  rw [hc.week, hc.period, hc.item]
  obtain ⟨h1, h2⟩ := historicalPivot_named hρ c.design.toDesignParams start [c.design.primaryMetric] data
  revert h1 h2
  rcases pivotTimeAssignment c.design.toDesignParams start [c.design.primaryMetric] "item_id" "week_id" none "time_period" data with ⟨e | piv, data1⟩ <;>
    rcases pivotTimeAssignment c.design.toDesignParams start [c.design.primaryMetric] "item_id" "week_id" none "time_period" (namedFrame ρ data) with ⟨e' | piv', data2⟩ <;>
    intro h1 h2
  · cases h1
    cases h2
    rfl
  · exact h1.elim
  · exact h1.elim
  · cases h2
    have h1 : PivotNamed ρ ["item_id"] piv piv' := h1
    simp only [wide_named h1]
    rw [trimHistorical_named]
    rfl

theorem wideValues_named (w : Wide ℝ) (label : List String) : wideValues (namedWide ρ w) label = wideValues w label := by
  unfold wideValues namedWide
  simp only [List.map_map, Function.comp_def]

theorem primaryStats_named (R : Rounding ℝ) (argsort : List ℝ → List ℕ) (d : Design ℝ) (w : Wide ℝ) :
    primaryStats R argsort d (namedWide ρ w) = primaryStats R argsort d w := by
  unfold primaryStats
  simp only [wideValues_named]
  rfl

theorem statsOfWeeks_named (hρ : StrictMono ρ) (R : Rounding ℝ) (argsort : List ℝ → List ℕ) (σ : ℤ → Shuffle) {c : SimConfig} (hc : DesignerColumns c)
    (starts : List ℤ) (data : Frame ℝ) : statsOfWeeks R argsort σ c starts (namedFrame ρ data) =
      ((statsOfWeeks R argsort σ c starts data).1, namedFrame ρ (statsOfWeeks R argsort σ c starts data).2) := by
  induction starts generalizing data with
  | nil => rfl
  | cons start rest ih =>
    unfold statsOfWeeks
    rw [historicalTable_named hρ R (σ start) hc]
    rcases historicalTable R (σ start) c none start data with ⟨_ | w, data'⟩
    · rfl
    · simp only [Except.map, primaryStats_named]
      cases primaryStats R argsort c.design w with
      | error e => rfl
      | ok s =>
        simp only
        rw [ih]
        rcases statsOfWeeks R argsort σ c rest data' with ⟨_ | l, data''⟩ <;> rfl

theorem estimateMde_named (hρ : StrictMono ρ) (R : Rounding ℝ) (argsort : List ℝ → List ℕ) (D : TDist) (σ : ℤ → Shuffle) {c : SimConfig}
    (hc : DesignerColumns c) (s : SimState) : estimateMde R argsort D σ c (namedState ρ s) =
      ((estimateMde R argsort D σ c s).1, namedState ρ (estimateMde R argsort D σ c s).2) := by
  unfold estimateMde
  have hd : (namedState ρ s).data = namedFrame ρ s.data := rfl
  rw [hd, statsOfWeeks_named hρ R argsort σ hc]
  rcases statsOfWeeks R argsort σ c c.starts s.data with ⟨_ | l, data⟩
  · rfl
  · simp only
    cases averageStats l with
    | error e => rfl
    | ok a =>
      simp only
      cases mdeOf D c.design a.1 a.2.1 a.2.2 <;> rfl

theorem simulateOnce_named (hρ : StrictMono ρ) (R : Rounding ℝ) (argsort : List ℝ → List ℕ) (D : TDist) {c : SimConfig} (hc : DesignerColumns c) (effect : Fl ℝ)
    (r : SimDraw) (data : Frame ℝ) : simulateOnce R argsort D c effect r (namedFrame ρ data) =
      ((simulateOnce R argsort D c effect r data).1, namedFrame ρ (simulateOnce R argsort D c effect r data).2) := by
  unfold simulateOnce
  rw [historicalTable_boot hρ R r.shuffle hc]
  rcases historicalTable R r.shuffle c (some r.boot) r.start data with ⟨_ | w, data'⟩ <;> rfl

theorem simulateAll_named (hρ : StrictMono ρ) (R : Rounding ℝ) (argsort : List ℝ → List ℕ) (D : TDist) {c : SimConfig} (hc : DesignerColumns c) (effect : Fl ℝ)
    (draws : List SimDraw) (data : Frame ℝ) : simulateAll R argsort D c effect draws (namedFrame ρ data) =
      ((simulateAll R argsort D c effect draws data).1, namedFrame ρ (simulateAll R argsort D c effect draws data).2) := by
  induction draws generalizing data with
  | nil => rfl
  | cons r rest ih =>
    unfold simulateAll
    rw [simulateOnce_named hρ R argsort D hc]
    by_cases h : c.starts = []
    · simp only [h, if_pos]
    simp only [h, if_false]
    rcases simulateOnce R argsort D c effect r data with ⟨_ | x, data'⟩
    · rfl
    · simp only
      rw [ih]
      rcases simulateAll R argsort D c effect rest data' with ⟨_ | l, data''⟩ <;> rfl

theorem validateSim_named (hρ : StrictMono ρ) (R : Rounding ℝ) (argsort : List ℝ → List ℕ) (D : TDist) {c : SimConfig} (hc : DesignerColumns c)
    (draws : List SimDraw) (s : SimState) : validateSim R argsort D c draws (namedState ρ s) =
      ((validateSim R argsort D c draws s).1, namedState ρ (validateSim R argsort D c draws s).2) := by
  unfold validateSim
  have hm' : (namedState ρ s).mde = s.mde := rfl
  rw [hm']
  cases hm : s.mde with
  | none => rfl
  | some effect =>
    simp only
    have hd : (namedState ρ s).data = namedFrame ρ s.data := rfl
    rw [hd, simulateAll_named hρ R argsort D hc]
    rcases simulateAll R argsort D c effect draws s.data with ⟨_ | l, data⟩ <;> rfl

theorem mkSimulation_named (d : Design ℝ) (data : Frame ℝ) (itemCol periodCol treatCol : String) (minStart : ℤ)
    (threshold : ℝ) : mkSimulation d (namedFrame ρ data) itemCol "week_id" periodCol treatCol minStart threshold =
      (mkSimulation d data itemCol "week_id" periodCol treatCol minStart threshold).map (fun a => (a.1, namedState ρ a.2)) := by
  unfold mkSimulation
  rw [namedFrame_cols, namedFrame_col (by decide)]
  have hb : ∀ {α β γ : Type} (x : Py α) (f : α → Py β) (g : β → γ), (x >>= f).map g = x >>= fun a => (f a).map g := by
    intro _ _ _ x f g
    cases x <;> rfl
  rw [hb]
  congr 1
  funext _
  rw [hb]
  congr 1
  funext _
  cases (ints (data.col "week_id")).max? <;> rfl

theorem mkSimulation_notebook {d : Design ℝ} {data : Frame ℝ} {treatCol : String} {minStart : ℤ} {threshold : ℝ} {a : SimConfig × SimState}
    (e : mkSimulation d data "item_id" "week_id" "time_period" treatCol minStart threshold = .ok a) : DesignerColumns a.1 := by
  unfold mkSimulation at e
  obtain ⟨-, e⟩ := raiseIf_bind_ok.mp e
  obtain ⟨-, e⟩ := raiseIf_bind_ok.mp e
  revert e
  cases (ints (data.col "week_id")).max? with
  | none => intro e; exact absurd e (by simp)
  | some w =>
    intro e
    rw [← Except.ok.inj e]
    exact ⟨rfl, rfl, rfl⟩

theorem analyseDesign_named (hρ : StrictMono ρ) (V : StudyEnv) (data : Frame ℝ) (minStart : ℤ) (σ : ℤ → Shuffle)
    (d : Design ℝ) : analyseDesign V (namedFrame ρ data) minStart σ d =
      (analyseDesign V data minStart σ d).map (fun a => (a.1, namedState ρ a.2)) := by
  unfold analyseDesign
  rw [mkSimulation_named d data]
  cases e : mkSimulation d data "item_id" "week_id" "time_period" "treatment" minStart (1 / 10000) with
  | error x => rfl
  | ok a =>
    simp only [Except.map, bind, Except.bind]
    rw [estimateMde_named hρ V.R V.argsort V.tdist σ (mkSimulation_notebook e)]
    rcases estimateMde V.R V.argsort V.tdist σ a.1 a.2 with ⟨_ | _, s⟩ <;> rfl

/-! ### The session -/

/-- The analyses with the new names. -/
def namedStudy (ρ : String → String) (s : Study) : Study := s.map (fun e => (e.1, (e.2.1, namedState ρ e.2.2)))

theorem estimateDesigns_named (hρ : StrictMono ρ) (V : StudyEnv) (data : Frame ℝ) (minStart : ℤ)
    (designs : List (Design ℝ)) : estimateDesigns V (namedFrame ρ data) minStart designs =
      (estimateDesigns V data minStart designs).map (namedStudy ρ) := by
  unfold estimateDesigns
  rw [mapM_map_outcome (g := fun e : List Char × (SimConfig × SimState) => (e.1, (e.2.1, namedState ρ e.2.2)))
    (x := fun p : Design ℝ × ℕ => do
      let a ← analyseDesign V data minStart (V.shuffle p.2) p.1
      let id ← designId V.R V.fr V.printable a.1.design
      return (id, a))]
  · cases designs.zipIdx.mapM (m := Py) (fun p => do
      let a ← analyseDesign V data minStart (V.shuffle p.2) p.1
      let id ← designId V.R V.fr V.printable a.1.design
      return (id, a)) with
    | error e => rfl
    | ok l => exact congrArg Except.ok (dictOf_map (fun a : SimConfig × SimState => (a.1, namedState ρ a.2)) l)
  · intro p _
    rw [analyseDesign_named hρ]
    cases analyseDesign V data minStart (V.shuffle p.2) p.1 with
    | error e => rfl
    | ok a =>
      simp only [Except.map, bind, Except.bind]
      cases designId V.R V.fr V.printable a.1.design <;> rfl

theorem openStudy_named (hρ : StrictMono ρ) (V : StudyEnv) (hr : Spec.PicksPositions V.rng) (form : StudyForm) {raw raw' : Frame ℝ}
    (h : Spec.RawNamed V.ext form.itemCol ρ raw raw') :
    openStudy V form raw' = (openStudy V form raw).map (fun p => (namedFrame ρ p.1, namedStudy ρ p.2)) := by
  unfold openStudy
  rw [prepareHistorical_named hρ hr h]
  cases prepareHistorical V.R V.rng V.ext V.sorter raw form.itemCol form.dateCol form.primary form.primaryCol form.fraction form.skip with
  | error e => rfl
  | ok data =>
    simp only [Except.map, bind, Except.bind]
    by_cases h1 : form.crossoverAllowed = true ∧ form.washout < 1
    · simp only [h1, raiseIf]; rfl
    simp only [h1, raiseIf, if_false]
    have hcand : form.candidates (namedFrame ρ data) = form.candidates data := by
      unfold StudyForm.candidates
      rw [namedFrame_items, nunique_map_named hρ.injective]
    rw [hcand, namedFrame_col (x := "week_id") (by decide)]
    cases generateDesigns V.R (form.candidates data) with
    | error e => rfl
    | ok designs =>
      simp only
      cases minStartWeek form.runtimes form.pretests (ints (dropDup (data.col "week_id"))) with
      | error e => rfl
      | ok minStart =>
        simp only
        rw [estimateDesigns_named hρ]
        cases estimateDesigns V data minStart designs <;> rfl

/-- All analyses use the column names of the notebook. -/
def StudyColumns (s : Study) : Prop := ∀ S : List String, "item_id" ∉ S → StudyNames S s

theorem StudyColumns.get {s : Study} (h : StudyColumns s) {id : List Char} {a : SimConfig × SimState} (ha : s.get id = .ok a) : DesignerColumns a.1 := by
  have h0 := (h [] (by simp)).get ha
  refine ⟨h0.week, h0.period, ?_⟩
  by_contra hne
  exact ((h [a.1.itemCol] (by simpa using fun e => hne e.symm)).get ha).item (by simp)

theorem StudyColumns.set {s : Study} (h : StudyColumns s) {id : List Char} {a : SimConfig × SimState} (ha : s.get id = .ok a) {b : SimConfig × SimState}
    (hw : b.1.weekCol = a.1.weekCol) (hp : b.1.periodCol = a.1.periodCol) (hi : b.1.itemCol = a.1.itemCol) : StudyColumns (dictSet id b s) := by
  intro S hS
  have hn := (h S hS).get ha
  exact (h S hS).dictSet ⟨hw.trans hn.week, hp.trans hn.period, by rw [hi]; exact hn.item⟩

theorem get_named (s : Study) (id : List Char) : (namedStudy ρ s).get id = (s.get id).map (fun a => (a.1, namedState ρ a.2)) := by
  unfold Study.get namedStudy
  rw [lookup_map_snd (fun a : SimConfig × SimState => (a.1, namedState ρ a.2))]
  cases s.lookup id <;> rfl

theorem validateOne_named (hρ : StrictMono ρ) (V : StudyEnv) (force : Bool) (draws : List SimDraw) (id : List Char) {s : Study} (hs : StudyColumns s) :
    validateOne V force draws id (namedStudy ρ s) = ((validateOne V force draws id s).1, namedStudy ρ (validateOne V force draws id s).2) ∧
      StudyColumns (validateOne V force draws id s).2 := by
  unfold validateOne
  rw [get_named]
  cases e : s.get id with
  | error x => exact ⟨rfl, hs⟩
  | ok a =>
    simp only [Except.map]
    have hf : falsePositiveRate a.1.design (namedState ρ a.2) = falsePositiveRate a.1.design a.2 := rfl
    rw [hf]
    cases falsePositiveRate a.1.design a.2 with
    | error x => exact ⟨rfl, hs⟩
    | ok rate =>
      simp only
      by_cases h : force = false ∧ rate ≠ none
      · rw [if_pos h, if_pos h]; exact ⟨rfl, hs⟩
      · rw [if_neg h, if_neg h, validateSim_named hρ V.R V.argsort V.tdist (hs.get e)]
        refine ⟨?_, hs.set e rfl rfl rfl⟩
        exact congrArg (Prod.mk _) (dictSet_map (fun a : SimConfig × SimState => (a.1, namedState ρ a.2)) id
          (a.1, (validateSim V.R V.argsort V.tdist a.1 draws a.2).2) s)

theorem validateStudy_named (hρ : StrictMono ρ) (V : StudyEnv) (force : Bool) (targets : List (List Char × List SimDraw)) {s : Study}
    (hs : StudyColumns s) :
    validateStudy V force targets (namedStudy ρ s) = ((validateStudy V force targets s).1, namedStudy ρ (validateStudy V force targets s).2) ∧
      StudyColumns (validateStudy V force targets s).2 := by
  induction targets generalizing s with
  | nil => exact ⟨rfl, hs⟩
  | cons t rest ih =>
    obtain ⟨id, draws⟩ := t
    obtain ⟨h1, h2⟩ := validateOne_named hρ V force draws id hs
    unfold validateStudy
    rw [h1]
    revert h2
    rcases validateOne V force draws id s with ⟨_ | _, s'⟩
    · exact fun h2 => ⟨rfl, h2⟩
    · exact fun h2 => ih h2

theorem showStudy_named (V : StudyEnv) (sorter : SummarySorter) (text : SVal ℝ → String) (b : Bool) (s : Study) :
    showStudy V sorter text b (namedStudy ρ s) = showStudy V sorter text b s := by
  have h : ∀ sortBy, makeSummary V.R V.fr V.printable V.tests sorter ((namedStudy ρ s).map Prod.snd) sortBy =
      makeSummary V.R V.fr V.printable V.tests sorter (s.map Prod.snd) sortBy := by
    intro sortBy
    unfold makeSummary
    have hm : ((namedStudy ρ s).map Prod.snd).mapM (fun a => summaryDict V.R V.fr V.printable V.tests a.1 a.2) =
        (s.map Prod.snd).mapM (fun a => summaryDict V.R V.fr V.printable V.tests a.1 a.2) := by
      unfold namedStudy
      induction s with
      | nil => rfl
      | cons e s ih =>
        simp only [List.map_cons, List.mapM_cons] at ih ⊢
        rw [ih]
        rfl
    rw [hm]
  unfold showStudy
  rw [h]

/-! ### The assignment -/

theorem trimOutliers_named (R : Rounding ℝ) (σ : Shuffle) (f : Frame ℝ) (orderBy : String) (top bottom : ℝ) :
    trimOutliers R σ (namedFrame ρ f) orderBy top bottom = (trimOutliers R σ f orderBy top bottom).map (namedFrame ρ) := by
  have hv : valueAt (namedFrame ρ f) orderBy = valueAt f orderBy := by
    funext i
    unfold valueAt
    rw [namedFrame_rows, List.getElem?_map]
    cases f.rows[i]? with
    | none => rfl
    | some r => exact namedRow_toFl r orderBy
  have hany : (namedFrame ρ f).rows.any (fun r => !(r orderBy).isNumeric) = f.rows.any (fun r => !(r orderBy).isNumeric) := by
    rw [namedFrame_rows, List.any_map]
    simp only [Function.comp_def, namedRow_isNumeric]
  have hl : (namedFrame ρ f).rows.length = f.rows.length := List.length_map _
  have hb : ∀ {α β γ : Type} (x : Py α) (f : α → Py β) (g : β → γ), (x >>= f).map g = x >>= fun a => (f a).map g := by
    intro _ _ _ x f g
    cases x <;> rfl
  unfold trimOutliers
  simp only [hv, hany, hl, namedFrame_cols, hb]
  congr 1
  funext _
  congr 1
  funext _
  congr 1
  funext _
  split_ifs
  · rfl
  · simp only [hb]
    congr 1
    funext _
    congr 1
    funext _
    show (Except.ok _ : Py (Frame ℝ)) = Except.ok _
    congr 1
    unfold namedFrame
    simp only
    congr 1
    rw [List.zipIdx_map, List.filter_map, List.map_map, List.map_map]
    rfl

theorem pretestTotals_named (hρ : StrictMono ρ) (f : Frame ℝ) (d : Design ℝ) :
    pretestTotals (namedFrame ρ f) d "item_id" "week_id" = (pretestTotals f d "item_id" "week_id").map (namedFrame ρ) := by
  have hrows : pretestRows (namedFrame ρ f) "week_id" d.pretest = (pretestRows f "week_id" d.pretest).map (namedRow ρ) := by
    unfold pretestRows
    rw [namedFrame_col (by decide)]
    cases (ints (f.col "week_id")).max? with
    | none => rfl
    | some w =>
      simp only
      rw [namedFrame_rows, List.filter_map]
      congr 1
  have hany : (namedFrame ρ f).rows.any (fun r => !(r d.primaryMetric).isNumeric) = f.rows.any (fun r => !(r d.primaryMetric).isNumeric) := by
    rw [namedFrame_rows, List.any_map]
    simp only [Function.comp_def, namedRow_isNumeric]
  have hb : ∀ {α β γ : Type} (x : Py α) (f : α → Py β) (g : β → γ), (x >>= f).map g = x >>= fun a => (f a).map g := by
    intro _ _ _ x f g
    cases x <;> rfl
  unfold pretestTotals
  simp only [namedFrame_col (x := "week_id") (by decide), namedFrame_cols, hrows, hany, hb]
  congr 1
  funext _
  congr 1
  funext _
  congr 1
  funext _
  show (Except.ok _ : Py (Frame ℝ)) = Except.ok _
  congr 1
  unfold namedFrame
  simp only
  congr 1
  rw [groupKeys_named hρ, List.map_map, List.map_map]
  exact List.map_congr_left fun k _ => weekRow_named hρ.injective _ _ _

theorem eligibleItems_named (hρ : StrictMono ρ) (R : Rounding ℝ) (σ : Shuffle) (f : Frame ℝ) (d : Design ℝ) :
    eligibleItems R σ (namedFrame ρ f) d "item_id" (some "week_id") = (eligibleItems R σ f d "item_id" (some "week_id")).map (List.map (named ρ)) := by
  unfold eligibleItems
  split_ifs
  · rw [Option.getD_some, pretestTotals_named hρ]
    cases pretestTotals f d "item_id" "week_id" with
    | error e => rfl
    | ok g =>
      simp only [Except.map, bind, Except.bind, trimOutliers_named]
      cases trimOutliers R σ g d.primaryMetric d.preTop.val d.preBottom.val with
      | error e => rfl
      | ok g' =>
        show (Except.ok _ : Py (List (Cell ℝ))) = Except.ok _
        rw [namedFrame_items]
  · rw [namedFrame_items, dropDup_map fun a b => named_inj hρ.injective]
    rfl

theorem assignedFrame_items (E : Ext ℝ) (coin : Coinflip) (items : List (Cell ℝ)) :
    (assignedFrame E coin "item_id" "treatment_assignment" items).col "item_id" = items := by
  unfold assignedFrame Frame.col
  simp [List.map_map, Function.comp_def]

theorem ratio_outcome {binom : ℕ → ℕ → Py ℝ} (hb : ∀ k n, ∃ p, binom k n = .ok p) (E : Ext ℝ) (coin : Coinflip) (items : List (Cell ℝ)) :
    runCheck [] "no_sample_ratio_mismatch" (checkRatio binom (assignedFrame E coin "item_id" "treatment_assignment" items) "item_id" "treatment_assignment") = .ok () ∨
    runCheck [] "no_sample_ratio_mismatch" (checkRatio binom (assignedFrame E coin "item_id" "treatment_assignment" items) "item_id" "treatment_assignment") =
      .error .valueError := by
  unfold runCheck checkRatio
  generalize armSize (assignedFrame E coin "item_id" "treatment_assignment" items) "item_id" "treatment_assignment" 1 = a
  generalize armSize (assignedFrame E coin "item_id" "treatment_assignment" items) "item_id" "treatment_assignment" 0 = b
  obtain ⟨p, hp⟩ := hb a (a + b)
  have hc : raiseIf PyErr.keyError ("treatment_assignment" ∉ (assignedFrame E coin "item_id" "treatment_assignment" items).cols ∨
      "item_id" ∉ (assignedFrame E coin "item_id" "treatment_assignment" items).cols) = .ok () := by
    unfold raiseIf assignedFrame
    simp
  rw [hc, hp]
  simp only [bind, Except.bind, pure, Except.pure, raiseIf]
  split_ifs
  · exact Or.inr rfl
  · exact Or.inl rfl

theorem performAssignment_named (hρ : StrictMono ρ) (R : Rounding ℝ) (σ : Shuffle) (E : Ext ℝ) {binom : ℕ → ℕ → Py ℝ} (hb : ∀ k n, ∃ p, binom k n = .ok p)
    (bytes : List ℕ) (f : Frame ℝ) (d : Design ℝ) :
    (performAssignment R σ E binom bytes (namedFrame ρ f) d "item_id" (some "week_id") "treatment_assignment").1 =
      (performAssignment R σ E binom bytes f d "item_id" (some "week_id") "treatment_assignment").1 ∧
    Spec.SameButRatio (fun out out' : Frame ℝ => out'.cols = out.cols ∧ out'.col "item_id" = (out.col "item_id").map (named ρ))
      (performAssignment R σ E binom bytes f d "item_id" (some "week_id") "treatment_assignment").2
      (performAssignment R σ E binom bytes (namedFrame ρ f) d "item_id" (some "week_id") "treatment_assignment").2 := by
  unfold performAssignment
  rw [namedFrame_cols]
  by_cases h1 : d.hasPreTrim ∧ some "week_id" = none
  · simp only [if_pos h1]; exact ⟨trivial, rfl⟩
  by_cases h2 : "item_id" ∉ f.cols ∨ (d.hasPreTrim ∧ (some "week_id").getD "" ∉ f.cols)
  · simp only [if_neg h1, if_pos h2]; exact ⟨trivial, rfl⟩
  by_cases h3 : "item_id" = "treatment_assignment"
  · simp only [if_neg h1, if_neg h2, if_pos h3]; exact ⟨trivial, rfl⟩
  · simp only [if_neg h1, if_neg h2, if_neg h3]
    cases chooseCoin d bytes with
    | error e => exact ⟨rfl, rfl⟩
    | ok coin =>
      refine ⟨rfl, ?_⟩
      simp only [eligibleItems_named hρ]
      cases eligibleItems R σ f d "item_id" (some "week_id") with
      | error e => exact rfl
      | ok items =>
        simp only [Except.map, bind, Except.bind]
        rcases ratio_outcome hb E coin items with h1 | h1 <;> rcases ratio_outcome hb E coin (items.map (named ρ)) with h2 | h2 <;> rw [h1, h2]
        · exact ⟨rfl, by rw [assignedFrame_items, assignedFrame_items]⟩
        · exact rfl
        · exact rfl
        · exact rfl

theorem exportStudy_state (V : StudyEnv) (binom : ℕ → ℕ → Py ℝ) (σ : Shuffle) (bytes : List ℕ) (data : Frame ℝ)
    (id : List Char) (fileName : String) {s : Study} (hs : StudyColumns s) :
    (exportStudy V binom σ bytes (namedFrame ρ data) id fileName (namedStudy ρ s)).2 = namedStudy ρ (exportStudy V binom σ bytes data id fileName s).2 ∧
      StudyColumns (exportStudy V binom σ bytes data id fileName s).2 := by
  have hd : ∀ d : Design ℝ, (performAssignment V.R σ V.ext binom bytes (namedFrame ρ data) d "item_id" (some "week_id") "treatment_assignment").1 =
      (performAssignment V.R σ V.ext binom bytes data d "item_id" (some "week_id") "treatment_assignment").1 := by
    intro d
    unfold performAssignment
    rw [namedFrame_cols]
    refine (apply_ite Prod.fst _ _ _).trans ((ite_congr rfl (fun _ => rfl) fun _ => ?_).trans (apply_ite Prod.fst _ _ _).symm)
    refine (apply_ite Prod.fst _ _ _).trans ((ite_congr rfl (fun _ => rfl) fun _ => ?_).trans (apply_ite Prod.fst _ _ _).symm)
    refine (apply_ite Prod.fst _ _ _).trans ((ite_congr rfl (fun _ => rfl) fun _ => ?_).trans (apply_ite Prod.fst _ _ _).symm)
    cases chooseCoin d bytes <;> rfl
  unfold exportStudy
  rw [get_named]
  cases e : s.get id with
  | error x => exact ⟨rfl, hs⟩
  | ok a =>
    simp only [Except.map]
    have hf : falsePositiveRate a.1.design (namedState ρ a.2) = falsePositiveRate a.1.design a.2 := rfl
    have hall : allChecksPass V.tests a.1 (namedState ρ a.2) = allChecksPass V.tests a.1 a.2 := rfl
    rw [hf, hall]
    split
    · exact ⟨rfl, hs⟩
    · simp only [hd]
      exact ⟨dictSet_map (fun a : SimConfig × SimState => (a.1, namedState ρ a.2)) id
        ({ a.1 with design := (performAssignment V.R σ V.ext binom bytes data a.1.design "item_id" (some "week_id") "treatment_assignment").1 }, a.2) s,
        hs.set e rfl rfl rfl⟩

theorem exportStudy_named (hρ : StrictMono ρ) (V : StudyEnv) {binom : ℕ → ℕ → Py ℝ} (hb : ∀ k n, ∃ p, binom k n = .ok p) (σ : Shuffle) (bytes : List ℕ)
    (data : Frame ℝ) (id : List Char) (fileName : String) (s : Study) :
    Spec.SameButRatio (fun out out' : Frame ℝ × Dict (YVal ℝ) =>
        out'.2 = out.2 ∧ out'.1.cols = out.1.cols ∧ out'.1.col "item_id" = (out.1.col "item_id").map (named ρ))
      (exportStudy V binom σ bytes data id fileName s).1
      (exportStudy V binom σ bytes (namedFrame ρ data) id fileName (namedStudy ρ s)).1 := by
  unfold exportStudy
  rw [get_named]
  cases e : s.get id with
  | error x => exact rfl
  | ok a =>
    simp only [Except.map]
    have hf : falsePositiveRate a.1.design (namedState ρ a.2) = falsePositiveRate a.1.design a.2 := rfl
    have hall : allChecksPass V.tests a.1 (namedState ρ a.2) = allChecksPass V.tests a.1 a.2 := rfl
    rw [hf, hall]
    split
    · exact rfl
    · obtain ⟨h1, h2⟩ := performAssignment_named hρ V.R σ V.ext hb bytes data a.1.design
      simp only [h1]
      revert h2
      cases (performAssignment V.R σ V.ext binom bytes data a.1.design "item_id" (some "week_id") "treatment_assignment").2 <;>
        cases (performAssignment V.R σ V.ext binom bytes (namedFrame ρ data) a.1.design "item_id" (some "week_id") "treatment_assignment").2 <;>
        intro h2 <;> simp only [bind, Except.bind, raiseIf] <;> try split_ifs
      all_goals first
        | exact h2
        | exact h2.symm
        | exact rfl
        | exact ⟨rfl, h2⟩

theorem ratio_accepted {binom : ℕ → ℕ → Py ℝ} (hb : ∀ k n, ∃ p, 1 / 1000 ≤ p ∧ binom k n = .ok p) (E : Ext ℝ) (coin : Coinflip) (items : List (Cell ℝ)) :
    runCheck [] "no_sample_ratio_mismatch" (checkRatio binom (assignedFrame E coin "item_id" "treatment_assignment" items) "item_id" "treatment_assignment") = .ok () := by
  unfold runCheck checkRatio
  generalize armSize (assignedFrame E coin "item_id" "treatment_assignment" items) "item_id" "treatment_assignment" 1 = a
  generalize armSize (assignedFrame E coin "item_id" "treatment_assignment" items) "item_id" "treatment_assignment" 0 = b
  obtain ⟨p, hlt, hp⟩ := hb a (a + b)
  have hc : raiseIf PyErr.keyError ("treatment_assignment" ∉ (assignedFrame E coin "item_id" "treatment_assignment" items).cols ∨
      "item_id" ∉ (assignedFrame E coin "item_id" "treatment_assignment" items).cols) = .ok () := by
    unfold raiseIf assignedFrame
    simp
  rw [hc, hp]
  simp only [bind, Except.bind, pure, Except.pure, raiseIf]
  rw [if_neg]
  rintro ⟨h, -⟩
  exact absurd (of_decide_eq_true h) (not_lt.mpr hlt)

theorem performAssignment_accepted (hρ : StrictMono ρ) (R : Rounding ℝ) (σ : Shuffle) (E : Ext ℝ) {binom : ℕ → ℕ → Py ℝ} (hb : ∀ k n, ∃ p, 1 / 1000 ≤ p ∧ binom k n = .ok p)
    (bytes : List ℕ) (f : Frame ℝ) (d : Design ℝ) :
    (performAssignment R σ E binom bytes (namedFrame ρ f) d "item_id" (some "week_id") "treatment_assignment").1 =
      (performAssignment R σ E binom bytes f d "item_id" (some "week_id") "treatment_assignment").1 ∧
    Spec.SameOutcome (fun out out' : Frame ℝ => out'.cols = out.cols ∧ out'.col "item_id" = (out.col "item_id").map (named ρ))
      (performAssignment R σ E binom bytes f d "item_id" (some "week_id") "treatment_assignment").2
      (performAssignment R σ E binom bytes (namedFrame ρ f) d "item_id" (some "week_id") "treatment_assignment").2 := by
  unfold performAssignment
  rw [namedFrame_cols]
  by_cases h1 : d.hasPreTrim ∧ some "week_id" = none
  · simp only [if_pos h1]; exact ⟨trivial, rfl⟩
  by_cases h2 : "item_id" ∉ f.cols ∨ (d.hasPreTrim ∧ (some "week_id").getD "" ∉ f.cols)
  · simp only [if_neg h1, if_pos h2]; exact ⟨trivial, rfl⟩
  by_cases h3 : "item_id" = "treatment_assignment"
  · simp only [if_neg h1, if_neg h2, if_pos h3]; exact ⟨trivial, rfl⟩
  · simp only [if_neg h1, if_neg h2, if_neg h3]
    cases chooseCoin d bytes with
    | error e => exact ⟨rfl, rfl⟩
    | ok coin =>
      refine ⟨rfl, ?_⟩
      simp only [eligibleItems_named hρ]
      cases eligibleItems R σ f d "item_id" (some "week_id") with
      | error e => exact rfl
      | ok items =>
        simp only [Except.map, bind, Except.bind]
        rw [ratio_accepted hb, ratio_accepted hb]
        exact ⟨rfl, by rw [assignedFrame_items, assignedFrame_items]⟩

theorem exportStudy_accepted (hρ : StrictMono ρ) (V : StudyEnv) {binom : ℕ → ℕ → Py ℝ} (hb : ∀ k n, ∃ p, 1 / 1000 ≤ p ∧ binom k n = .ok p) (σ : Shuffle) (bytes : List ℕ)
    (data : Frame ℝ) (id : List Char) (fileName : String) (s : Study) :
    Spec.SameOutcome (fun out out' : Frame ℝ × Dict (YVal ℝ) =>
        out'.2 = out.2 ∧ out'.1.cols = out.1.cols ∧ out'.1.col "item_id" = (out.1.col "item_id").map (named ρ))
      (exportStudy V binom σ bytes data id fileName s).1
      (exportStudy V binom σ bytes (namedFrame ρ data) id fileName (namedStudy ρ s)).1 := by
  unfold exportStudy
  rw [get_named]
  cases e : s.get id with
  | error x => exact rfl
  | ok a =>
    simp only [Except.map]
    have hf : falsePositiveRate a.1.design (namedState ρ a.2) = falsePositiveRate a.1.design a.2 := rfl
    have hall : allChecksPass V.tests a.1 (namedState ρ a.2) = allChecksPass V.tests a.1 a.2 := rfl
    rw [hf, hall]
    split
    · exact rfl
    · obtain ⟨h1, h2⟩ := performAssignment_accepted hρ V.R σ V.ext hb bytes data a.1.design
      simp only [h1]
      revert h2
      cases (performAssignment V.R σ V.ext binom bytes data a.1.design "item_id" (some "week_id") "treatment_assignment").2 <;>
        cases (performAssignment V.R σ V.ext binom bytes (namedFrame ρ data) a.1.design "item_id" (some "week_id") "treatment_assignment").2 <;>
        intro h2 <;> simp only [bind, Except.bind, raiseIf] <;> try split_ifs
      all_goals first
        | exact h2
        | exact h2.elim
        | exact rfl
        | exact ⟨rfl, h2⟩

theorem runCells_named (hρ : StrictMono ρ) (V : StudyEnv) (data : Frame ℝ) (cells : List StudyCell) {s : Study} (hs : StudyColumns s) :
    runCells V (namedFrame ρ data) (namedStudy ρ s) cells = namedStudy ρ (runCells V data s cells) ∧ StudyColumns (runCells V data s cells) := by
  unfold runCells
  induction cells generalizing s with
  | nil => exact ⟨rfl, hs⟩
  | cons cell cells ih =>
    rw [List.foldl_cons, List.foldl_cons]
    have h : runCell V (namedFrame ρ data) (namedStudy ρ s) cell = namedStudy ρ (runCell V data s cell) ∧ StudyColumns (runCell V data s cell) := by
      cases cell with
      | validate force targets =>
        obtain ⟨h1, h2⟩ := validateStudy_named hρ V force targets hs
        exact ⟨congrArg Prod.snd h1, h2⟩
      | assign binom σ bytes id fileName => exact exportStudy_state V binom σ bytes data id fileName hs
    rw [h.1]
    exact ih h.2

end

end Feedx
