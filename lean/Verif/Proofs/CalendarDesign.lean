import Verif.Proofs.CalendarChecks
import Verif.Props.RowOrder
import Verif.Model.DesignStudy

/-!
Lemmas for C133: the history of the designer, and everything that is computed from it, at another time.
-/

set_option linter.unusedSectionVars false
set_option linter.unusedSimpArgs false
set_option maxHeartbeats 1000000

namespace Feedx

open Spec (later)

section
variable {K : Type} [Field K] [LinearOrder K] {τ : ℤ} {S : List String}

/-! ### Weekly data -/

theorem sumCell_later (rows : List (Row K)) (m : String) : sumCell (rows.map (laterRow τ S)) m = sumCell rows m := by
  unfold sumCell
  refine ite_congr (congrArg (· = true) (whole_later rows m)) (fun _ => ?_) (fun _ => by rw [sumCol_later])
  rw [List.map_map]
  congr 2
  refine List.map_congr_left fun r _ => ?_
  by_cases h : m ∈ S
  · simp only [Function.comp, laterRow_of_mem h]
    cases r m <;> rfl
  · simp only [Function.comp, laterRow_of_not_mem h]

theorem later_sumCell (rows : List (Row K)) (m : String) : later τ (sumCell rows m) = sumCell rows m := by
  unfold sumCell
  split
  · rfl
  · cases sumCol rows m <;> rfl

theorem lookup_laterKey (keys : List String) (k : List (Cell K)) (c : String) :
    (keys.zip (laterKey τ S keys k)).lookup c = ((keys.zip k).lookup c).map (fun v => if c ∈ S then later τ v else v) := by
  induction keys generalizing k with
  | nil => simp
  | cons a keys ih =>
    cases k with
    | nil => rfl
    | cons x k =>
      simp only [laterKey, List.zip_cons_cons, List.lookup_cons]
      by_cases h : c = a
      · subst h; simp
      · have h' : (c == a) = false := by simpa using h
        simp only [h', ih]

theorem weekRow_later (rows : List (Row K)) (keys : List String) (k : List (Cell K)) :
    weekRow (rows.map (laterRow τ S)) keys (laterKey τ S keys k) = laterRow τ S (weekRow rows keys k) := by
  funext c
  unfold weekRow
  rw [lookup_laterKey, groupRows_later, sumCell_later]
  unfold laterRow
  beta_reduce
  cases (keys.zip k).lookup c with
  | none =>
    simp only [Option.map_none]
    split
    · rw [later_sumCell]
    · rfl
  | some v => rfl

theorem nunique_later (l : List (Cell K)) : nunique (l.map (later τ)) = nunique l := by
  unfold nunique
  rw [List.filter_map, dropDup_map (fun _ _ => later_inj τ), List.length_map]
  congr 2
  refine List.filter_congr fun c _ => ?_
  simp

theorem groupWeeks_later (f : Frame K) {dateCol : String} (hd : dateCol ∈ S) (itemCol weekCol startCol : String) (extra : List String) :
    groupWeeks (laterFrame τ S f) dateCol itemCol weekCol startCol extra =
      (groupWeeks f dateCol itemCol weekCol startCol extra).map (laterFrame τ S) := by
  unfold groupWeeks
  rw [laterFrame_cols, laterFrame_col_mem hd, isTimeColumn_later, spacedBy_later, spacedBy_later]
  by_cases h1 : dateCol ∉ f.cols
  · simp only [h1, raiseIf]; rfl
  by_cases h2 : isTimeColumn (f.col dateCol) = false
  · simp only [h1, h2, raiseIf]; rfl
  by_cases h3 : spacedBy 1 (f.col dateCol) = true
  · simp only [h1, h2, h3, raiseIf]
    by_cases h4 : (weekCol :: startCol :: itemCol :: extra).any (fun c => decide (c ∉ f.cols)) = true
    · simp only [h4]; rfl
    by_cases h5 : ¬ (weekCol :: startCol :: itemCol :: extra).Nodup ∨ dateCol ∈ weekCol :: startCol :: itemCol :: extra ∨
        "days_in_week" ∈ weekCol :: startCol :: itemCol :: extra
    · simp only [h4, h5]; rfl
    have hany : ∀ metrics : List String, (laterFrame τ S f).rows.any (fun r => metrics.any (fun c => !(r c).isNumeric)) =
        f.rows.any (fun r => metrics.any (fun c => !(r c).isNumeric)) := by
      intro metrics
      rw [laterFrame_rows, List.any_map]
      simp only [Function.comp_def, laterRow_isNumeric]
    rw [hany]
    by_cases h6 : f.rows.any (fun r => (f.cols.filter (fun c => decide (c ∉ weekCol :: startCol :: itemCol :: extra ∧ c ≠ dateCol))).any
        (fun c => !(r c).isNumeric)) = true
    · simp only [h4, h5, h6]; rfl
    simp only [h4, h5, h6]
    show (Except.ok _ : Py (Frame K)) = Except.ok _
    congr 1
    unfold laterFrame
    simp only
    congr 1
    rw [groupKeys_later, List.filter_map, List.map_map, List.map_map]
    have hf : (groupKeys f.rows (weekCol :: startCol :: itemCol :: extra)).filter
        ((fun k => decide (nunique ((groupRows (f.rows.map (laterRow τ S)) (weekCol :: startCol :: itemCol :: extra) k).map (fun r => r dateCol)) = 7)) ∘
          laterKey τ S (weekCol :: startCol :: itemCol :: extra)) =
        (groupKeys f.rows (weekCol :: startCol :: itemCol :: extra)).filter
          (fun k => decide (nunique ((groupRows f.rows (weekCol :: startCol :: itemCol :: extra) k).map (fun r => r dateCol)) = 7)) := by
      refine List.filter_congr fun k _ => ?_
      simp only [Function.comp, groupRows_later, List.map_map]
      have : (fun r : Row K => r dateCol) ∘ laterRow τ S = later τ ∘ fun r => r dateCol := by
        funext r
        exact laterRow_of_mem hd r
      rw [this, ← List.map_map, nunique_later]
    rw [hf]
    refine List.map_congr_left fun k _ => ?_
    exact weekRow_later _ _ _
  · by_cases h4 : spacedBy 7 (f.col dateCol) = true
    · simp only [h1, h2, h3, h4, raiseIf]; rfl
    · simp only [h1, h2, h3, h4, raiseIf]; rfl

theorem downsample_later [FloorRing K] (R : Rounding K) (rng : Sampler (Cell K)) (f : Frame K) (fraction : K) {itemCol : String} (hi : itemCol ∉ S) :
    downsample R rng (laterFrame τ S f) fraction itemCol = (downsample R rng f fraction itemCol).map (laterFrame τ S) := by
  unfold downsample
  rw [laterFrame_cols, laterFrame_col_not_mem hi]
  by_cases h1 : fraction ≤ 0 ∨ 1 < fraction
  · simp only [h1, raiseIf]; rfl
  by_cases h2 : itemCol ∉ f.cols
  · simp only [h1, h2, raiseIf]; rfl
  by_cases h3 : fraction = 1
  · simp only [h1, h2, raiseIf, if_pos h3]; rfl
  simp only [h1, h2, raiseIf, if_neg h3]
  show (Except.ok _ : Py (Frame K)) = Except.ok _
  congr 1
  unfold Frame.filterRows laterFrame
  simp only
  congr 1
  rw [List.filter_map]
  congr 1
  refine List.filter_congr fun r _ => ?_
  simp only [Function.comp, laterRow_of_not_mem hi]

theorem cleanHistorical_later [FloorRing K] {R : Rounding K} {rng : Sampler (Cell K)} {E : Ext K} {raw raw' : Frame K}
    {itemCol dateCol primary primaryCol : String} {fraction : K} (h : Spec.RawLater E dateCol τ raw raw') :
    cleanHistorical R rng E raw' itemCol dateCol primary primaryCol fraction =
      (cleanHistorical R rng E raw itemCol dateCol primary primaryCol fraction).map (fun p => (p.1, laterFrame τ ["date", "week_start"] p.2)) := by
  unfold cleanHistorical
  by_cases h1 : primary ∉ allowedPrimaryMetrics
  · simp only [h1, raiseIf]; rfl
  simp only [h1, raiseIf, bind, Except.bind]
  rw [standardize_later h]
  simp only [Bool.false_eq_true, if_false]
  cases standardize E raw itemCol dateCol (stdColsOf primary primaryCol) (if primary = "other" then [(primaryCol, primaryCol)] else [])
      (if primary = "other" then [(primaryCol, floatParse E)] else []) with
  | error e => rfl
  | ok f1 =>
    simp only [Except.map]
    rw [fillMissing_later]
    cases fillMissing f1 "item_id" "date" with
    | error e => rfl
    | ok f2 =>
      simp only [Except.map]
      rw [addWeeks_later_first]
      cases addWeeks E f2 "date" none "week_id" "week_start" with
      | error e => rfl
      | ok f3 =>
        simp only [Except.map]
        rw [groupWeeks_later f3 (by decide)]
        cases groupWeeks f3 "date" "item_id" "week_id" "week_start" [] with
        | error e => rfl
        | ok f4 =>
          simp only [Except.map]
          rw [downsample_later R rng f4 fraction (by decide)]
          cases downsample R rng f4 fraction "item_id" <;> rfl

theorem prepareHistorical_later [IsStrictOrderedRing K] [FloorRing K] {R : Rounding K} {rng : Sampler (Cell K)} {E : Ext K} {D : DateSorter K}
    {raw raw' : Frame K} {itemCol dateCol primary primaryCol : String} {fraction : K} {skip : List String} (h : Spec.RawLater E dateCol τ raw raw') :
    prepareHistorical R rng E D raw' itemCol dateCol primary primaryCol fraction skip =
      (prepareHistorical R rng E D raw itemCol dateCol primary primaryCol fraction skip).map (laterFrame τ ["date", "week_start"]) := by
  unfold prepareHistorical
  rw [cleanHistorical_later h]
  cases e : cleanHistorical R rng E raw itemCol dateCol primary primaryCol fraction with
  | error x => rfl
  | ok p =>
    obtain ⟨-, t0, hpan, -⟩ := cleanHistorical_panel e
    simp only [Except.map, bind, Except.bind]
    rw [validateHistorical_later p.2 (by decide) (by decide) (by decide) hpan.dateGivesWeek]
    cases validateHistorical D p.2 "item_id" "week_start" "week_id" p.1 skip <;> rfl

end

/-! ### The assignment -/

section
variable {K : Type} [Field K] [LinearOrder K] [FloorRing K] {τ : ℤ} {S : List String}

theorem pretestTotals_later (f : Frame K) (d : Design K) {itemCol weekCol : String} (hi : itemCol ∉ S) (hw : weekCol ∉ S) :
    pretestTotals (laterFrame τ S f) d itemCol weekCol = pretestTotals f d itemCol weekCol := by
  have hrows : pretestRows (laterFrame τ S f) weekCol d.pretest = (pretestRows f weekCol d.pretest).map (laterRow τ S) := by
    unfold pretestRows
    rw [laterFrame_col_not_mem hw]
    cases (ints (f.col weekCol)).max? with
    | none => rfl
    | some w =>
      simp only
      rw [laterFrame_rows, List.filter_map]
      congr 1
      refine List.filter_congr fun r _ => ?_
      simp only [Function.comp, laterRow_of_not_mem hw]
  have hk : ∀ k : List (Cell K), laterKey τ S [itemCol] k = k := laterKey_id (by simpa using hi)
  have htot : ∀ rows : List (Row K), (groupKeys (rows.map (laterRow τ S)) [itemCol]).map (weekRow (rows.map (laterRow τ S)) [itemCol]) =
      (groupKeys rows [itemCol]).map (weekRow rows [itemCol]) := by
    intro rows
    have hid : laterKey τ S [itemCol] = (id : List (Cell K) → List (Cell K)) := funext hk
    rw [groupKeys_later, hid, List.map_id]
    refine List.map_congr_left fun k _ => ?_
    funext c
    unfold weekRow
    have hg := groupRows_later (τ := τ) (S := S) rows [itemCol] k
    rw [hk] at hg
    rw [hg, sumCell_later]
  have hany : (laterFrame τ S f).rows.any (fun r => !(r d.primaryMetric).isNumeric) = f.rows.any (fun r => !(r d.primaryMetric).isNumeric) := by
    rw [laterFrame_rows, List.any_map]
    simp only [Function.comp_def, laterRow_isNumeric]
  unfold pretestTotals
  simp only [laterFrame_col_not_mem hw, laterFrame_cols, hrows, htot, hany]
  rfl

theorem eligibleItems_later (R : Rounding K) (σ : Shuffle) (f : Frame K) (d : Design K) {itemCol : String} {weekCol : Option String}
    (hi : itemCol ∉ S) (hw : weekCol.getD "" ∉ S) :
    eligibleItems R σ (laterFrame τ S f) d itemCol weekCol = eligibleItems R σ f d itemCol weekCol := by
  unfold eligibleItems
  rw [pretestTotals_later f d hi hw, laterFrame_col_not_mem hi]

theorem performAssignment_later (R : Rounding K) (σ : Shuffle) (E : Ext K) (binom : ℕ → ℕ → Py K) (bytes : List ℕ) (f : Frame K) (d : Design K)
    {itemCol : String} {weekCol : Option String} (treatCol : String) (hi : itemCol ∉ S) (hw : weekCol.getD "" ∉ S) :
    performAssignment R σ E binom bytes (laterFrame τ S f) d itemCol weekCol treatCol = performAssignment R σ E binom bytes f d itemCol weekCol treatCol := by
  unfold performAssignment
  simp only [laterFrame_cols, eligibleItems_later R σ f d hi hw]

end

/-! ### The simulations -/

section
variable {τ : ℤ} {S : List String}

/-- The column names that the notebook uses. -/
structure DesignerNames (S : List String) (c : SimConfig) : Prop where
  week : c.weekCol = "week_id"
  period : c.periodCol = "time_period"
  item : c.itemCol ∉ S

/-- An analysis at another time. -/
def laterState (τ : ℤ) (S : List String) (s : SimState) : SimState := { s with data := laterFrame τ S s.data }

theorem historicalTable_later (hp : "time_period" ∉ S) (R : Rounding ℝ) (σ : Shuffle) {c : SimConfig} (hc : DesignerNames S c) (boot : Option (List ℕ)) (start : ℤ)
    (data : Frame ℝ) : historicalTable R σ c boot start (laterFrame τ S data) =
      ((historicalTable R σ c boot start data).1, laterFrame τ S (historicalTable R σ c boot start data).2) := by
  unfold historicalTable
  rw [hc.week, hc.period, pivotTimeAssignment_later _ _ _ (by simpa [indexColumns] using hc.item) hp]
  rcases pivotTimeAssignment c.design.toDesignParams start [c.design.primaryMetric] c.itemCol "week_id" none "time_period" data with ⟨_ | piv, data'⟩ <;> rfl

theorem statsOfWeeks_later (hp : "time_period" ∉ S) (R : Rounding ℝ) (argsort : List ℝ → List ℕ) (σ : ℤ → Shuffle) {c : SimConfig} (hc : DesignerNames S c)
    (starts : List ℤ) (data : Frame ℝ) : statsOfWeeks R argsort σ c starts (laterFrame τ S data) =
      ((statsOfWeeks R argsort σ c starts data).1, laterFrame τ S (statsOfWeeks R argsort σ c starts data).2) := by
  induction starts generalizing data with
  | nil => rfl
  | cons start rest ih =>
    unfold statsOfWeeks
    rw [historicalTable_later hp R (σ start) hc]
    rcases historicalTable R (σ start) c none start data with ⟨_ | w, data'⟩
    · rfl
    · simp only
      cases primaryStats R argsort c.design w with
      | error e => rfl
      | ok s =>
        simp only
        rw [ih]
        rcases statsOfWeeks R argsort σ c rest data' with ⟨_ | l, data''⟩ <;> rfl

theorem estimateMde_later (hp : "time_period" ∉ S) (R : Rounding ℝ) (argsort : List ℝ → List ℕ) (D : TDist) (σ : ℤ → Shuffle) {c : SimConfig}
    (hc : DesignerNames S c) (s : SimState) : estimateMde R argsort D σ c (laterState τ S s) =
      ((estimateMde R argsort D σ c s).1, laterState τ S (estimateMde R argsort D σ c s).2) := by
  unfold estimateMde
  have hd : (laterState τ S s).data = laterFrame τ S s.data := rfl
  rw [hd, statsOfWeeks_later hp R argsort σ hc]
  rcases statsOfWeeks R argsort σ c c.starts s.data with ⟨_ | l, data⟩
  · rfl
  · simp only
    cases averageStats l with
    | error e => rfl
    | ok a =>
      simp only
      cases mdeOf D c.design a.1 a.2.1 a.2.2 <;> rfl

theorem simulateOnce_later (hp : "time_period" ∉ S) (R : Rounding ℝ) (argsort : List ℝ → List ℕ) (D : TDist) {c : SimConfig} (hc : DesignerNames S c) (effect : Fl ℝ)
    (r : SimDraw) (data : Frame ℝ) : simulateOnce R argsort D c effect r (laterFrame τ S data) =
      ((simulateOnce R argsort D c effect r data).1, laterFrame τ S (simulateOnce R argsort D c effect r data).2) := by
  unfold simulateOnce
  rw [historicalTable_later hp R r.shuffle hc]
  rcases historicalTable R r.shuffle c (some r.boot) r.start data with ⟨_ | w, data'⟩ <;> rfl

theorem simulateAll_later (hp : "time_period" ∉ S) (R : Rounding ℝ) (argsort : List ℝ → List ℕ) (D : TDist) {c : SimConfig} (hc : DesignerNames S c) (effect : Fl ℝ)
    (draws : List SimDraw) (data : Frame ℝ) : simulateAll R argsort D c effect draws (laterFrame τ S data) =
      ((simulateAll R argsort D c effect draws data).1, laterFrame τ S (simulateAll R argsort D c effect draws data).2) := by
  induction draws generalizing data with
  | nil => rfl
  | cons r rest ih =>
    unfold simulateAll
    rw [simulateOnce_later hp R argsort D hc]
    by_cases h : c.starts = []
    · simp only [h, if_pos]
    simp only [h, if_false]
    rcases simulateOnce R argsort D c effect r data with ⟨_ | x, data'⟩
    · rfl
    · simp only
      rw [ih]
      rcases simulateAll R argsort D c effect rest data' with ⟨_ | l, data''⟩ <;> rfl

theorem validateSim_later (hp : "time_period" ∉ S) (R : Rounding ℝ) (argsort : List ℝ → List ℕ) (D : TDist) {c : SimConfig} (hc : DesignerNames S c)
    (draws : List SimDraw) (s : SimState) : validateSim R argsort D c draws (laterState τ S s) =
      ((validateSim R argsort D c draws s).1, laterState τ S (validateSim R argsort D c draws s).2) := by
  unfold validateSim
  have hm' : (laterState τ S s).mde = s.mde := rfl
  rw [hm']
  cases hm : s.mde with
  | none => rfl
  | some effect =>
    simp only
    have hd : (laterState τ S s).data = laterFrame τ S s.data := rfl
    rw [hd, simulateAll_later hp R argsort D hc]
    rcases simulateAll R argsort D c effect draws s.data with ⟨_ | l, data⟩ <;> rfl

theorem mkSimulation_later (d : Design ℝ) (data : Frame ℝ) (itemCol periodCol treatCol : String) {weekCol : String} (hw : weekCol ∉ S) (minStart : ℤ)
    (threshold : ℝ) : mkSimulation d (laterFrame τ S data) itemCol weekCol periodCol treatCol minStart threshold =
      (mkSimulation d data itemCol weekCol periodCol treatCol minStart threshold).map (fun a => (a.1, laterState τ S a.2)) := by
  unfold mkSimulation
  rw [laterFrame_cols, laterFrame_col_not_mem hw]
  have hb : ∀ {α β γ : Type} (x : Py α) (f : α → Py β) (g : β → γ), (x >>= f).map g = x >>= fun a => (f a).map g := by
    intro _ _ _ x f g
    cases x <;> rfl
  rw [hb]
  congr 1
  funext _
  rw [hb]
  congr 1
  funext _
  cases (ints (data.col weekCol)).max? <;> rfl

theorem analyseDesign_later (hp : "time_period" ∉ S) (hw : "week_id" ∉ S) (hi : "item_id" ∉ S) (V : StudyEnv) (data : Frame ℝ) (minStart : ℤ) (σ : ℤ → Shuffle)
    (d : Design ℝ) : analyseDesign V (laterFrame τ S data) minStart σ d =
      (analyseDesign V data minStart σ d).map (fun a => (a.1, laterState τ S a.2)) := by
  unfold analyseDesign
  rw [mkSimulation_later d data _ _ _ hw]
  cases e : mkSimulation d data "item_id" "week_id" "time_period" "treatment" minStart (1 / 10000) with
  | error x => rfl
  | ok a =>
    have hc : DesignerNames S a.1 := by
      unfold mkSimulation at e
      obtain ⟨-, e⟩ := raiseIf_bind_ok.mp e
      obtain ⟨-, e⟩ := raiseIf_bind_ok.mp e
      revert e
      cases (ints (data.col "week_id")).max? with
      | none => intro e; exact absurd e (by simp)
      | some w =>
        intro e
        rw [← Except.ok.inj e]
        exact ⟨rfl, rfl, hi⟩
    simp only [Except.map, bind, Except.bind]
    rw [estimateMde_later hp V.R V.argsort V.tdist σ hc]
    rcases estimateMde V.R V.argsort V.tdist σ a.1 a.2 with ⟨_ | _, s⟩ <;> rfl

/-! ### The session -/

/-- The analyses at another time. -/
def laterStudy (τ : ℤ) (S : List String) (s : Study) : Study := s.map (fun e => (e.1, (e.2.1, laterState τ S e.2.2)))

theorem dictSet_map {α β γ : Type} [DecidableEq α] (g : β → γ) (k : α) (v : β) (l : List (α × β)) :
    dictSet k (g v) (l.map (fun p => (p.1, g p.2))) = (dictSet k v l).map (fun p => (p.1, g p.2)) := by
  induction l with
  | nil => rfl
  | cons p l ih =>
    simp only [List.map_cons, dictSet]
    split
    · rfl
    · rw [ih]; rfl

theorem dictOf_map {α β γ : Type} [DecidableEq α] (g : β → γ) (l : List (α × β)) :
    dictOf (l.map (fun p => (p.1, g p.2))) = (dictOf l).map (fun p => (p.1, g p.2)) := by
  unfold dictOf
  have : ∀ acc : List (α × β), (l.map (fun p => (p.1, g p.2))).foldl (fun acc p => dictSet p.1 p.2 acc) (acc.map (fun p => (p.1, g p.2))) =
      (l.foldl (fun acc p => dictSet p.1 p.2 acc) acc).map (fun p => (p.1, g p.2)) := by
    induction l with
    | nil => exact fun _ => rfl
    | cons p l ih =>
      intro acc
      rw [List.map_cons, List.foldl_cons, List.foldl_cons]
      simp only [dictSet_map]
      exact ih _
  exact this []

theorem lookup_map_snd {α β γ : Type} [BEq α] (g : β → γ) (k : α) (l : List (α × β)) :
    (l.map (fun p => (p.1, g p.2))).lookup k = (l.lookup k).map g := by
  induction l with
  | nil => rfl
  | cons p l ih =>
    obtain ⟨a, b⟩ := p
    simp only [List.map_cons, List.lookup_cons]
    cases k == a
    · exact ih
    · rfl

theorem estimateDesigns_later (hp : "time_period" ∉ S) (hw : "week_id" ∉ S) (hi : "item_id" ∉ S) (V : StudyEnv) (data : Frame ℝ) (minStart : ℤ)
    (designs : List (Design ℝ)) : estimateDesigns V (laterFrame τ S data) minStart designs =
      (estimateDesigns V data minStart designs).map (laterStudy τ S) := by
  unfold estimateDesigns
  rw [mapM_map_outcome (g := fun e : List Char × (SimConfig × SimState) => (e.1, (e.2.1, laterState τ S e.2.2)))
    (x := fun p : Design ℝ × ℕ => do
      let a ← analyseDesign V data minStart (V.shuffle p.2) p.1
      let id ← designId V.R V.fr V.printable a.1.design
      return (id, a))]
  · cases designs.zipIdx.mapM (m := Py) (fun p => do
      let a ← analyseDesign V data minStart (V.shuffle p.2) p.1
      let id ← designId V.R V.fr V.printable a.1.design
      return (id, a)) with
    | error e => rfl
    | ok l => exact congrArg Except.ok (dictOf_map (fun a : SimConfig × SimState => (a.1, laterState τ S a.2)) l)
  · intro p _
    rw [analyseDesign_later hp hw hi]
    cases analyseDesign V data minStart (V.shuffle p.2) p.1 with
    | error e => rfl
    | ok a =>
      simp only [Except.map, bind, Except.bind]
      cases designId V.R V.fr V.printable a.1.design <;> rfl

theorem openStudy_later (V : StudyEnv) (form : StudyForm) {raw raw' : Frame ℝ} (h : Spec.RawLater V.ext form.dateCol τ raw raw') :
    openStudy V form raw' = (openStudy V form raw).map
      (fun p => (laterFrame τ ["date", "week_start"] p.1, laterStudy τ ["date", "week_start"] p.2)) := by
  unfold openStudy
  rw [prepareHistorical_later h]
  cases prepareHistorical V.R V.rng V.ext V.sorter raw form.itemCol form.dateCol form.primary form.primaryCol form.fraction form.skip with
  | error e => rfl
  | ok data =>
    simp only [Except.map, bind, Except.bind]
    by_cases h1 : form.crossoverAllowed = true ∧ form.washout < 1
    · simp only [h1, raiseIf]; rfl
    simp only [h1, raiseIf, if_false]
    have hcand : form.candidates (laterFrame τ ["date", "week_start"] data) = form.candidates data := by
      unfold StudyForm.candidates
      rw [laterFrame_col_not_mem (by decide)]
    rw [hcand, laterFrame_col_not_mem (x := "week_id") (by decide)]
    cases generateDesigns V.R (form.candidates data) with
    | error e => rfl
    | ok designs =>
      simp only
      cases minStartWeek form.runtimes form.pretests (ints (dropDup (data.col "week_id"))) with
      | error e => rfl
      | ok minStart =>
        simp only
        rw [estimateDesigns_later (by decide) (by decide) (by decide)]
        cases estimateDesigns V data minStart designs <;> rfl

/-- All analyses use the column names of the notebook. -/
def StudyNames (S : List String) (s : Study) : Prop := ∀ e ∈ s, DesignerNames S e.2.1

theorem StudyNames.dictSet {s : Study} (h : StudyNames S s) {id : List Char} {a : SimConfig × SimState} (ha : DesignerNames S a.1) :
    StudyNames S (dictSet id a s) := by
  induction s with
  | nil =>
    intro e he
    rw [List.mem_singleton.mp he]
    exact ha
  | cons p s ih =>
    intro e he
    unfold Feedx.dictSet at he
    split at he
    · rcases List.mem_cons.mp he with rfl | he
      · exact ha
      · exact h e (List.mem_cons_of_mem _ he)
    · rcases List.mem_cons.mp he with rfl | he
      · exact h _ List.mem_cons_self
      · exact ih (fun e he => h e (List.mem_cons_of_mem _ he)) e he

theorem StudyNames.get {s : Study} (h : StudyNames S s) {id : List Char} {a : SimConfig × SimState} (ha : s.get id = .ok a) : DesignerNames S a.1 := by
  unfold Study.get at ha
  cases e : s.lookup id with
  | none => rw [e] at ha; cases ha
  | some b =>
    rw [e] at ha
    cases ha
    have := List.lookup_eq_some_iff.mp e
    obtain ⟨l1, l2, e, -⟩ := this
    exact h (id, a) (by rw [e]; simp)

theorem analyseDesign_names (hi : "item_id" ∉ S) {V : StudyEnv} {data : Frame ℝ} {minStart : ℤ} {σ : ℤ → Shuffle} {d : Design ℝ} {a : SimConfig × SimState}
    (h : analyseDesign V data minStart σ d = .ok a) : DesignerNames S a.1 := by
  unfold analyseDesign at h
  obtain ⟨b, e, h⟩ := Py.bind_eq_ok.mp h
  obtain ⟨-, -, h⟩ := Py.bind_eq_ok.mp h
  rw [← Except.ok.inj h]
  unfold mkSimulation at e
  obtain ⟨-, e⟩ := raiseIf_bind_ok.mp e
  obtain ⟨-, e⟩ := raiseIf_bind_ok.mp e
  revert e
  cases (ints (data.col "week_id")).max? with
  | none => intro e; exact absurd e (by simp)
  | some w =>
    intro e
    rw [← Except.ok.inj e]
    exact ⟨rfl, rfl, hi⟩

theorem openStudy_names (hi : "item_id" ∉ S) {V : StudyEnv} {form : StudyForm} {raw data : Frame ℝ} {s : Study} (h : openStudy V form raw = .ok (data, s)) :
    StudyNames S s := by
  unfold openStudy at h
  obtain ⟨data', -, h⟩ := Py.bind_eq_ok.mp h
  obtain ⟨-, h⟩ := raiseIf_bind_ok.mp h
  obtain ⟨designs, -, h⟩ := Py.bind_eq_ok.mp h
  obtain ⟨minStart, -, h⟩ := Py.bind_eq_ok.mp h
  obtain ⟨study, e, h⟩ := Py.bind_eq_ok.mp h
  obtain ⟨rfl, rfl⟩ := Prod.mk.inj (Except.ok.inj h)
  unfold estimateDesigns at e
  obtain ⟨l, e, h⟩ := Py.bind_eq_ok.mp e
  rw [← Except.ok.inj h]
  have hl : ∀ x ∈ l, DesignerNames S x.2.1 := by
    clear h
    revert e
    generalize designs.zipIdx = ps
    induction ps generalizing l with
    | nil =>
      intro e x hx
      rw [← Except.ok.inj e] at hx
      exact absurd hx List.not_mem_nil
    | cons p ps ih =>
      intro e x hx
      rw [List.mapM_cons] at e
      obtain ⟨y, ey, e⟩ := Py.bind_eq_ok.mp e
      obtain ⟨l', el, e⟩ := Py.bind_eq_ok.mp e
      rw [← Except.ok.inj e] at hx
      rcases List.mem_cons.mp hx with rfl | hx
      · obtain ⟨a, ea, ey⟩ := Py.bind_eq_ok.mp ey
        obtain ⟨id, -, ey⟩ := Py.bind_eq_ok.mp ey
        rw [← Except.ok.inj ey]
        exact analyseDesign_names hi ea
      · exact ih l' el x hx
  unfold dictOf
  have : ∀ acc : Study, StudyNames S acc → StudyNames S (l.foldl (fun acc p => Feedx.dictSet p.1 p.2 acc) acc) := by
    clear e h
    induction l with
    | nil => exact fun _ h => h
    | cons p l ih =>
      intro acc hacc
      rw [List.foldl_cons]
      exact ih (fun x hx => hl x (List.mem_cons_of_mem _ hx)) _ (hacc.dictSet (hl p List.mem_cons_self))
  exact this [] fun _ h => absurd h List.not_mem_nil

theorem get_later (s : Study) (id : List Char) : (laterStudy τ S s).get id = (s.get id).map (fun a => (a.1, laterState τ S a.2)) := by
  unfold Study.get laterStudy
  rw [lookup_map_snd (fun a : SimConfig × SimState => (a.1, laterState τ S a.2))]
  cases s.lookup id <;> rfl

theorem validateOne_later (hp : "time_period" ∉ S) (V : StudyEnv) (force : Bool) (draws : List SimDraw) (id : List Char) {s : Study} (hs : StudyNames S s) :
    validateOne V force draws id (laterStudy τ S s) = ((validateOne V force draws id s).1, laterStudy τ S (validateOne V force draws id s).2) ∧
      StudyNames S (validateOne V force draws id s).2 := by
  unfold validateOne
  rw [get_later]
  cases e : s.get id with
  | error x => exact ⟨rfl, hs⟩
  | ok a =>
    simp only [Except.map]
    have hf : falsePositiveRate a.1.design (laterState τ S a.2) = falsePositiveRate a.1.design a.2 := rfl
    rw [hf]
    cases falsePositiveRate a.1.design a.2 with
    | error x => exact ⟨rfl, hs⟩
    | ok rate =>
      simp only
      by_cases h : force = false ∧ rate ≠ none
      · rw [if_pos h, if_pos h]; exact ⟨rfl, hs⟩
      · rw [if_neg h, if_neg h, validateSim_later hp V.R V.argsort V.tdist (hs.get e)]
        refine ⟨?_, hs.dictSet (show DesignerNames S a.1 from hs.get e)⟩
        exact congrArg (Prod.mk _) (dictSet_map (fun a : SimConfig × SimState => (a.1, laterState τ S a.2)) id
          (a.1, (validateSim V.R V.argsort V.tdist a.1 draws a.2).2) s)

theorem validateStudy_later (hp : "time_period" ∉ S) (V : StudyEnv) (force : Bool) (targets : List (List Char × List SimDraw)) {s : Study}
    (hs : StudyNames S s) :
    validateStudy V force targets (laterStudy τ S s) = ((validateStudy V force targets s).1, laterStudy τ S (validateStudy V force targets s).2) ∧
      StudyNames S (validateStudy V force targets s).2 := by
  induction targets generalizing s with
  | nil => exact ⟨rfl, hs⟩
  | cons t rest ih =>
    obtain ⟨id, draws⟩ := t
    obtain ⟨h1, h2⟩ := validateOne_later (τ := τ) hp V force draws id hs
    unfold validateStudy
    rw [h1]
    revert h2
    rcases validateOne V force draws id s with ⟨_ | _, s'⟩
    · exact fun h2 => ⟨rfl, h2⟩
    · exact fun h2 => ih h2

theorem summaryDict_later (R : Rounding ℝ) (fr : ℝ → List Char) (printable : Char → Bool) (X : RobustnessTests) (c : SimConfig) (s : SimState) :
    summaryDict R fr printable X c (laterState τ S s) = summaryDict R fr printable X c s := rfl

theorem showStudy_later (V : StudyEnv) (sorter : SummarySorter) (text : SVal ℝ → String) (b : Bool) (s : Study) :
    showStudy V sorter text b (laterStudy τ S s) = showStudy V sorter text b s := by
  have h : ∀ sortBy, makeSummary V.R V.fr V.printable V.tests sorter ((laterStudy τ S s).map Prod.snd) sortBy =
      makeSummary V.R V.fr V.printable V.tests sorter (s.map Prod.snd) sortBy := by
    intro sortBy
    unfold makeSummary
    have hm : ((laterStudy τ S s).map Prod.snd).mapM (fun a => summaryDict V.R V.fr V.printable V.tests a.1 a.2) =
        (s.map Prod.snd).mapM (fun a => summaryDict V.R V.fr V.printable V.tests a.1 a.2) := by
      unfold laterStudy
      induction s with
      | nil => rfl
      | cons e s ih =>
        simp only [List.map_cons, List.mapM_cons] at ih ⊢
        rw [ih, summaryDict_later]
    rw [hm]
  unfold showStudy
  rw [h]

theorem exportStudy_later (hi : "item_id" ∉ S) (hw : "week_id" ∉ S) (V : StudyEnv) (binom : ℕ → ℕ → Py ℝ) (σ : Shuffle) (bytes : List ℕ) (data : Frame ℝ)
    (id : List Char) (fileName : String) {s : Study} (hs : StudyNames S s) :
    exportStudy V binom σ bytes (laterFrame τ S data) id fileName (laterStudy τ S s) =
      ((exportStudy V binom σ bytes data id fileName s).1, laterStudy τ S (exportStudy V binom σ bytes data id fileName s).2) ∧
      StudyNames S (exportStudy V binom σ bytes data id fileName s).2 := by
  unfold exportStudy
  rw [get_later]
  cases e : s.get id with
  | error x => exact ⟨rfl, hs⟩
  | ok a =>
    simp only [Except.map]
    have hf : falsePositiveRate a.1.design (laterState τ S a.2) = falsePositiveRate a.1.design a.2 := rfl
    have hall : allChecksPass V.tests a.1 (laterState τ S a.2) = allChecksPass V.tests a.1 a.2 := rfl
    rw [hf, hall, performAssignment_later V.R σ V.ext binom bytes data a.1.design "treatment_assignment" hi (by simpa using hw)]
    split
    · rename_i x hx
      exact ⟨by first | rfl | (rw [hx]), by first | exact hs | (rw [hx]; exact hs)⟩
    · rename_i x hx
      have hn := hs.get e
      refine ⟨?_, ?_⟩
      · exact congrArg (Prod.mk _) (dictSet_map (fun a : SimConfig × SimState => (a.1, laterState τ S a.2)) id
          ({ a.1 with
            design := (performAssignment V.R σ V.ext binom bytes data a.1.design "item_id" (some "week_id") "treatment_assignment").1 }, a.2) s)
      · exact hs.dictSet ⟨hn.week, hn.period, hn.item⟩

theorem runCells_later (hp : "time_period" ∉ S) (hi : "item_id" ∉ S) (hw : "week_id" ∉ S) (V : StudyEnv) (data : Frame ℝ) (cells : List StudyCell) {s : Study}
    (hs : StudyNames S s) : runCells V (laterFrame τ S data) (laterStudy τ S s) cells = laterStudy τ S (runCells V data s cells) ∧
      StudyNames S (runCells V data s cells) := by
  unfold runCells
  induction cells generalizing s with
  | nil => exact ⟨rfl, hs⟩
  | cons cell cells ih =>
    rw [List.foldl_cons, List.foldl_cons]
    have h : runCell V (laterFrame τ S data) (laterStudy τ S s) cell = laterStudy τ S (runCell V data s cell) ∧ StudyNames S (runCell V data s cell) := by
      cases cell with
      | validate force targets =>
        obtain ⟨h1, h2⟩ := validateStudy_later (τ := τ) hp V force targets hs
        exact ⟨congrArg Prod.snd h1, h2⟩
      | assign binom σ bytes id fileName =>
        obtain ⟨h1, h2⟩ := exportStudy_later (τ := τ) hi hw V binom σ bytes data id fileName hs
        exact ⟨congrArg Prod.snd h1, h2⟩
    rw [h.1]
    exact ih h.2

end

end Feedx
