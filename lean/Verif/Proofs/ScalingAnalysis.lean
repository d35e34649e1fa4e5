import Verif.Spec.Report
import Verif.Proofs.ScalingTests

/-!
Lemmas for C128: the analysis of data with a column in other units.
-/

set_option linter.unusedSectionVars false
set_option maxHeartbeats 1000000

namespace Feedx

open Fl

/-- The relation between the rows of the two tables. -/
def RowTimes (c : ℝ) (col : String) (r r' : Row ℝ) : Prop := (∀ x, x ≠ col → r' x = r x) ∧ (r' col).toFl = .fin c * (r col).toFl

/-- What the values of column `m` are multiplied by. -/
noncomputable def unitOf (c : ℝ) (col m : String) : ℝ := if m = col then c else 1

theorem unitOf_pos {c : ℝ} (hc : 0 < c) (col m : String) : 0 < unitOf c col m := by
  unfold unitOf; split_ifs
  · exact hc
  · exact one_pos

theorem sorts_unitOf {argsort : List ℝ → List ℕ} {c : ℝ} (h : Spec.SortsInUnits argsort c) (col m : String) : Spec.SortsInUnits argsort (unitOf c col m) := by
  unfold unitOf; split_ifs
  · exact h
  · intro l; simp

section rows
variable {c : ℝ} {col : String}

theorem RowTimes.toFl {r r' : Row ℝ} (h : RowTimes c col r r') (m : String) : (r' m).toFl = fin (unitOf c col m) * (r m).toFl := by
  unfold unitOf
  by_cases hm : m = col
  · subst hm; rw [if_pos rfl]; exact h.2
  · rw [if_neg hm, h.1 m hm, sc_one]

theorem rows_map {l l' : List (Row ℝ)} (h : List.Forall₂ (RowTimes c col) l l') {β : Type} (g : Row ℝ → β) (hg : ∀ r r', RowTimes c col r r' → g r' = g r) :
    l'.map g = l.map g := by
  induction h with
  | nil => rfl
  | cons hr _ ih => rw [List.map_cons, List.map_cons, hg _ _ hr, ih]

theorem rows_filter {l l' : List (Row ℝ)} (h : List.Forall₂ (RowTimes c col) l l') (p : Row ℝ → Bool) (hp : ∀ r r', RowTimes c col r r' → p r' = p r) :
    List.Forall₂ (RowTimes c col) (l.filter p) (l'.filter p) := by
  induction h with
  | nil => exact List.Forall₂.nil
  | @cons r r' _ _ hr _ ih =>
    by_cases hpr : p r = true
    · rw [List.filter_cons_of_pos hpr, List.filter_cons_of_pos (by rw [hp _ _ hr]; exact hpr)]
      exact List.Forall₂.cons hr ih
    · rw [List.filter_cons_of_neg hpr, List.filter_cons_of_neg (by rw [hp _ _ hr]; exact hpr)]
      exact ih

theorem rows_any {l l' : List (Row ℝ)} (h : List.Forall₂ (RowTimes c col) l l') (p : Row ℝ → Bool) (hp : ∀ r r', RowTimes c col r r' → p r' = p r) :
    l'.any p = l.any p := by
  induction h with
  | nil => rfl
  | cons hr _ ih => rw [List.any_cons, List.any_cons, hp _ _ hr, ih]

theorem rows_all {l l' : List (Row ℝ)} (h : List.Forall₂ (RowTimes c col) l l') (p : Row ℝ → Bool) (hp : ∀ r r', RowTimes c col r r' → p r' = p r) :
    l'.all p = l.all p := by
  induction h with
  | nil => rfl
  | cons hr _ ih => rw [List.all_cons, List.all_cons, hp _ _ hr, ih]

theorem isNan_scale {a : ℝ} (ha : 0 < a) (x : Fl ℝ) : (fin a * x).isNan = x.isNan := by
  cases x with
  | nan => rfl
  | ninf => rw [sc_ninf ha]
  | pinf => rw [sc_pinf ha]
  | fin x => rfl

theorem sumSkip_scale {a : ℝ} (ha : 0 < a) (l : List (Fl ℝ)) : sumSkip (l.map (fun x => fin a * x)) = fin a * sumSkip l := by
  unfold sumSkip
  induction l with
  | nil => show fin 0 = fin (a * 0); rw [mul_zero]
  | cons x l ih =>
    rw [List.map_cons]
    by_cases hx : x.isNan = true
    · rw [List.filter_cons_of_neg (by rw [isNan_scale ha]; simp [hx]), List.filter_cons_of_neg (by simp [hx]), ih]
    · rw [List.filter_cons_of_pos (by rw [isNan_scale ha]; simp [hx]), List.filter_cons_of_pos (by simp [hx]), List.foldr_cons, List.foldr_cons, ih,
        sc_add ha]

theorem sumCol_scale (hc : 0 < c) {l l' : List (Row ℝ)} (h : List.Forall₂ (RowTimes c col) l l') (m : String) :
    sumCol l' m = fin (unitOf c col m) * sumCol l m := by
  unfold sumCol
  rw [← sumSkip_scale (unitOf_pos hc col m), List.map_map]
  congr 1
  induction h with
  | nil => rfl
  | cons hr _ ih => rw [List.map_cons, List.map_cons, ih]; exact congrArg (· :: _) (hr.toFl m)

/-- The relation between the pivoted tables. -/
structure PivotTimes (c : ℝ) (col : String) (p p' : Pivoted ℝ) : Prop where
  index : p'.index = p.index
  keys : ∀ k ∈ p.index, k.length = 2
  periods : p'.periods = p.periods
  value : ∀ k m x, p'.value k m x = fin (unitOf c col m) * p.value k m x
  whole : ∀ m, m ≠ col → p'.whole m = p.whole m

theorem pivotTable_scale (hc : 0 < c) {d : DesignParams ℝ} {i t pc : String} (hi : i ≠ col) (ht : t ≠ col) (hp : pc ≠ col) {l l' : List (Row ℝ)}
    (h : List.Forall₂ (RowTimes c col) l l') : PivotTimes c col (pivotTable d [i, t] pc l) (pivotTable d [i, t] pc l') := by
  have hidx : ∀ r r', RowTimes c col r r' → ([i, t].map r' : List (Cell ℝ)) = [i, t].map r := fun r r' hr => by
    simp only [List.map_cons, List.map_nil, hr.1 i hi.symm.symm, hr.1 t ht]
  have hper : ∀ r r', RowTimes c col r r' → r' pc = r pc := fun r r' hr => hr.1 pc hp
  have hfil := rows_filter h (fun r => !(r pc).isNull) (fun r r' hr => by simp only [hper r r' hr])
  constructor
  · show groupKeys _ _ = groupKeys _ _
    unfold groupKeys
    rw [rows_map hfil (fun r => [i, t].map r) hidx]
  · intro k hk
    obtain ⟨⟨r, -, rfl⟩, -⟩ := mem_groupKeys.mp hk
    simp
  · show dropDup _ = dropDup _
    congr 1
    refine rows_map (rows_filter h _ fun r r' hr => ?_) (fun r => r pc) hper
    simp only [hper r r' hr, List.all_cons, List.all_nil, hr.1 i hi, hr.1 t ht]
  · intro k m x
    have hs := sumCol_scale hc (rows_filter h (fun r => decide ([i, t].map r = k ∧ r pc = .str x)) (fun r r' hr => by
      simp only [hidx r r' hr, hper r r' hr])) m
    show (match periodWeeks d x with
      | some n => sumCol (l'.filter (fun r => decide ([i, t].map r = k ∧ r pc = .str x))) m / .fin (n : ℝ)
      | none => sumCol (l'.filter (fun r => decide ([i, t].map r = k ∧ r pc = .str x))) m) = fin (unitOf c col m) *
      (match periodWeeks d x with
      | some n => sumCol (l.filter (fun r => decide ([i, t].map r = k ∧ r pc = .str x))) m / .fin (n : ℝ)
      | none => sumCol (l.filter (fun r => decide ([i, t].map r = k ∧ r pc = .str x))) m)
    rw [hs]
    cases periodWeeks d x with
    | none => rfl
    | some n => exact sc_div_right (unitOf_pos hc col m) _ _
  · intro m hm
    exact rows_all h _ (fun r r' hr => by rw [hr.1 m hm])

theorem pivot_scale (hc : 0 < c) {d : DesignParams ℝ} {start : ℤ} {metrics : List String} {i w t pc : String} (hi : i ≠ col) (hw : w ≠ col) (ht : t ≠ col)
    (hp : pc ≠ col) {f f' : Frame ℝ} (hcols : f'.cols = f.cols) (h : List.Forall₂ (RowTimes c col) f.rows f'.rows) :
    Spec.SameOutcome (fun p p' => PivotTimes c col p p' ∧
        (∀ m, p.whole m = true → Spec.IntegerColumn f m ∨ m = pc) ∧ (∀ m, p'.whole m = true → Spec.IntegerColumn f' m ∨ m = pc))
      (pivotTimeAssignment d start metrics i w (some t) pc f).1 (pivotTimeAssignment d start metrics i w (some t) pc f').1 := by
  unfold pivotTimeAssignment
  rw [hcols]
  by_cases h1 : pc ∈ f.cols
  · simp only [if_pos h1]; rfl
  rw [if_neg h1, if_neg h1]
  by_cases h2 : ((i :: w :: (metrics ++ (some t).toList)).any fun c => decide (c ∉ f.cols)) = true
  · simp only [if_pos h2]; rfl
  simp only [if_neg h2]
  unfold labelRows
  by_cases h3 : d.isCrossover = true ∧ d.washout = none
  · simp only [raiseIf, if_pos h3]; rfl
  have hany := rows_any h (fun r => !(r w).isNumeric) (fun r r' hr => by rw [hr.1 w hw])
  by_cases h4 : f.rows.any (fun r => !(r w).isNumeric) = true
  · have h4' : f'.rows.any (fun r => !(r w).isNumeric) = true := by rw [hany]; exact h4
    simp only [raiseIf, if_neg h3, if_pos h4, if_pos h4']; rfl
  have h4' : ¬ f'.rows.any (fun r => !(r w).isNumeric) = true := by rw [hany]; exact h4
  simp only [raiseIf, if_neg h3, if_neg h4, if_neg h4']
  let lab : Row ℝ → Cell ℝ := fun r => match designLabel d start (r w).toFl with
    | .ok l => labelCell l
    | .error _ => .null
  have hlab : List.Forall₂ (RowTimes c col) (f.setCol pc lab).rows (f'.setCol pc lab).rows := by
    show List.Forall₂ _ (f.rows.map _) (f'.rows.map _)
    rw [List.forall₂_map_left_iff, List.forall₂_map_right_iff]
    refine h.imp fun r r' hr => ⟨fun x hx => ?_, ?_⟩
    · by_cases hxp : x = pc
      · subst hxp
        rw [Function.update_self, Function.update_self]
        simp only [lab, hr.1 w hw]
      · rw [Function.update_of_ne hxp, Function.update_of_ne hxp, hr.1 x hx]
    · rw [Function.update_of_ne hp.symm, Function.update_of_ne hp.symm]
      exact hr.2
  have hpt := pivotTable_scale hc (d := d) hi ht hp hlab
  have hwhole : ∀ (g : Frame ℝ) (m : String), (pivotTable d [i, t] pc (g.setCol pc lab).rows).whole m = true → Spec.IntegerColumn g m ∨ m = pc := by
    intro g m hm
    by_cases hmp : m = pc
    · exact Or.inr hmp
    refine Or.inl fun r hr => ?_
    have := List.all_eq_true.mp hm (Function.update r pc (lab r)) (List.mem_map.mpr ⟨r, hr, rfl⟩)
    simp only [Function.update_of_ne hmp] at this
    cases hrm : r m with
    | int n => exact ⟨n, rfl⟩
    | _ => rw [hrm] at this; cases this
  show Spec.SameOutcome _
    (if d.isCrossover = false ∧ Cell.str "test" ∉ (pivotTable d [i, t] pc (f.setCol pc lab).rows).periods then _ else _ : Py (Pivoted ℝ) × Frame ℝ).1
    (if d.isCrossover = false ∧ Cell.str "test" ∉ (pivotTable d [i, t] pc (f'.setCol pc lab).rows).periods then _ else _ : Py (Pivoted ℝ) × Frame ℝ).1
  rw [hpt.periods]
  by_cases h5 : d.isCrossover = false ∧ Cell.str "test" ∉ (pivotTable d [i, t] pc (f.setCol pc lab).rows).periods
  · simp only [if_pos h5]; rfl
  · simp only [if_neg h5]
    exact ⟨hpt, hwhole f, hwhole f'⟩

end rows

section single
variable {c : ℝ} {col : String}

theorem finiteValues_scale (a : ℝ) (l : List (Fl ℝ)) (ha : 0 < a) :
    finiteValues (l.map (fun x => fin a * x)) = (finiteValues l).map (List.map (fun x => a * x)) := by
  unfold finiteValues
  induction l with
  | nil => rfl
  | cons x l ih =>
    rw [List.map_cons, List.mapM_cons, List.mapM_cons, ih]
    cases x with
    | nan => rfl
    | ninf => rw [sc_ninf ha]; rfl
    | pinf => rw [sc_pinf ha]; rfl
    | fin x =>
      rw [fin_mul]
      cases (l.mapM (fun x => match x with
        | .fin v => (.ok v : Py ℝ)
        | _ => .error .outOfModel)) <;> rfl

theorem maskSelect_scaled {α β : Type} (g : α → β) (mask : List Bool) (l : List α) : maskSelect mask (l.map g) = (maskSelect mask l).map g := by
  unfold maskSelect
  rw [List.zip_map_right, List.filter_map, List.map_map, List.map_map]
  rfl

theorem onlyNan_scale {a : ℝ} (ha : 0 < a) (l : List (Fl ℝ)) : onlyNan (l.map (fun x => fin a * x)) = onlyNan l := by
  unfold onlyNan
  congr 1
  simp only [ne_eq, List.map_eq_nil_iff, List.mem_map, forall_exists_index, and_imp, forall_apply_eq_imp_iff₂]
  refine propext (and_congr_right fun _ => forall_congr' fun x => imp_congr_right fun _ => ?_)
  cases x with
  | nan => exact ⟨fun _ => rfl, fun _ => rfl⟩
  | ninf => rw [sc_ninf ha]
  | pinf => rw [sc_pinf ha]
  | fin x => exact ⟨fun h => (by cases h), fun h => (by cases h)⟩

/-- The relation between the tables of a metric. -/
structure SubsetTimes (a : ℝ) (t : String) (g g' : Frame ℝ) : Prop where
  cols : g'.cols = g.cols
  treat : g'.col t = g.col t
  value : ∀ x ∈ ["test", "pretest", "test_1", "test_2"], (g'.col x).map Cell.toFl = ((g.col x).map Cell.toFl).map (fun y => fin a * y)

theorem flCell_reads (x : Fl ℝ) : (flCell x).toFl = x := by cases x <;> rfl

theorem subset_scale {p p' : Pivoted ℝ} (h : PivotTimes c col p p') {metrics : List String} {i t : String}
    (hi : i ∉ ["test", "pretest", "test_1", "test_2"]) (ht : t ∉ ["test", "pretest", "test_1", "test_2"]) (m : String) :
    Spec.SameOutcome (SubsetTimes (unitOf c col m) t) (metricSubset p metrics [i, t] m) (metricSubset p' metrics [i, t] m) := by
  unfold metricSubset
  refine (Spec.SameOutcome.raiseIf Iff.rfl).bind fun _ _ _ => ?_
  rw [h.periods]
  refine (Spec.SameOutcome.raiseIf Iff.rfl).bind fun _ _ _ => ?_
  show SubsetTimes _ _ _ _
  refine ⟨rfl, ?_, ?_⟩
  · simp only [Frame.col, List.map_map, h.index]
    refine List.map_congr_left fun k hk => ?_
    have hl := h.keys k hk
    obtain ⟨a, b, rfl⟩ := List.length_eq_two.mp hl
    simp only [Function.comp]
    have : ∃ v, ([i, t].zip [a, b]).lookup t = some v := by
      simp only [List.zip_cons_cons, List.zip_nil_right, List.lookup_cons]
      by_cases hti : t = i
      · exact ⟨a, by simp [hti]⟩
      · have hb : (t == i) = false := by simpa using hti
        exact ⟨b, by simp [hb]⟩
    obtain ⟨v, hv⟩ := this
    rw [hv]
  · intro x hx
    simp only [Frame.col, List.map_map, h.index]
    refine List.map_congr_left fun k hk => ?_
    have hl := h.keys k hk
    obtain ⟨a, b, rfl⟩ := List.length_eq_two.mp hl
    simp only [Function.comp]
    have : ([i, t].zip [a, b]).lookup x = none := by
      have h1 : x ≠ i := fun e => hi (e ▸ hx)
      have h2 : x ≠ t := fun e => ht (e ▸ hx)
      have h1' : (x == i) = false := by simpa using h1
      have h2' : (x == t) = false := by simpa using h2
      simp [List.lookup_cons, h1', h2']
    rw [this]
    simp only [flCell_reads]
    exact h.value _ _ _

theorem prepareRegular_scale {a : ℝ} (ha : 0 < a) (R : Rounding ℝ) (argsort : List ℝ → List ℕ) (hs : Spec.SortsInUnits argsort a) {t : String} {g g' : Frame ℝ}
    (h : SubsetTimes a t g g') (q : ℝ) :
    Spec.SameOutcome (fun y y' => y' = (y.1.map (fun x => fin a * x), y.2.map (fun x => fin a * x)))
      (prepareRegular R argsort g t q) (prepareRegular R argsort g' t q) := by
  unfold prepareRegular
  rw [h.value "test" (by simp), h.value "pretest" (by simp), finiteValues_scale a _ ha, finiteValues_scale a _ ha, h.cols, h.treat]
  refine Spec.SameOutcome.map.bind fun v v' hv => ?_
  subst hv
  refine Spec.SameOutcome.bind (P := fun (y y' : List (Fl ℝ)) => y' = y.map (fun x => fin a * x)) ?_ fun y y' hy => ?_
  · by_cases hp : "pretest" ∈ g.cols
    · rw [if_pos hp, if_pos hp]
      refine Spec.SameOutcome.map.bind fun w w' hw => ?_
      subst hw
      rw [cuped_scale ha R argsort hs]
      exact Spec.SameOutcome.map
    · rw [if_neg hp, if_neg hp]
      show _ = _
      rw [List.map_map, List.map_map]; rfl
  · subst hy
    show _ = _
    rw [maskSelect_scaled, maskSelect_scaled]

theorem indTestFl_scale {a b : ℝ} (ha : 0 < a) (hb : 0 < b) (R : Rounding ℝ) (argsort : List ℝ → List ℕ) (hs : Spec.SortsInUnits argsort a) (D : TDist)
    (y : List (Fl ℝ) × List (Fl ℝ)) (q : ℝ) (z : Option (List (Fl ℝ) × List (Fl ℝ))) :
    Spec.SameOutcome (fun r r' => SameReport (a / if z.isSome then b else 1) r r' ∧ (Spec.Precise r → Spec.SameRelativeBounds r r'))
      (indTestFl R argsort D y q z)
      (indTestFl R argsort D (y.1.map (fun x => fin a * x), y.2.map (fun x => fin a * x)) q
        (z.map (fun z => (z.1.map (fun x => fin b * x), z.2.map (fun x => fin b * x))))) := by
  unfold indTestFl
  have hnan : ∀ k : ℝ, 0 < k → ∀ n1 n2 pf, Spec.SameOutcome (fun r r' => SameReport k r r' ∧ (Spec.Precise r → Spec.SameRelativeBounds r r'))
      (resultsFrom D (indEstimates nan nan nan nan n1 n2 false) pf "two-sided" defaultAlpha)
      (resultsFrom D (indEstimates nan nan nan nan n1 n2 false) pf "two-sided" defaultAlpha) := fun k hk n1 n2 pf => ind_scale hk D nan nan nan nan n1 n2 pf
  cases z with
  | none =>
    simp only [Option.map_none, onlyNan_scale ha, List.length_map, Option.isSome_none, Bool.false_eq_true, if_false, div_one]
    by_cases hn : onlyNan y.1 = true ∧ onlyNan y.2 = true
    · rw [if_pos hn, if_pos hn]
      exact (Spec.SameOutcome.raiseIf Iff.rfl).bind fun _ _ _ => hnan a ha _ _ _
    · rw [if_neg hn, if_neg hn, finiteValues_scale a _ ha, finiteValues_scale a _ ha]
      refine Spec.SameOutcome.map.bind fun v1 _ h1 => Spec.SameOutcome.map.bind fun v2 _ h2 => ?_
      subst h1 h2
      exact indTest_scale ha R argsort hs D v1 v2 q
  | some z =>
    simp only [Option.map_some, onlyNan_scale ha, onlyNan_scale hb, List.length_map, Option.isSome_some, if_true]
    by_cases hn : (onlyNan y.1 = true ∧ onlyNan y.2 = true) ∨ (onlyNan z.1 = true ∧ onlyNan z.2 = true)
    · rw [if_pos hn, if_pos hn]
      exact (Spec.SameOutcome.raiseIf Iff.rfl).bind fun _ _ _ => hnan _ (div_pos ha hb) _ _ _
    · rw [if_neg hn, if_neg hn, finiteValues_scale a _ ha, finiteValues_scale a _ ha, finiteValues_scale b _ hb, finiteValues_scale b _ hb]
      refine Spec.SameOutcome.map.bind fun v1 _ h1 => Spec.SameOutcome.map.bind fun v2 _ h2 => Spec.SameOutcome.map.bind fun d1 _ h3 =>
        Spec.SameOutcome.map.bind fun d2 _ h4 => ?_
      subst h1 h2 h3 h4
      exact indTest_ratio_scale ha hb R argsort hs D v1 v2 d1 d2 q

theorem crossoverItems_scale {a : ℝ} (ha : 0 < a) {t : String} {g g' : Frame ℝ} (h : SubsetTimes a t g g') :
    Spec.SameOutcome (fun l l' => l' = l.map (fun x : Bool × ℝ × ℝ => (x.1, a * x.2.1, a * x.2.2))) (crossoverItems g t) (crossoverItems g' t) := by
  unfold crossoverItems
  rw [h.value "test_1" (by simp), h.value "test_2" (by simp), finiteValues_scale a _ ha, finiteValues_scale a _ ha, h.treat]
  refine Spec.SameOutcome.map.bind fun v1 _ h1 => Spec.SameOutcome.map.bind fun v2 _ h2 => ?_
  subst h1 h2
  show _ = _
  rw [List.zip_map, List.zip_map_right]
  rfl

theorem prepareCrossover_scale {a : ℝ} (store store' : ℝ → ℝ) (hst : ∀ x, store' (a * x) = a * store x) (l : List (Bool × ℝ × ℝ)) (b : Bool) :
    prepareCrossover store' (l.map (fun x : Bool × ℝ × ℝ => (x.1, a * x.2.1, a * x.2.2))) b =
      ((prepareCrossover store l b).1.map (fun x => a * x), (prepareCrossover store l b).2.map (fun x => a * x)) := by
  have hmean : ∀ (F F' : Bool × ℝ × ℝ → ℝ), (∀ x, F' (x.1, a * x.2.1, a * x.2.2) = a * F x) →
      (l.map (fun x : Bool × ℝ × ℝ => (x.1, a * x.2.1, a * x.2.2))).map F' = (l.map F).map (fun x => a * x) := fun F F' hF => by
    rw [List.map_map, List.map_map]
    exact List.map_congr_left fun x _ => hF x
  have havg : ∀ v : List ℝ, (v.map (fun x => a * x)).sum / ((v.map (fun x => a * x)).length : ℝ) = a * (v.sum / (v.length : ℝ)) := fun v => by
    rw [TrimmedArray.sum_scale, List.length_map, mul_div_assoc]
  unfold prepareCrossover
  cases b with
  | false =>
    simp only [Bool.false_eq_true, if_false]
    refine Prod.ext (hmean _ _ fun x => ?_) (hmean _ _ fun x => ?_)
    · unfold pickTreated; split_ifs
      · rfl
      · exact hst _
    · unfold pickControl; split_ifs
      · exact hst _
      · rfl
  | true =>
    simp only [if_true]
    rw [hmean (fun i => i.2.1) (fun i => i.2.1) (fun _ => rfl), hmean (fun i => i.2.2) (fun i => i.2.2) (fun _ => rfl), havg, havg]
    rw [hmean (fun i => pickControl i.1 i.2.1 (store i.2.2)) (fun i => pickControl i.1 i.2.1 (store' i.2.2)) (fun x => by
      unfold pickControl; split_ifs
      · exact hst _
      · rfl), havg]
    generalize (l.map (fun i => i.2.1)).sum / ((l.map (fun i => i.2.1)).length : ℝ) = m1
    generalize (l.map (fun i => i.2.2)).sum / ((l.map (fun i => i.2.2)).length : ℝ) = m2
    have e1 : (l.map (fun x : Bool × ℝ × ℝ => (x.1, a * x.2.1, a * x.2.2))).map (fun i => pickControl i.1 (i.2.1 - a * m1) (i.2.2 - a * m2)) =
        (l.map (fun i => pickControl i.1 (i.2.1 - m1) (i.2.2 - m2))).map (fun x => a * x) := hmean _ _ fun x => by
      unfold pickControl; split_ifs <;> ring
    have e2 : (l.map (fun x : Bool × ℝ × ℝ => (x.1, a * x.2.1, a * x.2.2))).map (fun i => pickTreated i.1 (i.2.1 - a * m1) (i.2.2 - a * m2)) =
        (l.map (fun i => pickTreated i.1 (i.2.1 - m1) (i.2.2 - m2))).map (fun x => a * x) := hmean _ _ fun x => by
      unfold pickTreated; split_ifs <;> ring
    rw [e1, e2, havg]
    refine Prod.ext ?_ ?_ <;>
    · simp only [List.map_map]
      refine List.map_congr_left fun x _ => ?_
      simp only [Function.comp]
      ring

theorem analyzeRegular_scale {a b : ℝ} (ha : 0 < a) (hb : 0 < b) (R : Rounding ℝ) (argsort : List ℝ → List ℕ) (hs : Spec.SortsInUnits argsort a)
    (hs' : Spec.SortsInUnits argsort b) (D : TDist) {t : String} {g g' : Frame ℝ} (h : SubsetTimes a t g g') {o o' : Option (Frame ℝ)}
    (ho : (o = none ∧ o' = none) ∨ ∃ k k', o = some k ∧ o' = some k' ∧ SubsetTimes b t k k') (q : ℝ) :
    Spec.SameOutcome (fun r r' => SameReport (a / if o.isSome then b else 1) r r' ∧ (Spec.Precise r → Spec.SameRelativeBounds r r'))
      (analyzeRegular R argsort D g o t q) (analyzeRegular R argsort D g' o' t q) := by
  unfold analyzeRegular
  refine (prepareRegular_scale ha R argsort hs h q).bind fun y y' hy => ?_
  subst hy
  rcases ho with ⟨rfl, rfl⟩ | ⟨k, k', rfl, rfl, hk⟩
  · exact indTestFl_scale ha hb R argsort hs D y q none
  · refine (prepareRegular_scale hb R argsort hs' hk q).bind fun z z' hz => ?_
    subst hz
    exact indTestFl_scale ha hb R argsort hs D y q (some z)

theorem analyzeCrossover_scale {a b : ℝ} (ha : 0 < a) (hb : 0 < b) (R : Rounding ℝ) (argsort : List ℝ → List ℕ) (hs : Spec.SortsInUnits argsort a)
    (D : TDist) (st st' sd sd' : ℝ → ℝ) (hst : ∀ x, st' (a * x) = a * st x) {t : String} {g g' : Frame ℝ} (h : SubsetTimes a t g g') {o o' : Option (Frame ℝ)}
    (hsd : o ≠ none → ∀ x, sd' (b * x) = b * sd x) (ho : (o = none ∧ o' = none) ∨ ∃ k k', o = some k ∧ o' = some k' ∧ SubsetTimes b t k k') (q : ℝ) :
    Spec.SameOutcome (SameReport (a / if o.isSome then b else 1)) (analyzeCrossover R argsort D st sd g o t q)
      (analyzeCrossover R argsort D st' sd' g' o' t q) := by
  unfold analyzeCrossover
  refine (crossoverItems_scale ha h).bind fun y y' hy => ?_
  subst hy
  simp only [prepareCrossover_scale st st' hst]
  rcases ho with ⟨rfl, rfl⟩ | ⟨k, k', rfl, rfl, hk⟩
  · have := pairedTest_scale ha R argsort hs D (prepareCrossover st y (decide (q = 0))).1 (prepareCrossover st y (decide (q = 0))).2 q
    simpa only [Option.isSome_none, Bool.false_eq_true, if_false, div_one] using this
  · refine (crossoverItems_scale hb hk).bind fun z z' hz => ?_
    subst hz
    simp only [prepareCrossover_scale sd sd' (hsd (by simp))]
    exact pairedTest_ratio_scale ha hb R argsort hs D _ _ _ _ q

/-- The analysis of a metric of data with a column in other units. -/
theorem single_scale (hc : 0 < c) (R : Rounding ℝ) (argsort : List ℝ → List ℕ) (hs : Spec.SortsInUnits argsort c) (D : TDist) {p p' : Pivoted ℝ}
    (h : PivotTimes c col p p') {metrics : List String} {i t : String} (hi : i ∉ ["test", "pretest", "test_1", "test_2"])
    (ht : t ∉ ["test", "pretest", "test_1", "test_2"]) (d : DesignParams ℝ) (hw : d.isCrossover = true → p.whole col = false ∧ p'.whole col = false)
    (m : Metric) :
    Spec.SameOutcome (fun r r' => SameReport (Spec.factorOf c col m) r r' ∧ (d.isCrossover = false → Spec.Precise r → Spec.SameRelativeBounds r r'))
      (analyzeSingleMetric R argsort D p metrics [i, t] d m.column m.denominator t m.override)
      (analyzeSingleMetric R argsort D p' metrics [i, t] d m.column m.denominator t m.override) := by
  have ha := unitOf_pos hc col m.column
  have hsa := sorts_unitOf hs col m.column
  have hstore : d.isCrossover = true → ∀ x : String, ∀ y, storeFirst p' x (unitOf c col x * y) = unitOf c col x * storeFirst p x y := by
    intro hx x y
    unfold unitOf
    by_cases hxc : x = col
    · subst hxc
      unfold storeFirst
      simp only [(hw hx).1, (hw hx).2, Bool.false_eq_true, false_and, if_false, if_true, id]
    · rw [if_neg hxc, one_mul, one_mul]
      have : storeFirst p' x = storeFirst p x := by
        classical
        unfold storeFirst
        have hv : ∀ k, p'.value k x "test_1" = p.value k x "test_1" := fun k => by
          rw [h.value, unitOf, if_neg hxc, sc_one]
        rw [h.whole x hxc, h.index]
        refine if_congr (and_congr_right fun _ => forall_congr' fun k => imp_congr_right fun _ => ?_) rfl rfl
        rw [hv]
      rw [this]
  have hfac : ∀ (o : Option String), unitOf c col m.column / (if o.isSome then unitOf c col (o.getD "") else 1) =
      (if m.column = col then c else 1) / (if o = some col then c else 1) := by
    intro o
    cases o with
    | none => simp [unitOf]
    | some x => simp [unitOf]
  unfold analyzeSingleMetric
  refine (subset_scale h hi ht m.column).bind fun g g' hg => ?_
  have hden : Spec.SameOutcome (fun (o o' : Option (Frame ℝ)) => o.isSome = m.denominator.isSome ∧ ((o = none ∧ o' = none) ∨
        ∃ k k', o = some k ∧ o' = some k' ∧ SubsetTimes (unitOf c col (m.denominator.getD "")) t k k'))
      (match m.denominator with
        | some x => do
          let g ← metricSubset p metrics [i, t] x
          pure (some g)
        | none => pure none)
      (match m.denominator with
        | some x => do
          let g ← metricSubset p' metrics [i, t] x
          pure (some g)
        | none => pure none) := by
    cases m.denominator with
    | none => exact ⟨rfl, Or.inl ⟨rfl, rfl⟩⟩
    | some x => exact (subset_scale h hi ht x).bind fun k k' hk => ⟨rfl, Or.inr ⟨k, k', rfl, rfl, hk⟩⟩
  refine hden.bind fun o o' ⟨hoS, ho⟩ => ?_
  refine (Spec.SameOutcome.raiseIf ?_).bind fun _ _ _ => ?_
  · rw [hg.cols]
    rcases ho with ⟨rfl, rfl⟩ | ⟨k, k', rfl, rfl, hk⟩
    · rfl
    · simp only [hk.cols]
  have hfm : unitOf c col m.column / (if o.isSome then unitOf c col (m.denominator.getD "") else 1) = Spec.factorOf c col m := by
    rw [hoS]; exact hfac m.denominator
  rw [← hfm]
  by_cases hx : d.isCrossover = true
  · simp only [hx, if_true]
    refine (analyzeCrossover_scale ha (unitOf_pos hc col (m.denominator.getD "")) R argsort hsa D _ _ _ _ (hstore hx m.column) hg ?_ ho _).imp
      fun r r' _ _ hr => ⟨hr, fun h => by cases h⟩
    intro hne x
    cases hden : m.denominator with
    | none => rw [hden] at hoS; cases o <;> simp at hoS hne
    | some y => exact hstore hx y x
  · simp only [hx]
    refine (analyzeRegular_scale ha (unitOf_pos hc col (m.denominator.getD "")) R argsort hsa (sorts_unitOf hs col _) D hg ho _).imp
      fun r r' _ _ hr => ⟨hr.1, fun _ => hr.2⟩

end single

end Feedx
