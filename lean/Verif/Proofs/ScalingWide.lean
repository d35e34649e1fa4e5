import Verif.Model.Simulate
import Verif.Proofs.ScalingAnalysis

/-!
Lemmas for C129: the tables of the designer, with the metric in other units.
-/

set_option linter.unusedSectionVars false
set_option maxHeartbeats 1000000

namespace Feedx

open Fl

section basics

theorem sc_inj {a : ℝ} (ha : 0 < a) (x y : Fl ℝ) : fin a * x = fin a * y ↔ x = y := by
  refine ⟨fun h => ?_, fun h => by rw [h]⟩
  have h1 := congrArg (fun z => fin a⁻¹ * z) h
  simp only [sc_assoc (inv_pos.mpr ha) ha, inv_mul_cancel₀ ha.ne', sc_one] at h1
  exact h1

theorem sc_lt_same {a : ℝ} (ha : 0 < a) (x y : Fl ℝ) : Fl.lt (fin a * x) (fin a * y) = Fl.lt x y := by
  cases x with
  | nan => rfl
  | ninf =>
    rw [sc_ninf ha]
    cases y with
    | nan => rfl
    | ninf => rw [sc_ninf ha]
    | pinf => rw [sc_pinf ha]
    | fin y => rfl
  | pinf =>
    rw [sc_pinf ha]
    cases y with
    | nan => rfl
    | ninf => rw [sc_ninf ha]
    | pinf => rw [sc_pinf ha]
    | fin y => rfl
  | fin x =>
    cases y with
    | nan => rfl
    | ninf => rw [sc_ninf ha]; rfl
    | pinf => rw [sc_pinf ha]; rfl
    | fin y => rw [fin_mul, fin_mul]; simp only [lt_fin, mul_lt_mul_iff_right₀ ha]

theorem rel_getElem {α β : Type} {P : α → β → Prop} {l : List α} {l' : List β} (h : List.Forall₂ P l l') (i : ℕ) : Option.Rel P l[i]? l'[i]? := by
  induction h generalizing i with
  | nil => simp only [List.getElem?_nil]; exact Option.Rel.none
  | cons hr _ ih =>
    cases i with
    | zero => exact Option.Rel.some hr
    | succ i => simpa using ih i

theorem rel_find {α β : Type} {P : α → β → Prop} {l : List α} {l' : List β} (h : List.Forall₂ P l l') (p : α → Bool) (p' : β → Bool)
    (hp : ∀ a b, P a b → p' b = p a) : Option.Rel P (l.find? p) (l'.find? p') := by
  induction h with
  | nil => exact Option.Rel.none
  | @cons a b _ _ hr _ ih =>
    by_cases hpa : p a = true
    · rw [List.find?_cons_of_pos hpa, List.find?_cons_of_pos (by rw [hp _ _ hr]; exact hpa)]
      exact Option.Rel.some hr
    · rw [List.find?_cons_of_neg hpa, List.find?_cons_of_neg (by rw [hp _ _ hr]; exact hpa)]
      exact ih

theorem rel_filterMap {ι α β : Type} {P : α → β → Prop} (l : List ι) (g : ι → Option α) (g' : ι → Option β) (hg : ∀ x, Option.Rel P (g x) (g' x)) :
    List.Forall₂ P (l.filterMap g) (l.filterMap g') := by
  induction l with
  | nil => exact List.Forall₂.nil
  | cons x l ih =>
    rw [List.filterMap_cons, List.filterMap_cons]
    have := hg x
    cases hx : g x <;> cases hx' : g' x <;> rw [hx, hx'] at this
    · exact ih
    · cases this
    · cases this
    · cases this with | some h => exact List.Forall₂.cons h ih

theorem rel_map_eq {α β γ : Type} {P : α → β → Prop} {l : List α} {l' : List β} (h : List.Forall₂ P l l') (g : α → γ) (g' : β → γ)
    (hg : ∀ a b, P a b → g' b = g a) : l'.map g' = l.map g := by
  induction h with
  | nil => rfl
  | cons hr _ ih => rw [List.map_cons, List.map_cons, hg _ _ hr, ih]

theorem rel_countP {α β : Type} {P : α → β → Prop} {l : List α} {l' : List β} (h : List.Forall₂ P l l') (p : α → Bool) (p' : β → Bool)
    (hp : ∀ a b, P a b → p' b = p a) : l'.countP p' = l.countP p := by
  induction h with
  | nil => rfl
  | cons hr _ ih => rw [List.countP_cons, List.countP_cons, hp _ _ hr, ih]

theorem rel_any {α β : Type} {P : α → β → Prop} {l : List α} {l' : List β} (h : List.Forall₂ P l l') (p : α → Bool) (p' : β → Bool)
    (hp : ∀ a b, P a b → p' b = p a) : l'.any p' = l.any p := by
  induction h with
  | nil => rfl
  | cons hr _ ih => rw [List.any_cons, List.any_cons, hp _ _ hr, ih]

theorem rel_zipIdx {α β : Type} {P : α → β → Prop} {l : List α} {l' : List β} (h : List.Forall₂ P l l') (n : ℕ) :
    List.Forall₂ (fun a b => P a.1 b.1 ∧ b.2 = a.2) (l.zipIdx n) (l'.zipIdx n) := by
  induction h generalizing n with
  | nil => exact List.Forall₂.nil
  | cons hr _ ih => exact List.Forall₂.cons ⟨hr, rfl⟩ (ih (n + 1))

theorem rel_filter {α β : Type} {P : α → β → Prop} {l : List α} {l' : List β} (h : List.Forall₂ P l l') (p : α → Bool) (p' : β → Bool)
    (hp : ∀ a b, P a b → p' b = p a) : List.Forall₂ P (l.filter p) (l'.filter p') := by
  induction h with
  | nil => exact List.Forall₂.nil
  | @cons a b _ _ hr _ ih =>
    by_cases hpa : p a = true
    · rw [List.filter_cons_of_pos hpa, List.filter_cons_of_pos (by rw [hp _ _ hr]; exact hpa)]
      exact List.Forall₂.cons hr ih
    · rw [List.filter_cons_of_neg hpa, List.filter_cons_of_neg (by rw [hp _ _ hr]; exact hpa)]
      exact ih

end basics

section pivot
variable {c : ℝ} {col : String}

/-- The pivoted history of the items, with the metric in other units, and the history as the call leaves it. -/
theorem pivot_items_scale (hc : 0 < c) {d : DesignParams ℝ} {start : ℤ} {metrics : List String} {i w pc : String} (hi : i ≠ col) (hw : w ≠ col)
    (hp : pc ≠ col) {f f' : Frame ℝ} (h : Spec.ColumnTimes c col f f') :
    Spec.SameOutcome (fun p p' => p'.index = p.index ∧ p'.periods = p.periods ∧ ∀ k m x, p'.value k m x = fin (unitOf c col m) * p.value k m x)
      (pivotTimeAssignment d start metrics i w none pc f).1 (pivotTimeAssignment d start metrics i w none pc f').1 ∧
      Spec.ColumnTimes c col (pivotTimeAssignment d start metrics i w none pc f).2 (pivotTimeAssignment d start metrics i w none pc f').2 := by
  obtain ⟨hcols, h⟩ := h
  change List.Forall₂ (RowTimes c col) f.rows f'.rows at h
  unfold pivotTimeAssignment
  rw [hcols]
  by_cases h1 : pc ∈ f.cols
  · simp only [if_pos h1]; exact ⟨rfl, hcols, h⟩
  rw [if_neg h1, if_neg h1]
  by_cases h2 : ((i :: w :: (metrics ++ (none : Option String).toList)).any fun c => decide (c ∉ f.cols)) = true
  · simp only [if_pos h2]; exact ⟨rfl, hcols, h⟩
  simp only [if_neg h2]
  unfold labelRows
  by_cases h3 : d.isCrossover = true ∧ d.washout = none
  · simp only [raiseIf, if_pos h3]; exact ⟨rfl, hcols, h⟩
  have hany := rows_any h (fun r => !(r w).isNumeric) (fun r r' hr => by rw [hr.1 w hw])
  by_cases h4 : f.rows.any (fun r => !(r w).isNumeric) = true
  · have h4' : f'.rows.any (fun r => !(r w).isNumeric) = true := by rw [hany]; exact h4
    simp only [raiseIf, if_neg h3, if_pos h4, if_pos h4']; exact ⟨rfl, hcols, h⟩
  have h4' : ¬ f'.rows.any (fun r => !(r w).isNumeric) = true := by rw [hany]; exact h4
  simp only [raiseIf, if_neg h3, if_neg h4, if_neg h4']
  let lab : Row ℝ → Cell ℝ := fun r => match designLabel d start (r w).toFl with
    | .ok l => labelCell l
    | .error _ => .null
  have hlab : List.Forall₂ (RowTimes c col) (f.setCol pc lab).rows (f'.setCol pc lab).rows := by
    show List.Forall₂ _ (f.rows.map _) (f'.rows.map _)
    rw [List.forall₂_map_left_iff, List.forall₂_map_right_iff]
    refine h.imp fun r r' hr => ⟨fun x hx => ?_, ?_⟩
    · by_cases hxp : x = pc
      · subst hxp
        rw [Function.update_self, Function.update_self]
        simp only [lab, hr.1 w hw]
      · rw [Function.update_of_ne hxp, Function.update_of_ne hxp, hr.1 x hx]
    · rw [Function.update_of_ne hp.symm, Function.update_of_ne hp.symm]
      exact hr.2
  have hlc : (f'.setCol pc lab).cols = (f.setCol pc lab).cols := by
    show (if pc ∈ f'.cols then f'.cols else f'.cols ++ [pc]) = _
    rw [hcols]; rfl
  have hidx : ∀ r r', RowTimes c col r r' → ([i].map r' : List (Cell ℝ)) = [i].map r := fun r r' hr => by
    simp only [List.map_cons, List.map_nil, hr.1 i hi]
  have hper : ∀ r r', RowTimes c col r r' → r' pc = r pc := fun r r' hr => hr.1 pc hp
  have hperiods : (pivotTable d [i] pc (f'.setCol pc lab).rows).periods = (pivotTable d [i] pc (f.setCol pc lab).rows).periods := by
    show dropDup _ = dropDup _
    congr 1
    refine rows_map (rows_filter hlab _ fun r r' hr => ?_) (fun r => r pc) hper
    simp only [hper r r' hr, List.all_cons, List.all_nil, hr.1 i hi]
  have hindex : (pivotTable d [i] pc (f'.setCol pc lab).rows).index = (pivotTable d [i] pc (f.setCol pc lab).rows).index := by
    show groupKeys _ _ = groupKeys _ _
    unfold groupKeys
    rw [rows_map (rows_filter hlab _ (fun r r' hr => by simp only [hper r r' hr])) (fun r => [i].map r) hidx]
  have hvalue : ∀ k m x, (pivotTable d [i] pc (f'.setCol pc lab).rows).value k m x =
      fin (unitOf c col m) * (pivotTable d [i] pc (f.setCol pc lab).rows).value k m x := by
    intro k m x
    generalize hl : (f.setCol pc lab).rows = l at hlab
    generalize hl' : (f'.setCol pc lab).rows = l' at hlab
    have hs := sumCol_scale hc (rows_filter hlab (fun r => decide ([i].map r = k ∧ r pc = .str x)) (fun r r' hr => by
      simp only [hidx r r' hr, hper r r' hr])) m
    show (match periodWeeks d x with
      | some n => sumCol (l'.filter (fun r => decide ([i].map r = k ∧ r pc = .str x))) m / .fin (n : ℝ)
      | none => sumCol (l'.filter (fun r => decide ([i].map r = k ∧ r pc = .str x))) m) = fin (unitOf c col m) *
      (match periodWeeks d x with
      | some n => sumCol (l.filter (fun r => decide ([i].map r = k ∧ r pc = .str x))) m / .fin (n : ℝ)
      | none => sumCol (l.filter (fun r => decide ([i].map r = k ∧ r pc = .str x))) m)
    rw [hs]
    cases periodWeeks d x with
    | none => rfl
    | some n => exact sc_div_right (unitOf_pos hc col m) _ _
  have key : ∀ (P P' : Pivoted ℝ) (g g' : Frame ℝ), P'.index = P.index → P'.periods = P.periods →
      (∀ k m x, P'.value k m x = fin (unitOf c col m) * P.value k m x) → g'.cols = g.cols → List.Forall₂ (RowTimes c col) g.rows g'.rows →
      Spec.SameOutcome (fun p p' : Pivoted ℝ => p'.index = p.index ∧ p'.periods = p.periods ∧ ∀ k m x, p'.value k m x = fin (unitOf c col m) * p.value k m x)
        (if d.isCrossover = false ∧ Cell.str "test" ∉ P.periods then (.error .keyError, g) else (.ok P, g.dropCol pc) : Py (Pivoted ℝ) × Frame ℝ).1
        (if d.isCrossover = false ∧ Cell.str "test" ∉ P'.periods then (.error .keyError, g') else (.ok P', g'.dropCol pc) : Py (Pivoted ℝ) × Frame ℝ).1 ∧
      Spec.ColumnTimes c col
        (if d.isCrossover = false ∧ Cell.str "test" ∉ P.periods then (.error .keyError, g) else (.ok P, g.dropCol pc) : Py (Pivoted ℝ) × Frame ℝ).2
        (if d.isCrossover = false ∧ Cell.str "test" ∉ P'.periods then (.error .keyError, g') else (.ok P', g'.dropCol pc) : Py (Pivoted ℝ) × Frame ℝ).2 := by
    intro P P' g g' e1 e2 e3 e4 e5
    rw [e2]
    by_cases h5 : d.isCrossover = false ∧ Cell.str "test" ∉ P.periods
    · simp only [if_pos h5]; exact ⟨rfl, e4, e5⟩
    · simp only [if_neg h5]
      refine ⟨⟨e1, e2, e3⟩, ?_, e5⟩
      show g'.cols.filter _ = g.cols.filter _
      rw [e4]
  exact key _ _ (f.setCol pc lab) (f'.setCol pc lab) hindex hperiods hvalue hlc hlab

end pivot

/-- The relation between two tables whose values in the listed columns are in other units. -/
structure WideTimes (c : ℝ) (w w' : Wide ℝ) : Prop where
  names : w'.names = w.names
  cols : w'.cols = w.cols
  rows : List.Forall₂ (fun r r' : WideRow ℝ => r'.key = r.key ∧ ∀ l ∈ w.cols, r'.val l = fin c * r.val l) w.rows w'.rows

section wide
variable {c : ℝ}

theorem wide_scale {m : String} (i : String) {p p' : Pivoted ℝ} (h1 : p'.index = p.index) (h2 : p'.periods = p.periods)
    (h3 : ∀ k m' x, p'.value k m' x = fin (unitOf c m m') * p.value k m' x) : WideTimes c (p.wide [m] i) (p'.wide [m] i) := by
  refine ⟨rfl, by simp only [Pivoted.wide, h2], ?_⟩
  show List.Forall₂ _ (p.index.map _) (p'.index.map _)
  rw [h1, List.forall₂_map_left_iff, List.forall₂_map_right_iff, List.forall₂_same]
  intro k _
  refine ⟨rfl, fun l hl => ?_⟩
  simp only [Pivoted.wide, List.flatMap_cons, List.flatMap_nil, List.append_nil, List.mem_map] at hl
  obtain ⟨x, -, rfl⟩ := hl
  show p'.value k m _ = _
  rw [h3, unitOf, if_pos rfl]

theorem bootstrap_scale (draws : List ℕ) {w w' : Wide ℝ} (h : WideTimes c w w') (i : String) :
    Spec.SameOutcome (WideTimes c) (bootstrap draws w i) (bootstrap draws w' i) := by
  unfold bootstrap
  rw [h.cols, h.names]
  refine (Spec.SameOutcome.raiseIf Iff.rfl).bind fun _ _ _ => ?_
  refine ⟨rfl, rfl, ?_⟩
  refine rel_filterMap _ _ _ fun p => ?_
  have := rel_getElem h.rows p.1
  cases hx : w.rows[p.1]? <;> cases hx' : w'.rows[p.1]? <;> rw [hx, hx'] at this
  · exact Option.Rel.none
  · cases this
  · cases this
  · cases this with
    | some hr => exact Option.Rel.some ⟨congrArg (bootKey w.names i p.2) hr.1, hr.2⟩

theorem valueAt_scale {f f' : Frame ℝ} {o : String} (h : List.Forall₂ (fun r r' : Row ℝ => (r' o).toFl = fin c * (r o).toFl) f.rows f'.rows) (i : ℕ) :
    valueAt f' o i = fin c * valueAt f o i := by
  unfold valueAt
  have := rel_getElem h i
  cases hx : f.rows[i]? <;> cases hx' : f'.rows[i]? <;> rw [hx, hx'] at this
  · rfl
  · cases this
  · cases this
  · cases this with | some hr => exact hr

theorem rankFirst_scale (hc : 0 < c) (v : ℕ → Fl ℝ) (order : List ℕ) (i : ℕ) : rankFirst (fun j => fin c * v j) order i = rankFirst v order i := by
  unfold rankFirst
  simp only [sc_lt_same hc, sc_inj hc]

/-- Which rows are trimmed does not depend on the unit. -/
theorem trimOutliers_scale (hc : 0 < c) (R : Rounding ℝ) (σ : Shuffle) {f f' : Frame ℝ} {o x : String} (hcols : f'.cols = f.cols)
    (hx : List.Forall₂ (fun r r' : Row ℝ => r' x = r x) f.rows f'.rows)
    (h : o ∈ f.cols → List.Forall₂ (fun r r' : Row ℝ => (r' o).toFl = fin c * (r o).toFl ∧ (r' o).isNumeric = (r o).isNumeric) f.rows f'.rows)
    (top bottom : ℝ) :
    Spec.SameOutcome (fun g g' => g'.col x = g.col x) (trimOutliers R σ f o top bottom) (trimOutliers R σ f' o top bottom) := by
  unfold trimOutliers
  rw [hcols, hx.length_eq.symm]
  refine (Spec.SameOutcome.raiseIf Iff.rfl).bind fun _ _ _ => (Spec.SameOutcome.raiseIf Iff.rfl).bind fun _ _ _ =>
    (Spec.SameOutcome.raiseIf Iff.rfl).bind fun _ _ _ => ?_
  by_cases h0 : R.floorMul top f.rows.length = 0 ∧ R.floorMul bottom f.rows.length = 0
  · simp only [if_pos h0]
    exact rel_map_eq hx _ _ fun _ _ e => e
  simp only [if_neg h0]
  by_cases ho : o ∈ f.cols
  · have h := h ho
    refine (Spec.SameOutcome.raiseIf Iff.rfl).bind fun _ _ _ => (Spec.SameOutcome.raiseIf ?_).bind fun _ _ _ => ?_
    · rw [rel_any h _ (fun r => !(r o).isNumeric) fun r r' e => by rw [e.2]]
    · have hv : valueAt f' o = fun j => fin c * valueAt f o j := funext fun j => valueAt_scale (h.imp fun _ _ e => e.1) j
      show Frame.col _ _ = Frame.col _ _
      simp only [Frame.col, List.map_map, hv]
      refine rel_map_eq (rel_filter (rel_zipIdx hx 0) _ _ ?_) _ _ fun a b e => e.1
      rintro ⟨a, i⟩ ⟨b, j⟩ ⟨-, e⟩
      simp only at e
      subst e
      simp only [isNan_scale hc, rankFirst_scale hc]
  · simp only [raiseIf, if_pos ho]
    rfl

theorem flCell_numeric (x : Fl ℝ) : (flCell x).isNumeric = true := by cases x <;> rfl

theorem trimWide_scale (hc : 0 < c) (R : Rounding ℝ) (σ : Shuffle) {w w' : Wide ℝ} (h : WideTimes c w w') (label : List String) (top bottom : ℝ) :
    Spec.SameOutcome (WideTimes c) (trimWide R σ w label top bottom) (trimWide R σ w' label top bottom) := by
  unfold trimWide
  rw [h.cols]
  refine Spec.SameOutcome.bind (P := fun g g' => g'.col "position" = g.col "position")
    (trimOutliers_scale (x := "position") hc R σ (by rfl) ?_ ?_ top bottom) fun g g' hg => ?_
  · show List.Forall₂ _ (w.rows.zipIdx.map _) (w'.rows.zipIdx.map _)
    rw [List.forall₂_map_left_iff, List.forall₂_map_right_iff]
    refine (rel_zipIdx h.rows 0).imp fun a b e => ?_
    simp only [if_true, e.2]
  · intro ho
    have hl : label ∈ w.cols := by
      by_contra hn
      simp only [if_neg hn] at ho
      simp at ho
    show List.Forall₂ _ (w.rows.zipIdx.map _) (w'.rows.zipIdx.map _)
    rw [List.forall₂_map_left_iff, List.forall₂_map_right_iff]
    refine (rel_zipIdx h.rows 0).imp fun a b e => ?_
    have hne : ¬ ("order" = "position") := by decide
    simp only [if_neg hne, flCell_reads, flCell_numeric, and_true]
    exact e.1.2 label hl
  · refine ⟨h.names, rfl, ?_⟩
    rw [hg]
    exact rel_filterMap _ _ _ fun i => rel_getElem h.rows i.toNat

theorem trimHistorical_scale (hc : 0 < c) (R : Rounding ℝ) (σ : Shuffle) (C : SimConfig) (boot : Option (List ℕ)) {w w' : Wide ℝ} (h : WideTimes c w w') :
    Spec.SameOutcome (WideTimes c) (trimHistorical R σ C boot w) (trimHistorical R σ C boot w') := by
  unfold trimHistorical
  refine Spec.SameOutcome.bind (P := WideTimes c) ?_ fun w1 w1' h1 => ?_
  · cases boot with
    | none => exact h
    | some draws => exact bootstrap_scale draws h _
  refine (Spec.SameOutcome.raiseIf (by rw [h1.rows.length_eq])).bind fun _ _ _ => ?_
  refine Spec.SameOutcome.bind (P := WideTimes c) ?_ fun w2 w2' h2 => ?_
  · by_cases hp : 0 < C.design.pretest
    · rw [if_pos hp, if_pos hp]; exact trimWide_scale hc R σ h1 _ _ _
    · rw [if_neg hp, if_neg hp]; exact h1
  refine (Spec.SameOutcome.raiseIf (by rw [h2.rows.length_eq])).bind fun _ _ _ => ?_
  exact h2

/-- The columns of the study are not the metric. -/
structure SimNames (C : SimConfig) : Prop where
  item : C.itemCol ≠ C.design.primaryMetric
  week : C.weekCol ≠ C.design.primaryMetric
  period : C.periodCol ≠ C.design.primaryMetric

theorem historicalTable_scale (hc : 0 < c) (R : Rounding ℝ) (σ : Shuffle) {C : SimConfig} (hC : SimNames C) (boot : Option (List ℕ)) (start : ℤ)
    {f f' : Frame ℝ} (h : Spec.ColumnTimes c C.design.primaryMetric f f') :
    Spec.SameOutcome (WideTimes c) (historicalTable R σ C boot start f).1 (historicalTable R σ C boot start f').1 ∧
      Spec.ColumnTimes c C.design.primaryMetric (historicalTable R σ C boot start f).2 (historicalTable R σ C boot start f').2 := by
  have hp := pivot_items_scale hc (d := C.design.toDesignParams) (start := start) (metrics := [C.design.primaryMetric]) hC.item hC.week hC.period h
  unfold historicalTable
  revert hp
  generalize pivotTimeAssignment C.design.toDesignParams start [C.design.primaryMetric] C.itemCol C.weekCol none C.periodCol f = P
  generalize pivotTimeAssignment C.design.toDesignParams start [C.design.primaryMetric] C.itemCol C.weekCol none C.periodCol f' = P'
  obtain ⟨x, g⟩ := P
  obtain ⟨x', g'⟩ := P'
  rintro ⟨h1, h2⟩
  cases x with
  | error e =>
    cases x' with
    | error e' => exact ⟨h1, h2⟩
    | ok p => exact h1.elim
  | ok p =>
    cases x' with
    | error e' => exact h1.elim
    | ok p' => exact ⟨trimHistorical_scale hc R σ C boot (wide_scale C.itemCol h1.1 h1.2.1 h1.2.2), h2⟩

end wide

end Feedx
