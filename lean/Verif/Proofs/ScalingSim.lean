import Verif.Spec.DesignUnits
import Verif.Proofs.ScalingWide

/-!
Lemmas for C129: the estimates and the validation of a design, with the metric in other units.
-/

set_option linter.unusedSectionVars false
set_option maxHeartbeats 1000000

namespace Feedx

open Fl

section stats
variable {c : ℝ}

theorem wideValues_scale (hc : 0 < c) {w w' : Wide ℝ} (h : WideTimes c w w') (label : List String) :
    Spec.SameOutcome (fun v v' : List ℝ => v' = v.map (fun x => c * x)) (wideValues w label) (wideValues w' label) := by
  unfold wideValues
  rw [h.cols]
  by_cases hl : label ∈ w.cols
  · refine (Spec.SameOutcome.raiseIf Iff.rfl).bind fun _ _ _ => ?_
    have : w'.rows.map (fun r => r.val label) = (w.rows.map (fun r => r.val label)).map (fun x => fin c * x) := by
      rw [List.map_map]
      exact rel_map_eq h.rows _ _ fun a b e => e.2 label hl
    rw [this, finiteValues_scale c _ hc]
    exact Spec.SameOutcome.map
  · simp only [raiseIf, if_pos hl]; rfl

/-- The statistics in other units. -/
structure StatsTimes (c : ℝ) (s s' : MetricStats) : Prop where
  average : s'.average = fin c * s.average
  variance : s'.variance = fin (c * c) * s.variance
  size : s'.size = s.size

theorem primaryStats_scale (hc : 0 < c) (R : Rounding ℝ) (argsort : List ℝ → List ℕ) (hs : Spec.SortsInUnits argsort c) (d : Design ℝ) {w w' : Wide ℝ}
    (h : WideTimes c w w') : Spec.SameOutcome (StatsTimes c) (primaryStats R argsort d w) (primaryStats R argsort d w') := by
  unfold primaryStats
  refine Spec.SameOutcome.bind (P := StatsTimes c) ?_ fun s s' hss => ?_
  · by_cases hx : d.isCrossover = true
    · rw [if_pos hx, if_pos hx]
      refine (wideValues_scale hc h _).bind fun y1 _ e1 => (wideValues_scale hc h _).bind fun y2 _ e2 => ?_
      subst e1 e2
      rw [stack3_scale, mkTrimmed_scale (fun _ => c) _ _ (hs _)]
      refine Spec.SameOutcome.map.bind fun T _ hT => ?_
      subst hT
      refine (Spec.SameOutcome.raiseIf (by rw [T.len_inUnits])).bind fun _ _ _ => ?_
      refine ⟨?_, ?_, T.len_inUnits _⟩
      · show fin _ = fin c * fin _
        rw [fin_mul, T.mean_inUnits, T.mean_inUnits]
        congr 1; ring
      · show fin _ = fin (c * c) * fin _
        rw [fin_mul, T.mean_inUnits, T.mean_inUnits, T.var_inUnits _ hc]
        congr 1
        split_ifs
        · ring
        · rfl
    · rw [if_neg hx, if_neg hx]
      refine (wideValues_scale hc h _).bind fun y _ e1 => ?_
      subst e1
      refine Spec.SameOutcome.bind (P := fun (z z' : List (Fl ℝ)) => z' = z.map (fun x => fin c * x)) ?_ fun z _ e2 => ?_
      · rw [h.cols]
        by_cases hp : [d.primaryMetric, "pretest"] ∈ w.cols
        · rw [if_pos hp, if_pos hp]
          refine (wideValues_scale hc h _).bind fun x _ e2 => ?_
          subst e2
          rw [cuped_scale hc R argsort hs]
          exact Spec.SameOutcome.map
        · rw [if_neg hp, if_neg hp]
          show _ = _
          rw [List.map_map, List.map_map]; rfl
      · subst e2
        rw [onlyNan_scale hc]
        by_cases hn : onlyNan z = true
        · rw [if_pos hn, if_pos hn]
          exact ⟨rfl, rfl, List.length_map _⟩
        · rw [if_neg hn, if_neg hn, finiteValues_scale c _ hc]
          refine Spec.SameOutcome.map.bind fun v _ e3 => ?_
          subst e3
          rw [asStack_scale, mkTrimmed_scale (fun _ => c) _ _ (hs _)]
          refine Spec.SameOutcome.map.bind fun T _ hT => ?_
          subst hT
          refine (Spec.SameOutcome.raiseIf (by rw [T.len_inUnits])).bind fun _ _ _ => ?_
          refine ⟨?_, ?_, T.len_inUnits _⟩
          · show fin _ = fin c * fin _
            rw [fin_mul, T.mean_inUnits]
          · show fin _ = fin (c * c) * fin _
            rw [fin_mul, T.var_inUnits _ hc]
  · refine (Spec.SameOutcome.raiseIf (by rw [hss.size])).bind fun _ _ _ => ?_
    exact hss

theorem statsOfWeeks_scale (hc : 0 < c) (R : Rounding ℝ) (argsort : List ℝ → List ℕ) (hs : Spec.SortsInUnits argsort c) (σ : ℤ → Shuffle) {C : SimConfig}
    (hC : SimNames C) (l : List ℤ) {f f' : Frame ℝ} (h : Spec.ColumnTimes c C.design.primaryMetric f f') :
    Spec.SameOutcome (List.Forall₂ (StatsTimes c)) (statsOfWeeks R argsort σ C l f).1 (statsOfWeeks R argsort σ C l f').1 ∧
      Spec.ColumnTimes c C.design.primaryMetric (statsOfWeeks R argsort σ C l f).2 (statsOfWeeks R argsort σ C l f').2 := by
  induction l generalizing f f' with
  | nil => exact ⟨List.Forall₂.nil, h⟩
  | cons start rest ih =>
    have ht := historicalTable_scale hc R (σ start) hC none start h
    unfold statsOfWeeks
    revert ht
    generalize historicalTable R (σ start) C none start f = P
    generalize historicalTable R (σ start) C none start f' = P'
    obtain ⟨x, g⟩ := P
    obtain ⟨x', g'⟩ := P'
    rintro ⟨h1, h2⟩
    cases x with
    | error e =>
      cases x' with
      | error e' => exact ⟨h1, h2⟩
      | ok p => exact h1.elim
    | ok w =>
      cases x' with
      | error e' => exact h1.elim
      | ok w' =>
        have hp := primaryStats_scale hc R argsort hs C.design h1
        have hr := ih h2
        simp only at hr ⊢
        revert hp hr
        generalize primaryStats R argsort C.design w = Q
        generalize primaryStats R argsort C.design w' = Q'
        generalize statsOfWeeks R argsort σ C rest g = S
        generalize statsOfWeeks R argsort σ C rest g' = S'
        intro hp hr
        obtain ⟨S1, S2⟩ := S
        obtain ⟨S1', S2'⟩ := S'
        cases Q with
        | error e =>
          cases Q' with
          | error e' => exact ⟨hp, h2⟩
          | ok _ => exact hp.elim
        | ok s =>
          cases Q' with
          | error e' => exact hp.elim
          | ok s' =>
            cases S1 with
            | error e =>
              cases S1' with
              | error e' => exact hr
              | ok _ => exact hr.1.elim
            | ok l =>
              cases S1' with
              | error e' => exact hr.1.elim
              | ok l' => exact ⟨List.Forall₂.cons hp hr.1, hr.2⟩

theorem flTotal_scale {a : ℝ} (ha : 0 < a) (l : List (Fl ℝ)) : flTotal (l.map (fun x => fin a * x)) = fin a * flTotal l := by
  unfold flTotal
  induction l with
  | nil => show fin 0 = fin (a * 0); rw [mul_zero]
  | cons x l ih => rw [List.map_cons, List.foldr_cons, List.foldr_cons, ih, sc_add ha]

theorem flMean_scale {a : ℝ} (ha : 0 < a) (l : List (Fl ℝ)) : flMean (l.map (fun x => fin a * x)) = fin a * flMean l := by
  unfold flMean
  rw [flTotal_scale ha, List.length_map, sc_div_right ha]

theorem averageStats_scale (hc : 0 < c) {l l' : List MetricStats} (h : List.Forall₂ (StatsTimes c) l l') :
    Spec.SameOutcome (fun a a' : Fl ℝ × Fl ℝ × ℕ => a' = (fin c * a.1, fin c * a.2.1, a.2.2)) (averageStats l) (averageStats l') := by
  cases h with
  | nil => rfl
  | @cons s s' l l' h1 h2 =>
    have h := List.Forall₂.cons h1 h2
    unfold averageStats
    refine (Spec.SameOutcome.raiseIf ?_).bind fun _ _ _ => ?_
    · rw [rel_any h _ (fun x => decide (x.size ≠ s'.size)) fun a b e => by rw [e.size, h1.size]]
    · show _ = _
      have e1 : (s' :: l').map MetricStats.average = ((s :: l).map MetricStats.average).map (fun x => fin c * x) := by
        rw [List.map_map]; exact rel_map_eq h _ _ fun a b e => e.average
      have e2 : (s' :: l').map MetricStats.variance = ((s :: l).map MetricStats.variance).map (fun x => fin (c * c) * x) := by
        rw [List.map_map]; exact rel_map_eq h _ _ fun a b e => e.variance
      rw [e1, e2, flMean_scale hc, flMean_scale (mul_pos hc hc), sc_sqrt hc, h1.size]

theorem mdeOf_scale (hc : 0 < c) (D : TDist) (d : Design ℝ) (average sd : Fl ℝ) (size : ℕ) :
    Spec.SameOutcome (fun m m' : Fl ℝ × Fl ℝ => m' = (fin c * m.1, m.2)) (mdeOf D d average sd size) (mdeOf D d (fin c * average) (fin c * sd) size) := by
  have hcc := mul_pos hc hc
  have key : ∀ (se df : Fl ℝ) (p α : ℝ), Spec.SameOutcome (fun m m' : Fl ℝ => m' = fin c * m) (mdeFromStats D se df "two-sided" p α)
      (mdeFromStats D (fin c * se) df "two-sided" p α) := by
    intro se df p α
    unfold mdeFromStats
    refine (Spec.SameOutcome.refl (P := fun a b => b = a) (fun _ => rfl) _).bind fun _ t e => ?_
    subst e
    show _ = _
    have := sc_mul hc one_pos se (t + D.ppfFl df p)
    rwa [sc_one, mul_one] at this
  unfold mdeOf
  refine Spec.SameOutcome.bind (P := fun m m' : Fl ℝ => m' = fin c * m) ?_ fun m _ e => ?_
  · split_ifs
    · unfold pairedMde oneSampleSE
      rw [sc_div_right hc]
      exact key _ _ _ _
    · unfold indMde twoSampleSE twoSampleDf
      simp only [if_true, sc_sq hc, sc_mul_right hcc, sc_add hcc, sc_div_right hcc, sc_sqrt hc]
      exact key _ _ _ _
  · subst e
    show _ = _
    rw [sc_div_same hc]

end stats

section analysis
variable {c : ℝ}

/-- The relation between two tables all of whose values are in other units, with two index levels. -/
structure WideAll (c : ℝ) (i t : String) (w w' : Wide ℝ) : Prop where
  names : w.names = [i, t] ∧ w'.names = [i, t]
  cols : w'.cols = w.cols
  keys : ∀ r ∈ w.rows, r.key.length = 2
  rows : List.Forall₂ (fun r r' : WideRow ℝ => r'.key = r.key ∧ ∀ l, r'.val l = fin c * r.val l) w.rows w'.rows

theorem randomAssign_scale (coins : List Bool) {w w' : Wide ℝ} (h : WideTimes c w w') (i t : String) :
    Spec.SameOutcome (WideAll c i t) (randomAssign coins w i t) (randomAssign coins w' i t) := by
  unfold randomAssign
  rw [h.cols, h.names]
  have hk : w'.rows.map (fun r => r.key.headD Cell.null) = w.rows.map (fun r => r.key.headD Cell.null) :=
    rel_map_eq h.rows _ _ fun a b e => by rw [e.1]
  simp only [hk]
  refine (Spec.SameOutcome.raiseIf Iff.rfl).bind fun _ _ _ => (Spec.SameOutcome.raiseIf Iff.rfl).bind fun _ _ _ =>
    (Spec.SameOutcome.raiseIf Iff.rfl).bind fun _ _ _ => (Spec.SameOutcome.raiseIf Iff.rfl).bind fun _ _ _ =>
    (Spec.SameOutcome.raiseIf Iff.rfl).bind fun _ _ _ => (Spec.SameOutcome.raiseIf Iff.rfl).bind fun _ _ _ => ?_
  refine ⟨⟨rfl, rfl⟩, rfl, ?_, ?_⟩
  · intro r hr
    obtain ⟨r0, -, rfl⟩ := List.mem_map.mp hr
    rfl
  · show List.Forall₂ _ (w.rows.map _) (w'.rows.map _)
    rw [List.forall₂_map_left_iff, List.forall₂_map_right_iff]
    refine h.rows.imp fun r r' e => ⟨by simp only [e.1], fun l => ?_⟩
    cases hf : w.cols.find? (fun l' => decide (unflatName (flatName l') = l)) with
    | none => simp only [hf]; rfl
    | some l' => simp only [hf]; exact e.2 l' (List.mem_of_find?_eq_some hf)

theorem WideAll.addWhere {i t : String} (hc : 0 < c) {w w' : Wide ℝ} (h : WideAll c i t w w') (mask : List (Cell ℝ) → Bool) (label : List String) (effect : Fl ℝ) :
    WideAll c i t (addWhere w mask label effect) (addWhere w' mask label (fin c * effect)) := by
  refine ⟨h.names, h.cols, ?_, ?_⟩
  · intro r hr
    obtain ⟨r0, h0, rfl⟩ := List.mem_map.mp hr
    exact h.keys r0 h0
  · show List.Forall₂ _ (w.rows.map _) (w'.rows.map _)
    rw [List.forall₂_map_left_iff, List.forall₂_map_right_iff]
    refine h.rows.imp fun r r' e => ⟨e.1, fun l => ?_⟩
    simp only [e.1, e.2 l]
    split_ifs
    · exact sc_add hc _ _
    · rfl

theorem applyEffect_scale (hc : 0 < c) {i t : String} {w w' : Wide ℝ} (h : WideAll c i t w w') (metric : String) (x : Bool) (effect : Fl ℝ) (treat : String) :
    Spec.SameOutcome (WideAll c i t) (applyEffect w metric x effect treat) (applyEffect w' metric x (fin c * effect) treat) := by
  unfold applyEffect
  rw [h.names.1, h.names.2, h.cols]
  refine (Spec.SameOutcome.raiseIf Iff.rfl).bind fun _ _ _ => (Spec.SameOutcome.raiseIf Iff.rfl).bind fun _ _ _ => ?_
  by_cases hx : x = true
  · rw [if_pos hx, if_pos hx]
    exact (h.addWhere hc _ _ _).addWhere hc _ _ _
  · rw [if_neg hx, if_neg hx]
    exact h.addWhere hc _ _ _

/-- The pivoted data with the values of the metric only. -/
noncomputable def onlyMetric (p : Pivoted ℝ) (m : String) : Pivoted ℝ :=
  { p with value := fun k m' x => if m' = m then p.value k m' x else .nan }

theorem single_onlyMetric (R : Rounding ℝ) (argsort : List ℝ → List ℕ) (D : TDist) (p : Pivoted ℝ) (metrics names : List String) (d : DesignParams ℝ)
    (m t : String) :
    analyzeSingleMetric R argsort D (onlyMetric p m) metrics names d m none t none = analyzeSingleMetric R argsort D p metrics names d m none t none := by
  have h1 : metricSubset (onlyMetric p m) metrics names m = metricSubset p metrics names m := by
    unfold metricSubset onlyMetric
    simp only [if_true]
  have h2 : storeFirst (onlyMetric p m) m = storeFirst p m := by
    have hv : ∀ k, (onlyMetric p m).value k m "test_1" = p.value k m "test_1" := fun k => if_pos rfl
    classical
    unfold storeFirst
    refine if_congr (and_congr_right fun _ => forall_congr' fun k => imp_congr_right fun _ => ?_) rfl rfl
    rw [hv]
  unfold analyzeSingleMetric
  simp only [h1, h2]
  rfl

theorem analyzeWide_scale (hc : 0 < c) (R : Rounding ℝ) (argsort : List ℝ → List ℕ) (hs : Spec.SortsInUnits argsort c) (D : TDist) {i t : String}
    (hi : i ∉ ["test", "pretest", "test_1", "test_2"]) (ht : t ∉ ["test", "pretest", "test_1", "test_2"]) {w w' : Wide ℝ} (h : WideAll c i t w w')
    (d : DesignParams ℝ) (m : String) :
    Spec.SameOutcome (Spec.ReportTimes c) (analyzeWide R argsort D w d m t) (analyzeWide R argsort D w' d m t) := by
  unfold analyzeWide
  have hkeys : w'.rows.map WideRow.key = w.rows.map WideRow.key := rel_map_eq h.rows _ _ fun a b e => e.1
  rw [hkeys, h.cols, h.names.1, h.names.2, ← single_onlyMetric R argsort D (w.pivoted m), ← single_onlyMetric R argsort D (w'.pivoted m)]
  refine (Spec.SameOutcome.raiseIf Iff.rfl).bind fun _ _ _ => ?_
  have hp : PivotTimes c m (onlyMetric (w.pivoted m) m) (onlyMetric (w'.pivoted m) m) := by
    refine ⟨hkeys, ?_, ?_, ?_, fun _ _ => rfl⟩
    · intro k hk
      obtain ⟨r, hr, rfl⟩ := List.mem_map.mp (show k ∈ w.rows.map WideRow.key from hk)
      exact h.keys r hr
    · simp only [onlyMetric, Wide.pivoted, h.cols]
    · intro k m' x
      unfold onlyMetric
      by_cases hm : m' = m
      · simp only [if_pos hm, unitOf]
        have := rel_find h.rows (fun r => decide (r.key = k)) (fun r => decide (r.key = k)) fun a b e => by rw [e.1]
        simp only [Wide.pivoted]
        cases hx : w.rows.find? (fun r => decide (r.key = k)) <;> cases hx' : w'.rows.find? (fun r => decide (r.key = k)) <;> rw [hx, hx'] at this
        · rfl
        · cases this
        · cases this
        · cases this with | some hr => exact hr.2 _
      · simp only [if_neg hm]; rfl
  have := single_scale hc R argsort hs D hp (metrics := w.cols.map (fun l => l.headD "")) hi ht d (fun _ => ⟨rfl, rfl⟩) ⟨"", m, none, none⟩
  refine this.imp fun r r' _ _ hr => ?_
  have hf : Spec.factorOf c m ⟨"", m, none, none⟩ = c := by simp [Spec.factorOf]
  have := hr.1.1
  rwa [hf] at this

theorem analyzeNan_scale (hc : 0 < c) (R : Rounding ℝ) (argsort : List ℝ → List ℕ) (hs : Spec.SortsInUnits argsort c) (D : TDist) {i t : String}
    {w w' : Wide ℝ} (h : WideAll c i t w w') (d : DesignParams ℝ) (treat : String) :
    Spec.SameOutcome (Spec.ReportTimes c) (analyzeNan R argsort D w d treat) (analyzeNan R argsort D w' d treat) := by
  unfold analyzeNan
  rw [h.names.1, h.names.2, h.rows.length_eq,
    rel_countP h.rows (fun r => isTreated [i, t] treat r.key) (fun r => isTreated [i, t] treat r.key) (fun a b e => by rw [e.1]),
    rel_countP h.rows (fun r => !isTreated [i, t] treat r.key) (fun r => !isTreated [i, t] treat r.key) (fun a b e => by rw [e.1])]
  refine (Spec.SameOutcome.raiseIf Iff.rfl).bind fun _ _ _ => ?_
  have := indTestFl_scale hc one_pos R argsort hs D (List.replicate (w.rows.countP (fun r => isTreated [i, t] treat r.key)) .nan,
    List.replicate (w.rows.countP (fun r => !isTreated [i, t] treat r.key)) .nan) d.postTrim.val none
  simp only [List.map_replicate, Option.map_none, Option.isSome_none, Bool.false_eq_true, if_false, div_one, sc_nan] at this
  exact this.imp fun r r' _ _ hr => hr.1.1

theorem sc_eq_nan {a : ℝ} (ha : 0 < a) (x : Fl ℝ) : fin a * x = nan ↔ x = nan := by
  have := sc_inj ha x nan
  rwa [sc_nan] at this

theorem simulateOnce_scale (hc : 0 < c) (R : Rounding ℝ) (argsort : List ℝ → List ℕ) (hs : Spec.SortsInUnits argsort c) (D : TDist) {C : SimConfig}
    (hC : SimNames C) (hi : C.itemCol ∉ ["test", "pretest", "test_1", "test_2"]) (ht : C.treatCol ∉ ["test", "pretest", "test_1", "test_2"])
    (effect : Fl ℝ) (r : SimDraw) {f f' : Frame ℝ} (h : Spec.ColumnTimes c C.design.primaryMetric f f') :
    Spec.SameOutcome (fun x x' : TestResult × TestResult => Spec.ReportTimes c x.1 x'.1 ∧ Spec.ReportTimes c x.2 x'.2)
        (simulateOnce R argsort D C effect r f).1 (simulateOnce R argsort D C (fin c * effect) r f').1 ∧
      Spec.ColumnTimes c C.design.primaryMetric (simulateOnce R argsort D C effect r f).2 (simulateOnce R argsort D C (fin c * effect) r f').2 := by
  have ht' := historicalTable_scale hc R r.shuffle hC (some r.boot) r.start h
  unfold simulateOnce
  revert ht'
  generalize historicalTable R r.shuffle C (some r.boot) r.start f = P
  generalize historicalTable R r.shuffle C (some r.boot) r.start f' = P'
  obtain ⟨x, g⟩ := P
  obtain ⟨x', g'⟩ := P'
  rintro ⟨h1, h2⟩
  cases x with
  | error e =>
    cases x' with
    | error e' => exact ⟨h1, h2⟩
    | ok p => exact h1.elim
  | ok w =>
    cases x' with
    | error e' => exact h1.elim
    | ok w' =>
      refine ⟨?_, h2⟩
      simp only
      refine (randomAssign_scale r.coins h1 C.itemCol C.treatCol).bind fun aa aa' haa => ?_
      refine (analyzeWide_scale hc R argsort hs D hi ht haa _ _).bind fun r1 r1' hr1 => ?_
      refine (applyEffect_scale hc haa _ _ effect _).bind fun ab ab' hab => ?_
      refine Spec.SameOutcome.bind (P := Spec.ReportTimes c) ?_ fun r2 r2' hr2 => ?_
      · by_cases he : effect = .nan
        · rw [if_pos he, if_pos ((sc_eq_nan hc effect).mpr he)]
          exact analyzeNan_scale hc R argsort hs D hab _ _
        · rw [if_neg he, if_neg (fun h => he ((sc_eq_nan hc effect).mp h))]
          exact analyzeWide_scale hc R argsort hs D hi ht hab _ _
      · exact ⟨hr1, hr2⟩

theorem simulateAll_scale (hc : 0 < c) (R : Rounding ℝ) (argsort : List ℝ → List ℕ) (hs : Spec.SortsInUnits argsort c) (D : TDist) {C : SimConfig}
    (hC : SimNames C) (hi : C.itemCol ∉ ["test", "pretest", "test_1", "test_2"]) (ht : C.treatCol ∉ ["test", "pretest", "test_1", "test_2"])
    (effect : Fl ℝ) (draws : List SimDraw) {f f' : Frame ℝ} (h : Spec.ColumnTimes c C.design.primaryMetric f f') :
    Spec.SameOutcome (List.Forall₂ fun x x' : TestResult × TestResult => Spec.ReportTimes c x.1 x'.1 ∧ Spec.ReportTimes c x.2 x'.2)
        (simulateAll R argsort D C effect draws f).1 (simulateAll R argsort D C (fin c * effect) draws f').1 ∧
      Spec.ColumnTimes c C.design.primaryMetric (simulateAll R argsort D C effect draws f).2 (simulateAll R argsort D C (fin c * effect) draws f').2 := by
  induction draws generalizing f f' with
  | nil => exact ⟨List.Forall₂.nil, h⟩
  | cons r rest ih =>
    have ho := simulateOnce_scale hc R argsort hs D hC hi ht effect r h
    unfold simulateAll
    by_cases he : C.starts = []
    · rw [if_pos he, if_pos he]; exact ⟨rfl, h⟩
    rw [if_neg he, if_neg he]
    revert ho
    generalize simulateOnce R argsort D C effect r f = P
    generalize simulateOnce R argsort D C (fin c * effect) r f' = P'
    obtain ⟨x, g⟩ := P
    obtain ⟨x', g'⟩ := P'
    rintro ⟨h1, h2⟩
    cases x with
    | error e =>
      cases x' with
      | error e' => exact ⟨h1, h2⟩
      | ok p => exact h1.elim
    | ok w =>
      cases x' with
      | error e' => exact h1.elim
      | ok w' =>
        have hr := ih h2
        simp only at hr ⊢
        revert hr
        generalize simulateAll R argsort D C effect rest g = S
        generalize simulateAll R argsort D C (fin c * effect) rest g' = S'
        intro hr
        obtain ⟨S1, S2⟩ := S
        obtain ⟨S1', S2'⟩ := S'
        cases S1 with
        | error e =>
          cases S1' with
          | error e' => exact hr
          | ok _ => exact hr.1.elim
        | ok l =>
          cases S1' with
          | error e' => exact hr.1.elim
          | ok l' => exact ⟨List.Forall₂.cons h1 hr.1, hr.2⟩

end analysis

section state
variable {c : ℝ}

theorem estimateMde_scale (hc : 0 < c) (R : Rounding ℝ) (argsort : List ℝ → List ℕ) (hs : Spec.SortsInUnits argsort c) (D : TDist) (σ : ℤ → Shuffle)
    {C : SimConfig} (hC : SimNames C) {s s' : SimState} (h : Spec.StudyTimes c C.design.primaryMetric s s') :
    (estimateMde R argsort D σ C s').1 = (estimateMde R argsort D σ C s).1 ∧
      Spec.StudyTimes c C.design.primaryMetric (estimateMde R argsort D σ C s).2 (estimateMde R argsort D σ C s').2 := by
  have hw := statsOfWeeks_scale hc R argsort hs σ hC C.starts h.data
  unfold estimateMde
  revert hw
  generalize statsOfWeeks R argsort σ C C.starts s.data = P
  generalize statsOfWeeks R argsort σ C C.starts s'.data = P'
  obtain ⟨x, g⟩ := P
  obtain ⟨x', g'⟩ := P'
  rintro ⟨h1, h2⟩
  cases x with
  | error e =>
    cases x' with
    | error e' => exact ⟨congrArg Except.error (show _ = _ from Eq.symm h1), { h with data := h2 }⟩
    | ok p => exact h1.elim
  | ok l =>
    cases x' with
    | error e' => exact h1.elim
    | ok l' =>
      have ha := averageStats_scale hc h1
      simp only
      revert ha
      generalize averageStats l = A
      generalize averageStats l' = A'
      intro ha
      cases A with
      | error e =>
        cases A' with
        | error e' => exact ⟨congrArg Except.error (show _ = _ from Eq.symm ha), { h with data := h2 }⟩
        | ok p => exact ha.elim
      | ok a =>
        cases A' with
        | error e' => exact ha.elim
        | ok a' =>
          obtain rfl : a' = _ := ha
          have hm := mdeOf_scale hc D C.design a.1 a.2.1 a.2.2
          simp only
          revert hm
          generalize mdeOf D C.design a.1 a.2.1 a.2.2 = M
          generalize mdeOf D C.design (fin c * a.1) (fin c * a.2.1) a.2.2 = M'
          intro hm
          cases M with
          | error e =>
            cases M' with
            | error e' => exact ⟨congrArg Except.error (show _ = _ from Eq.symm hm), { h with data := h2 }⟩
            | ok p => exact hm.elim
          | ok m =>
            cases M' with
            | error e' => exact hm.elim
            | ok m' =>
              obtain rfl : m' = _ := hm
              exact ⟨rfl, { h with data := h2, mde := rfl, relativeMde := rfl, average := rfl, sd := rfl }⟩

theorem validateSim_scale (hc : 0 < c) (R : Rounding ℝ) (argsort : List ℝ → List ℕ) (hs : Spec.SortsInUnits argsort c) (D : TDist) (draws : List SimDraw)
    {C : SimConfig} (hC : SimNames C) (hi : C.itemCol ∉ ["test", "pretest", "test_1", "test_2"])
    (ht : C.treatCol ∉ ["test", "pretest", "test_1", "test_2"]) {s s' : SimState} (h : Spec.StudyTimes c C.design.primaryMetric s s') :
    (validateSim R argsort D C draws s').1 = (validateSim R argsort D C draws s).1 ∧
      Spec.StudyTimes c C.design.primaryMetric (validateSim R argsort D C draws s).2 (validateSim R argsort D C draws s').2 := by
  have hm := h.mde
  unfold validateSim
  rw [hm]
  cases hs0 : s.mde with
  | none => exact ⟨rfl, h⟩
  | some effect =>
    have hw := simulateAll_scale hc R argsort hs D hC hi ht effect draws h.data
    simp only [Option.map_some]
    revert hw
    generalize simulateAll R argsort D C effect draws s.data = P
    generalize simulateAll R argsort D C (fin c * effect) draws s'.data = P'
    obtain ⟨x, g⟩ := P
    obtain ⟨x', g'⟩ := P'
    rintro ⟨h1, h2⟩
    cases x with
    | error e =>
      cases x' with
      | error e' => exact ⟨congrArg Except.error (show _ = _ from Eq.symm h1), { h with data := h2, mde := rfl }⟩
      | ok p => exact h1.elim
    | ok l =>
      cases x' with
      | error e' => exact h1.elim
      | ok l' =>
        refine ⟨rfl, { h with data := h2, mde := rfl, aa := Option.Rel.some ?_, ab := Option.Rel.some ?_ }⟩
        · rw [List.forall₂_map_left_iff, List.forall₂_map_right_iff]; exact List.Forall₂.imp (fun _ _ e => e.1) h1
        · rw [List.forall₂_map_left_iff, List.forall₂_map_right_iff]; exact List.Forall₂.imp (fun _ _ e => e.2) h1

end state

end Feedx
