import Verif.Proofs.DesignNames
import Verif.Proofs.AnyNames
import Verif.Proofs.RowOrderStudy
import Verif.Props.Generate
import Verif.Props.Trimmed
import Verif.Proofs.TTestResults

/-!
Lemmas for C140: the estimates of the designer with the items under any other names, if no trimming breaks ties between items.
-/

set_option linter.unusedSectionVars false
set_option linter.unusedSimpArgs false
set_option maxHeartbeats 1000000

namespace Feedx

open Spec (named)

section
variable {K : Type} [Field K] [LinearOrder K] {ρ : String → String}

/-! ### The data -/

theorem groupWeeks_renamed (hρ : Function.Injective ρ) (f : Frame K) :
    Spec.BothReturn (fun g g' => Spec.SameRows (namedFrame ρ g) g') (groupWeeks f "date" "item_id" "week_id" "week_start" [])
      (groupWeeks (namedFrame ρ f) "date" "item_id" "week_id" "week_start" []) := by
  unfold groupWeeks
  rw [namedFrame_cols, namedFrame_col (x := "date") (by decide)]
  generalize hkeys : ["week_id", "week_start", "item_id"] = keys
  by_cases h1 : "date" ∉ f.cols
  · simp only [h1, raiseIf]; trivial
  by_cases h2 : isTimeColumn (f.col "date") = false
  · simp only [h1, h2, raiseIf]; trivial
  by_cases h3 : spacedBy 1 (f.col "date") = true
  · simp only [h1, h2, h3, raiseIf]
    by_cases h4 : keys.any (fun c => decide (c ∉ f.cols)) = true
    · simp only [h4]; trivial
    by_cases h5 : ¬ keys.Nodup ∨ "date" ∈ keys ∨ "days_in_week" ∈ keys
    · simp only [h4, h5]; trivial
    have hany : ∀ metrics : List String, (namedFrame ρ f).rows.any (fun r => metrics.any (fun c => !(r c).isNumeric)) =
        f.rows.any (fun r => metrics.any (fun c => !(r c).isNumeric)) := by
      intro metrics
      rw [namedFrame_rows, List.any_map]
      simp only [Function.comp_def, namedRow_isNumeric]
    rw [hany]
    by_cases h6 : f.rows.any (fun r => (f.cols.filter (fun c => decide (c ∉ keys ∧ c ≠ "date"))).any (fun c => !(r c).isNumeric)) = true
    · simp only [h4, h5, h6]; trivial
    simp only [h4, h5, h6]
    refine ⟨rfl, ?_⟩
    unfold namedFrame
    simp only
    refine (((groupKeys_named_perm hρ f.rows keys).filter _).map _).trans ?_
    rw [List.filter_map, List.map_map, List.map_map]
    have hf : (groupKeys f.rows keys).filter
        ((fun k => decide (nunique ((groupRows (f.rows.map (namedRow ρ)) keys k).map (fun r => r "date")) = 7)) ∘ namedKey ρ keys) =
        (groupKeys f.rows keys).filter (fun k => decide (nunique ((groupRows f.rows keys k).map (fun r => r "date")) = 7)) := by
      refine List.filter_congr fun k _ => ?_
      simp only [Function.comp, groupRows_named hρ, map_named_col (x := "date") (by decide)]
    rw [hf]
    refine List.Perm.of_eq (List.map_congr_left fun k _ => ?_)
    exact weekRow_named hρ _ _ _
  · by_cases h4 : spacedBy 7 (f.col "date") = true
    · simp only [h1, h2, h3, h4, raiseIf]
      exact Spec.SameRows.refl _
    · simp only [h1, h2, h3, h4, raiseIf]; trivial

theorem cleanHistorical_renamed [FloorRing K] (hρ : Function.Injective ρ) {R : Rounding K} {rng : Sampler (Cell K)} {E : Ext K}
    {raw raw' : Frame K} {itemCol dateCol primary primaryCol : String} (h : Spec.RawNamed E itemCol ρ raw raw') :
    Spec.BothReturn (fun p p' => p'.1 = p.1 ∧ Spec.SameRows (namedFrame ρ p.2) p'.2)
      (cleanHistorical R rng E raw itemCol dateCol primary primaryCol 1) (cleanHistorical R rng E raw' itemCol dateCol primary primaryCol 1) := by
  unfold cleanHistorical
  by_cases h1 : primary ∉ allowedPrimaryMetrics
  · simp only [h1, raiseIf]; trivial
  simp only [h1, raiseIf, bind, Except.bind]
  rw [standardize_named h]
  simp only [Bool.false_eq_true, if_false]
  cases standardize E raw itemCol dateCol (stdColsOf primary primaryCol) (if primary = "other" then [(primaryCol, primaryCol)] else [])
      (if primary = "other" then [(primaryCol, floatParse E)] else []) with
  | error e => trivial
  | ok f1 =>
    simp only [Except.map]
    rw [fillMissing_named hρ]
    cases fillMissing f1 "item_id" "date" with
    | error e => trivial
    | ok f2 =>
      simp only [Except.map]
      rw [addWeeks_named]
      cases addWeeks E f2 "date" none "week_id" "week_start" with
      | error e => trivial
      | ok f3 =>
        simp only [Except.map]
        have hg := groupWeeks_renamed hρ f3
        cases e : groupWeeks f3 "date" "item_id" "week_id" "week_start" [] <;>
          cases e' : groupWeeks (namedFrame ρ f3) "date" "item_id" "week_id" "week_start" [] <;> rw [e, e'] at hg <;>
          first | exact trivial | exact hg.elim | skip
        rename_i f4 f4'
        have hs : Spec.SameRows (namedFrame ρ f4) f4' := hg
        have hd : ∀ f : Frame K, downsample R rng f 1 "item_id" = raiseIf .valueError ((1 : K) ≤ 0 ∨ (1 : K) < 1) >>= fun _ =>
            raiseIf .valueError ("item_id" ∉ f.cols) >>= fun _ => .ok f := by
          intro f
          unfold downsample
          simp only [if_true]
          rfl
        simp only [hd]
        by_cases h2 : (1 : K) ≤ 0 ∨ (1 : K) < 1
        · simp only [h2, raiseIf]; trivial
        have hc : f4'.cols = f4.cols := hs.cols
        by_cases h3 : "item_id" ∉ f4.cols
        · simp only [h2, hc, h3, raiseIf]; trivial
        simp only [h2, hc, h3, raiseIf]
        exact ⟨rfl, hs⟩

theorem prepareHistorical_renamed [IsStrictOrderedRing K] [FloorRing K] (hρ : Function.Injective ρ) {R : Rounding K} {rng : Sampler (Cell K)} {E : Ext K}
    {D : DateSorter K} {raw raw' : Frame K} {itemCol dateCol primary primaryCol : String} {skip : List String} (h : Spec.RawNamed E itemCol ρ raw raw') :
    Spec.BothReturn (fun f f' => Spec.SameRows (namedFrame ρ f) f') (prepareHistorical R rng E D raw itemCol dateCol primary primaryCol 1 skip)
      (prepareHistorical R rng E D raw' itemCol dateCol primary primaryCol 1 skip) := by
  unfold prepareHistorical
  refine ((cleanHistorical_renamed hρ h).imp (Q := fun p p' => (p'.1 = p.1 ∧ Spec.SameRows (namedFrame ρ p.2) p'.2) ∧
    cleanHistorical R rng E raw itemCol dateCol primary primaryCol 1 = .ok p) (fun _ _ e _ hf => ⟨hf, e⟩)).bind fun p p' ⟨⟨hn, hs⟩, e⟩ => ?_
  obtain ⟨-, t0, hpan, -⟩ := cleanHistorical_panel e
  have hw : Spec.DateGivesWeek (namedFrame ρ p.2) "week_id" "week_start" := by
    have h0 := hpan.dateGivesWeek
    intro r hr t ht e
    rw [namedFrame_rows] at hr ht
    obtain ⟨r0, hr0, rfl⟩ := List.mem_map.mp hr
    obtain ⟨t0, ht0, rfl⟩ := List.mem_map.mp ht
    rw [namedRow_other (by decide), namedRow_other (by decide)] at e
    rw [namedRow_other (by decide), namedRow_other (by decide)]
    exact h0 r0 hr0 t0 ht0 e
  rw [hn, validateHistorical_sameRows hs hw, validateHistorical_named hρ]
  cases validateHistorical D p.2 "item_id" "week_start" "week_id" p.1 skip with
  | error e => trivial
  | ok u => exact hs

end

/-! ### The estimates -/

section
variable {ρ : String → String}

/-- The two tables have the same columns and the same values of the items, in some order. -/
structure WideShuffled (w w' : Wide ℝ) : Prop where
  cols : w'.cols = w.cols
  rows : (w'.rows.map WideRow.val).Perm (w.rows.map WideRow.val)

theorem WideShuffled.symm {w w' : Wide ℝ} (h : WideShuffled w w') : WideShuffled w' w := ⟨h.cols.symm, h.rows.symm⟩

theorem WideShuffled.length {w w' : Wide ℝ} (h : WideShuffled w w') : w'.rows.length = w.rows.length := by
  simpa using h.rows.length_eq

theorem mkTrimmed_none {R : Rounding ℝ} {argsort : List ℝ → List ℕ} {m : ℕ} (cols : List (Fin (m + 1) → ℝ)) :
    mkTrimmed R argsort cols 0 = .ok ⟨cols, 0, cols⟩ := by
  unfold mkTrimmed
  have hr : (List.range cols.length).map (fun i => cols.getD i 0) = cols := by
    refine List.ext_getElem (by simp) fun i h1 h2 => ?_
    simp [List.getElem?_eq_getElem h2]
  have hi : trimmedIndex argsort (rowOf cols 0) 0 = List.range cols.length := by
    unfold trimmedIndex rowOf
    simp
  simp only [nTrim_none, hi, hr, raiseIf_bind_ok]
  exact ⟨by norm_num, by simp, rfl⟩

theorem plain_stats_perm {m : ℕ} {a b : List (Fin (m + 1) → ℝ)} (h : b.Perm a) :
    (⟨b, 0, b⟩ : TrimmedArray ℝ m).len = (⟨a, 0, a⟩ : TrimmedArray ℝ m).len ∧
    (∀ i, (⟨b, 0, b⟩ : TrimmedArray ℝ m).mean i = (⟨a, 0, a⟩ : TrimmedArray ℝ m).mean i) ∧
    ∀ i, (⟨b, 0, b⟩ : TrimmedArray ℝ m).var 1 i = (⟨a, 0, a⟩ : TrimmedArray ℝ m).var 1 i := by
  have hw : ∀ i, (⟨b, 0, b⟩ : TrimmedArray ℝ m).winsorizedMean i = (⟨a, 0, a⟩ : TrimmedArray ℝ m).winsorizedMean i := fun i => by
    unfold TrimmedArray.winsorizedMean TrimmedArray.size rowOf
    simp only [Nat.cast_zero, zero_mul, add_zero, (h.map _).sum_eq, h.length_eq]
  refine ⟨h.length_eq, fun i => ?_, fun i => ?_⟩
  · unfold TrimmedArray.mean TrimmedArray.len rowOf
    simp only [(h.map _).sum_eq, h.length_eq]
  · unfold TrimmedArray.var TrimmedArray.cov TrimmedArray.len
    simp only [Nat.cast_zero, zero_mul, add_zero, hw, (h.map _).sum_eq, h.length_eq]

theorem wideValues_eq (w : Wide ℝ) (label : List String) : wideValues w label = raiseIf .keyError (label ∉ w.cols) >>= fun _ =>
    finiteValues ((w.rows.map WideRow.val).map (fun v => v label)) := by
  unfold wideValues
  rw [List.map_map]
  rfl

theorem wideValues_shuffle {w w' : Wide ℝ} (h : WideShuffled w w') {label : List String} {y : List ℝ} (hy : wideValues w label = .ok y) :
    y = (w.rows.map WideRow.val).map (fun v => finVal (v label)) ∧ wideValues w' label = .ok ((w'.rows.map WideRow.val).map (fun v => finVal (v label))) := by
  rw [wideValues_eq] at hy ⊢
  obtain ⟨h1, hy⟩ := raiseIf_bind_ok.mp hy
  obtain ⟨h2, h3⟩ := finiteValues_shuffle h.rows hy
  exact ⟨h2, raiseIf_bind_ok.mpr ⟨by rwa [h.cols], h3⟩⟩

/-- The statistics of the primary metric do not depend on the order of the items. -/
theorem primaryStats_shuffle {R : Rounding ℝ} {argsort : List ℝ → List ℕ} (ha : ArgsortOk argsort) {d : Design ℝ} (hq : d.postTrim.val = 0)
    {w w' : Wide ℝ} (h : WideShuffled w w') {s : MetricStats} (hs : primaryStats R argsort d w = .ok s) : primaryStats R argsort d w' = .ok s := by
  unfold primaryStats at hs ⊢
  rw [hq] at hs ⊢
  obtain ⟨st, e, hs⟩ := Py.bind_eq_ok.mp hs
  refine Py.bind_eq_ok.mpr ⟨st, ?_, hs⟩
  clear hs
  by_cases hx : d.isCrossover = true
  · rw [if_pos hx] at e ⊢
    obtain ⟨y1, e1, e⟩ := Py.bind_eq_ok.mp e
    obtain ⟨y2, e2, e⟩ := Py.bind_eq_ok.mp e
    obtain ⟨rfl, e1'⟩ := wideValues_shuffle h e1
    obtain ⟨rfl, e2'⟩ := wideValues_shuffle h e2
    refine Py.bind_eq_ok.mpr ⟨_, e1', Py.bind_eq_ok.mpr ⟨_, e2', ?_⟩⟩
    rw [mkTrimmed_none] at e ⊢
    have hl : ∀ l : List (List String → Fl ℝ), stack3 (l.map (fun v => finVal (v [d.primaryMetric, "test_1"]))) (l.map (fun v => finVal (v [d.primaryMetric, "test_2"]))) =
        l.map (fun v => ![finVal (v [d.primaryMetric, "test_1"]) - finVal (v [d.primaryMetric, "test_2"]), finVal (v [d.primaryMetric, "test_1"]),
          finVal (v [d.primaryMetric, "test_2"])]) := by
      intro l
      unfold stack3
      induction l with
      | nil => rfl
      | cons a l ih => simp only [List.map_cons, List.zipWith_cons_cons, ih]
    rw [hl] at e ⊢
    obtain ⟨k1, k2, k3⟩ := plain_stats_perm (h.rows.map (fun v => ![finVal (v [d.primaryMetric, "test_1"]) - finVal (v [d.primaryMetric, "test_2"]),
      finVal (v [d.primaryMetric, "test_1"]), finVal (v [d.primaryMetric, "test_2"])]))
    simp only [bind, Except.bind, k1, k2, k3] at e ⊢
    exact e
  · rw [if_neg hx] at e ⊢
    obtain ⟨y, e1, e⟩ := Py.bind_eq_ok.mp e
    obtain ⟨rfl, e1'⟩ := wideValues_shuffle h e1
    obtain ⟨z, e2, e⟩ := Py.bind_eq_ok.mp e
    have key : ∃ g : (List String → Fl ℝ) → Fl ℝ, z = (w.rows.map WideRow.val).map g ∧
        (if [d.primaryMetric, "pretest"] ∈ w'.cols then do
          let x ← wideValues w' [d.primaryMetric, "pretest"]
          cuped R argsort ((w'.rows.map WideRow.val).map (fun v : List String → Fl ℝ => finVal (v [d.primaryMetric, "test"]))) x 0
        else .ok (((w'.rows.map WideRow.val).map (fun v : List String → Fl ℝ => finVal (v [d.primaryMetric, "test"]))).map .fin)) = .ok ((w'.rows.map WideRow.val).map g) := by
      rw [h.cols]
      by_cases hp : [d.primaryMetric, "pretest"] ∈ w.cols
      · rw [if_pos hp] at e2 ⊢
        obtain ⟨x, e3, e2⟩ := Py.bind_eq_ok.mp e2
        obtain ⟨rfl, e3'⟩ := wideValues_shuffle h e3
        obtain ⟨g, h1, h2⟩ := cuped_shuffle (z := (w.rows.map WideRow.val).map (fun v => (finVal (v [d.primaryMetric, "test"]), finVal (v [d.primaryMetric, "pretest"]))))
          (argsort := argsort) (R := R) ha (h.rows.map _) (out := z) (by simpa only [List.map_map, Function.comp_def] using e2)
        refine ⟨fun v => g (finVal (v [d.primaryMetric, "test"]), finVal (v [d.primaryMetric, "pretest"])), by rw [h1, List.map_map]; rfl, ?_⟩
        refine Py.bind_eq_ok.mpr ⟨_, e3', ?_⟩
        simpa only [List.map_map, Function.comp_def] using h2
      · rw [if_neg hp] at e2 ⊢
        cases e2
        exact ⟨fun v => .fin (finVal (v [d.primaryMetric, "test"])), by rw [List.map_map]; rfl, by rw [List.map_map]; rfl⟩
    obtain ⟨g, rfl, e2'⟩ := key
    refine Py.bind_eq_ok.mpr ⟨_, e1', Py.bind_eq_ok.mpr ⟨_, e2', ?_⟩⟩
    rw [onlyNan_perm (h.rows.map g)]
    have hlen : ((w'.rows.map WideRow.val).map g).length = ((w.rows.map WideRow.val).map g).length := (h.rows.map g).length_eq
    by_cases hn : onlyNan ((w.rows.map WideRow.val).map g) = true
    · rw [if_pos hn] at e ⊢
      rw [hlen]
      exact e
    · rw [if_neg hn] at e ⊢
      obtain ⟨v, e3, e⟩ := Py.bind_eq_ok.mp e
      obtain ⟨rfl, e3'⟩ := finiteValues_shuffle h.rows e3
      refine Py.bind_eq_ok.mpr ⟨_, e3', ?_⟩
      rw [mkTrimmed_none] at e ⊢
      obtain ⟨k1, k2, k3⟩ := plain_stats_perm (m := 0) (a := asStack ((w.rows.map WideRow.val).map (fun v => finVal (g v))))
        (b := asStack ((w'.rows.map WideRow.val).map (fun v => finVal (g v)))) ((h.rows.map _).map _)
      simp only [bind, Except.bind, k1, k2, k3] at e ⊢
      exact e

/-- The same with trimming, for an experiment without pretest. -/
theorem primaryStats_shuffle_trimmed {R : Rounding ℝ} {argsort : List ℝ → List ℕ} (ha : ArgsortOk argsort) {d : Design ℝ} (hx : d.isCrossover = false)
    {w w' : Wide ℝ} (hp : [d.primaryMetric, "pretest"] ∉ w.cols) (h : WideShuffled w w') {s : MetricStats} (hs : primaryStats R argsort d w = .ok s) :
    primaryStats R argsort d w' = .ok s := by
  have hx' : ¬ d.isCrossover = true := by rw [hx]; simp
  unfold primaryStats at hs ⊢
  obtain ⟨st, e, hs⟩ := Py.bind_eq_ok.mp hs
  refine Py.bind_eq_ok.mpr ⟨st, ?_, hs⟩
  clear hs
  rw [if_neg hx'] at e ⊢
  obtain ⟨y, e1, e⟩ := Py.bind_eq_ok.mp e
  obtain ⟨rfl, e1'⟩ := wideValues_shuffle h e1
  refine Py.bind_eq_ok.mpr ⟨_, e1', ?_⟩
  rw [h.cols]
  rw [if_neg hp] at e ⊢
  simp only [bind, Except.bind] at e ⊢
  have hperm : ((w'.rows.map WideRow.val).map (fun v : List String → Fl ℝ => finVal (v [d.primaryMetric, "test"]))).Perm
      ((w.rows.map WideRow.val).map (fun v : List String → Fl ℝ => finVal (v [d.primaryMetric, "test"]))) := h.rows.map _
  revert e hperm
  generalize (w'.rows.map WideRow.val).map (fun v : List String → Fl ℝ => finVal (v [d.primaryMetric, "test"])) = l'
  generalize (w.rows.map WideRow.val).map (fun v : List String → Fl ℝ => finVal (v [d.primaryMetric, "test"])) = l
  intro e hperm
  rw [onlyNan_perm (hperm.map .fin), List.length_map, hperm.length_eq]
  rw [List.length_map] at e
  by_cases hn : onlyNan (l.map (Fl.fin : ℝ → Fl ℝ)) = true
  · rw [if_pos hn] at e ⊢
    exact e
  · rw [if_neg hn] at e ⊢
    rw [finiteValues_fin] at e ⊢
    simp only at e ⊢
    cases eT : mkTrimmed R argsort (asStack l) d.postTrim.val with
    | error x => rw [eT] at e; cases e
    | ok T =>
      obtain ⟨T', eT', hlen⟩ := mkTrimmed_transfer ha (cols' := asStack l') eT (by rw [length_asStack, length_asStack, hperm.length_eq])
      rw [eT] at e
      rw [eT']
      simp only at e ⊢
      by_cases h1 : T.len ≤ 1
      · simp only [raiseIf, h1, if_true] at e
        cases e
      · have hne : T.trimmed ≠ [] := by
          intro h0
          apply h1
          unfold TrimmedArray.len
          rw [h0]
          exact Nat.zero_le _
        obtain ⟨k1, -, k2⟩ := C17_statistics_ignore_order_and_ties R argsort argsort ha ha 0 0 (asStack l) (asStack l')
          (by rw [rowOf_asStack, rowOf_asStack]; exact hperm.symm) _ T T' eT eT' hne 1
        rw [hlen, ← k1, ← k2]
        exact e

/-- Nothing that is trimmed after the experiment depends on the order of the items. -/
def OrderFree (d : Design ℝ) : Prop := d.postTrim.val = 0 ∨ (d.isCrossover = false ∧ d.pretest = 0)

theorem primaryStats_shuffle_iff {R : Rounding ℝ} {argsort : List ℝ → List ℕ} (ha : ArgsortOk argsort) {d : Design ℝ}
    {w w' : Wide ℝ} (hq : d.postTrim.val = 0 ∨ (d.isCrossover = false ∧ [d.primaryMetric, "pretest"] ∉ w.cols)) (h : WideShuffled w w') :
    Spec.BothReturn (fun s s' => s' = s) (primaryStats R argsort d w) (primaryStats R argsort d w') := by
  have k : ∀ s, primaryStats R argsort d w = .ok s → primaryStats R argsort d w' = .ok s := fun s e => by
    rcases hq with hq | ⟨hx, hp⟩
    · exact primaryStats_shuffle ha hq h e
    · exact primaryStats_shuffle_trimmed ha hx hp h e
  have k' : ∀ s, primaryStats R argsort d w' = .ok s → primaryStats R argsort d w = .ok s := fun s e => by
    rcases hq with hq | ⟨hx, hp⟩
    · exact primaryStats_shuffle ha hq h.symm e
    · exact primaryStats_shuffle_trimmed ha hx (by rw [h.cols]; exact hp) h.symm e
  cases e : primaryStats R argsort d w with
  | ok s =>
    rw [k s e]
    exact rfl
  | error x =>
    cases e' : primaryStats R argsort d w' with
    | ok s => rw [k' s e'] at e; cases e
    | error x' => trivial

theorem trimWide_nothing (R : Rounding ℝ) (σ : Shuffle) (w : Wide ℝ) (label : List String) : trimWide R σ w label 0 0 = .ok w := by
  unfold trimWide trimOutliers
  have h0 : R.rnd (0 + 0) = 0 := by
    simpa using R.intFix 0 (by norm_num)
  have hz : ∀ n : ℤ, R.floorMul 0 n = 0 := fun n => by
    unfold Rounding.floorMul
    exact rnd_zero_floor R _
  simp only [raiseIf, lt_self_iff_false, h0, hz, and_self, if_true, if_false, bind, Except.bind, show ¬ (1 : ℝ) ≤ 0 by norm_num, pure, Except.pure]
  congr 1
  have hi : ints ((Frame.mk (if label ∈ w.cols then ["position", "order"] else ["position"])
      (w.rows.zipIdx.map (fun p c => if c = "position" then (.int (p.2 : ℤ) : Cell ℝ) else flCell (p.1.val label)))).col "position") =
      w.rows.zipIdx.map (fun p => (p.2 : ℤ)) := by
    unfold ints Frame.col
    simp only [List.map_map, Function.comp_def, if_true]
    rw [List.filterMap_map]
    simp only [Function.comp_def]
    rw [List.filterMap_eq_map']
  rw [hi, List.filterMap_map]
  have hg : w.rows.zipIdx.filterMap ((fun i : ℤ => w.rows[i.toNat]?) ∘ fun p => (p.2 : ℤ)) = w.rows.zipIdx.filterMap (fun p => some p.1) := by
    refine List.filterMap_congr fun p hp => ?_
    simp only [Function.comp, Int.toNat_natCast]
    exact List.mem_zipIdx_iff_getElem?.mp hp
  rw [hg, List.filterMap_eq_map', List.zipIdx_map_fst]

theorem trimHistorical_nothing (R : Rounding ℝ) (σ : Shuffle) {c : SimConfig} (h1 : c.design.preTop.val = 0) (h2 : c.design.preBottom.val = 0) {w w' : Wide ℝ}
    (h : WideShuffled w w') : Spec.BothReturn WideShuffled (trimHistorical R σ c none w) (trimHistorical R σ c none w') := by
  unfold trimHistorical
  simp only [h1, h2, trimWide_nothing, ite_self, raiseIf, bind, Except.bind, true_and, h.length]
  split_ifs <;> first | exact h | exact trivial

/-- The pivoted history: the same entries, with the items in the order of their new names. -/
theorem historicalPivot_renamed (hρ : Function.Injective ρ) (d : DesignParams ℝ) (start : ℤ) (metrics : List String) (f : Frame ℝ) :
    Spec.BothReturn (fun piv piv' => WideShuffled (piv.wide metrics "item_id") (piv'.wide metrics "item_id"))
      (pivotTimeAssignment d start metrics "item_id" "week_id" none "time_period" f).1
      (pivotTimeAssignment d start metrics "item_id" "week_id" none "time_period" (namedFrame ρ f)).1 ∧
    (pivotTimeAssignment d start metrics "item_id" "week_id" none "time_period" (namedFrame ρ f)).2 =
      namedFrame ρ (pivotTimeAssignment d start metrics "item_id" "week_id" none "time_period" f).2 := by
  unfold pivotTimeAssignment
  rw [namedFrame_cols]
  split_ifs with h1 h2
  · exact ⟨trivial, rfl⟩
  · exact ⟨trivial, rfl⟩
  · rw [labelRows_named d start f]
    cases labelRows d start "week_id" "time_period" f with
    | error e => exact ⟨trivial, rfl⟩
    | ok g =>
      simp only [Except.map]
      have hper : (pivotTable d (indexColumns "item_id" none) "time_period" (namedFrame ρ g).rows).periods =
          (pivotTable d (indexColumns "item_id" none) "time_period" g.rows).periods := by
        unfold pivotTable
        show dropDup _ = dropDup _
        rw [namedFrame_rows, List.filter_map, map_named_col (by decide)]
        simp only [Function.comp_def, namedRow_isNull]
      rw [hper]
      split_ifs
      · exact ⟨trivial, rfl⟩
      · have hidx : (pivotTable d (indexColumns "item_id" none) "time_period" (namedFrame ρ g).rows).index.Perm
            ((pivotTable d (indexColumns "item_id" none) "time_period" g.rows).index.map (namedKey ρ ["item_id"])) := by
          unfold pivotTable
          show (groupKeys _ _).Perm (List.map _ (groupKeys _ _))
          rw [namedFrame_rows, List.filter_map]
          simp only [Function.comp_def, namedRow_isNull]
          exact groupKeys_named_perm hρ _ _
        have hval : ∀ k m p, (pivotTable d (indexColumns "item_id" none) "time_period" (namedFrame ρ g).rows).value (namedKey ρ ["item_id"] k) m p =
            (pivotTable d (indexColumns "item_id" none) "time_period" g.rows).value k m p := by
          intro k m p
          unfold pivotTable
          simp only
          rw [namedFrame_rows, List.filter_map, sumCol_named]
          simp only [Function.comp_def, namedKey_map, namedKey_inj hρ, namedRow_other (x := "time_period") (by decide), indexColumns, Option.toList_none]
          rfl
        refine ⟨⟨?_, ?_⟩, rfl⟩
        · unfold Pivoted.wide
          simp only [hper]
        · unfold Pivoted.wide
          simp only [List.map_map]
          refine (hidx.map _).trans (List.Perm.of_eq ?_)
          rw [List.map_map]
          refine List.map_congr_left fun k _ => ?_
          simp only [Function.comp]
          funext l
          split
          · exact hval _ _ _
          · rfl

theorem historicalTable_renamed (hρ : Function.Injective ρ) (R : Rounding ℝ) (σ : Shuffle) {c : SimConfig} (hc : DesignerColumns c) (h1 : c.design.preTop.val = 0)
    (h2 : c.design.preBottom.val = 0) (start : ℤ) (data : Frame ℝ) :
    Spec.BothReturn WideShuffled (historicalTable R σ c none start data).1 (historicalTable R σ c none start (namedFrame ρ data)).1 ∧
      (historicalTable R σ c none start (namedFrame ρ data)).2 = namedFrame ρ (historicalTable R σ c none start data).2 := by
  unfold historicalTable
  rw [hc.week, hc.period, hc.item]
  obtain ⟨k1, k2⟩ := historicalPivot_renamed hρ c.design.toDesignParams start [c.design.primaryMetric] data
  revert k1 k2
  rcases pivotTimeAssignment c.design.toDesignParams start [c.design.primaryMetric] "item_id" "week_id" none "time_period" data with ⟨e | piv, data1⟩ <;>
    rcases pivotTimeAssignment c.design.toDesignParams start [c.design.primaryMetric] "item_id" "week_id" none "time_period" (namedFrame ρ data) with ⟨e' | piv', data2⟩ <;>
    intro k1 k2
  · exact ⟨trivial, k2⟩
  · exact k1.elim
  · exact k1.elim
  · exact ⟨trimHistorical_nothing R σ h1 h2 k1, k2⟩

/-- Without pretest weeks no row is labelled with a pretest. -/
theorem historicalTable_pretest (R : Rounding ℝ) (σ : Shuffle) {c : SimConfig} (hx : c.design.isCrossover = false) (hp : c.design.pretest = 0) (start : ℤ)
    {data data' : Frame ℝ} {w : Wide ℝ} (h : historicalTable R σ c none start data = (.ok w, data')) : [c.design.primaryMetric, "pretest"] ∉ w.cols := by
  unfold historicalTable at h
  cases e : pivotTimeAssignment c.design.toDesignParams start [c.design.primaryMetric] c.itemCol c.weekCol none c.periodCol data with
  | mk r d1 =>
    rw [e] at h
    cases r with
    | error x => cases (Prod.mk.inj h).1
    | ok piv =>
      have h := (Prod.mk.inj h).1
      have hcols : w.cols = (piv.wide [c.design.primaryMetric] c.itemCol).cols := by
        unfold trimHistorical at h
        simp only [hp, lt_self_iff_false, if_false] at h
        obtain ⟨w1, e1, h⟩ := Py.bind_eq_ok.mp h
        obtain rfl := Except.ok.inj e1
        obtain ⟨-, h⟩ := raiseIf_bind_ok.mp h
        obtain ⟨w2, e2, h⟩ := Py.bind_eq_ok.mp h
        obtain rfl := Except.ok.inj e2
        obtain ⟨-, h⟩ := raiseIf_bind_ok.mp h
        obtain rfl := Except.ok.inj h
        rfl
      rw [hcols]
      have hpiv := pivotTimeAssignment_pretest (d := c.design.toDesignParams) hx hp (congrArg Prod.fst e)
      unfold Pivoted.wide
      simp only [List.flatMap_cons, List.flatMap_nil, List.append_nil, List.mem_map, not_exists, not_and]
      intro x hxm he
      have he : cellText x = "pretest" := (List.cons.inj (List.cons.inj he).2).1
      rcases hpiv x hxm with rfl | rfl
      · revert he; simp [cellText]
      · revert he; simp [cellText]

theorem statsOfWeeks_renamed (hρ : Function.Injective ρ) (R : Rounding ℝ) {argsort : List ℝ → List ℕ} (ha : ArgsortOk argsort) (σ : ℤ → Shuffle) {c : SimConfig}
    (hc : DesignerColumns c) (h1 : c.design.preTop.val = 0) (h2 : c.design.preBottom.val = 0) (h3 : OrderFree c.design) (starts : List ℤ) (data : Frame ℝ) :
    Spec.BothReturn (fun l l' => l' = l) (statsOfWeeks R argsort σ c starts data).1 (statsOfWeeks R argsort σ c starts (namedFrame ρ data)).1 ∧
      (statsOfWeeks R argsort σ c starts (namedFrame ρ data)).2 = namedFrame ρ (statsOfWeeks R argsort σ c starts data).2 := by
  induction starts generalizing data with
  | nil => exact ⟨rfl, rfl⟩
  | cons start rest ih =>
    unfold statsOfWeeks
    obtain ⟨k1, k2⟩ := historicalTable_renamed hρ R (σ start) hc h1 h2 start data
    have k0 := fun (hx : c.design.isCrossover = false) (hp : c.design.pretest = 0) (data' : Frame ℝ) (w : Wide ℝ) => historicalTable_pretest R (σ start) hx hp start
      (data := data) (data' := data') (w := w)
    revert k0 k1 k2
    rcases historicalTable R (σ start) c none start data with ⟨_ | w, data1⟩ <;>
      rcases historicalTable R (σ start) c none start (namedFrame ρ data) with ⟨_ | w', data2⟩ <;> intro k1 k2 k0
    · exact ⟨trivial, k2⟩
    · exact k1.elim
    · exact k1.elim
    · obtain rfl : data2 = namedFrame ρ data1 := k2
      have k3 := primaryStats_shuffle_iff (R := R) ha (h3.imp id fun k => ⟨k.1, k0 k.1 k.2 _ _ rfl⟩) (show WideShuffled w w' from k1)
      simp only
      cases e : primaryStats R argsort c.design w <;> cases e' : primaryStats R argsort c.design w' <;> rw [e, e'] at k3
      · exact ⟨trivial, rfl⟩
      · exact k3.elim
      · exact k3.elim
      · cases k3
        obtain ⟨k4, k5⟩ := ih data1
        revert k4 k5
        simp only
        rcases statsOfWeeks R argsort σ c rest data1 with ⟨_ | l, data3⟩ <;>
          rcases statsOfWeeks R argsort σ c rest (namedFrame ρ data1) with ⟨_ | l', data4⟩ <;> intro k4 k5
        · exact ⟨trivial, k5⟩
        · exact k4.elim
        · exact k4.elim
        · cases k4
          exact ⟨rfl, k5⟩

theorem estimateMde_renamed (hρ : Function.Injective ρ) (R : Rounding ℝ) {argsort : List ℝ → List ℕ} (ha : ArgsortOk argsort) (D : TDist) (σ : ℤ → Shuffle)
    {c : SimConfig} (hc : DesignerColumns c) (h1 : c.design.preTop.val = 0) (h2 : c.design.preBottom.val = 0) (h3 : OrderFree c.design) (s : SimState) :
    Spec.BothReturn (fun _ _ => (estimateMde R argsort D σ c (namedState ρ s)).2 = namedState ρ (estimateMde R argsort D σ c s).2)
      (estimateMde R argsort D σ c s).1 (estimateMde R argsort D σ c (namedState ρ s)).1 := by
  unfold estimateMde
  have hd : (namedState ρ s).data = namedFrame ρ s.data := rfl
  rw [hd]
  obtain ⟨k1, k2⟩ := statsOfWeeks_renamed hρ R ha σ hc h1 h2 h3 c.starts s.data
  revert k1 k2
  rcases statsOfWeeks R argsort σ c c.starts s.data with ⟨_ | l, data⟩ <;>
    rcases statsOfWeeks R argsort σ c c.starts (namedFrame ρ s.data) with ⟨_ | l', data'⟩ <;> intro k1 k2
  · trivial
  · exact k1.elim
  · exact k1.elim
  · cases k1
    cases k2
    simp only
    cases averageStats l with
    | error e => trivial
    | ok a =>
      simp only
      cases mdeOf D c.design a.1 a.2.1 a.2.2 with
      | error e => trivial
      | ok m => exact rfl

theorem mkSimulation_design {d : Design ℝ} {data : Frame ℝ} {itemCol weekCol periodCol treatCol : String} {minStart : ℤ} {threshold : ℝ} {a : SimConfig × SimState}
    (e : mkSimulation d data itemCol weekCol periodCol treatCol minStart threshold = .ok a) : a.1.design = d := by
  unfold mkSimulation at e
  obtain ⟨-, e⟩ := raiseIf_bind_ok.mp e
  obtain ⟨-, e⟩ := raiseIf_bind_ok.mp e
  revert e
  cases (ints (data.col weekCol)).max? with
  | none => intro e; exact absurd e (by simp)
  | some w =>
    intro e
    rw [← Except.ok.inj e]

theorem analyseDesign_renamed (hρ : Function.Injective ρ) (V : StudyEnv) (ha : ArgsortOk V.argsort) (data : Frame ℝ) (minStart : ℤ) (σ : ℤ → Shuffle)
    {d : Design ℝ} (h1 : d.preTop.val = 0) (h2 : d.preBottom.val = 0) (h3 : OrderFree d) :
    Spec.BothReturn (fun a a' => a' = (a.1, namedState ρ a.2)) (analyseDesign V data minStart σ d) (analyseDesign V (namedFrame ρ data) minStart σ d) := by
  unfold analyseDesign
  rw [mkSimulation_named d data]
  cases e : mkSimulation d data "item_id" "week_id" "time_period" "treatment" minStart (1 / 10000) with
  | error x => trivial
  | ok a =>
    simp only [Except.map, bind, Except.bind]
    obtain rfl := mkSimulation_design e
    have k := estimateMde_renamed hρ V.R ha V.tdist σ (mkSimulation_notebook e) h1 h2 h3 a.2
    revert k
    rcases estimateMde V.R V.argsort V.tdist σ a.1 a.2 with ⟨_ | _, s⟩ <;>
      rcases estimateMde V.R V.argsort V.tdist σ a.1 (namedState ρ a.2) with ⟨_ | _, s'⟩ <;> intro k
    · trivial
    · exact k.elim
    · exact k.elim
    · exact Prod.ext rfl k

theorem mapM_both {α β γ : Type} {P : β → γ → Prop} {f : α → Py β} {g : α → Py γ} (l : List α) (h : ∀ a ∈ l, Spec.BothReturn P (f a) (g a)) :
    Spec.BothReturn (List.Forall₂ P) (l.mapM f) (l.mapM g) := by
  induction l with
  | nil => exact List.Forall₂.nil
  | cons a l ih =>
    rw [List.mapM_cons, List.mapM_cons]
    refine (h a List.mem_cons_self).bind fun b c hbc => ?_
    refine (ih fun x hx => h x (List.mem_cons_of_mem _ hx)).bind fun m m' hm => ?_
    exact List.Forall₂.cons hbc hm

theorem estimateDesigns_renamed (hρ : Function.Injective ρ) (V : StudyEnv) (ha : ArgsortOk V.argsort) (data : Frame ℝ) (minStart : ℤ)
    {designs : List (Design ℝ)} (hd : ∀ d ∈ designs, d.preTop.val = 0 ∧ d.preBottom.val = 0 ∧ OrderFree d) :
    Spec.BothReturn (fun s s' => s' = namedStudy ρ s) (estimateDesigns V data minStart designs) (estimateDesigns V (namedFrame ρ data) minStart designs) := by
  unfold estimateDesigns
  refine (mapM_both (P := fun e e' => e' = (e.1, (e.2.1, namedState ρ e.2.2))) _ fun p hp => ?_).bind fun l l' hl => ?_
  · obtain ⟨h1, h2, h3⟩ := hd p.1 (List.fst_mem_of_mem_zipIdx hp)
    refine (analyseDesign_renamed hρ V ha data minStart (V.shuffle p.2) h1 h2 h3).bind fun a a' h => ?_
    subst h
    simp only
    cases designId V.R V.fr V.printable a.1.design with
    | error e => trivial
    | ok id => exact rfl
  · have hl' : l' = l.map (fun e => (e.1, (e.2.1, namedState ρ e.2.2))) := by
      clear hd
      induction hl with
      | nil => rfl
      | cons e _ ih => rw [List.map_cons, ih, e]
    subst hl'
    exact dictOf_map (fun a : SimConfig × SimState => (a.1, namedState ρ a.2)) l

/-- The designer with the new names. -/
theorem openStudy_renamed (hρ : Function.Injective ρ) (V : StudyEnv) (ha : ArgsortOk V.argsort) (form : StudyForm) (hall : form.fraction = 1)
    (h1 : ∀ q ∈ form.preTops, q = 0) (h2 : ∀ q ∈ form.preBottoms, q = 0) (h3 : (∀ q ∈ form.postTrims, q = 0) ∨ (form.crossoverAllowed = false ∧ ∀ p ∈ form.pretests, p = 0)) {raw raw' : Frame ℝ}
    (h : Spec.RawNamed V.ext form.itemCol ρ raw raw') :
    Spec.BothReturn (fun S S' => Spec.SameRows (namedFrame ρ S.1) S'.1 ∧ SameStudy (namedStudy ρ S.2) S'.2) (openStudy V form raw) (openStudy V form raw') := by
  unfold openStudy
  rw [hall]
  refine (prepareHistorical_renamed hρ h).bind fun data data' hs => ?_
  by_cases hw : form.crossoverAllowed = true ∧ form.washout < 1
  · simp only [hw, raiseIf]; trivial
  simp only [hw, raiseIf, if_false]
  have hcand : form.candidates data' = form.candidates data := by
    unfold StudyForm.candidates
    rw [nunique_perm (hs.col "item_id"), namedFrame_items, nunique_map_named hρ]
  have hmin : minStartWeek form.runtimes form.pretests (ints (dropDup (data'.col "week_id"))) =
      minStartWeek form.runtimes form.pretests (ints (dropDup (data.col "week_id"))) := by
    have hi : (ints (dropDup (data'.col "week_id"))).Perm (ints (dropDup ((namedFrame ρ data).col "week_id"))) := (dropDup_perm (hs.col "week_id")).filterMap _
    rw [minStartWeek_perm _ _ hi, namedFrame_col (x := "week_id") (by decide)]
  rw [hcand, hmin]
  cases eg : generateDesigns V.R (form.candidates data) with
  | error e => trivial
  | ok designs =>
    have hz : ∀ d ∈ designs, d.preTop.val = 0 ∧ d.preBottom.val = 0 ∧ OrderFree d := by
      intro d hd
      obtain ⟨-, -, -, -, -, -, -, k0, k1, k2, k3, -, kx⟩ := (C64_members V.R _ _ eg d).mp hd
      obtain ⟨q1, m1, e1⟩ := List.mem_map.mp k1
      obtain ⟨q2, m2, e2⟩ := List.mem_map.mp k2
      obtain ⟨q3, m3, e3⟩ := List.mem_map.mp k3
      unfold OrderFree
      rw [← e1, ← e2, ← e3]
      refine ⟨h1 _ m1, h2 _ m2, h3.imp (fun k => k _ m3) fun k => ⟨?_, k.2 _ k0⟩⟩
      rcases kx with kx | kx
      · exact kx.1
      · exact absurd (show form.crossoverAllowed = true from kx.2.2.1) (by rw [k.1]; simp)
    simp only [bind, Except.bind]
    cases minStartWeek form.runtimes form.pretests (ints (dropDup (data.col "week_id"))) with
    | error e => trivial
    | ok minStart =>
      simp only
      have k1 := estimateDesigns_renamed hρ V ha data minStart hz
      have k2 := estimateDesigns_same (V := V) hs minStart designs
      cases e1 : estimateDesigns V data minStart designs <;> cases e2 : estimateDesigns V (namedFrame ρ data) minStart designs <;>
        cases e3 : estimateDesigns V data' minStart designs <;> rw [e1, e2] at k1 <;> rw [e2, e3] at k2 <;>
        first | exact trivial | exact k1.elim | exact k2.elim | skip
      cases k1
      exact ⟨hs, k2⟩

end

end Feedx
