import Verif.Proofs.ItemNameChecks
import Verif.Props.ItemOrder
import Verif.Props.Estimate

/-!
Lemmas for C138: the order of the items in the pivoted table does not matter to metrics of which nothing is trimmed.
-/

set_option linter.unusedSectionVars false
set_option linter.unusedSimpArgs false
set_option maxHeartbeats 1000000

namespace Feedx

open Fl

theorem nTrim_none (R : Rounding ℝ) (n : ℕ) : nTrimOf R 0 n = 0 := by
  unfold nTrimOf Rounding.floorMul
  rw [rnd_zero_floor]; rfl

/-- A list in the order of a list of images. -/
theorem exists_perm_map {α β : Type} {f : α → β} {l : List α} {l' : List β} (h : l'.Perm (l.map f)) : ∃ l'' : List α, l''.Perm l ∧ l' = l''.map f := by
  have hf : List.Forall₂ (fun b a => b = f a) (l.map f) l := by
    rw [List.forall₂_map_left_iff]
    exact List.forall₂_same.mpr fun _ _ => rfl
  obtain ⟨l'', h1, h2⟩ := List.perm_comp_forall₂ h hf
  exact ⟨l'', h2, by
    clear h2 hf h
    induction h1 with
    | nil => rfl
    | cons e _ ih => rw [List.map_cons, ← ih, e]⟩

/-- The finite value of a float. -/
noncomputable def finVal : Fl ℝ → ℝ
  | .fin x => x
  | _ => 0

theorem finiteValues_map {α : Type} {l : List α} {a : α → Fl ℝ} {v : List ℝ} :
    finiteValues (l.map a) = .ok v ↔ (∀ x ∈ l, a x = .fin (finVal (a x))) ∧ v = l.map (fun x => finVal (a x)) := by
  rw [finiteValues_ok]
  induction l generalizing v with
  | nil => cases v <;> simp
  | cons x l ih =>
    cases v with
    | nil => simp
    | cons y v =>
      simp only [List.map_cons, List.cons.injEq, List.forall_mem_cons, ih]
      constructor
      · rintro ⟨h1, h2, h3⟩
        rw [h1]
        exact ⟨⟨rfl, h2⟩, rfl, h3⟩
      · rintro ⟨⟨h1, h2⟩, h3, h4⟩
        exact ⟨by rw [h3]; exact h1, h2, h4⟩

/-- Reading the values of the items in another order. -/
theorem finiteValues_shuffle {α : Type} {l l' : List α} (hp : l'.Perm l) {a : α → Fl ℝ} {v : List ℝ} (h : finiteValues (l.map a) = .ok v) :
    v = l.map (fun x => finVal (a x)) ∧ finiteValues (l'.map a) = .ok (l'.map (fun x => finVal (a x))) := by
  obtain ⟨h1, h2⟩ := finiteValues_map.mp h
  exact ⟨h2, finiteValues_map.mpr ⟨fun x hx => h1 x (hp.mem_iff.mp hx), rfl⟩⟩

theorem maskSelect_same {α β : Type} (l : List α) (p : α → Bool) (y : α → β) : maskSelect (l.map p) (l.map y) = (l.filter p).map y := by
  unfold maskSelect
  rw [List.zip_map', List.filter_map, List.map_map]
  rfl

/-- The adjustment of the items in another order. -/
theorem cuped_shuffle {R : Rounding ℝ} {argsort : List ℝ → List ℕ} (ha : ArgsortOk argsort) {z z' : List (ℝ × ℝ)} (hp : z'.Perm z) {out : List (Fl ℝ)}
    (h : cuped R argsort (z.map Prod.fst) (z.map Prod.snd) 0 = .ok out) :
    ∃ g : ℝ × ℝ → Fl ℝ, out = z.map g ∧ cuped R argsort (z'.map Prod.fst) (z'.map Prod.snd) 0 = .ok (z'.map g) := by
  have hl := hp.length_eq
  have hret : ∃ out', cuped R argsort (z'.map Prod.fst) (z'.map Prod.snd) 0 = .ok out' := by
    unfold cuped at h ⊢
    simp only [raiseIf_bind_ok, List.length_map, hl] at h ⊢
    obtain ⟨h1, h2, h3, h⟩ := h
    by_cases hz : sampleCov (z'.map Prod.snd) (z'.map Prod.snd) = 0
    · exact ⟨_, h1, h2, h3, by rw [if_pos hz, if_pos (nTrim_none R _)]; rfl⟩
    · obtain ⟨T, hT⟩ : ∃ T, mkTrimmed R argsort (List.zipWith (fun a (bc : ℝ × ℝ) => ![a, bc.1, bc.2])
          (List.zipWith (fun a b => a - sampleCov (z'.map Prod.fst) (z'.map Prod.snd) / sampleCov (z'.map Prod.snd) (z'.map Prod.snd) *
            (b - meanOf (z'.map Prod.snd))) (z'.map Prod.fst) (z'.map Prod.snd)) ((z'.map Prod.fst).zip (z'.map Prod.snd))) 0 = .ok T :=
        ⟨_, mkTrimmed_eq ha _ le_rfl (by norm_num) (by rw [nTrim_none]; omega)⟩
      have hn : T.nTrim = 0 := by rw [(mkTrimmed_ok hT).2.2.1, nTrim_none]
      exact ⟨_, h1, h2, h3, by
        rw [if_neg hz]
        simp only [hT, bind, Except.bind, hn, if_true]
        rfl⟩
  obtain ⟨out', h'⟩ := hret
  by_cases hv : Spec.sumSqDev (z.map Prod.snd) = 0
  · refine ⟨fun _ => .nan, ?_, ?_⟩
    · rw [cuped_constant h (nTrim_none R _) hv, List.map_map]; rfl
    · rw [h', cuped_constant h' (nTrim_none R _) (by rw [sumSqDev_perm (hp.map _), hv]), List.map_map]; rfl
  · refine ⟨_, (cuped_untrimmed h (nTrim_none R _) hv).2.trans (List.map_map ..), ?_⟩
    rw [h', (cuped_untrimmed h' (nTrim_none R _) (by rwa [sumSqDev_perm (hp.map _)])).2, List.map_map, crossDev_perm hp, sumSqDev_perm (hp.map _),
      spec_mean_perm (hp.map _)]

section
variable {tc : String} {α : Type} {l l' l1 l1' l2 l2' : List α}

theorem frameCol_map (cols : List String) (F : α → Row ℝ) (l : List α) (c : String) : (Frame.mk cols (l.map F)).col c = l.map (fun k => F k c) := by
  unfold Frame.col
  rw [List.map_map]; rfl

/-- The values of the two groups, with the items in another order. -/
theorem prepareRegular_shuffle {R : Rounding ℝ} {argsort : List ℝ → List ℕ} (ha : ArgsortOk argsort) (hp : l'.Perm l) (F : α → Row ℝ) (cols : List String)
    (tc : String) {q : ℝ} (hq : q = 0 ∨ "pretest" ∉ cols) {y : List (Fl ℝ) × List (Fl ℝ)} (h : prepareRegular R argsort ⟨cols, l.map F⟩ tc q = .ok y) :
    ∃ g : α → Fl ℝ, y = ((l.filter (fun k => cellEq 1 (F k tc))).map g, (l.filter (fun k => cellEq 0 (F k tc))).map g) ∧
      prepareRegular R argsort ⟨cols, l'.map F⟩ tc q = .ok ((l'.filter (fun k => cellEq 1 (F k tc))).map g, (l'.filter (fun k => cellEq 0 (F k tc))).map g) := by
  unfold prepareRegular at h ⊢
  simp only [frameCol_map, List.map_map] at h ⊢
  obtain ⟨t, ht, h⟩ := Py.bind_eq_ok.mp h
  obtain ⟨rfl, ht'⟩ := finiteValues_shuffle hp (a := fun k => (F k "test").toFl) ht
  obtain ⟨v, hv, h⟩ := Py.bind_eq_ok.mp h
  cases h
  have key : ∃ g : α → Fl ℝ, v = l.map g ∧ (if "pretest" ∈ cols then do
      let pre ← finiteValues (l'.map (fun k => (F k "pretest").toFl))
      cuped R argsort (l'.map (fun k => finVal (F k "test").toFl)) pre q
    else pure ((l'.map (fun k => finVal (F k "test").toFl)).map .fin)) = .ok (l'.map g) := by
    by_cases hc : "pretest" ∈ cols
    · rw [if_pos hc] at hv ⊢
      obtain rfl := hq.resolve_right (not_not.mpr hc)
      obtain ⟨c, hc', hv⟩ := Py.bind_eq_ok.mp hv
      obtain ⟨rfl, hc''⟩ := finiteValues_shuffle hp (a := fun k => (F k "pretest").toFl) hc'
      obtain ⟨g, h1, h2⟩ := cuped_shuffle (z := l.map (fun k => (finVal (F k "test").toFl, finVal (F k "pretest").toFl))) (argsort := argsort) (R := R)
        ha (hp.map _) (out := v) (by simpa only [List.map_map, Function.comp_def] using hv)
      refine ⟨fun k => g (finVal (F k "test").toFl, finVal (F k "pretest").toFl), by rw [h1, List.map_map]; rfl, ?_⟩
      refine Py.bind_eq_ok.mpr ⟨_, hc'', ?_⟩
      simpa only [List.map_map, Function.comp_def] using h2
    · rw [if_neg hc] at hv ⊢
      cases hv
      exact ⟨fun k => .fin (finVal (F k "test").toFl), by rw [List.map_map]; rfl, by rw [List.map_map]; rfl⟩
  obtain ⟨g, rfl, hg⟩ := key
  refine ⟨g, ?_, ?_⟩
  · rw [← maskSelect_same, ← maskSelect_same]; rfl
  · refine Py.bind_eq_ok.mpr ⟨_, ht', Py.bind_eq_ok.mpr ⟨_, hg, ?_⟩⟩
    rw [← maskSelect_same, ← maskSelect_same]; rfl

theorem onlyNan_perm {a b : List (Fl ℝ)} (h : a.Perm b) : onlyNan a = onlyNan b := by
  unfold onlyNan
  refine decide_eq_decide.mpr (and_congr ?_ ?_)
  · refine not_congr ⟨fun e => ?_, fun e => ?_⟩
    · subst e; exact h.symm.eq_nil
    · subst e; exact h.eq_nil
  · exact forall_congr' fun x => by rw [h.mem_iff]

/-- The test of a metric with the items in another order. -/
theorem indTestFl_shuffle {R : Rounding ℝ} {argsort : List ℝ → List ℕ} (ha : ArgsortOk argsort) (D : TDist) (h1 : l1'.Perm l1) (h2 : l2'.Perm l2)
    (g : α → Fl ℝ) {q : ℝ} {r : TestResult} (h : indTestFl R argsort D (l1.map g, l2.map g) q none = .ok r) :
    indTestFl R argsort D (l1'.map g, l2'.map g) q none = .ok r := by
  unfold indTestFl at h ⊢
  simp only [onlyNan_perm (h1.map g), onlyNan_perm (h2.map g), List.length_map, h1.length_eq, h2.length_eq] at h ⊢
  split_ifs at h ⊢ with hc
  · exact h
  · obtain ⟨v1, e1, h⟩ := Py.bind_eq_ok.mp h
    obtain ⟨v2, e2, h⟩ := Py.bind_eq_ok.mp h
    obtain ⟨rfl, e1'⟩ := finiteValues_shuffle h1 e1
    obtain ⟨rfl, e2'⟩ := finiteValues_shuffle h2 e2
    exact Py.bind_eq_ok.mpr ⟨_, e1', Py.bind_eq_ok.mpr ⟨_, e2',
      C29_sample_order_irrelevant R argsort argsort ha ha D _ _ _ _ (h1.symm.map _) (h2.symm.map _) q _ _ _ r h⟩⟩

theorem indTestFl_ratio_shuffle {R : Rounding ℝ} {argsort : List ℝ → List ℕ} (ha : ArgsortOk argsort) (D : TDist) (h1 : l1'.Perm l1) (h2 : l2'.Perm l2)
    (g k : α → Fl ℝ) {r : TestResult} (h : indTestFl R argsort D (l1.map g, l2.map g) 0 (some (l1.map k, l2.map k)) = .ok r) :
    indTestFl R argsort D (l1'.map g, l2'.map g) 0 (some (l1'.map k, l2'.map k)) = .ok r := by
  unfold indTestFl at h ⊢
  simp only [onlyNan_perm (h1.map g), onlyNan_perm (h2.map g), onlyNan_perm (h1.map k), onlyNan_perm (h2.map k), List.length_map, h1.length_eq,
    h2.length_eq] at h ⊢
  split_ifs at h ⊢ with hc
  · exact h
  · obtain ⟨v1, e1, h⟩ := Py.bind_eq_ok.mp h
    obtain ⟨v2, e2, h⟩ := Py.bind_eq_ok.mp h
    obtain ⟨d1, e3, h⟩ := Py.bind_eq_ok.mp h
    obtain ⟨d2, e4, h⟩ := Py.bind_eq_ok.mp h
    obtain ⟨rfl, e1'⟩ := finiteValues_shuffle h1 e1
    obtain ⟨rfl, e2'⟩ := finiteValues_shuffle h2 e2
    obtain ⟨rfl, e3'⟩ := finiteValues_shuffle h1 e3
    obtain ⟨rfl, e4'⟩ := finiteValues_shuffle h2 e4
    have hz : ∀ (n : ℕ) (x : ℝ), (n : ℤ) = ⌊R.rnd (0 * x)⌋ → n = 0 := fun n x e => by rw [rnd_zero_floor] at e; exact_mod_cast e
    have := C102_ratio_partial R argsort argsort ha ha D (l1.map (fun x => (finVal (g x), finVal (k x)))) (l2.map (fun x => (finVal (g x), finVal (k x))))
      _ _ (h1.symm.map _) (h2.symm.map _) 0 (fun n e => Or.inl (hz _ _ e)) (fun n e => Or.inl (hz _ _ e)) false "two-sided" defaultAlpha r
      (by simpa only [List.map_map, Function.comp_def] using h)
    exact Py.bind_eq_ok.mpr ⟨_, e1', Py.bind_eq_ok.mpr ⟨_, e2', Py.bind_eq_ok.mpr ⟨_, e3', Py.bind_eq_ok.mpr ⟨_, e4',
      by simpa only [List.map_map, Function.comp_def] using this⟩⟩⟩⟩

theorem analyzeRegular_shuffle {R : Rounding ℝ} {argsort : List ℝ → List ℕ} (ha : ArgsortOk argsort) (D : TDist) (hp : l'.Perm l) (F : α → Row ℝ)
    (G : Option (α → Row ℝ)) (hG : ∀ G' ∈ G, ∀ k ∈ l, G' k tc = F k tc) (cols : List String) {q : ℝ}
    (hq : q = 0 ∨ (G = none ∧ "pretest" ∉ cols)) {r : TestResult}
    (h : analyzeRegular R argsort D ⟨cols, l.map F⟩ (G.map (fun G' => ⟨cols, l.map G'⟩)) tc q = .ok r) :
    analyzeRegular R argsort D ⟨cols, l'.map F⟩ (G.map (fun G' => ⟨cols, l'.map G'⟩)) tc q = .ok r := by
  unfold analyzeRegular at h ⊢
  obtain ⟨y, hy, h⟩ := Py.bind_eq_ok.mp h
  obtain ⟨g, rfl, hy'⟩ := prepareRegular_shuffle ha hp F cols tc (hq.imp_right And.right) hy
  refine Py.bind_eq_ok.mpr ⟨_, hy', ?_⟩
  cases G with
  | none => exact indTestFl_shuffle ha D (hp.filter _) (hp.filter _) g h
  | some G =>
    obtain rfl := hq.resolve_right (fun h => by simp at h)
    simp only [Option.map_some] at h ⊢
    obtain ⟨z, hz, h⟩ := Py.bind_eq_ok.mp h
    obtain ⟨k, rfl, hz'⟩ := prepareRegular_shuffle ha hp G cols tc (.inl rfl) hz
    have e : ∀ b, l.filter (fun k => cellEq b (G k tc)) = l.filter (fun k => cellEq b (F k tc)) := fun b =>
      List.filter_congr fun k hk => by rw [hG G rfl k hk]
    have e' : ∀ b, l'.filter (fun k => cellEq b (G k tc)) = l'.filter (fun k => cellEq b (F k tc)) := fun b =>
      List.filter_congr fun k hk => by rw [hG G rfl k (hp.mem_iff.mp hk)]
    simp only [e, e'] at hz' h
    exact Py.bind_eq_ok.mpr ⟨_, hz', indTestFl_ratio_shuffle ha D (hp.filter _) (hp.filter _) g k h⟩

/-! ### Crossover -/

/-- The values of the items in the treated and the untreated period, with the items in another order. -/
theorem prepareCrossover_shuffle (hp : l'.Perm l) (store : ℝ → ℝ) (i : α → Bool × ℝ × ℝ) :
    ∃ t u : α → ℝ, prepareCrossover store (l.map i) true = (l.map t, l.map u) ∧ prepareCrossover store (l'.map i) true = (l'.map t, l'.map u) := by
  have hm : ∀ F : α → ℝ, (l'.map F).sum / ((l'.map F).length : ℝ) = (l.map F).sum / ((l.map F).length : ℝ) := fun F => by
    rw [(hp.map F).sum_eq, (hp.map F).length_eq]
  unfold prepareCrossover
  simp only [if_true, List.map_map, Function.comp_def, hm]
  exact ⟨_, _, rfl, rfl⟩

theorem crossoverItems_shuffle (hp : l'.Perm l) (F : α → Row ℝ) (cols : List String) (tc : String) {items : List (Bool × ℝ × ℝ)}
    (h : crossoverItems ⟨cols, l.map F⟩ tc = .ok items) :
    ∃ i : α → Bool × ℝ × ℝ, items = l.map i ∧ crossoverItems ⟨cols, l'.map F⟩ tc = .ok (l'.map i) := by
  unfold crossoverItems at h ⊢
  simp only [frameCol_map, List.map_map, Function.comp_def] at h ⊢
  obtain ⟨v1, e1, h⟩ := Py.bind_eq_ok.mp h
  obtain ⟨v2, e2, h⟩ := Py.bind_eq_ok.mp h
  cases h
  obtain ⟨rfl, e1'⟩ := finiteValues_shuffle hp (a := fun k => (F k "test_1").toFl) e1
  obtain ⟨rfl, e2'⟩ := finiteValues_shuffle hp (a := fun k => (F k "test_2").toFl) e2
  refine ⟨fun k => (cellEq 1 (F k tc), finVal (F k "test_1").toFl, finVal (F k "test_2").toFl), ?_, ?_⟩
  · rw [List.zip_map', List.zip_map']
  · refine Py.bind_eq_ok.mpr ⟨_, e1', Py.bind_eq_ok.mpr ⟨_, e2', ?_⟩⟩
    rw [List.zip_map', List.zip_map']; rfl

theorem analyzeCrossover_shuffle {R : Rounding ℝ} {argsort : List ℝ → List ℕ} (ha : ArgsortOk argsort) (D : TDist) (store store' : ℝ → ℝ) (hp : l'.Perm l)
    (F : α → Row ℝ) (G : Option (α → Row ℝ)) (cols : List String) (tc : String) {r : TestResult}
    (h : analyzeCrossover R argsort D store store' ⟨cols, l.map F⟩ (G.map (fun G' => ⟨cols, l.map G'⟩)) tc 0 = .ok r) :
    analyzeCrossover R argsort D store store' ⟨cols, l'.map F⟩ (G.map (fun G' => ⟨cols, l'.map G'⟩)) tc 0 = .ok r := by
  have hz : ∀ (n : ℕ) (x : ℝ), (n : ℤ) = ⌊R.rnd (0 * x)⌋ → n = 0 := fun n x e => by rw [rnd_zero_floor] at e; exact_mod_cast e
  unfold analyzeCrossover at h ⊢
  obtain ⟨items, hi, h⟩ := Py.bind_eq_ok.mp h
  obtain ⟨i, rfl, hi'⟩ := crossoverItems_shuffle hp F cols tc hi
  obtain ⟨t, u, e, e'⟩ := prepareCrossover_shuffle hp store i
  refine Py.bind_eq_ok.mpr ⟨_, hi', ?_⟩
  simp only [decide_true, e, e'] at h ⊢
  cases G with
  | none =>
    simp only [Option.map_none] at h ⊢
    have := C102_paired_partial R argsort argsort ha ha D (l.map (fun x => (t x, u x))) _ (hp.symm.map _) 0 (fun n e => Or.inl (hz _ _ e)) "two-sided"
      defaultAlpha r (by simpa only [List.map_map, Function.comp_def] using h)
    simpa only [List.map_map, Function.comp_def] using this
  | some G =>
    simp only [Option.map_some] at h ⊢
    obtain ⟨items', hj, h⟩ := Py.bind_eq_ok.mp h
    obtain ⟨j, rfl, hj'⟩ := crossoverItems_shuffle hp G cols tc hj
    obtain ⟨t', u', e2, e2'⟩ := prepareCrossover_shuffle hp store' j
    refine Py.bind_eq_ok.mpr ⟨_, hj', ?_⟩
    simp only [e2, e2'] at h ⊢
    have := C102_paired_ratio_partial R argsort argsort ha ha D (l.map (fun x => ((t x, t' x), (u x, u' x)))) _ (hp.symm.map _) 0
      (fun n e => Or.inl (hz _ _ e)) "two-sided" defaultAlpha r (by simpa only [List.map_map, Function.comp_def] using h)
    simpa only [List.map_map, Function.comp_def] using this

end

/-! ### The analysis -/

/-- The row of an item in the table of a metric. -/
noncomputable def subsetRow (piv : Pivoted ℝ) (indexNames : List String) (m : String) (k : List (Cell ℝ)) : Row ℝ := fun c =>
  match (indexNames.zip k).lookup c with
  | some v => v
  | none => flCell (piv.value k m c)

/-- The columns of the table of a metric. -/
def subsetCols (piv : Pivoted ℝ) (indexNames : List String) : List String := indexNames ++ piv.periods.map (fun c => match c with
  | .str s => s
  | _ => "")

theorem metricSubset_shuffle {piv : Pivoted ℝ} {metrics indexNames : List String} {m : String} {f : Frame ℝ}
    (h : metricSubset piv metrics indexNames m = .ok f) (l' : List (List (Cell ℝ))) :
    f = ⟨subsetCols piv indexNames, piv.index.map (subsetRow piv indexNames m)⟩ ∧
      metricSubset { piv with index := l' } metrics indexNames m = .ok ⟨subsetCols piv indexNames, l'.map (subsetRow piv indexNames m)⟩ := by
  unfold metricSubset at h ⊢
  obtain ⟨h1, h⟩ := raiseIf_bind_ok.mp h
  obtain ⟨h2, h⟩ := raiseIf_bind_ok.mp h
  cases h
  exact ⟨rfl, raiseIf_bind_ok.mpr ⟨h1, raiseIf_bind_ok.mpr ⟨h2, rfl⟩⟩⟩

theorem storeFirst_shuffle {piv : Pivoted ℝ} {l' : List (List (Cell ℝ))} (hp : l'.Perm piv.index) (m : String) :
    storeFirst { piv with index := l' } m = storeFirst piv m := by
  unfold storeFirst
  have he : (piv.whole m = true ∧ ∀ k ∈ l', ∃ n : ℤ, piv.value k m "test_1" = .fin (n : ℝ)) ↔
      (piv.whole m = true ∧ ∀ k ∈ piv.index, ∃ n : ℤ, piv.value k m "test_1" = .fin (n : ℝ)) := by
    simp only [hp.mem_iff]
  by_cases hb : piv.whole m = true ∧ ∀ k ∈ piv.index, ∃ n : ℤ, piv.value k m "test_1" = .fin (n : ℝ)
  · rw [if_pos hb, if_pos (he.mpr hb)]
  · rw [if_neg hb, if_neg (mt he.mp hb)]

theorem subsetCols_pretest {piv : Pivoted ℝ} {item tc : String} (hne : tc ≠ "pretest" ∧ item ≠ "pretest") (h : .str "pretest" ∉ piv.periods) :
    "pretest" ∉ subsetCols piv [item, tc] := by
  unfold subsetCols
  simp only [List.mem_append, List.mem_cons, List.not_mem_nil, or_false, List.mem_map, not_or, not_exists, not_and]
  refine ⟨⟨hne.2.symm, hne.1.symm⟩, fun c hc e => ?_⟩
  cases c <;> simp_all

/-- A metric of which nothing is trimmed has the same result with the items in another order.  So has a metric without a denominator in a regular experiment
without pretest weeks, whatever is trimmed of it. -/
theorem analyzeSingleMetric_shuffle {R : Rounding ℝ} {argsort : List ℝ → List ℕ} (ha : ArgsortOk argsort) (D : TDist) {piv : Pivoted ℝ}
    {l' : List (List (Cell ℝ))} (hp : l'.Perm piv.index) (hk : ∀ k ∈ piv.index, k.length = 2) {metrics : List String} {item tc : String} (hne : tc ≠ item)
    {d : DesignParams ℝ} {m : String} {dn : Option String} {override : Option ℝ} (hne' : tc ≠ "pretest" ∧ item ≠ "pretest")
    (hq : override.getD d.postTrim.val = 0 ∨ (dn = none ∧ d.isCrossover = false ∧ .str "pretest" ∉ piv.periods)) {r : TestResult}
    (h : analyzeSingleMetric R argsort D piv metrics [item, tc] d m dn tc override = .ok r) :
    analyzeSingleMetric R argsort D { piv with index := l' } metrics [item, tc] d m dn tc override = .ok r := by
  unfold analyzeSingleMetric at h ⊢
  obtain ⟨f, hf, h⟩ := Py.bind_eq_ok.mp h
  obtain ⟨g, hg, h⟩ := Py.bind_eq_ok.mp h
  obtain ⟨hreq, h⟩ := raiseIf_bind_ok.mp h
  obtain ⟨rfl, hf'⟩ := metricSubset_shuffle hf l'
  cases dn with
  | none =>
    cases hg
    refine Py.bind_eq_ok.mpr ⟨_, hf', Py.bind_eq_ok.mpr ⟨none, rfl, raiseIf_bind_ok.mpr ⟨hreq, ?_⟩⟩⟩
    simp only [storeFirst_shuffle hp, Option.elim_none] at h ⊢
    split_ifs at h ⊢ with hc
    · have hq : override.getD d.postTrim.val = 0 := hq.resolve_right (fun k => by rw [k.2.1] at hc; cases hc)
      rw [hq] at h ⊢
      exact analyzeCrossover_shuffle ha D _ _ hp _ none _ tc h
    · exact analyzeRegular_shuffle ha D hp _ none (fun _ h => by simp at h) _ (hq.imp_right (fun k => ⟨rfl, subsetCols_pretest hne' k.2.2⟩)) h
  | some x =>
    obtain ⟨g', hx, hg⟩ := Py.bind_eq_ok.mp hg
    cases hg
    obtain ⟨rfl, hx'⟩ := metricSubset_shuffle hx l'
    refine Py.bind_eq_ok.mpr ⟨_, hf', Py.bind_eq_ok.mpr ⟨_, Py.bind_eq_ok.mpr ⟨_, hx', rfl⟩, raiseIf_bind_ok.mpr ⟨hreq, ?_⟩⟩⟩
    have hq : override.getD d.postTrim.val = 0 := hq.resolve_right (fun k => by cases k.1)
    simp only [hq, storeFirst_shuffle hp, Option.elim_some] at h ⊢
    split_ifs at h ⊢ with hc
    · exact analyzeCrossover_shuffle ha D _ _ hp _ (some (subsetRow piv [item, tc] x)) _ tc h
    · refine analyzeRegular_shuffle ha D hp _ (some (subsetRow piv [item, tc] x)) (fun G' hG' k hk' => ?_) _ (.inl rfl) h
      cases Option.mem_some_iff.mp hG'
      have := hk k hk'
      rcases k with _ | ⟨a, _ | ⟨b, _ | ⟨c, k⟩⟩⟩
      · simp at this
      · simp at this
      · have hb : (tc == item) = false := by simpa using hne
        simp [subsetRow, List.lookup, hb]
      · simp at this

end Feedx
