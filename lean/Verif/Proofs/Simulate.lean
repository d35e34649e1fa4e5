import Verif.Model.Simulate
import Verif.Props.Pivot
import Verif.Props.Assign
import Verif.Proofs.Analysis
import Verif.Spec.Simulate

/-!
Lemmas about the simulations: what cannot raise `RuntimeError`, and the numbers of items.
-/

set_option linter.unusedSectionVars false

namespace Feedx
open Fl

/-- The call does not raise `RuntimeError`. -/
def NoRt {α : Type} (x : Py α) : Prop := x ≠ .error .runtimeError

theorem NoRt.ok {α : Type} (a : α) : NoRt (.ok a : Py α) := by unfold NoRt; simp

theorem NoRt.pure {α : Type} (a : α) : NoRt (Pure.pure a : Py α) := NoRt.ok a

theorem NoRt.error {α : Type} {e : PyErr} (h : e ≠ .runtimeError) : NoRt (.error e : Py α) := by
  unfold NoRt; simpa using h

theorem NoRt.bind {α β : Type} {x : Py α} {f : α → Py β} (h : NoRt x) (hf : ∀ a, x = .ok a → NoRt (f a)) : NoRt (x >>= f) := by
  unfold NoRt at *
  intro hc
  rcases Py.bind_eq_error.mp hc with h' | ⟨a, ha, h'⟩
  · exact h h'
  · exact hf a ha h'

theorem NoRt.raise {α : Type} {e : PyErr} {c : Prop} [Decidable c] {r : Py α} (h : c → e ≠ .runtimeError) (hr : ¬ c → NoRt r) :
    NoRt (raiseIf e c >>= fun _ => r) := by
  unfold NoRt at *
  intro hc
  rcases raiseIf_bind_err.mp hc with ⟨h', he⟩ | ⟨h', he⟩
  · exact h h' he
  · exact hr h' he

theorem NoRt.ite {α : Type} {c : Prop} [Decidable c] {x y : Py α} (hx : c → NoRt x) (hy : ¬ c → NoRt y) : NoRt (if c then x else y) := by
  split_ifs with h
  · exact hx h
  · exact hy h

theorem noRt_pivot {d : DesignParams ℝ} {start : ℤ} {ms : List String} {i w : String} {t : Option String} {p : String} {f : Frame ℝ} :
    NoRt (pivotTimeAssignment d start ms i w t p f).1 := by
  unfold pivotTimeAssignment
  split_ifs
  · exact NoRt.error (by decide)
  · exact NoRt.error (by decide)
  · cases hl : labelRows d start w p f with
    | error e =>
      apply NoRt.error
      unfold labelRows at hl
      rcases raiseIf_bind_err.mp hl with ⟨-, rfl⟩ | ⟨-, hl⟩
      · decide
      rcases raiseIf_bind_err.mp hl with ⟨-, rfl⟩ | ⟨-, hl⟩
      · decide
      cases hl
    | ok g =>
      simp only
      split_ifs
      · exact NoRt.error (by decide)
      · exact NoRt.ok _

theorem noRt_trimOutliers {R : Rounding ℝ} {σ : Shuffle} {f : Frame ℝ} {c : String} {t b : ℝ} : NoRt (trimOutliers R σ f c t b) := by
  unfold trimOutliers
  refine .raise (fun _ => by decide) fun _ => .raise (fun _ => by decide) fun _ => .raise (fun _ => by decide) fun _ => ?_
  refine .ite (fun _ => .pure _) fun _ => ?_
  exact .raise (fun _ => by decide) fun _ => .raise (fun _ => by decide) fun _ => .pure _

theorem noRt_mkTrimmed {R : Rounding ℝ} {argsort : List ℝ → List ℕ} {m : ℕ} {cols : List (Fin (m + 1) → ℝ)} {q : ℝ} :
    NoRt (mkTrimmed R argsort cols q) := by
  unfold mkTrimmed
  exact .raise (fun _ => by decide) fun _ => .raise (fun _ => by decide) fun _ => .pure _

theorem noRt_finiteValues {l : List (Fl ℝ)} : NoRt (finiteValues l) := by
  unfold finiteValues
  induction l with
  | nil => exact .pure _
  | cons x l ih =>
    rw [List.mapM_cons]
    refine .bind ?_ fun _ _ => .bind ih fun _ _ => .pure _
    cases x <;> first | exact .ok _ | exact .error (by decide)

theorem noRt_cuped {R : Rounding ℝ} {argsort : List ℝ → List ℕ} {a b : List ℝ} {q : ℝ} : NoRt (cuped R argsort a b q) := by
  unfold cuped
  refine .raise (fun _ => by decide) fun _ => .raise (fun _ => by decide) fun _ => .raise (fun _ => by decide) fun _ => ?_
  refine .ite (fun _ => .ite (fun _ => .pure _) fun _ => .raise (fun _ => by decide) fun _ => .pure _) fun _ => ?_
  refine .bind noRt_mkTrimmed fun _ _ => .ite (fun _ => .pure _) fun _ => .raise (fun _ => by decide) fun _ => ?_
  refine .ite (fun _ => .pure _) fun _ => .bind noRt_mkTrimmed fun _ _ => .bind noRt_mkTrimmed fun _ _ => ?_
  exact .ite (fun _ => .pure _) fun _ => .pure _

/-- Decomposes a claim that a program cannot raise `RuntimeError`. -/
macro "nort" : tactic => `(tactic| repeat' (first
  | exact NoRt.ok _ | exact NoRt.pure _ | exact NoRt.error (by decide) | assumption
  | exact noRt_finiteValues | exact noRt_cuped | exact noRt_mkTrimmed
  | refine NoRt.raise (fun _ => by decide) fun _ => ?_
  | refine NoRt.ite (fun _ => ?_) fun _ => ?_
  | refine NoRt.bind ?_ fun _ _ => ?_))

theorem noRt_resultsFrom {D : TDist} {e : Estimates} {b : Bool} {alt : String} {α : ℝ} : NoRt (resultsFrom D e b alt α) := by
  unfold resultsFrom ttestFromStats absoluteCI relativeCI criticalT
  nort

theorem noRt_indTest {R : Rounding ℝ} {argsort : List ℝ → List ℕ} {D : TDist} {a b : List ℝ} {q : ℝ} {c d : Option (List ℝ)} {e : Bool}
    {alt : String} {α : ℝ} : NoRt (indTest R argsort D a b q c d e alt α) := by
  unfold indTest
  split <;> nort

theorem noRt_pairedTest {R : Rounding ℝ} {argsort : List ℝ → List ℕ} {D : TDist} {a b : List ℝ} {q : ℝ} {c d : Option (List ℝ)}
    {alt : String} {α : ℝ} : NoRt (pairedTest R argsort D a b q c d alt α) := by
  unfold pairedTest
  refine NoRt.raise (fun _ => by decide) fun _ => ?_
  split <;> nort

theorem noRt_analyze {R : Rounding ℝ} {argsort : List ℝ → List ℕ} {D : TDist} {piv : Pivoted ℝ} {ms ns : List String} {d : DesignParams ℝ}
    {m t : String} {q : Option ℝ} : NoRt (analyzeSingleMetric R argsort D piv ms ns d m none t q) := by
  unfold analyzeSingleMetric metricSubset analyzeCrossover analyzeRegular crossoverItems prepareRegular indTestFl
  nort

theorem noRt_analyzeWide {R : Rounding ℝ} {argsort : List ℝ → List ℕ} {D : TDist} {w : Wide ℝ} {d : DesignParams ℝ} {m t : String} :
    NoRt (analyzeWide R argsort D w d m t) := by
  unfold analyzeWide
  nort

theorem noRt_analyzeNan {R : Rounding ℝ} {argsort : List ℝ → List ℕ} {D : TDist} {w : Wide ℝ} {d : DesignParams ℝ} {t : String} :
    NoRt (analyzeNan R argsort D w d t) := by
  unfold analyzeNan indTestFl
  nort

theorem noRt_wideValues {w : Wide ℝ} {l : List String} : NoRt (wideValues w l) :=
  .raise (fun _ => by decide) fun _ => noRt_finiteValues

theorem noRt_trimWide {R : Rounding ℝ} {σ : Shuffle} {w : Wide ℝ} {l : List String} {t b : ℝ} : NoRt (trimWide R σ w l t b) := by
  unfold trimWide
  exact .bind noRt_trimOutliers fun _ _ => .pure _

theorem noRt_mdeOf {D : TDist} {d : Design ℝ} {a sd : Fl ℝ} {n : ℕ} : NoRt (mdeOf D d a sd n) := by
  have hc : ∀ df alt α, NoRt (criticalT D df alt α) := by
    intro df alt α
    unfold criticalT
    exact .ite (fun _ => .ok _) fun _ => .ite (fun _ => .ok _) fun _ => .ite (fun _ => .ok _) fun _ => .error (by decide)
  unfold mdeOf pairedMde indMde mdeFromStats
  refine .bind ?_ fun _ _ => .pure _
  exact .ite (fun _ => .bind (hc _ _ _) fun _ _ => .pure _) fun _ => .bind (hc _ _ _) fun _ _ => .pure _

/-! ### Values that are not all nan -/

theorem finiteValues_fin (l : List ℝ) : finiteValues (l.map fin) = .ok l := finiteValues_ok.mpr rfl

/-- Adjusted values are all nan only if nothing is trimmed and the covariate is constant. -/
theorem cuped_onlyNan {R : Rounding ℝ} {argsort : List ℝ → List ℕ} {a b : List ℝ} {q : ℝ} {out : List (Fl ℝ)}
    (h : cuped R argsort a b q = .ok out) (ho : onlyNan out = true) : nTrimOf R q a.length = 0 ∧ sampleCov b b = 0 := by
  obtain ⟨-, -, ⟨v, rfl, -⟩ | ⟨h1, h2, -⟩⟩ := cuped_shape h
  · rw [onlyNan_fin] at ho; cases ho
  · exact ⟨h2, h1⟩

theorem flMean_map_fin {l : List ℝ} (h : l ≠ []) : flMean (l.map fin) = fin (meanOf l) := by
  have hn : (l.length : ℝ) ≠ 0 := by
    have := List.length_pos_iff.mpr h
    positivity
  have ht : ∀ l : List ℝ, flTotal (l.map fin) = fin l.sum := by
    intro l
    induction l with
    | nil => rfl
    | cons a l ih =>
      have : flTotal ((a :: l).map fin) = fin a + flTotal (l.map fin) := rfl
      rw [this, ih, List.sum_cons]
      rfl
  unfold flMean
  rw [ht, List.length_map, fin_div_ne hn]
  rfl

theorem flMean_nan {l : List (Fl ℝ)} (h : nan ∈ l) : flMean l = nan := by
  have ht : flTotal l = nan := by
    induction l with
    | nil => simp at h
    | cons a l ih =>
      have e : flTotal (a :: l) = a + flTotal l := rfl
      rw [e]
      rcases List.mem_cons.mp h with rfl | h
      · cases flTotal l <;> rfl
      · rw [ih h]
        cases a <;> rfl
  unfold flMean
  rw [ht]
  rfl

/-! ### Numbers of rows -/

theorem wideValues_length {w : Wide ℝ} {l : List String} {v : List ℝ} (h : wideValues w l = .ok v) : v.length = w.rows.length := by
  unfold wideValues at h
  have := finiteValues_ok.mp (raiseIf_bind_ok.mp h).2
  have := congrArg List.length this
  simpa using this.symm

theorem filterMap_ints_length {w : Wide ℝ} {g : List (Row ℝ)}
    (h : ∀ r ∈ g, ∃ i : ℕ, i < w.rows.length ∧ r "position" = .int (i : ℤ)) :
    ((ints (g.map (fun r => r "position"))).filterMap (fun i => w.rows[i.toNat]?)).length = g.length := by
  induction g with
  | nil => rfl
  | cons r g ih =>
    obtain ⟨i, hi, e⟩ := h r (by simp)
    have := ih (fun r hr => h r (List.mem_cons_of_mem _ hr))
    unfold ints at this ⊢
    simp only [List.map_cons, e, List.filterMap_cons, Int.toNat_natCast]
    rw [List.getElem?_eq_getElem hi]
    simp only [List.length_cons]
    rw [this]

theorem trimOutliers_subset {R : Rounding ℝ} {σ : Shuffle} {f out : Frame ℝ} {c : String} {t b : ℝ}
    (h : trimOutliers R σ f c t b = .ok out) : out.cols = f.cols ∧ ∀ r ∈ out.rows, r ∈ f.rows := by
  unfold trimOutliers at h
  have h := (raiseIf_bind_ok.mp (raiseIf_bind_ok.mp (raiseIf_bind_ok.mp h).2).2).2
  dsimp only at h
  split at h
  · cases h; exact ⟨rfl, fun _ h => h⟩
  · have h := (raiseIf_bind_ok.mp (raiseIf_bind_ok.mp h).2).2
    cases h
    refine ⟨rfl, fun r hr => ?_⟩
    obtain ⟨p, hp, rfl⟩ := List.mem_map.mp hr
    have := (List.mem_filter.mp hp).1
    rw [List.mem_iff_getElem?] at this ⊢
    obtain ⟨i, hi⟩ := this
    rw [List.getElem?_zipIdx] at hi
    obtain ⟨a, ha, he⟩ := Option.map_eq_some_iff.mp hi
    exact ⟨i, by rw [ha, ← he]⟩

/-- Trimming a table whose values in the column are not missing leaves the number of rows the design gives. -/
theorem trimWide_count {R : Rounding ℝ} {p : DesignParams ℝ} {d : Design ℝ} (hd : mkDesign R p = .ok d) {σ : Shuffle} {w w' : Wide ℝ}
    {l : List String} (hn : (w.rows.length : ℤ) = d.nBefore) (hn' : w.rows.length ≤ 2 ^ 51) (hv : ∀ r ∈ w.rows, r.val l ≠ .nan)
    (h : trimWide R σ w l d.preTop.val d.preBottom.val = .ok w') :
    (w'.rows.length : ℤ) = d.nAfterPre ∧ w'.cols = w.cols := by
  unfold trimWide at h
  obtain ⟨g, hg, h⟩ := Py.bind_eq_ok.mp h
  cases h
  refine ⟨?_, rfl⟩
  obtain ⟨hcols, hsub⟩ := trimOutliers_subset hg
  have hpos : ∀ r ∈ g.rows, ∃ i : ℕ, i < w.rows.length ∧ r "position" = .int (i : ℤ) := by
    intro r hr
    obtain ⟨q, hq, rfl⟩ := List.mem_map.mp (hsub r hr)
    refine ⟨q.2, ?_, by simp⟩
    rcases q with ⟨a, j⟩
    have := List.mem_zipIdx hq
    simp at this
    exact this.1
  show ((((ints (g.col "position")).filterMap (fun i => w.rows[i.toNat]?)).length : ℕ) : ℤ) = _
  have e1 : ((ints (g.col "position")).filterMap (fun i => w.rows[i.toNat]?)).length = g.rows.length := by
    unfold Frame.col
    exact filterMap_ints_length hpos
  rw [e1]
  -- the number of rows left
  have hcell : ∀ x : Fl ℝ, x ≠ .nan → Spec.IsNumber (flCell x) ∧ flCell x ≠ .null := by
    intro x hx
    unfold Spec.IsNumber
    cases x <;> simp_all [flCell]
  by_cases hl : l ∈ w.cols
  · have key := C56_counts_agree R p d hd σ ⟨if l ∈ w.cols then ["position", "order"] else ["position"],
      w.rows.zipIdx.map (fun p c => if c = "position" then .int (p.2 : ℤ) else flCell (p.1.val l))⟩ "order"
      (by simpa using hn) (by simpa using hn') (by simp [hl])
      (by
        intro r hr
        obtain ⟨q, hq, rfl⟩ := List.mem_map.mp hr
        simp only [show ("order" : String) ≠ "position" by decide, if_false]
        exact (hcell _ (hv _ (List.fst_mem_of_mem_zipIdx hq))).1)
      (by
        intro r hr
        obtain ⟨q, hq, rfl⟩ := List.mem_map.mp hr
        simp only [show ("order" : String) ≠ "position" by decide, if_false]
        exact (hcell _ (hv _ (List.fst_mem_of_mem_zipIdx hq))).2)
    obtain ⟨out, ho, hlen⟩ := key.1
    rw [hg] at ho
    cases ho
    exact hlen
  · -- without the column the call returns only if nothing is trimmed
    unfold trimOutliers at hg
    have hg := (raiseIf_bind_ok.mp (raiseIf_bind_ok.mp (raiseIf_bind_ok.mp hg).2).2).2
    dsimp only at hg
    split at hg
    · rename_i hz
      cases hg
      obtain ⟨rfl, -⟩ := (mkDesign_ok_iff R p d).mp hd
      simp only [List.length_map, List.length_zipIdx] at hz ⊢
      have hn0 : (w.rows.length : ℤ) = p.nBefore := hn
      rw [hn0] at hz ⊢
      have e : (deriveCounts R p).nAfterPre = p.nBefore - R.floorMul p.preTop.val p.nBefore - R.floorMul p.preBottom.val p.nBefore := rfl
      have z1 : R.floorMul p.preTop.val p.nBefore = 0 := hz.1
      have z2 : R.floorMul p.preBottom.val p.nBefore = 0 := hz.2
      rw [e, z1, z2]; simp
    · have := (raiseIf_bind_ok.mp hg).1
      simp at this

/-- After the first trimming, the second one leaves the number of values the design gives. -/
theorem mkTrimmed_count {R : Rounding ℝ} {p : DesignParams ℝ} {d : Design ℝ} (hd : mkDesign R p = .ok d) (σ : Shuffle)
    (h0 : 0 ≤ d.nBefore) (hn : d.nBefore ≤ 2 ^ 51) {argsort : List ℝ → List ℕ} (ha : ArgsortOk argsort) {m : ℕ} {cols : List (Fin (m + 1) → ℝ)} (hl : (cols.length : ℤ) = d.nAfterPre)
    {T : TrimmedArray ℝ m} (h : mkTrimmed R argsort cols d.postTrim.val = .ok T) : (T.len : ℤ) = d.nAfterPost := by
  have key := (C56_counts_agree R p d hd σ ⟨["order"], List.replicate d.nBefore.toNat (fun _ => .int 0)⟩ "order"
    (by simp; omega) (by simp; omega) (by simp) (by intro r hr; rw [List.eq_of_mem_replicate hr]; simp [Spec.IsNumber])
    (by intro r hr; rw [List.eq_of_mem_replicate hr]; simp)).2 argsort ha m cols hl
  obtain ⟨T', hT, hlen⟩ := key
  rw [h] at hT
  cases hT
  exact hlen

/-- If nothing is trimmed after the test then no items are lost there. -/
theorem nAfterPost_untrimmed {R : Rounding ℝ} {p : DesignParams ℝ} {d : Design ℝ} (hd : mkDesign R p = .ok d) (σ : Shuffle)
    (h0 : 0 ≤ d.nBefore) (hn : d.nBefore ≤ 2 ^ 51) {argsort : List ℝ → List ℕ} (ha : ArgsortOk argsort) {n : ℕ} (hl : (n : ℤ) = d.nAfterPre)
    (hg : nTrimOf R d.postTrim.val n = 0) : (n : ℤ) = d.nAfterPost := by
  obtain ⟨T, hT, hlen⟩ := (C56_counts_agree R p d hd σ ⟨["order"], List.replicate d.nBefore.toNat (fun _ => .int 0)⟩ "order"
    (by simp; omega) (by simp; omega) (by simp) (by intro r hr; rw [List.eq_of_mem_replicate hr]; simp [Spec.IsNumber])
    (by intro r hr; rw [List.eq_of_mem_replicate hr]; simp)).2 argsort ha 0 (List.replicate n 0) (by simpa using hl)
  obtain ⟨-, -, a1, a2, -⟩ := mkTrimmed_ok hT
  rw [List.length_replicate] at a1 a2
  omega

theorem sumSkip_finite {l : List (Fl ℝ)} (h : ∀ x ∈ l, x = .nan ∨ ∃ y, x = .fin y) : ∃ y, Fl.sumSkip l = .fin y := by
  induction l with
  | nil => exact ⟨0, rfl⟩
  | cons a l ih =>
    obtain ⟨y, hy⟩ := ih (fun x hx => h x (List.mem_cons_of_mem _ hx))
    unfold Fl.sumSkip at hy ⊢
    rcases h a (by simp) with rfl | ⟨z, rfl⟩
    · exact ⟨y, by rw [List.filter_cons_of_neg (by simp [Fl.isNan])]; exact hy⟩
    · exact ⟨z + y, by rw [List.filter_cons_of_pos (by simp [Fl.isNan]), List.foldr_cons, hy]; rfl⟩

/-- A successful pivot leaves complete data complete. -/
theorem complete_pivot {d : Design ℝ} {start : ℤ} {i w p : String} {starts : List ℤ} {f f' : Frame ℝ} {piv : Pivoted ℝ}
    (h : pivotTimeAssignment d.toDesignParams start [d.primaryMetric] i w none p f = (.ok piv, f'))
    (hc : Spec.CompleteHistory d i w starts f.rows) : Spec.CompleteHistory d i w starts f'.rows := by
  obtain ⟨hp, hcols, g, hg, -, rfl, -⟩ := pivot_ok h
  have hg' := labelRows_ok hg
  have hne : ∀ c ∈ [i, w, d.primaryMetric], c ≠ p := by
    rintro c hc rfl
    exact hp (hcols c (by simp at hc ⊢; tauto))
  have hrows : (g.dropCol p).rows = f.rows.map (fun r => Function.update r p (rowLabel d.toDesignParams start w r)) := by
    rw [hg']; rfl
  have e : ∀ (r : Row ℝ) (c : Cell ℝ), ∀ x ∈ [i, w, d.primaryMetric], Function.update r p c x = r x := by
    intro r c x hx
    exact Function.update_of_ne (hne x hx) _ _
  rw [hrows]
  refine ⟨?_, ?_, ?_⟩
  · intro r hr
    obtain ⟨r, hr0, rfl⟩ := List.mem_map.mp hr
    rw [e _ _ w (by simp)]
    exact hc.weeks r hr0
  · intro r hr
    obtain ⟨r, hr0, rfl⟩ := List.mem_map.mp hr
    rw [e _ _ d.primaryMetric (by simp)]
    exact hc.finite r hr0
  · intro s hs
    obtain ⟨items, h1, h2, h3⟩ := hc.items s hs
    refine ⟨items, h1, h2, fun x => ?_⟩
    rw [h3]
    apply and_congr_right
    intro _
    constructor
    · rintro ⟨r, hr, hx⟩
      exact ⟨_, List.mem_map.mpr ⟨r, hr, rfl⟩, by rw [e _ _ i (by simp), e _ _ w (by simp)]; exact hx⟩
    · rintro ⟨r, hr, hx⟩
      obtain ⟨r, hr0, rfl⟩ := List.mem_map.mp hr
      rw [e _ _ i (by simp), e _ _ w (by simp)] at hx
      exact ⟨r, hr0, hx⟩

/-- On complete data the pivot has as many rows as the design says, and its pretest values are not missing. -/
theorem complete_table {R : Rounding ℝ} {p : DesignParams ℝ} {d : Design ℝ} (hd : mkDesign R p = .ok d) {start : ℤ} {i w t : String}
    {starts : List ℤ} {f f' : Frame ℝ} {piv : Pivoted ℝ}
    (h : pivotTimeAssignment d.toDesignParams start [d.primaryMetric] i w none t f = (.ok piv, f')) (hs : start ∈ starts)
    (hc : Spec.CompleteHistory d i w starts f.rows) :
    (piv.index.length : ℤ) = d.nBefore ∧ (0 < d.pretest → ∀ k, piv.value k d.primaryMetric "pretest" ≠ .nan) := by
  constructor
  · obtain ⟨hnd, hmem⟩ := C13_index_is_items_with_labelled_rows R p d hd start [d.primaryMetric] i w none t f f' piv h hc.weeks
    obtain ⟨items, h1, h2, h3⟩ := hc.items start hs
    rw [← h2]
    have : piv.index.Perm (items.map (fun x => [x])) := by
      rw [List.perm_ext_iff_of_nodup hnd (h1.map (fun a b h => by simpa using h))]
      intro k
      rw [hmem, List.mem_map]
      constructor
      · rintro ⟨⟨r, hr, rfl, hw⟩, hk⟩
        refine ⟨r i, (h3 _).mpr ⟨hk _ (by simp), r, hr, rfl, hw⟩, by simp⟩
      · rintro ⟨x, hx, rfl⟩
        obtain ⟨hx0, r, hr, e, hw⟩ := (h3 x).mp hx
        exact ⟨⟨r, hr, by simp [e], hw⟩, by simpa using hx0⟩
    rw [this.length_eq, List.length_map]
  · intro hpre k
    have hmem : ("pretest", start - d.pretest, start) ∈ Spec.timeline d.toDesignParams start := by
      unfold Spec.timeline
      split_ifs <;> simp [Spec.crossoverTimeline, Spec.regularTimeline]
    rw [C13_values_are_weekly_averages R p d hd start [d.primaryMetric] i w none t f f' piv h hc.weeks k d.primaryMetric (by simp) "pretest"
      _ _ hmem]
    obtain ⟨y, hy⟩ := sumSkip_finite (l := (f.rows.filter (Spec.inWeeks [i] w k (start - d.pretest) start)).map
      (fun r => (r d.primaryMetric).toFl)) (by
        intro x hx
        obtain ⟨r, hr, rfl⟩ := List.mem_map.mp hx
        exact hc.finite r (List.mem_filter.mp hr).1)
    unfold Spec.total
    simp only [Option.toList_none]
    rw [hy, Fl.fin_div_ne (by
      have : ((start - (start - d.pretest) : ℤ) : ℝ) = (d.pretest : ℝ) := by push_cast; ring
      rw [this]
      exact_mod_cast (ne_of_gt hpre))]
    simp

end Feedx
