import Verif.Spec.Estimate
import Verif.Props.CupedExact
import Verif.Props.SimulateRepeat
import Verif.Props.DeepDiveLine

/-!
From the steps of `estimate_minimum_detectable_effect` to what it estimates.
-/

set_option linter.unusedSectionVars false
set_option linter.unusedSimpArgs false

namespace Feedx
open Fl

variable {R : Rounding ℝ} {argsort : List ℝ → List ℕ} {D : TDist} {c : SimConfig}

/-- The trimming of a table cuts the rows with extreme values. -/
theorem trimWide_cuts {σ : Shuffle} {w w' : Wide ℝ} {l : List String} {t b : ℝ} (hn : w.rows.length ≤ 2 ^ 51)
    (h : trimWide R σ w l t b = .ok w') :
    Spec.CutsExtremesOrMissing (fun r : WideRow ℝ => r.val l) (R.floorMul t w.rows.length) (R.floorMul b w.rows.length) w.rows w'.rows := by
  unfold trimWide at h
  obtain ⟨g, hg, h⟩ := Py.bind_eq_ok.mp h
  cases h
  have hsub := (trimOutliers_subset hg).2
  obtain ⟨-, -, hcut⟩ := trimOutliers_ok hg (by simpa using hn)
  simp only [List.length_map, List.length_zipIdx] at hcut
  let G : Row ℝ → WideRow ℝ := fun r => match r "position" with
    | .int i => (w.rows[i.toNat]?).getD ⟨[], fun _ => .nan⟩
    | _ => ⟨[], fun _ => .nan⟩
  have hG : ∀ q ∈ w.rows.zipIdx, G (fun c => if c = "position" then .int (q.2 : ℤ) else flCell (q.1.val l)) = q.1 := by
    intro q hq
    have hq' := List.mem_zipIdx' hq
    show (w.rows[((q.2 : ℤ)).toNat]?).getD _ = q.1
    rw [Int.toNat_natCast, List.getElem?_eq_getElem hq'.1]
    exact hq'.2.symm
  have key := cuts_map (value' := fun r : WideRow ℝ => r.val l) G (by
    intro x hx
    obtain ⟨q, hq, rfl⟩ := List.mem_map.mp hx
    rw [hG q hq]
    simp only [show ("order" : String) ≠ "position" by decide, if_false, toFl_flCell]) hcut
  have e1 : (w.rows.zipIdx.map (fun p c => if c = "position" then (Cell.int (p.2 : ℤ) : Cell ℝ) else flCell (p.1.val l))).map G = w.rows := by
    rw [List.map_map]
    refine Eq.trans (List.map_congr_left (g := Prod.fst) hG) ?_
    exact List.zipIdx_map_fst _ _
  have e2 : ∀ rows : List (Row ℝ), (∀ r ∈ rows, r ∈ w.rows.zipIdx.map (fun p c => if c = "position" then (Cell.int (p.2 : ℤ) : Cell ℝ) else flCell (p.1.val l))) →
      rows.map G = (ints (rows.map (fun r => r "position"))).filterMap (fun i => w.rows[i.toNat]?) := by
    intro rows
    induction rows with
    | nil => intro _; rfl
    | cons r rows ih =>
      intro hr
      have ih := ih (fun x hx => hr x (by simp [hx]))
      obtain ⟨q, hq, rfl⟩ := List.mem_map.mp (hr r (by simp))
      have hq' := List.mem_zipIdx' hq
      rw [List.map_cons, hG q hq, ih]
      simp only [List.map_cons, if_true, ints, List.filterMap_cons, Int.toNat_natCast, List.getElem?_eq_getElem hq'.1, hq'.2]
  rw [e1, e2 g.rows hsub] at key
  exact key

/-- A period that has weeks is among the columns exactly if some item has a row in it. -/
theorem period_mem_iff {p : DesignParams ℝ} {d : Design ℝ} (hd : mkDesign R p = .ok d) {start : ℤ} {m i w t : String} {f f' : Frame ℝ}
    {piv : Pivoted ℝ} (hp : pivotTimeAssignment d.toDesignParams start [m] i w none t f = (.ok piv, f'))
    (hw : ∀ r ∈ f.rows, r w = .null ∨ ∃ x : ℤ, r w = .int x) (label : String) :
    Cell.str label ∈ piv.periods ↔ ∃ r ∈ f.rows, r i ≠ .null ∧ ∃ x : ℤ, r w = .int x ∧ Spec.InPeriod d.toDesignParams start label x := by
  obtain ⟨h1, h2, g, hg, rfl, -, -⟩ := pivot_ok hp
  rw [labelRows_ok hg]
  have hit : i ≠ t := fun h => h1 (h ▸ h2 i (by simp))
  unfold pivotTable
  simp only [mem_dropDup, List.mem_map, List.mem_filter]
  constructor
  · rintro ⟨r', ⟨hr', hr2⟩, he⟩
    obtain ⟨r, hr, rfl⟩ := List.mem_map.mp hr'
    rw [Function.update_self] at he
    obtain ⟨x, hx, hx'⟩ := (rowLabel_iff hd (hw r hr) label).mp he
    refine ⟨r, hr, ?_, x, hx, hx'⟩
    intro hc
    simp [indexColumns, Function.update_of_ne hit, hc, Cell.isNull] at hr2
  · rintro ⟨r, hr, hnn, x, hx, hx'⟩
    have hlab := (rowLabel_iff hd (start := start) (hw r hr) label).mpr ⟨x, hx, hx'⟩
    refine ⟨Function.update r t (rowLabel d.toDesignParams start w r), ⟨List.mem_map.mpr ⟨r, hr, rfl⟩, ?_⟩, ?_⟩
    · simp only [indexColumns, Option.toList_none, Function.update_self, hlab, List.all_cons, List.all_nil, Function.update_of_ne hit, Bool.and_true]
      cases hc : r i <;> simp_all [Cell.isNull]
    · rw [Function.update_self, hlab]

/-- Labels of the columns of the table. -/
theorem mem_wide_cols_iff {piv : Pivoted ℝ} {m i label : String} (hstr : ∀ x ∈ piv.periods, ∃ s, x = .str s) :
    [m, label] ∈ (piv.wide [m] i).cols ↔ Cell.str label ∈ piv.periods := by
  unfold Pivoted.wide
  simp only [List.flatMap_cons, List.flatMap_nil, List.append_nil, List.mem_map]
  constructor
  · rintro ⟨x, hx, he⟩
    obtain ⟨s, rfl⟩ := hstr x hx
    have : s = label := by simpa [cellText] using he
    rw [← this]; exact hx
  · intro h; exact ⟨_, h, rfl⟩

theorem pivot_periods_str {d : DesignParams ℝ} {start : ℤ} {ms : List String} {i w t : String} {f f' : Frame ℝ}
    {piv : Pivoted ℝ} (hp : pivotTimeAssignment d start ms i w none t f = (.ok piv, f')) : ∀ x ∈ piv.periods, ∃ s, x = .str s := by
  obtain ⟨h1, h2, g, hg, rfl, -, -⟩ := pivot_ok hp
  rw [labelRows_ok hg]
  intro x hx
  unfold pivotTable at hx
  rw [mem_dropDup, List.mem_map] at hx
  obtain ⟨r', hr', rfl⟩ := hx
  obtain ⟨hr1, hr2⟩ := List.mem_filter.mp hr'
  obtain ⟨r, hr, rfl⟩ := List.mem_map.mp hr1
  rw [Function.update_self] at hr2 ⊢
  rcases rowLabel_cases d start w r with h | ⟨s, h⟩
  · rw [h] at hr2; simp [Cell.isNull] at hr2
  · exact ⟨s, h⟩

/-- Statistics of one row of values. -/
theorem trimmed_stats (ha : ArgsortOk argsort) {y : List ℝ} {q : ℝ} {T : TrimmedArray ℝ 0} (h : mkTrimmed R argsort (asStack y) q = .ok T)
    (hl : 1 < T.len) : Spec.TrimmedStats ⌊R.rnd (q * y.length)⌋.toNat y (T.mean 0) (T.var 1 0) := by
  have hne : T.trimmed ≠ [] := by rintro e; unfold TrimmedArray.len at hl; rw [e] at hl; simp at hl
  obtain ⟨-, h1, h2, h3, -⟩ := mkTrimmed_ok h
  have ht := trimmed_map (mkTrimmed_trims ha h)
  have hx := T.extremes hne
  have hrow : rowOf (asStack y) 0 = y := by unfold rowOf asStack; rw [List.map_map]; exact List.map_id y
  have hv := (C18_winsorized_statistics R argsort ha 0 (asStack y) q T h _ _ hx 1).2
  rw [hrow] at hv
  refine ⟨rowOf T.trimmed 0, _, _, ?_, hx, ?_, ?_⟩
  · have e : (asStack y).map (fun c : Fin 1 → ℝ => c 0) = y := hrow
    rw [e, h2] at ht
    have : nTrimOf R q (asStack y).length = ⌊R.rnd (q * y.length)⌋.toNat := by
      unfold nTrimOf Rounding.floorMul asStack; simp
    rw [this] at ht
    exact ht
  · unfold TrimmedArray.mean Spec.mean TrimmedArray.len rowOf; simp
  · rw [hv]; simp [rowOf]

/-- Statistics of pairs, cut by their difference. -/
theorem crossover_stats (ha : ArgsortOk argsort) {y : List (ℝ × ℝ)} {q : ℝ} {T : TrimmedArray ℝ 2}
    (h : mkTrimmed R argsort (stack3 (y.map Prod.fst) (y.map Prod.snd)) q = .ok T) (hl : 1 < T.len) :
    Spec.CrossoverStats ⌊R.rnd (q * y.length)⌋.toNat (0 < q) y ((T.mean 1 + T.mean 2) / 2)
      (if 0 < q then T.var 1 0 + (T.mean 1 - T.mean 2) ^ 2 / 4 else T.var 1 0) := by
  have hne : T.trimmed ≠ [] := by rintro e; unfold TrimmedArray.len at hl; rw [e] at hl; simp at hl
  have hst : stack3 (y.map Prod.fst) (y.map Prod.snd) = y.map (fun p => ![p.1 - p.2, p.1, p.2]) := by
    unfold stack3
    rw [List.zipWith_map, List.zipWith_self]
  rw [hst] at h
  obtain ⟨-, h1, h2, h3, -⟩ := mkTrimmed_ok h
  have ht := mkTrimmed_trims ha h
  have hx := T.extremes hne
  have hv := (C18_winsorized_statistics R argsort ha 2 _ q T h _ _ hx 1).2
  have hmem : ∀ x ∈ T.trimmed, x 0 = x 1 - x 2 := by
    intro x hx
    obtain ⟨p, -, rfl⟩ := List.mem_map.mp (ht.1.subset hx)
    simp
  have hdiff : (T.trimmed.map (fun x => (x 1, x 2))).map (fun y : ℝ × ℝ => y.1 - y.2) = rowOf T.trimmed 0 := by
    unfold rowOf
    rw [List.map_map]
    exact List.map_congr_left (fun x hx => (hmem x hx).symm)
  have hm1 : T.mean 1 = Spec.mean ((T.trimmed.map (fun x => (x 1, x 2))).map Prod.fst) := by
    unfold TrimmedArray.mean Spec.mean TrimmedArray.len rowOf; simp [Function.comp_def]
  have hm2 : T.mean 2 = Spec.mean ((T.trimmed.map (fun x => (x 1, x 2))).map Prod.snd) := by
    unfold TrimmedArray.mean Spec.mean TrimmedArray.len rowOf; simp [Function.comp_def]
  have hv' : T.var 1 0 = Spec.sumSqDev (y.map (fun p => Spec.clip (T.minValues 0) (T.maxValues 0) (p.1 - p.2))) /
      (((T.trimmed.map (fun x => (x 1, x 2))).length : ℝ) - 1) := by
    rw [hv]
    congr 1
    · congr 1
      unfold rowOf
      rw [List.map_map, List.map_map]
      apply List.map_congr_left
      intro p _
      simp
    · simp
  refine ⟨T.trimmed.map (fun x => (x 1, x 2)), T.minValues 0, T.maxValues 0, ?_, ?_, ?_, ?_, ?_⟩
  · rw [h2] at ht
    have hg : nTrimOf R q (y.map (fun p => ![p.1 - p.2, p.1, p.2])).length = ⌊R.rnd (q * y.length)⌋.toNat := by
      unfold nTrimOf Rounding.floorMul; simp
    rw [hg] at ht
    obtain ⟨t1, low, high, t2, t3, t4, t5, t6⟩ := ht
    have hback : ∀ z : List (Fin 3 → ℝ), (∀ x ∈ z, x ∈ y.map (fun p : ℝ × ℝ => ![p.1 - p.2, p.1, p.2])) →
        ∀ a ∈ z.map (fun x => (x 1, x 2)), ∃ x ∈ z, x 0 = a.1 - a.2 := by
      intro z hz a ha'
      obtain ⟨x, hx, rfl⟩ := List.mem_map.mp ha'
      obtain ⟨p, -, rfl⟩ := List.mem_map.mp (hz x hx)
      exact ⟨_, hx, by simp⟩
    have hy : (y.map (fun p : ℝ × ℝ => (![p.1 - p.2, p.1, p.2] : Fin 3 → ℝ))).map (fun x => (x 1, x 2)) = y := by
      rw [List.map_map]
      conv_rhs => rw [← List.map_id y]
      apply List.map_congr_left
      intro p _
      simp
    have hall : ∀ x ∈ low ++ T.trimmed ++ high, x ∈ y.map (fun p : ℝ × ℝ => (![p.1 - p.2, p.1, p.2] : Fin 3 → ℝ)) :=
      fun x hx => t2.mem_iff.mp hx
    refine ⟨?_, low.map (fun x => (x 1, x 2)), high.map (fun x => (x 1, x 2)), ?_, by simpa using t3, by simpa using t4, ?_, ?_⟩
    · have := t1.map (fun x : Fin 3 → ℝ => (x 1, x 2))
      rwa [hy] at this
    · rw [← List.map_append, ← List.map_append]
      have := t2.map (fun x : Fin 3 → ℝ => (x 1, x 2))
      rwa [hy] at this
    · intro a ha1 b hb
      rw [← List.map_append] at hb
      obtain ⟨x, hx, ex⟩ := hback low (fun x hx => hall x (by simp [hx])) a ha1
      obtain ⟨x', hx', ex'⟩ := hback (T.trimmed ++ high) (fun x hx => hall x (by simp at hx ⊢; tauto)) b hb
      show a.1 - a.2 ≤ b.1 - b.2
      rw [← ex, ← ex']
      exact t5 x hx x' hx'
    · intro a ha1 b hb
      rw [← List.map_append] at hb
      obtain ⟨x, hx, ex⟩ := hback high (fun x hx => hall x (by simp [hx])) a ha1
      obtain ⟨x', hx', ex'⟩ := hback (low ++ T.trimmed) (fun x hx => hall x (by simp at hx ⊢; tauto)) b hb
      show b.1 - b.2 ≤ a.1 - a.2
      rw [← ex, ← ex']
      exact t6 x hx x' hx'
  · rw [hdiff]; exact hx
  · rw [hm1, hm2]
  · intro hq
    rw [if_pos hq, ← hv', ← hm1, ← hm2]
  · intro hq
    rw [if_neg hq, hv']

/-- Statistics after the adjustment with pretest values. -/
theorem cuped_stats (ha : ArgsortOk argsort) {y : List (ℝ × ℝ)} {q : ℝ} {z : List ℝ} {T : TrimmedArray ℝ 0}
    (h : cuped R argsort (y.map Prod.fst) (y.map Prod.snd) q = .ok (z.map .fin)) (hT : mkTrimmed R argsort (asStack z) q = .ok T) (hl : 1 < T.len) :
    Spec.CupedStats ⌊R.rnd (q * y.length)⌋.toNat y (T.mean 0) (T.var 1 0) := by
  have hinj : ∀ a b : List ℝ, a.map Fl.fin = b.map Fl.fin → a = b := by
    intro a b hab
    exact List.map_injective_iff.mpr (fun x y hxy => by cases hxy; rfl) hab
  obtain ⟨hq, -, -, h3, -⟩ := mkTrimmed_ok hT
  have hpos : (0 : ℤ) ≤ ⌊R.rnd (q * y.length)⌋ := by
    have := floorMul_nonneg (R := R) hq.1 (n := (y.length : ℤ)) (by omega)
    simpa [Rounding.floorMul] using this
  constructor
  · intro hg
    have hg0 : ⌊R.rnd (q * y.length)⌋ = 0 := by omega
    have hg' : ⌊R.rnd (q * ((y.map Prod.fst).length : ℝ))⌋ = 0 := by simpa using hg0
    have hv : Spec.sumSqDev (y.map Prod.snd) ≠ 0 := by
      intro hc
      have h' := h
      unfold cuped at h'
      simp only [raiseIf_bind_ok] at h'
      obtain ⟨-, h1, -, h'⟩ := h'
      have hn : nTrimOf R q (y.map Prod.fst).length = 0 := by
        unfold nTrimOf Rounding.floorMul; simpa using hpos.antisymm' (le_of_eq hg0) |>.le
      rw [if_pos (by rw [sampleCov_eq, crossDev_self, hc, zero_div]), if_pos hn] at h'
      cases y with
      | nil => simp at h1
      | cons a y =>
        cases z with
        | nil => cases h'
        | cons b z => cases h'
    obtain ⟨v, e, hlen, hmean, -, hss, -⟩ := C22_cuped_without_trimming R argsort _ _ q _ h hg' hv
    have e := hinj _ _ e
    subst e
    have hlen' : z.length = y.length := by simpa using hlen
    obtain ⟨-, hm, -, -, hvar⟩ := C19_no_trimming_ordinary_statistics R argsort 0 (asStack z) q T hT
      (by unfold asStack; rw [List.length_map, hlen']; exact hg0) 0 0 1
    have hrow : rowOf (asStack z) 0 = z := by unfold rowOf asStack; rw [List.map_map]; exact List.map_id z
    rw [hrow] at hm hvar
    refine ⟨hv, by rw [hm, hmean], ?_⟩
    rw [hvar, hss]
    unfold asStack
    rw [List.length_map, hlen']
    simp
  · intro hg
    have hg' : ⌊R.rnd (q * ((y.map Prod.fst).length : ℝ))⌋ ≠ 0 := by
      simp only [List.length_map]; omega
    have hgn : ((⌊R.rnd (q * y.length)⌋.toNat : ℕ) : ℤ) = ⌊R.rnd (q * y.length)⌋ := Int.toNat_of_nonneg hpos
    have hzl : z.length = y.length := by
      obtain ⟨v, e, hlen, -⟩ := C23_cuped_with_trimming R argsort argsort argsort ha ha ha _ _ q _ h hg'
      rw [hinj _ _ e, hlen, List.length_map]
    obtain ⟨h1, h2⟩ := C23_trimmed_adjustment R argsort ha y q _ h _ hgn hg
    have hplain : z.map Fl.fin = y.map (fun p => Fl.fin p.1) → Spec.TrimmedStats ⌊R.rnd (q * y.length)⌋.toNat (y.map Prod.fst) (T.mean 0) (T.var 1 0) := by
      intro e
      have : z = y.map Prod.fst := hinj _ _ (by rw [e, List.map_map]; rfl)
      have hs := trimmed_stats ha hT hl
      rwa [hzl, this] at hs
    by_cases hc : Spec.sumSqDev (y.map Prod.snd) = 0
    · exact ⟨_, hplain (h1 hc), fun _ => rfl, fun hne => absurd hc hne⟩
    obtain ⟨wins, hw, w1, w2⟩ := h2 hc
    by_cases hc2 : Spec.sumSqDev (wins.map Prod.snd) = 0
    · exact ⟨_, hplain (w1 hc2), fun _ => rfl, fun _ => ⟨wins, hw, fun _ => rfl, fun hne => absurd hc2 hne⟩⟩
    obtain ⟨tm, tc, htm, htc, v1, v2⟩ := w2 hc2
    have ltm : tm.len = T.len := by
      obtain ⟨-, -, a1, a2, -⟩ := mkTrimmed_ok htm
      obtain ⟨-, -, b1, b2, -⟩ := mkTrimmed_ok hT
      simp only [asStack, List.length_map, hzl] at a1 a2 b1 b2
      unfold TrimmedArray.len; omega
    have ltc : tc.len = T.len := by
      obtain ⟨-, -, a1, a2, -⟩ := mkTrimmed_ok htc
      obtain ⟨-, -, b1, b2, -⟩ := mkTrimmed_ok hT
      simp only [asStack, List.length_map, hzl] at a1 a2 b1 b2
      unfold TrimmedArray.len; omega
    have sm := trimmed_stats ha htm (by omega)
    have sc := trimmed_stats ha htc (by omega)
    simp only [List.length_map] at sm sc
    have hmono : ∀ a b : ℝ, a ≤ b → a * ((T.len : ℝ) / ((T.len : ℝ) - ((1 : ℕ) : ℝ))) ≤ b * ((T.len : ℝ) / ((T.len : ℝ) - ((1 : ℕ) : ℝ))) := by
      intro a b hab
      apply mul_le_mul_of_nonneg_right hab
      have : (1 : ℝ) < T.len := by exact_mod_cast hl
      apply div_nonneg (by linarith)
      push_cast
      linarith
    have em := var_ddof tm 0 1 (by omega)
    have ec := var_ddof tc 0 1 (by omega)
    rw [ltm] at em
    rw [ltc] at ec
    rcases lt_or_ge (tc.var 0 0) (tm.var 0 0) with hlt | hge
    · have e := v1 hlt
      have ez : z = (y.map (fun p => p.1 - Spec.slope wins * p.2)).map (fun x => 1 * x + (tm.mean 0 - tc.mean 0)) := by
        apply hinj
        rw [e, List.map_map, List.map_map]
        apply List.map_congr_left
        intro p _
        simp only [Function.comp_apply]
        congr 1
        ring
      have htcne : tc.trimmed ≠ [] := by
        intro e0
        have : tc.len = 0 := by unfold TrimmedArray.len; rw [e0]; rfl
        omega
      have e2 := C20_shift_and_scale R argsort argsort ha ha 0 0 (asStack (y.map (fun p => p.1 - Spec.slope wins * p.2))) (asStack z) 1
        (tm.mean 0 - tc.mean 0) (by rw [rowOf_asStack, rowOf_asStack]; exact ez) q tc T htc hT htcne
      refine ⟨tm.var 1 0, ?_, fun hz => absurd hz hc, fun _ => ⟨wins, hw, fun hz => absurd hz hc2, fun _ => ⟨_, _, sc, ?_⟩⟩⟩
      · have : T.mean 0 = tm.mean 0 := by rw [(e2 0).1]; ring
        rw [this]; exact sm
      · rw [(e2 1).2.2, one_pow, one_mul, min_eq_right]
        rw [em, ec]
        exact hmono _ _ hlt.le
    · have e : z = y.map Prod.fst := hinj _ _ (by rw [v2 hge, List.map_map]; rfl)
      have hTm : T = tm := by rw [e, htm] at hT; cases hT; rfl
      subst hTm
      refine ⟨T.var 1 0, sm, fun hz => absurd hz hc, fun _ => ⟨wins, hw, fun hz => absurd hz hc2, fun _ => ⟨_, _, sc, ?_⟩⟩⟩
      rw [min_eq_left]
      rw [em, ec]
      exact hmono _ _ hge

theorem forall₂_pairs {α : Type} {f g : α → Fl ℝ} {rows : List α} {a b : List ℝ} (h1 : List.Forall₂ (fun r x => f r = .fin x) rows a)
    (h2 : List.Forall₂ (fun r x => g r = .fin x) rows b) :
    ∃ y : List (ℝ × ℝ), a = y.map Prod.fst ∧ b = y.map Prod.snd ∧ List.Forall₂ (fun r x => f r = .fin x.1 ∧ g r = .fin x.2) rows y := by
  induction h1 generalizing b with
  | nil => cases h2; exact ⟨[], rfl, rfl, .nil⟩
  | @cons r x rows a hr h1 ih =>
    cases h2 with
    | @cons _ x' _ b hr2 h2 =>
      obtain ⟨y, rfl, rfl, hy⟩ := ih h2
      exact ⟨(x, x') :: y, rfl, rfl, .cons ⟨hr, hr2⟩ hy⟩

theorem forall₂_map_of_mem {α β : Type} {rows : List α} {y : List β} {P : α → β → Prop} {γ : Type} {Q : γ → β → Prop} (g : α → γ)
    (h : List.Forall₂ P rows y) (hq : ∀ r ∈ rows, ∀ x, P r x → Q (g r) x) : List.Forall₂ Q (rows.map g) y := by
  induction h with
  | nil => exact .nil
  | @cons r x rows y hr h ih =>
    exact .cons (hq r (by simp) x hr) (ih (fun r' hr' => hq r' (by simp [hr'])))

/-- The table of one start week. -/
theorem week_table {p : DesignParams ℝ} (hd : mkDesign R p = .ok c.design) (hn : c.design.nBefore ≤ 2 ^ 51)
    {σ : Shuffle} {start : ℤ} {f f' : Frame ℝ} (hw : ∀ r ∈ f.rows, r c.weekCol = .null ∨ ∃ x : ℤ, r c.weekCol = .int x) {w : Wide ℝ}
    (h1 : historicalTable R σ c none start f = (.ok w, f')) :
    ∃ items, Spec.ListsItems c.design f.rows c.itemCol c.weekCol start items ∧ (items.length : ℤ) = c.design.nBefore ∧
      (c.design.pretest = 0 → w.rows.map (fun r => r.key.headD .null) = items) ∧
      (0 < c.design.pretest → Spec.CutsExtremesOrMissing
        (Spec.weeklyAverage f.rows c.itemCol c.weekCol c.design.primaryMetric (start - c.design.pretest) start)
        ⌊R.rnd (c.design.preTop.val * items.length)⌋ ⌊R.rnd (c.design.preBottom.val * items.length)⌋ items
        (w.rows.map (fun r => r.key.headD .null))) ∧
      (w.rows.length : ℤ) = c.design.nAfterPre ∧
      (∀ label lo hi, (label, lo, hi) ∈ Spec.timeline c.design.toDesignParams start → ∀ r ∈ w.rows, r.val [c.design.primaryMetric, label] =
        Spec.weeklyAverage f.rows c.itemCol c.weekCol c.design.primaryMetric lo hi (r.key.headD .null)) ∧
      ([c.design.primaryMetric, "pretest"] ∈ w.cols ↔ Spec.HasPretestRows c.design f.rows c.itemCol c.weekCol start) := by
  obtain ⟨hdd, hvalid⟩ := (mkDesign_ok_iff R p c.design).mp hd
  obtain ⟨hleg, -⟩ := (validateDesign_ok_iff R _).mp hvalid
  obtain ⟨piv, hp⟩ := historical_ok h1
  unfold historicalTable at h1
  rw [hp] at h1
  have h1 : trimHistorical R σ c none (piv.wide [c.design.primaryMetric] c.itemCol) = .ok w := (Prod.mk.injEq _ _ _ _ ▸ h1).1
  obtain ⟨hnd, hidx⟩ := C13_index_is_items_with_labelled_rows R _ _ hd start _ c.itemCol c.weekCol none c.periodCol _ _ piv hp hw
  have hval : ∀ k label lo hi, (label, lo, hi) ∈ Spec.timeline c.design.toDesignParams start →
      piv.value [k] c.design.primaryMetric label = Spec.weeklyAverage f.rows c.itemCol c.weekCol c.design.primaryMetric lo hi k := by
    intro k label lo hi hm
    exact C13_values_are_weekly_averages R _ _ hd start _ c.itemCol c.weekCol none c.periodCol _ _ piv hp hw [k] c.design.primaryMetric
      (by simp) label lo hi hm
  have hsing : ∀ k ∈ piv.index, k = [k.headD .null] := by
    intro k hk
    obtain ⟨⟨r, -, hr, -⟩, -⟩ := (hidx k).mp hk
    rw [← hr]
    rfl
  have hstr := pivot_periods_str hp
  -- the table before trimming
  obtain ⟨w0, hw0⟩ : ∃ w0, w0 = piv.wide [c.design.primaryMetric] c.itemCol := ⟨_, rfl⟩
  rw [← hw0] at h1
  have hrow0 : ∀ r ∈ w0.rows, ∀ label lo hi, (label, lo, hi) ∈ Spec.timeline c.design.toDesignParams start →
      r.val [c.design.primaryMetric, label] =
        Spec.weeklyAverage f.rows c.itemCol c.weekCol c.design.primaryMetric lo hi (r.key.headD .null) := by
    intro r hr label lo hi hm
    rw [hw0] at hr
    obtain ⟨k, hk, rfl⟩ := List.mem_map.mp hr
    show piv.value k c.design.primaryMetric label = Spec.weeklyAverage _ _ _ _ _ _ (k.headD .null)
    rw [← hval (k.headD .null) label lo hi hm, ← hsing k hk]
  have hitems : w0.rows.map (fun r => r.key.headD .null) = piv.index.map (fun k => k.headD .null) := by
    rw [hw0]; unfold Pivoted.wide; simp [Function.comp_def]
  have hpre : ("pretest", start - c.design.pretest, start) ∈ Spec.timeline c.design.toDesignParams start := by
    unfold Spec.timeline
    split_ifs <;> simp [Spec.crossoverTimeline, Spec.regularTimeline]
  have hpremem : [c.design.primaryMetric, "pretest"] ∈ w0.cols ↔ Spec.HasPretestRows c.design f.rows c.itemCol c.weekCol start := by
    rw [hw0, mem_wide_cols_iff hstr, period_mem_iff hd hp hw]
    constructor
    · rintro ⟨r, hr, hnn, x, hx, lo, hi, hm, hlo, hhi⟩
      refine ⟨r, hr, hnn, x, hx, ?_⟩
      unfold Spec.timeline at hm
      split_ifs at hm <;> simp [Spec.crossoverTimeline, Spec.regularTimeline] at hm <;> omega
    · rintro ⟨r, hr, hnn, x, hx, h⟩
      exact ⟨r, hr, hnn, x, hx, _, _, hpre, h⟩
  -- the trimming
  unfold trimHistorical at h1
  obtain ⟨w1, e1, h1⟩ := Py.bind_eq_ok.mp h1
  cases e1
  obtain ⟨hb1, h1⟩ := raiseIf_bind_ok.mp h1
  obtain ⟨w2, e2, h1⟩ := Py.bind_eq_ok.mp h1
  obtain ⟨hb2, h1⟩ := raiseIf_bind_ok.mp h1
  cases h1
  have hl0 : (w0.rows.length : ℤ) = c.design.nBefore := by by_contra hc; exact hb1 ⟨rfl, hc⟩
  have hl2 : (w.rows.length : ℤ) = c.design.nAfterPre := by by_contra hc; exact hb2 ⟨rfl, hc⟩
  have htrim : w.cols = w0.cols ∧ (∀ r ∈ w.rows, r ∈ w0.rows) ∧ (c.design.pretest = 0 → w.rows = w0.rows) ∧
      (0 < c.design.pretest → Spec.CutsExtremesOrMissing (fun r : WideRow ℝ => r.val [c.design.primaryMetric, "pretest"])
        (R.floorMul c.design.preTop.val w0.rows.length) (R.floorMul c.design.preBottom.val w0.rows.length) w0.rows w.rows) := by
    split_ifs at e2 with hpos
    · obtain ⟨hsub, hcols, -⟩ := trimWide_sublist e2
      exact ⟨hcols, fun r hr => hsub.subset hr, fun h => absurd hpos (by omega), fun _ => trimWide_cuts (by omega) e2⟩
    · cases e2
      exact ⟨rfl, fun r hr => hr, fun _ => rfl, fun h => absurd h hpos⟩
  obtain ⟨hcols, hsub, hkeep0, hcut⟩ := htrim
  have hrow : ∀ label lo hi, (label, lo, hi) ∈ Spec.timeline c.design.toDesignParams start → ∀ r ∈ w.rows, r.val [c.design.primaryMetric, label] =
        Spec.weeklyAverage f.rows c.itemCol c.weekCol c.design.primaryMetric lo hi (r.key.headD .null) :=
    fun label lo hi hm r hr => hrow0 r (hsub r hr) label lo hi hm
  refine ⟨w0.rows.map (fun r => r.key.headD .null), ⟨?_, ?_⟩, by simpa using hl0, fun h => by rw [hkeep0 h], ?_, hl2, hrow, by rw [hcols, hpremem]⟩
  · rw [hitems]
    refine hnd.map_on ?_
    intro x hx y hy hxy
    rw [hsing x hx, hsing y hy, hxy]
  · intro x
    rw [hitems, List.mem_map]
    constructor
    · rintro ⟨k, hk, rfl⟩
      have hk' := hsing k hk
      obtain ⟨⟨r, hr, e, h⟩, hnn⟩ := (hidx k).mp hk
      refine ⟨hnn _ (by rw [hk']; simp), r, hr, ?_, h⟩
      rw [← e]; rfl
    · rintro ⟨hnn, r, hr, e, h⟩
      exact ⟨[x], (hidx [x]).mpr ⟨⟨r, hr, by simp [e], h⟩, by simpa using hnn⟩, rfl⟩
  · intro hpos
    have := cuts_map (value' := Spec.weeklyAverage f.rows c.itemCol c.weekCol c.design.primaryMetric (start - c.design.pretest) start)
      (fun r : WideRow ℝ => r.key.headD .null) (fun r hr => (hrow0 r hr _ _ _ hpre).symm) (hcut hpos)
    simpa [Rounding.floorMul] using this

theorem forall₂_mem_left {α β : Type} {P : α → β → Prop} {l : List α} {l' : List β} (h : List.Forall₂ P l l') {a : α} (ha : a ∈ l) :
    ∃ b ∈ l', P a b := by
  induction h with
  | nil => cases ha
  | cons h1 _ ih =>
    rcases List.mem_cons.mp ha with rfl | ha
    · exact ⟨_, by simp, h1⟩
    · obtain ⟨b, hb, h⟩ := ih ha
      exact ⟨b, by simp [hb], h⟩

theorem sumSqDev_ne_of_mem {l : List ℝ} {a b : ℝ} (ha : a ∈ l) (hb : b ∈ l) (hab : a ≠ b) : Spec.sumSqDev l ≠ 0 := by
  intro h
  have hall : ∀ x ∈ l, x = Spec.mean l := by
    unfold Spec.sumSqDev at h
    intro x hx
    have hz := (List.all_zero_of_le_zero_le_of_sum_eq_zero (l := l.map (fun x => (x - Spec.mean l) ^ 2)) (by
      intro y hy
      obtain ⟨z, -, rfl⟩ := List.mem_map.mp hy
      positivity) h) (List.mem_map.mpr ⟨x, hx, rfl⟩)
    have := pow_eq_zero_iff (two_ne_zero) |>.mp hz
    linarith
  exact hab ((hall a ha).trans (hall b hb).symm)

/-- Without variance all values are the same. -/
theorem constant_of_cov {l : List ℝ} (hl : 1 < l.length) (h : sampleCov l l = 0) {x : ℝ} (hx : x ∈ l) : x = l.headD 0 := by
  by_contra hne
  cases l with
  | nil => cases hx
  | cons a l =>
    refine sumSqDev_ne_of_mem (l := a :: l) hx (b := a) (by simp) hne ?_
    rw [sampleCov_eq, crossDev_self, div_eq_zero_iff] at h
    rcases h with h | h
    · exact h
    · exfalso
      have : (1 : ℝ) < ((a :: l).length : ℝ) := by exact_mod_cast hl
      linarith

/-- One start week. -/
theorem week_estimate (ha : ArgsortOk argsort) {p : DesignParams ℝ} (hd : mkDesign R p = .ok c.design) (hn : c.design.nBefore ≤ 2 ^ 51)
    {σ : Shuffle} {start : ℤ} {f f' : Frame ℝ} (hw : ∀ r ∈ f.rows, r c.weekCol = .null ∨ ∃ x : ℤ, r c.weekCol = .int x) {w : Wide ℝ}
    {st : MetricStats} (h1 : historicalTable R σ c none start f = (.ok w, f')) (h2 : primaryStats R argsort c.design w = .ok st) :
    (st.size : ℤ) = c.design.nAfterPost ∧
    ((∃ a v : ℝ, st.average = .fin a ∧ st.variance = .fin v ∧ 0 ≤ v ∧ Spec.WeekEstimate R.rnd c.design f.rows c.itemCol c.weekCol start a v) ∨
      (st.average = .nan ∧ st.variance = .nan ∧ Spec.WeekConstant R.rnd c.design f.rows c.itemCol c.weekCol start)) := by
  obtain ⟨items, hlist, hl0, hk0, hcut, hl2, hrow, hpremem⟩ := week_table hd hn hw h1
  have hpre : ("pretest", start - c.design.pretest, start) ∈ Spec.timeline c.design.toDesignParams start := by
    unfold Spec.timeline
    split_ifs <;> simp [Spec.crossoverTimeline, Spec.regularTimeline]
  -- the statistics
  have hvar : ∀ a v, st.average = .fin a → st.variance = .fin v → 0 ≤ v := by
    intro a v e1 e2
    rcases primaryStats_values h2 with h | ⟨a', v', h, -, e⟩
    · rw [h.1] at e1; cases e1
    · rw [e2] at e; cases e; exact h
  unfold primaryStats at h2
  obtain ⟨st', h2, h3⟩ := Py.bind_eq_ok.mp h2
  obtain ⟨hsz, h3⟩ := raiseIf_bind_ok.mp h3
  cases h3
  refine ⟨by push Not at hsz; exact hsz, ?_⟩
  have hl2' : ((w.rows.map (fun r => r.key.headD .null)).length : ℤ) = c.design.nAfterPre := by simpa using hl2
  by_cases hx : c.design.isCrossover = true
  · rw [if_pos hx] at h2
    obtain ⟨y1, hy1, h2⟩ := Py.bind_eq_ok.mp h2
    obtain ⟨y2, hy2, h2⟩ := Py.bind_eq_ok.mp h2
    obtain ⟨T, hT, h2⟩ := Py.bind_eq_ok.mp h2
    obtain ⟨hlen, h2⟩ := raiseIf_bind_ok.mp h2
    cases h2
    obtain ⟨y, rfl, rfl, hy⟩ := forall₂_pairs (wideValues_forall₂ hy1) (wideValues_forall₂ hy2)
    have hyl : y.length = w.rows.length := hy.length_eq.symm
    have t1 : ("test_1", start + c.design.washout.getD 0, start + c.design.runtime / 2) ∈ Spec.timeline c.design.toDesignParams start := by
      unfold Spec.timeline; rw [if_pos hx]; simp [Spec.crossoverTimeline]
    have t2 : ("test_2", start + c.design.runtime / 2 + c.design.washout.getD 0, start + c.design.runtime) ∈
        Spec.timeline c.design.toDesignParams start := by
      unfold Spec.timeline; rw [if_pos hx]; simp [Spec.crossoverTimeline]
    refine Or.inl ⟨_, _, rfl, rfl, hvar _ _ rfl rfl, items, w.rows.map (fun r => r.key.headD .null), hlist, hl0, hk0, hcut, hl2', fun _ => ?_,
      fun h => (by rw [hx] at h; cases h), fun h => (by rw [hx] at h; cases h)⟩
    refine ⟨y, forall₂_map_of_mem _ hy ?_, ?_⟩
    · intro r hr x hx'
      rw [← hrow _ _ _ t1 r hr, ← hrow _ _ _ t2 r hr]
      exact hx'
    · have := crossover_stats ha hT (by omega)
      rw [List.length_map, ← hyl]
      exact this
  have hx' : c.design.isCrossover = false := by simpa using hx
  have t1 : ("test", start, start + c.design.runtime) ∈ Spec.timeline c.design.toDesignParams start := by
    unfold Spec.timeline; rw [if_neg hx]; simp [Spec.regularTimeline]
  rw [if_neg hx] at h2
  by_cases hpr : Spec.HasPretestRows c.design f.rows c.itemCol c.weekCol start
  · obtain ⟨y1, hy1, h2⟩ := Py.bind_eq_ok.mp h2
    rw [if_pos (by rw [hpremem]; exact hpr)] at h2
    obtain ⟨out, e, h3⟩ := Py.bind_eq_ok.mp h2
    clear h2
    obtain ⟨y2, hy2, hout⟩ := Py.bind_eq_ok.mp e
    obtain ⟨y, rfl, rfl, hy⟩ := forall₂_pairs (wideValues_forall₂ hy1) (wideValues_forall₂ hy2)
    have hvals : List.Forall₂ (fun item q =>
        Spec.weeklyAverage f.rows c.itemCol c.weekCol c.design.primaryMetric start (start + c.design.runtime) item = .fin q.1 ∧
        Spec.weeklyAverage f.rows c.itemCol c.weekCol c.design.primaryMetric (start - c.design.pretest) start item = .fin q.2)
        (w.rows.map (fun r => r.key.headD .null)) y := by
      refine forall₂_map_of_mem _ hy ?_
      intro r hr x hx'
      rw [← hrow _ _ _ t1 r hr, ← hrow _ _ _ hpre r hr]
      exact hx'
    by_cases hnan : onlyNan out = true
    · rw [if_pos hnan] at h3
      cases h3
      obtain ⟨hg, hcov⟩ := cuped_onlyNan hout hnan
      refine Or.inr ⟨rfl, rfl, hx', hpr, items, w.rows.map (fun r => r.key.headD .null), hlist, hl0, hk0, hcut, hl2', ?_, ?_⟩
      · obtain ⟨-, hq⟩ := mkDesign_ok_iff R p c.design |>.mp hd
        obtain ⟨hleg, -⟩ := (validateDesign_ok_iff R _).mp hq
        have hpos := floorMul_nonneg (R := R) hleg.post_nonneg (n := (w.rows.length : ℤ)) (by omega)
        rw [List.length_map, hy.length_eq.symm] at hg
        unfold nTrimOf at hg
        rw [List.length_map]
        have : R.floorMul c.design.postTrim.val (w.rows.length : ℤ) = 0 := by omega
        simpa [Rounding.floorMul] using this
      · obtain ⟨hl1, -⟩ := cuped_shape hout
        refine ⟨(y.map Prod.snd).headD 0, ?_⟩
        intro item hitem
        obtain ⟨q, hq, hv⟩ := forall₂_mem_left hvals hitem
        rw [hv.2]
        congr 1
        exact constant_of_cov (by simpa using hl1) hcov (List.mem_map.mpr ⟨q, hq, rfl⟩)
    · rw [if_neg hnan] at h3
      obtain ⟨v, hv, h3⟩ := Py.bind_eq_ok.mp h3
      obtain ⟨T, hT, h3⟩ := Py.bind_eq_ok.mp h3
      obtain ⟨hlen, h3⟩ := raiseIf_bind_ok.mp h3
      cases h3
      rw [finiteValues_ok] at hv
      subst hv
      refine Or.inl ⟨_, _, rfl, rfl, hvar _ _ rfl rfl, items, w.rows.map (fun r => r.key.headD .null), hlist, hl0, hk0, hcut, hl2',
        fun h => (by rw [hx'] at h; cases h), fun _ h => absurd hpr h, fun _ _ => ⟨y, hvals, ?_⟩⟩
      rw [List.length_map, hy.length_eq]
      exact cuped_stats ha hout hT (by omega)
  · obtain ⟨y, hy, h2⟩ := Py.bind_eq_ok.mp h2
    rw [if_neg (by rw [hpremem]; exact hpr)] at h2
    obtain ⟨z, e, h2⟩ := Py.bind_eq_ok.mp h2
    cases e
    rw [onlyNan_fin, if_neg (by simp), finiteValues_fin] at h2
    obtain ⟨v, e, h2⟩ := Py.bind_eq_ok.mp h2
    cases e
    obtain ⟨T, hT, h2⟩ := Py.bind_eq_ok.mp h2
    obtain ⟨hlen, h2⟩ := raiseIf_bind_ok.mp h2
    cases h2
    have hy := wideValues_forall₂ hy
    refine Or.inl ⟨_, _, rfl, rfl, hvar _ _ rfl rfl, items, w.rows.map (fun r => r.key.headD .null), hlist, hl0, hk0, hcut, hl2',
        fun h => (by rw [hx'] at h; cases h), fun _ _ => ⟨y, forall₂_map_of_mem _ hy ?_, ?_⟩, fun _ h => absurd h hpr⟩
    · intro r hr x hx'
      rw [← hrow _ _ _ t1 r hr]
      exact hx'
    · rw [List.length_map, hy.length_eq]
      exact trimmed_stats ha hT (by omega)

theorem weeks_estimate (ha : ArgsortOk argsort) {p : DesignParams ℝ} (hd : mkDesign R p = .ok c.design) (hn : c.design.nBefore ≤ 2 ^ 51)
    {σ : ℤ → Shuffle} {f0 : Frame ℝ} (hw : ∀ r ∈ f0.rows, r c.weekCol = .null ∨ ∃ x : ℤ, r c.weekCol = .int x) {starts : List ℤ} {f f' : Frame ℝ}
    (hf : SamePivots c f0 f) {l : List MetricStats} (h : statsOfWeeks R argsort σ c starts f = (.ok l, f')) :
    List.Forall₂ (fun start (st : MetricStats) => (st.size : ℤ) = c.design.nAfterPost ∧
      ((∃ a v : ℝ, st.average = .fin a ∧ st.variance = .fin v ∧ 0 ≤ v ∧ Spec.WeekEstimate R.rnd c.design f0.rows c.itemCol c.weekCol start a v) ∨
        (st.average = .nan ∧ st.variance = .nan ∧ Spec.WeekConstant R.rnd c.design f0.rows c.itemCol c.weekCol start))) starts l := by
  induction starts generalizing f l with
  | nil => cases h; exact .nil
  | cons start rest ih =>
    rw [statsOfWeeks] at h
    rcases hh : historicalTable R (σ start) c none start f with ⟨r, g⟩
    rw [hh] at h
    cases r with
    | error e => cases h
    | ok w =>
      simp only at h
      rcases hst : primaryStats R argsort c.design w with e | st
      · rw [hst] at h; cases h
      rw [hst] at h
      simp only at h
      rcases hrest : statsOfWeeks R argsort σ c rest g with ⟨r2, g2⟩
      rw [hrest] at h
      cases r2 with
      | error e => cases h
      | ok l2 =>
        cases h
        refine .cons ?_ (ih (hf.trans (same_of_historical hh)) hrest)
        rw [historical_same hf] at hh
        exact week_estimate ha hd hn hw hh hst

end Feedx
