import Verif.Props.Simulate
import Verif.Props.Cuped
import Verif.Proofs.TTestSE

/-!
Success of the estimation on usable data.
-/

set_option linter.unusedSectionVars false
set_option linter.unusedSimpArgs false

namespace Feedx
open Fl

variable {R : Rounding ℝ} {argsort : List ℝ → List ℕ} {D : TDist} {c : SimConfig}

/-- The pivot of usable data returns, has the periods that have weeks, and leaves the data usable. -/
theorem usable_pivot {p : DesignParams ℝ} {d : Design ℝ} (hd : mkDesign R p = .ok d) {start : ℤ} {i w t : String} {starts : List ℤ}
    (hs : start ∈ starts) {f : Frame ℝ} (hu : Spec.UsableHistory d i w t starts f) :
    ∃ piv f', pivotTimeAssignment d.toDesignParams start [d.primaryMetric] i w none t f = (.ok piv, f') ∧
      Spec.UsableHistory d i w t starts f' ∧
      (∀ label lo hi, (label, lo, hi) ∈ Spec.timeline d.toDesignParams start → lo < hi → Cell.str label ∈ piv.periods) ∧
      (∀ x ∈ piv.periods, ∃ label lo hi, x = .str label ∧ (label, lo, hi) ∈ Spec.timeline d.toDesignParams start ∧ lo < hi) ∧
      (∀ k label lo hi, (label, lo, hi) ∈ Spec.timeline d.toDesignParams start → lo < hi →
        ∃ y, piv.value k d.primaryMetric label = .fin y) := by
  obtain ⟨hi, hw, hm, ht⟩ := hu.columns
  have hg : labelRows d.toDesignParams start w t f = .ok (f.setCol t (rowLabel d.toDesignParams start w)) := by
    unfold labelRows
    refine raiseIf_bind_ok.mpr ⟨?_, raiseIf_bind_ok.mpr ⟨?_, rfl⟩⟩
    · rintro ⟨h1, h2⟩
      obtain ⟨wo, h3, -⟩ := created_crossover hd h1
      rw [h3] at h2; cases h2
    · intro hany
      obtain ⟨r, hr, hn⟩ := List.any_eq_true.mp hany
      rcases hu.complete.weeks r hr with h | ⟨x, h⟩ <;> rw [h] at hn <;> simp [Cell.isNumeric] at hn
  have hit : i ≠ t := fun h => ht (h ▸ hi)
  have hper : ∀ label lo hi, (label, lo, hi) ∈ Spec.timeline d.toDesignParams start → lo < hi →
      Cell.str label ∈ (pivotTable d.toDesignParams [i] t (f.setCol t (rowLabel d.toDesignParams start w)).rows).periods := by
    intro label lo hi' hmem hlt
    obtain ⟨r, hr, hnn, x, hx, h1, h2⟩ := hu.periods start hs label lo hi' hmem hlt
    have hlab := (rowLabel_iff hd (start := start) (hu.complete.weeks r hr) label).mpr ⟨x, hx, lo, hi', hmem, h1, h2⟩
    unfold pivotTable
    rw [mem_dropDup, List.mem_map]
    refine ⟨Function.update r t (rowLabel d.toDesignParams start w r), List.mem_filter.mpr ⟨List.mem_map.mpr ⟨r, hr, rfl⟩, ?_⟩, ?_⟩
    · simp only [Function.update_self, hlab, List.all_cons, List.all_nil, Function.update_of_ne hit, Bool.and_true]
      cases hc : r i <;> simp_all [Cell.isNull]
    · rw [Function.update_self, hlab]
  have hpiv : pivotTimeAssignment d.toDesignParams start [d.primaryMetric] i w none t f =
      (.ok (pivotTable d.toDesignParams [i] t (f.setCol t (rowLabel d.toDesignParams start w)).rows),
        (f.setCol t (rowLabel d.toDesignParams start w)).dropCol t) := by
    unfold pivotTimeAssignment
    rw [if_neg ht, if_neg (by simp [hi, hw, hm]), hg]
    refine if_neg ?_
    rintro ⟨h1, h2⟩
    apply h2
    obtain ⟨hdd, hval⟩ := (mkDesign_ok_iff R p d).mp hd
    have hrun := ((validateDesign_ok_iff R _).mp hval).1.runtime_pos
    refine hper "test" start (start + d.runtime) ?_ (by omega)
    unfold Spec.timeline
    rw [h1]
    simp [Spec.regularTimeline]
  refine ⟨_, _, hpiv, ?_, hper, ?_, ?_⟩
  · refine ⟨complete_pivot hpiv hu.complete, ?_, ?_⟩
    · simp only [Frame.dropCol, Frame.setCol, if_neg ht]
      have hwt : w ≠ t := fun h => ht (h ▸ hw)
      have hmt : d.primaryMetric ≠ t := fun h => ht (h ▸ hm)
      simp [hi, hw, hm, hit, hwt, hmt]
    · intro s hs' label lo hi' hmem hlt
      obtain ⟨r, hr, hnn, x, hx, h⟩ := hu.periods s hs' label lo hi' hmem hlt
      have hwt : w ≠ t := fun h => ht (h ▸ hw)
      exact ⟨_, List.mem_map.mpr ⟨r, hr, rfl⟩, by rw [Function.update_of_ne hit]; exact hnn, x, by rw [Function.update_of_ne hwt]; exact hx, h⟩
  · intro x hx
    unfold pivotTable at hx
    rw [mem_dropDup, List.mem_map] at hx
    obtain ⟨r', hr', rfl⟩ := hx
    obtain ⟨hr1, hr2⟩ := List.mem_filter.mp hr'
    obtain ⟨r, hr, rfl⟩ := List.mem_map.mp hr1
    rw [Function.update_self] at hr2 ⊢
    rcases rowLabel_cases d.toDesignParams start w r with h | ⟨s, h⟩
    · rw [h] at hr2; simp [Cell.isNull] at hr2
    · obtain ⟨x, -, lo, hi', hmem, h1, h2⟩ := (rowLabel_iff hd (hu.complete.weeks r hr) s).mp h
      exact ⟨s, lo, hi', h, hmem, by omega⟩
  · intro k label lo hi' hmem hlt
    rw [C13_values_are_weekly_averages R p d hd start [d.primaryMetric] i w none t f _ _ hpiv hu.complete.weeks k d.primaryMetric (by simp) label
      _ _ hmem]
    obtain ⟨y, hy⟩ := sumSkip_finite (l := (f.rows.filter (Spec.inWeeks [i] w k lo hi')).map
      (fun r => (r d.primaryMetric).toFl)) (by
        intro x hx
        obtain ⟨r, hr, rfl⟩ := List.mem_map.mp hx
        exact hu.complete.finite r (List.mem_filter.mp hr).1)
    unfold Spec.total
    simp only [Option.toList_none]
    rw [hy, Fl.fin_div_ne (by
      have : (0 : ℝ) < ((hi' - lo : ℤ) : ℝ) := by exact_mod_cast (by omega : 0 < hi' - lo)
      exact ne_of_gt this)]
    exact ⟨_, rfl⟩

/-- Trimming returns when the column exists. -/
theorem trimWide_returns {p : DesignParams ℝ} {d : Design ℝ} (hd : mkDesign R p = .ok d) {σ : Shuffle} {w : Wide ℝ} {l : List String}
    (hl : l ∈ w.cols) (hn : (w.rows.length : ℤ) = d.nBefore) (hn' : w.rows.length ≤ 2 ^ 51) (hv : ∀ r ∈ w.rows, r.val l ≠ .nan) :
    ∃ w', trimWide R σ w l d.preTop.val d.preBottom.val = .ok w' ∧ w'.cols = w.cols ∧ w'.names = w.names ∧ ∀ r ∈ w'.rows, r ∈ w.rows := by
  have hcell : ∀ x : Fl ℝ, x ≠ .nan → Spec.IsNumber (flCell x) ∧ flCell x ≠ .null := by
    intro x hx
    unfold Spec.IsNumber
    cases x <;> simp_all [flCell]
  obtain ⟨out, ho, -⟩ := (C56_counts_agree R p d hd σ ⟨if l ∈ w.cols then ["position", "order"] else ["position"],
      w.rows.zipIdx.map (fun p c => if c = "position" then .int (p.2 : ℤ) else flCell (p.1.val l))⟩ "order"
      (by simpa using hn) (by simpa using hn') (by simp [hl])
      (by
        intro r hr
        obtain ⟨q, hq, rfl⟩ := List.mem_map.mp hr
        simp only [show ("order" : String) ≠ "position" by decide, if_false]
        exact (hcell _ (hv _ (List.fst_mem_of_mem_zipIdx hq))).1)
      (by
        intro r hr
        obtain ⟨q, hq, rfl⟩ := List.mem_map.mp hr
        simp only [show ("order" : String) ≠ "position" by decide, if_false]
        exact (hcell _ (hv _ (List.fst_mem_of_mem_zipIdx hq))).2)).1
  refine ⟨_, Py.bind_eq_ok.mpr ⟨out, ho, rfl⟩, rfl, rfl, ?_⟩
  intro r hr
  obtain ⟨i, -, hi⟩ := List.mem_filterMap.mp hr
  exact List.mem_of_getElem? hi

theorem wideValues_returns {w : Wide ℝ} {l : List String} (hl : l ∈ w.cols) (hv : ∀ r ∈ w.rows, ∃ y, r.val l = .fin y) :
    ∃ v, wideValues w l = .ok v := by
  have : ∀ rows : List (WideRow ℝ), (∀ r ∈ rows, ∃ y, r.val l = .fin y) → ∃ v : List ℝ, rows.map (fun r => r.val l) = v.map .fin := by
    intro rows h
    induction rows with
    | nil => exact ⟨[], rfl⟩
    | cons r rows ih =>
      obtain ⟨v, hv⟩ := ih (fun r hr => h r (List.mem_cons_of_mem _ hr))
      obtain ⟨y, hy⟩ := h r (by simp)
      exact ⟨y :: v, by simp [hy, hv]⟩
  obtain ⟨v, hv⟩ := this w.rows hv
  exact ⟨v, raiseIf_bind_ok.mpr ⟨by simpa using hl, finiteValues_ok.mpr hv⟩⟩

/-- The labels of the pivot as column labels. -/
theorem mem_wide_cols {piv : Pivoted ℝ} {m i label : String} (h : Cell.str label ∈ piv.periods) : [m, label] ∈ (piv.wide [m] i).cols := by
  unfold Pivoted.wide
  simp only [List.flatMap_cons, List.flatMap_nil, List.append_nil, List.mem_map]
  exact ⟨_, h, rfl⟩

/-- One start week of usable data. -/
theorem usable_week (ha : ArgsortOk argsort) {p : DesignParams ℝ} (hd : mkDesign R p = .ok c.design) (hn : c.design.nBefore ≤ 2 ^ 51)
    {σ : Shuffle} {start : ℤ} {starts : List ℤ} (hs : start ∈ starts) {f : Frame ℝ}
    (hu : Spec.UsableHistory c.design c.itemCol c.weekCol c.periodCol starts f) :
    ∃ w f' st, historicalTable R σ c none start f = (.ok w, f') ∧ primaryStats R argsort c.design w = .ok st ∧
      (st.size : ℤ) = c.design.nAfterPost ∧ Spec.UsableHistory c.design c.itemCol c.weekCol c.periodCol starts f' ∧
      (Spec.NoPlainCuped R c.design → st.average ≠ .nan) := by
  obtain ⟨piv, f', hp, hu', hper, hper', hval⟩ := usable_pivot hd hs hu
  obtain ⟨hrt, hrt'⟩ := complete_week (σ := σ) ha hd hn hs hu.complete
  obtain ⟨hlen, -⟩ := complete_table hd hp hs hu.complete
  obtain ⟨hdd, hvalid⟩ := (mkDesign_ok_iff R p c.design).mp hd
  obtain ⟨hleg, h50⟩ := (validateDesign_ok_iff R _).mp hvalid
  set w0 := piv.wide [c.design.primaryMetric] c.itemCol with hw0
  have hrows : w0.rows.length = piv.index.length := by rw [hw0]; simp [Pivoted.wide]
  have hl0 : (w0.rows.length : ℤ) = c.design.nBefore := by rw [hrows]; exact hlen
  have hn0 : (0 : ℤ) ≤ c.design.nBefore := by omega
  have hpretl : ("pretest", start - c.design.pretest, start) ∈ Spec.timeline c.design.toDesignParams start := by
    unfold Spec.timeline
    split_ifs <;> simp [Spec.crossoverTimeline, Spec.regularTimeline]
  have hfin : ∀ label lo hi, (label, lo, hi) ∈ Spec.timeline c.design.toDesignParams start → lo < hi →
      ∀ r ∈ w0.rows, ∃ y, r.val [c.design.primaryMetric, label] = .fin y := by
    intro label lo hi hmem hlt r hr
    obtain ⟨k, -, rfl⟩ := List.mem_map.mp hr
    exact hval k label lo hi hmem hlt
  -- the first trimming
  have htrim : ∃ w2, (if 0 < c.design.pretest then
      trimWide R σ w0 [c.design.primaryMetric, "pretest"] c.design.preTop.val c.design.preBottom.val else .ok w0) = .ok w2 ∧
      w2.cols = w0.cols ∧ (∀ r ∈ w2.rows, r ∈ w0.rows) := by
    by_cases hpos : 0 < c.design.pretest
    · rw [if_pos hpos]
      obtain ⟨w2, h1, h2, -, h3⟩ := trimWide_returns (σ := σ) hd (l := [c.design.primaryMetric, "pretest"]) (w := w0)
        (mem_wide_cols (hper _ _ _ hpretl (by omega))) hl0 (by omega) (by
          intro r hr
          obtain ⟨y, hy⟩ := hfin _ _ _ hpretl (by omega) r hr
          rw [hy]; simp)
      exact ⟨w2, h1, h2, h3⟩
    · rw [if_neg hpos]; exact ⟨w0, rfl, rfl, fun _ h => h⟩
  obtain ⟨w2, h2, hcols, hsub⟩ := htrim
  have htab : (historicalTable R σ c none start f) = (.ok w2, f') := by
    have hne : (historicalTable R σ c none start f).2 = f' := by unfold historicalTable; rw [hp]
    have : (historicalTable R σ c none start f).1 = .ok w2 := by
      have key : (historicalTable R σ c none start f).1 = .ok w2 ∨ (historicalTable R σ c none start f).1 = .error .runtimeError := by
        unfold historicalTable
        rw [hp]
        simp only
        unfold trimHistorical
        by_cases hb : (w2.rows.length : ℤ) = c.design.nAfterPre
        · exact Or.inl (Py.bind_eq_ok.mpr ⟨w0, rfl, raiseIf_bind_ok.mpr ⟨fun h => h.2 hl0,
            Py.bind_eq_ok.mpr ⟨w2, h2, raiseIf_bind_ok.mpr ⟨fun h => h.2 hb, rfl⟩⟩⟩⟩)
        · exact Or.inr (Py.bind_eq_error.mpr (Or.inr ⟨w0, rfl, raiseIf_bind_err.mpr (Or.inr ⟨fun h => h.2 hl0,
            Py.bind_eq_error.mpr (Or.inr ⟨w2, h2, raiseIf_bind_err.mpr (Or.inl ⟨⟨rfl, hb⟩, rfl⟩)⟩)⟩)⟩))
      rcases key with h | h
      · exact h
      · exact absurd h hrt
    rw [← this, ← hne]
  have hl2 : (w2.rows.length : ℤ) = c.design.nAfterPre := by
    have h := htab
    unfold historicalTable at h
    rw [hp] at h
    simp only [Prod.mk.injEq, and_true] at h
    unfold trimHistorical at h
    obtain ⟨w1, h1, h⟩ := Py.bind_eq_ok.mp h
    obtain ⟨-, h⟩ := raiseIf_bind_ok.mp h
    obtain ⟨w3, h3, h⟩ := Py.bind_eq_ok.mp h
    obtain ⟨hq, h⟩ := raiseIf_bind_ok.mp h
    cases h
    by_contra hc
    exact hq ⟨rfl, hc⟩
  have hfin2 : ∀ label lo hi, (label, lo, hi) ∈ Spec.timeline c.design.toDesignParams start → lo < hi →
      ∃ v, wideValues w2 [c.design.primaryMetric, label] = .ok v := by
    intro label lo hi hmem hlt
    refine wideValues_returns ?_ (fun r hr => hfin label lo hi hmem hlt r (hsub r hr))
    rw [hcols]
    exact mem_wide_cols (hper _ _ _ hmem hlt)
  have hmk := @mkTrimmed_count R p c.design hd σ hn0 hn argsort ha
  have hmkr : ∀ (m : ℕ) (cols : List (Fin (m + 1) → ℝ)), (cols.length : ℤ) = c.design.nAfterPre →
      ∃ T, mkTrimmed R argsort cols c.design.postTrim.val = .ok T := by
    intro m cols hcl
    refine (C16_accepts_iff R argsort ha m cols ?_ c.design.postTrim.val).1.mpr ⟨hleg.post_nonneg, hleg.post_lt_half⟩
    have h1 : c.design.nAfterPre ≤ c.design.nBefore := by
      have a := floorMul_nonneg R hleg.top_nonneg hn0
      have b := floorMul_nonneg R hleg.bottom_nonneg hn0
      have e : c.design.nAfterPre = c.design.nBefore - R.floorMul c.design.preTop.val c.design.nBefore -
          R.floorMul c.design.preBottom.val c.design.nBefore := by rw [hdd]; rfl
      omega
    omega
  have hsize : ∀ {m : ℕ} {cols : List (Fin (m + 1) → ℝ)} {T : TrimmedArray ℝ m}, (cols.length : ℤ) = c.design.nAfterPre →
      mkTrimmed R argsort cols c.design.postTrim.val = .ok T → ¬ T.len ≤ 1 ∧ (T.len : ℤ) = c.design.nAfterPost := by
    intro m cols T hcl hT
    have := hmk hcl hT
    have h50 : 50 < c.design.nAfterPost := h50
    exact ⟨by omega, this⟩
  have hpost : c.design.nAfterPost = c.design.nAfterPre - 2 * R.floorMul c.design.postTrim.val c.design.nAfterPre := by rw [hdd]; rfl
  refine ⟨w2, f', ?_⟩
  have hfinal : ∃ st, primaryStats R argsort c.design w2 = .ok st ∧ (st.size : ℤ) = c.design.nAfterPost ∧
      (Spec.NoPlainCuped R c.design → st.average ≠ .nan) := by
    unfold primaryStats
    by_cases hx : c.design.isCrossover = true
    · obtain ⟨wo, hwo, hwo0, hwo1, hev⟩ := created_crossover hd hx
      have htl : ("test_1", start + wo, start + c.design.runtime / 2) ∈ Spec.timeline c.design.toDesignParams start ∧
          ("test_2", start + c.design.runtime / 2 + wo, start + c.design.runtime) ∈ Spec.timeline c.design.toDesignParams start := by
        unfold Spec.timeline
        rw [if_pos hx, hwo]
        simp [Spec.crossoverTimeline]
      rw [Int.even_iff] at hev
      obtain ⟨y1, hy1⟩ := hfin2 _ _ _ htl.1 (by omega)
      obtain ⟨y2, hy2⟩ := hfin2 _ _ _ htl.2 (by omega)
      have hcl : ((stack3 y1 y2).length : ℤ) = c.design.nAfterPre := by
        unfold stack3
        rw [List.length_zipWith, wideValues_length hy1, wideValues_length hy2, Nat.min_self]
        exact hl2
      obtain ⟨T, hT⟩ := hmkr 2 (stack3 y1 y2) hcl
      obtain ⟨hT1, hT2⟩ := hsize hcl hT
      refine ⟨⟨.fin ((T.mean 1 + T.mean 2) / 2),
          .fin (if 0 < c.design.postTrim.val then T.var 1 0 + (T.mean 1 - T.mean 2) ^ 2 / 4 else T.var 1 0), T.len⟩,
        Py.bind_eq_ok.mpr ⟨_, ?_, raiseIf_bind_ok.mpr ⟨?_, rfl⟩⟩, ?_, ?_⟩
      · rw [if_pos hx]
        exact Py.bind_eq_ok.mpr ⟨_, hy1, Py.bind_eq_ok.mpr ⟨_, hy2, Py.bind_eq_ok.mpr ⟨_, hT, raiseIf_bind_ok.mpr ⟨hT1, rfl⟩⟩⟩⟩
      · simpa using hT2
      · exact hT2
      · intro _ h; cases h
    · have htl : ("test", start, start + c.design.runtime) ∈ Spec.timeline c.design.toDesignParams start := by
        unfold Spec.timeline
        rw [if_neg hx]
        simp [Spec.regularTimeline]
      have hrun := hleg.runtime_pos
      obtain ⟨y, hy⟩ := hfin2 _ _ _ htl (by omega)
      have hz : ∃ z : List (Fl ℝ), z.length = y.length ∧ ((∃ v : List ℝ, z = v.map .fin) ∨
          onlyNan z = true ∧ nTrimOf R c.design.postTrim.val w2.rows.length = 0 ∧ 0 < c.design.pretest) ∧
        (if [c.design.primaryMetric, "pretest"] ∈ w2.cols then do
          let x ← wideValues w2 [c.design.primaryMetric, "pretest"]
          cuped R argsort y x c.design.postTrim.val
        else .ok (y.map .fin)) = .ok z := by
        by_cases hin : [c.design.primaryMetric, "pretest"] ∈ w2.cols
        · rw [if_pos hin]
          have hpos : 0 < c.design.pretest := by
            rw [hcols, hw0] at hin
            unfold Pivoted.wide at hin
            simp only [List.flatMap_cons, List.flatMap_nil, List.append_nil, List.mem_map] at hin
            obtain ⟨x, hx1, hx2⟩ := hin
            obtain ⟨label, lo, hi, rfl, hmem, hlt⟩ := hper' x hx1
            simp only [List.cons.injEq, and_true, true_and, cellText] at hx2
            subst hx2
            obtain ⟨rfl, rfl⟩ := timeline_range hpretl hmem
            omega
          obtain ⟨x, hxv⟩ := hfin2 _ _ _ hpretl (by omega)
          have hyl := wideValues_length hy
          have hxl := wideValues_length hxv
          have hcast : (y.length : ℝ) = (c.design.nAfterPre : ℝ) := by
            rw [hyl, ← hl2]; simp
          have hfm : R.floorMul c.design.postTrim.val c.design.nAfterPre = ⌊R.rnd (c.design.postTrim.val * (y.length : ℝ))⌋ := by
            unfold Rounding.floorMul
            rw [hcast]
          have h50 : 50 < c.design.nAfterPost := h50
          have hle : w2.rows.length ≤ 2 ^ 53 := by
            have a := floorMul_nonneg R hleg.top_nonneg hn0
            have b := floorMul_nonneg R hleg.bottom_nonneg hn0
            have e : c.design.nAfterPre = c.design.nBefore - R.floorMul c.design.preTop.val c.design.nBefore -
                R.floorMul c.design.preBottom.val c.design.nBefore := by rw [hdd]; rfl
            omega
          have hpn : 0 ≤ R.floorMul c.design.postTrim.val c.design.nAfterPre := floorMul_nonneg R hleg.post_nonneg (by omega)
          rw [hfm] at hpn hpost
          obtain ⟨out, hout⟩ := C22_cuped_returns R argsort ha y x (by rw [hyl, hxl]) (by omega) (by omega) c.design.postTrim.val
            hleg.post_nonneg hleg.post_lt_half (by omega)
          refine ⟨out, cuped_length hout, ?_, Py.bind_eq_ok.mpr ⟨x, hxv, hout⟩⟩
          obtain ⟨-, -, ⟨v, rfl, -⟩ | ⟨-, hg, rfl⟩⟩ := cuped_shape hout
          · exact Or.inl ⟨v, rfl⟩
          · refine Or.inr ⟨?_, by rw [← hyl]; exact hg, hpos⟩
            cases y with
            | nil => simp at hyl; omega
            | cons _ _ => simp [onlyNan]
        · rw [if_neg hin]; exact ⟨y.map .fin, List.length_map _, Or.inl ⟨y, rfl⟩, rfl⟩
      obtain ⟨z, hzl, hshape, hz⟩ := hz
      rcases hshape with ⟨v, rfl⟩ | ⟨hnan, hg, hpos⟩
      · have hcl : ((asStack v).length : ℤ) = c.design.nAfterPre := by
          unfold asStack
          rw [List.length_map] at hzl
          rw [List.length_map, hzl, wideValues_length hy]
          exact hl2
        obtain ⟨T, hT⟩ := hmkr 0 (asStack v) hcl
        obtain ⟨hT1, hT2⟩ := hsize hcl hT
        refine ⟨⟨.fin (T.mean 0), .fin (T.var 1 0), T.len⟩, Py.bind_eq_ok.mpr ⟨_, ?_, raiseIf_bind_ok.mpr ⟨?_, rfl⟩⟩, ?_, ?_⟩
        · rw [if_neg hx]
          refine Py.bind_eq_ok.mpr ⟨_, hy, Py.bind_eq_ok.mpr ⟨_, hz, ?_⟩⟩
          rw [onlyNan_fin, if_neg (by simp), finiteValues_fin]
          exact Py.bind_eq_ok.mpr ⟨_, rfl, Py.bind_eq_ok.mpr ⟨_, hT, raiseIf_bind_ok.mpr ⟨hT1, rfl⟩⟩⟩
        · simpa using hT2
        · exact hT2
        · intro _ h; cases h
      · have hsz : ((z.length : ℕ) : ℤ) = c.design.nAfterPost := by
          rw [hzl, wideValues_length hy]
          exact nAfterPost_untrimmed hd σ hn0 hn ha hl2 hg
        refine ⟨⟨.nan, .nan, z.length⟩, Py.bind_eq_ok.mpr ⟨_, ?_, raiseIf_bind_ok.mpr ⟨?_, rfl⟩⟩, ?_, ?_⟩
        · rw [if_neg hx]
          refine Py.bind_eq_ok.mpr ⟨_, hy, Py.bind_eq_ok.mpr ⟨_, hz, ?_⟩⟩
          rw [if_pos hnan]
          rfl
        · simpa using hsz
        · exact hsz
        · rintro (h | h | h)
          · exact absurd h hx
          · omega
          · exfalso
            rw [← hl2] at h
            have : R.floorMul c.design.postTrim.val (w2.rows.length : ℤ) ≤ 0 := by unfold nTrimOf at hg; omega
            unfold Rounding.floorMul at this
            omega
  obtain ⟨st, h3, h4, h5⟩ := hfinal
  exact ⟨st, htab, h3, h4, hu', h5⟩

end Feedx
