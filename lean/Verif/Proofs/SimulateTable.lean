import Verif.Props.SimulateRun

/-!
The table of one simulated experiment on usable data: what the bootstrap and the first trimming leave.
-/

set_option linter.unusedSectionVars false
set_option linter.unusedSimpArgs false

namespace Feedx
open Fl

variable {R : Rounding ℝ} {argsort : List ℝ → List ℕ} {D : TDist} {c : SimConfig}

theorem trimOutliers_sublist {σ : Shuffle} {f out : Frame ℝ} {col : String} {t b : ℝ}
    (h : trimOutliers R σ f col t b = .ok out) : out.rows.Sublist f.rows := by
  unfold trimOutliers at h
  have h := (raiseIf_bind_ok.mp (raiseIf_bind_ok.mp (raiseIf_bind_ok.mp h).2).2).2
  dsimp only at h
  split at h
  · cases h; exact List.Sublist.refl _
  · have h := (raiseIf_bind_ok.mp (raiseIf_bind_ok.mp h).2).2
    cases h
    have e : f.rows.zipIdx.map Prod.fst = f.rows := by simp
    conv_rhs => rw [← e]
    exact List.filter_sublist.map _

theorem ints_of_int {α : Type} (l : List α) (g : α → ℤ) : ints (l.map (fun x => (Cell.int (g x) : Cell ℝ))) = l.map g := by
  induction l with
  | nil => rfl
  | cons a l ih =>
    unfold ints at ih ⊢
    simp only [List.map_cons, List.filterMap_cons]
    rw [ih]

theorem ints_sublist {l l' : List (Cell ℝ)} (h : l.Sublist l') : (ints l).Sublist (ints l') := h.filterMap _

theorem filterMap_positions (rows : List (WideRow ℝ)) :
    (ints (rows.zipIdx.map (fun p => (Cell.int (p.2 : ℤ) : Cell ℝ)))).filterMap (fun i => rows[i.toNat]?) = rows := by
  rw [ints_of_int, List.filterMap_map]
  have e2 : rows.zipIdx.filterMap ((fun i : ℤ => rows[i.toNat]?) ∘ fun p => (p.2 : ℤ)) = rows.zipIdx.filterMap (fun p => some p.1) := by
    apply List.filterMap_congr
    intro p hp
    have := List.mem_zipIdx' hp
    show rows[((p.2 : ℤ)).toNat]? = some p.1
    rw [Int.toNat_natCast, List.getElem?_eq_getElem this.1]
    exact congrArg some this.2.symm
  rw [e2]
  show rows.zipIdx.filterMap (some ∘ Prod.fst) = rows
  rw [List.filterMap_eq_map]
  simp

/-- Trimming a table only removes rows. -/
theorem trimWide_sublist {σ : Shuffle} {w w' : Wide ℝ} {l : List String} {t b : ℝ} (h : trimWide R σ w l t b = .ok w') :
    w'.rows.Sublist w.rows ∧ w'.cols = w.cols ∧ w'.names = w.names := by
  unfold trimWide at h
  obtain ⟨g, hg, h⟩ := Py.bind_eq_ok.mp h
  cases h
  refine ⟨?_, rfl, rfl⟩
  have hs := (trimOutliers_sublist hg).map (fun r => r "position")
  have e : (w.rows.zipIdx.map (fun p c => if c = "position" then (Cell.int (p.2 : ℤ) : Cell ℝ) else flCell (p.1.val l))).map (fun r => r "position") =
      w.rows.zipIdx.map (fun p => (Cell.int (p.2 : ℤ) : Cell ℝ)) := by
    rw [List.map_map]; rfl
  rw [e] at hs
  have := (ints_sublist hs).filterMap (fun i => w.rows[i.toNat]?)
  rw [filterMap_positions w.rows] at this
  exact this

/-- What the random generator may give for a simulated experiment of a design: a valid start week, as many bootstrap positions as items, and
one coin per item that is left after the first trimming. -/
structure Spec.FairDraw (c : SimConfig) (r : SimDraw) : Prop where
  start : r.start ∈ c.starts
  boot : (r.boot.length : ℤ) = c.design.nBefore ∧ ∀ p ∈ r.boot, (p : ℤ) < c.design.nBefore
  coins : (r.coins.length : ℤ) = c.design.nAfterPre

/-- The sampled and trimmed table of one simulation on usable data. -/
theorem simulated_table {p : DesignParams ℝ} (hd : mkDesign R p = .ok c.design) (hn : c.design.nBefore ≤ 2 ^ 51) {f : Frame ℝ}
    (hu : Spec.UsableHistory c.design c.itemCol c.weekCol c.periodCol c.starts f) {draw : SimDraw} (hdraw : Spec.FairDraw c draw) :
    ∃ piv w f', pivotTimeAssignment c.design.toDesignParams draw.start [c.design.primaryMetric] c.itemCol c.weekCol none c.periodCol f = (.ok piv, f') ∧
      historicalTable R draw.shuffle c (some draw.boot) draw.start f = (.ok w, f') ∧
      Spec.UsableHistory c.design c.itemCol c.weekCol c.periodCol c.starts f' ∧
      w.names = [c.itemCol] ∧ (w.rows.length : ℤ) = c.design.nAfterPre ∧ (∀ r ∈ w.rows, r.key.length = 1) ∧ (w.rows.map WideRow.key).Nodup ∧
      w.cols.Nodup ∧
      (∀ l ∈ w.cols, ∃ label lo hi, l = [c.design.primaryMetric, label] ∧ (label, lo, hi) ∈ Spec.timeline c.design.toDesignParams draw.start ∧ lo < hi) ∧
      (∀ label lo hi, (label, lo, hi) ∈ Spec.timeline c.design.toDesignParams draw.start → lo < hi → [c.design.primaryMetric, label] ∈ w.cols) ∧
      (∀ label lo hi, (label, lo, hi) ∈ Spec.timeline c.design.toDesignParams draw.start → lo < hi →
        ∀ r ∈ w.rows, ∃ y, r.val [c.design.primaryMetric, label] = .fin y) ∧
      (∀ r ∈ w.rows, ∃ k ∈ piv.index, ∀ label, r.val [c.design.primaryMetric, label] = piv.value k c.design.primaryMetric label) := by
  set m := c.design.primaryMetric with hm
  obtain ⟨piv, f', hpiv, hu', hper1, hper2, hfin⟩ := usable_pivot hd hdraw.start hu
  obtain ⟨hlen, -⟩ := complete_table hd hpiv hdraw.start hu.complete
  obtain ⟨hidx, hmemidx⟩ := C13_index_is_items_with_labelled_rows R p c.design hd draw.start [m] c.itemCol c.weekCol none c.periodCol f f' piv hpiv
    hu.complete.weeks
  obtain ⟨hdd, hval⟩ := (mkDesign_ok_iff R p c.design).mp hd
  obtain ⟨hleg, h50⟩ := (validateDesign_ok_iff R _).mp hval
  set w := piv.wide [m] c.itemCol with hw
  have hwcols : w.cols = piv.periods.map (fun p => [m, cellText p]) := by
    show [m].flatMap (fun m => piv.periods.map (fun p => [m, cellText p])) = _
    simp
  have hwl : w.rows.length = piv.index.length := by simp [hw, Pivoted.wide]
  have hl0 : (w.rows.length : ℤ) = c.design.nBefore := by rw [hwl]; exact hlen
  have hwk : ∀ r ∈ w.rows, r.key.length = 1 := by
    intro r hr
    obtain ⟨k, hk, rfl⟩ := List.mem_map.mp hr
    obtain ⟨⟨r, -, rfl, -⟩, -⟩ := (hmemidx k).mp hk
    rfl
  have hwv : ∀ r ∈ w.rows, ∃ k ∈ piv.index, ∀ label, r.val [m, label] = piv.value k m label := by
    intro r hr
    obtain ⟨k, hk, rfl⟩ := List.mem_map.mp hr
    exact ⟨k, hk, fun _ => rfl⟩
  have hbl : draw.boot.length = w.rows.length := by have := hdraw.boot.1; omega
  have htwo : ∀ l ∈ w.cols, l.length = 2 := by
    intro l hl
    rw [hwcols] at hl
    obtain ⟨x, -, rfl⟩ := List.mem_map.mp hl
    rfl
  obtain ⟨w1, hb, hn1, hc1, hl1, hrows1, hnd1⟩ := C67_bootstrap draw.boot w c.itemCol (by simp [hw, Pivoted.wide]) (by
      intro r hr; rw [hwk r hr]; rfl) hbl
    (by intro q hq; have := hdraw.boot.2 q hq; omega)
    ⟨fun h => by have := htwo _ h; simp at this, fun h => by have := htwo _ h; simp at this⟩
  have hn1 : w1.names = [c.itemCol] := hn1
  have hw1 : ∀ r ∈ w1.rows, r.key.length = 1 ∧ ∃ k ∈ piv.index, ∀ label, r.val [m, label] = piv.value k m label := by
    intro r hr
    obtain ⟨i, hi, rfl⟩ := List.getElem_of_mem hr
    have hib : i < draw.boot.length := by omega
    obtain ⟨r0, h1, h2, h3, -⟩ := hrows1 i draw.boot[i] w1.rows[i] (List.getElem?_eq_getElem hib) (List.getElem?_eq_getElem hi)
    have hr0 := List.mem_of_getElem? h1
    exact ⟨by rw [h3]; exact hwk r0 hr0, by rw [h2]; exact hwv r0 hr0⟩
  have hnd1 : (w1.rows.map WideRow.key).Nodup := by
    have e1 : (piv.wide [m] c.itemCol).names.idxOf c.itemCol = 0 := by simp [Pivoted.wide]
    rw [e1] at hnd1
    refine List.Nodup.of_map (fun k : List (Cell ℝ) => k[0]?) ?_
    rw [List.map_map]
    exact hnd1
  have hfin1 : ∀ label lo hi, (label, lo, hi) ∈ Spec.timeline c.design.toDesignParams draw.start → lo < hi →
      ∀ r ∈ w1.rows, ∃ y, r.val [m, label] = .fin y := by
    intro label lo hi hmem hlt r hr
    obtain ⟨-, k, -, hk⟩ := hw1 r hr
    rw [hk]
    exact hfin k label lo hi hmem hlt
  have hpretl : ("pretest", draw.start - c.design.pretest, draw.start) ∈ Spec.timeline c.design.toDesignParams draw.start := by
    unfold Spec.timeline
    split_ifs <;> simp [Spec.crossoverTimeline, Spec.regularTimeline]
  have hl1' : (w1.rows.length : ℤ) = c.design.nBefore := by rw [hl1]; exact hl0
  have htrim : ∃ w2, (if 0 < c.design.pretest then
      trimWide R draw.shuffle w1 [m, "pretest"] c.design.preTop.val c.design.preBottom.val else .ok w1) = .ok w2 ∧
      w2.cols = w1.cols ∧ w2.names = w1.names ∧ w2.rows.Sublist w1.rows ∧ (w2.rows.length : ℤ) = c.design.nAfterPre := by
    by_cases hpos : 0 < c.design.pretest
    · rw [if_pos hpos]
      have hnn : ∀ r ∈ w1.rows, r.val [m, "pretest"] ≠ .nan := by
        intro r hr
        obtain ⟨y, hy⟩ := hfin1 _ _ _ hpretl (by omega) r hr
        rw [hy]; simp
      obtain ⟨w2, h1, -⟩ := trimWide_returns (σ := draw.shuffle) hd (l := [m, "pretest"]) (w := w1)
        (by rw [hc1]; exact mem_wide_cols (hper1 _ _ _ hpretl (by omega))) hl1' (by omega) hnn
      obtain ⟨h2, h3, h4⟩ := trimWide_sublist h1
      exact ⟨w2, h1, h3, h4, h2, (trimWide_count hd hl1' (by omega) hnn h1).1⟩
    · rw [if_neg hpos]
      refine ⟨w1, rfl, rfl, rfl, List.Sublist.refl _, ?_⟩
      have h0 : c.design.pretest = 0 := by have := hleg.pretest_nonneg; omega
      obtain ⟨z1, z2⟩ := hleg.no_pretrim_without_pretest h0
      have hr0 : R.rnd 0 = 0 := by simpa using R.intFix 0 (by norm_num)
      have e : c.design.nAfterPre = c.design.nBefore - R.floorMul c.design.preTop.val c.design.nBefore -
        R.floorMul c.design.preBottom.val c.design.nBefore := by rw [hdd]; rfl
      have hf0 : R.floorMul 0 c.design.nBefore = 0 := by unfold Rounding.floorMul; rw [zero_mul, hr0]; simp
      rw [z1, z2, hf0] at e
      omega
  obtain ⟨w2, h2, hc2, hn2, hsub, hl2⟩ := htrim
  refine ⟨piv, w2, f', hpiv, ?_, hu', by rw [hn2, hn1], hl2, fun r hr => (hw1 r (hsub.subset hr)).1, (hsub.map _).nodup hnd1, ?_, ?_, ?_,
    fun label lo hi hmem hlt r hr => hfin1 label lo hi hmem hlt r (hsub.subset hr), fun r hr => (hw1 r (hsub.subset hr)).2⟩
  · unfold historicalTable
    rw [hpiv]
    simp only [Prod.mk.injEq, and_true]
    unfold trimHistorical
    exact Py.bind_eq_ok.mpr ⟨w1, hb, raiseIf_bind_ok.mpr ⟨by simp, Py.bind_eq_ok.mpr ⟨w2, h2, raiseIf_bind_ok.mpr ⟨by simp, rfl⟩⟩⟩⟩
  · rw [hc2, hc1, hwcols]
    have hnd : piv.periods.Nodup := by
      obtain ⟨-, -, g, -, rfl, -, -⟩ := pivot_ok hpiv
      exact nodup_dropDup _
    refine List.Nodup.map_on ?_ hnd
    intro x hx y hy hxy
    obtain ⟨a, -, -, rfl, -⟩ := hper2 x hx
    obtain ⟨b, -, -, rfl, -⟩ := hper2 y hy
    simpa [cellText] using hxy
  · intro l hl
    rw [hc2, hc1, hwcols] at hl
    obtain ⟨x, hx, rfl⟩ := List.mem_map.mp hl
    obtain ⟨a, lo, hi, rfl, h⟩ := hper2 x hx
    exact ⟨a, lo, hi, rfl, h⟩
  · intro label lo hi hmem hlt
    rw [hc2, hc1]
    exact mem_wide_cols (hper1 _ _ _ hmem hlt)

end Feedx
