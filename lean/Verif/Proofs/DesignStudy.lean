import Verif.Model.DesignStudy
import Verif.Props.Pipeline
import Verif.Props.History
import Verif.Props.Generate
import Verif.Props.Estimate

/-!
Lemmas about the workflow of the experiment designer.
-/

set_option linter.unusedSectionVars false
set_option linter.unusedSimpArgs false

namespace Feedx

section
variable {K : Type} [Field K] [LinearOrder K] [IsStrictOrderedRing K] [FloorRing K]

/-- The columns of the cleaned historical data. -/
theorem cleanHistorical_cols {R : Rounding K} {rng : Sampler (Cell K)} {E : Ext K} {raw : Frame K}
    {itemCol dateCol primary primaryCol : String} {fraction : K} {p : String × Frame K}
    (h : cleanHistorical R rng E raw itemCol dateCol primary primaryCol fraction = .ok p) {c : String} (hc : c ∈ p.2.cols) :
    c ∈ ["week_id", "week_start", "item_id", Spec.metricName primary primaryCol] := by
  obtain ⟨hall, -, f1, f2, f3, f4, e1, e2, e3, e4, e5⟩ := cleanHistorical_parts h
  obtain ⟨hc1, -⟩ := standardize_metric hall e1
  have hc2 : ∀ c ∈ f2.cols, c = "item_id" ∨ c = "date" ∨ c = Spec.metricName primary primaryCol := by
    intro c hc
    rw [(fillMissing_ok e2).2.2.2.1, hc1] at hc
    simp only [List.mem_cons, List.mem_filter, List.not_mem_nil, or_false] at hc
    tauto
  have hc3 : ∀ c ∈ f3.cols, c = "item_id" ∨ c = "date" ∨ c = Spec.metricName primary primaryCol ∨ c = "week_id" ∨ c = "week_start" := by
    intro c hc
    unfold addWeeks at e3
    obtain ⟨-, e3⟩ := raiseIf_bind_ok.mp e3
    obtain ⟨-, e3⟩ := raiseIf_bind_ok.mp e3
    obtain ⟨t0, -, e3⟩ := Py.bind_eq_ok.mp e3
    obtain ⟨-, e3⟩ := raiseIf_bind_ok.mp e3
    cases e3
    unfold withWeeks at hc
    rw [setCol_cols, setCol_cols] at hc
    rcases hc with (hc | hc) | hc
    · rcases hc2 c hc with h | h | h <;> simp [h]
    · simp [hc]
    · simp [hc]
  have hc4 : ∀ c ∈ f4.cols, c ∈ ["week_id", "week_start", "item_id", Spec.metricName primary primaryCol] := by
    intro c hc
    unfold groupWeeks at e4
    obtain ⟨-, e4⟩ := raiseIf_bind_ok.mp e4
    obtain ⟨-, e4⟩ := raiseIf_bind_ok.mp e4
    split at e4
    · obtain ⟨-, e4⟩ := raiseIf_bind_ok.mp e4
      obtain ⟨-, e4⟩ := raiseIf_bind_ok.mp e4
      obtain ⟨-, e4⟩ := raiseIf_bind_ok.mp e4
      cases e4
      simp only [List.mem_append, List.mem_filter, List.mem_cons, List.not_mem_nil, or_false, decide_eq_true_eq] at hc ⊢
      rcases hc with hc | ⟨⟨hc, hn⟩, -⟩
      · tauto
      · have := hc3 c hc
        tauto
    · split at e4
      · cases e4
        simp only [Frame.dropCol, List.mem_filter, decide_eq_true_eq] at hc
        have := hc3 c hc.1
        simp only [List.mem_cons, List.not_mem_nil, or_false]
        tauto
      · cases e4
  rw [(downsample_rows e5).1] at hc
  exact hc4 c hc

/-- Further facts about accepted historical data. -/
theorem accepted_facts {R : Rounding K} {rng : Sampler (Cell K)} {E : Ext K} {S : DateSorter K} {raw out : Frame K}
    {itemCol dateCol primary primaryCol : String} {fraction : K}
    (h : prepareHistorical R rng E S raw itemCol dateCol primary primaryCol fraction [] = .ok out) :
    (∀ r ∈ out.rows, r "item_id" ≠ .null) ∧ "item_id" ∈ out.cols ∧ "week_id" ∈ out.cols ∧ Spec.metricName primary primaryCol ∈ out.cols ∧
    ∀ c ∈ out.cols, c ∈ ["week_id", "week_start", "item_id", Spec.metricName primary primaryCol] := by
  unfold prepareHistorical at h
  obtain ⟨p, hp, h⟩ := Py.bind_eq_ok.mp h
  obtain ⟨u, hv, h⟩ := Py.bind_eq_ok.mp h
  cases h
  obtain ⟨hname, t0, hpan, -⟩ := cleanHistorical_panel hp
  unfold validateHistorical at hv
  obtain ⟨_, -, hv⟩ := Py.bind_eq_ok.mp hv
  obtain ⟨_, c1, hv⟩ := Py.bind_eq_ok.mp hv
  obtain ⟨_, -, hv⟩ := Py.bind_eq_ok.mp hv
  obtain ⟨_, -, hv⟩ := Py.bind_eq_ok.mp hv
  obtain ⟨_, -, hv⟩ := Py.bind_eq_ok.mp hv
  obtain ⟨_, c5, -⟩ := Py.bind_eq_ok.mp hv
  have c1 := runCheck_passed c1
  have c5 := runCheck_passed c5
  have hnull : Spec.NoNulls p.2 := by
    obtain ⟨b, hb, hiff⟩ := checkNulls_verdict p.2
    rw [c1] at hb
    exact hiff.mp (Except.ok.inj hb).symm
  rw [hname] at c5
  have hcol : Spec.metricName primary primaryCol ∈ p.2.cols := by
    unfold checkFinite at c5
    exact not_not.mp (raiseIf_bind_ok.mp c5).1
  exact ⟨fun r hr => hnull r hr _ hpan.item, hpan.item, hpan.week, hcol, fun c hc => cleanHistorical_cols hp hc⟩

end

/-! ### Dictionaries -/

section
variable {α β : Type} [DecidableEq α]

theorem dictSet_keys (k : α) (v : β) (l : List (α × β)) :
    (dictSet k v l).map Prod.fst = if k ∈ l.map Prod.fst then l.map Prod.fst else l.map Prod.fst ++ [k] := by
  induction l with
  | nil => simp [dictSet]
  | cons p l ih =>
    obtain ⟨k', v'⟩ := p
    unfold dictSet
    by_cases h : k = k'
    · simp [h]
    · rw [if_neg h]
      simp only [List.map_cons, List.mem_cons, h, false_or, ih]
      split <;> simp

theorem dictSet_mem {k : α} {v : β} {l : List (α × β)} {p : α × β} (h : p ∈ dictSet k v l) : p = (k, v) ∨ (p ∈ l) := by
  induction l with
  | nil => simpa [dictSet] using h
  | cons q l ih =>
    obtain ⟨k', v'⟩ := q
    unfold dictSet at h
    split at h
    · rcases List.mem_cons.mp h with h | h
      · exact Or.inl h
      · exact Or.inr (by simp [h])
    · rcases List.mem_cons.mp h with h | h
      · exact Or.inr (by simp [h])
      · rcases ih h with h | h
        · exact Or.inl h
        · exact Or.inr (by simp [h])

theorem dictSet_lookup (k : α) (v : β) (l : List (α × β)) (k' : α) :
    (dictSet k v l).lookup k' = if k' = k then some v else l.lookup k' := by
  induction l with
  | nil =>
    unfold dictSet
    by_cases h : k' = k
    · simp [List.lookup, h]
    · have : (k' == k) = false := by simpa using h
      simp [List.lookup, this, h]
  | cons q l ih =>
    obtain ⟨k1, v1⟩ := q
    unfold dictSet
    split
    · rename_i h
      subst h
      by_cases h' : k' = k
      · simp [List.lookup, h']
      · have : (k' == k) = false := by simpa using h'
        simp [List.lookup, this, h']
    · rename_i h
      by_cases h' : k' = k1
      · subst h'
        rw [if_neg (fun e => h e.symm)]
        simp [List.lookup]
      · have : (k' == k1) = false := by simpa using h'
        simp only [List.lookup, this, ih]

theorem dropDup_snoc (l : List α) (a : α) : dropDup (l ++ [a]) = if a ∈ l then dropDup l else dropDup l ++ [a] := by
  rw [dropDup_append]
  by_cases h : a ∈ l <;> simp [dropDup, h]

theorem dictOf_keys (l : List (α × β)) : (dictOf l).map Prod.fst = dropDup (l.map Prod.fst) := by
  unfold dictOf
  induction l using List.reverseRecOn with
  | nil => rfl
  | append_singleton l p ih =>
    rw [List.foldl_append, List.foldl_cons, List.foldl_nil, dictSet_keys, ih, List.map_append, List.map_cons, List.map_nil, dropDup_snoc]
    simp only [mem_dropDup]

theorem dictOf_mem {l : List (α × β)} {p : α × β} (h : p ∈ dictOf l) : p ∈ l := by
  unfold dictOf at h
  induction l using List.reverseRecOn with
  | nil => exact h
  | append_singleton l q ih =>
    rw [List.foldl_append, List.foldl_cons, List.foldl_nil] at h
    rcases dictSet_mem h with h | h
    · simp [h]
    · simp [ih h]

end

/-! ### Accepted data can be used for every design -/

theorem ints_mem {K : Type} {l : List (Cell K)} {w : ℤ} : w ∈ ints l ↔ .int w ∈ l := by
  unfold ints
  rw [List.mem_filterMap]
  constructor
  · rintro ⟨c, hc, e⟩
    cases c <;> simp at e
    subst e; exact hc
  · intro h
    exact ⟨_, h, rfl⟩

theorem nunique_notNull {K : Type} [Field K] [LinearOrder K] {l : List (Cell K)} (h : ∀ c ∈ l, c ≠ .null) : nunique l = (dropDup l).length := by
  unfold nunique
  rw [List.filter_eq_self.mpr]
  intro c hc
  have := h c hc
  cases c <;> simp_all [Cell.isNull]

/-- Accepted historical data can be used for every created design with its items and its metric, from every start week whose windows lie in the data. -/
theorem accepted_usable {R : Rounding ℝ} {rng : Sampler (Cell ℝ)} {E : Ext ℝ} {S : DateSorter ℝ} {raw data : Frame ℝ}
    {itemCol dateCol primary primaryCol : String} {fraction : ℝ}
    (h : prepareHistorical R rng E S raw itemCol dateCol primary primaryCol fraction [] = .ok data)
    (hname : Spec.metricName primary primaryCol ≠ "time_period") {p : DesignParams ℝ} {d : Design ℝ} (hd : mkDesign R p = .ok d)
    (hn : d.nBefore = nunique (data.col "item_id")) (hm : d.primaryMetric = Spec.metricName primary primaryCol) {starts : List ℤ}
    (hin : ∀ start ∈ starts, ∀ w, start - d.pretest ≤ w → w < start + d.runtime → .int w ∈ data.col "week_id") :
    Spec.UsableHistory d "item_id" "week_id" "time_period" starts data := by
  obtain ⟨hne, hone, hfin, ⟨first, -, hweeks⟩, -⟩ := C62_weekly_panel R rng E S raw data itemCol dateCol primary primaryCol fraction h
  obtain ⟨hnull, hi, hw, hmc, hcols⟩ := accepted_facts h
  obtain ⟨hdd, hvalid⟩ := (mkDesign_ok_iff R p d).mp hd
  obtain ⟨hleg, -⟩ := (validateDesign_ok_iff R _).mp hvalid
  have hrun := hleg.runtime_pos
  have hpre := hleg.pretest_nonneg
  have hcross := hleg.crossover
  -- every week of the experiment has a row of every item
  have hrow : ∀ start ∈ starts, ∀ w, start - d.pretest ≤ w → w < start + d.runtime → ∀ i ∈ data.col "item_id",
      ∃ r ∈ data.rows, r "item_id" = i ∧ r "week_id" = .int w := by
    intro start hs w h1 h2 i hi
    have := hone i hi _ (hin start hs w h1 h2)
    have hpos : 0 < Spec.rowsAt data "item_id" "week_id" i (.int w) := by omega
    unfold Spec.rowsAt at hpos
    obtain ⟨r, hr, e⟩ := List.countP_pos_iff.mp hpos
    simp only [decide_eq_true_eq] at e
    exact ⟨r, hr, e.1, e.2⟩
  -- some week lies in a period
  have hper : ∀ start, ∃ w label, start - d.pretest ≤ w ∧ w < start + d.runtime ∧ Spec.InPeriod d.toDesignParams start label w := by
    intro start
    cases hx : d.isCrossover with
    | false =>
      refine ⟨start, "test", by omega, by omega, start, start + d.runtime, ?_, le_refl _, by omega⟩
      unfold Spec.timeline Spec.regularTimeline
      simp [hx]
    | true =>
      obtain ⟨x, hx1, hx2, hx3, k, hk⟩ := hcross hx
      refine ⟨start + x, "test_1", by omega, by omega, start + x, start + d.runtime / 2, ?_, le_refl _, by omega⟩
      unfold Spec.timeline Spec.crossoverTimeline
      simp [hx, hx1]
  refine ⟨⟨?_, ?_, ?_⟩, ⟨hi, hw, hm ▸ hmc, ?_⟩, ?_⟩
  · intro r hr
    obtain ⟨w, e, -⟩ := hweeks r hr
    exact Or.inr ⟨w, e⟩
  · intro r hr
    right
    have := (hfin r hr).1
    rw [show (if primary = "other" then primaryCol else primary) = d.primaryMetric from hm.symm] at this
    rcases this with ⟨i, e⟩ | ⟨x, e⟩
    · rw [e]; exact ⟨_, rfl⟩
    · rw [e]; exact ⟨_, rfl⟩
  · intro start hs
    refine ⟨dropDup (data.col "item_id"), nodup_dropDup _, ?_, ?_⟩
    · rw [hn, nunique_notNull]
      intro c hc
      obtain ⟨r, hr, rfl⟩ := List.mem_map.mp hc
      exact hnull r hr
    · intro x
      rw [mem_dropDup]
      constructor
      · intro hx
        obtain ⟨w, label, h1, h2, h3⟩ := hper start
        obtain ⟨r, hr, e1, e2⟩ := hrow start hs w h1 h2 x hx
        refine ⟨?_, r, hr, e1, w, e2, label, h3⟩
        rw [← e1]; exact hnull r hr
      · rintro ⟨-, r, hr, rfl, -⟩
        exact List.mem_map.mpr ⟨r, hr, rfl⟩
  · intro hc
    have := hcols _ hc
    simp only [List.mem_cons, List.not_mem_nil, or_false] at this
    rcases this with h | h | h | h
    · exact absurd h (by decide)
    · exact absurd h (by decide)
    · exact absurd h (by decide)
    · exact hname h.symm
  · intro start hs label lo hi' hmem hlt
    obtain ⟨r0, hr0⟩ := List.exists_mem_of_ne_nil _ hne
    have hb : start - d.pretest ≤ lo ∧ lo < start + d.runtime := by
      unfold Spec.timeline at hmem
      cases hx : d.isCrossover with
      | false =>
        simp only [hx, Bool.false_eq_true, if_false, Spec.regularTimeline, List.mem_cons, Prod.mk.injEq, List.not_mem_nil, or_false] at hmem
        omega
      | true =>
        obtain ⟨x, hx1, hx2, hx3, k, hk⟩ := hcross hx
        simp only [hx, if_true, Spec.crossoverTimeline, hx1, Option.getD_some, List.mem_cons, Prod.mk.injEq, List.not_mem_nil, or_false] at hmem
        omega
    obtain ⟨r, hr, e1, e2⟩ := hrow start hs lo hb.1 hb.2 (r0 "item_id") (List.mem_map.mpr ⟨r0, hr0, rfl⟩)
    exact ⟨r, hr, hnull r hr, lo, e2, le_refl _, hlt⟩

end Feedx
