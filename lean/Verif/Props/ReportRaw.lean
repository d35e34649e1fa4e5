import Verif.Props.Report
import Verif.Props.ReportTotals
import Verif.Props.CorrectRun
import Verif.Props.EndToEndGroups

/-!
Property C115 from the raw data: the values compared by an analysis of prepared data, from the rows of the performance data and of the assignment table.
-/

set_option linter.unusedSectionVars false

namespace Feedx
open Fl

/-! ### Specification -/

/-- The number that a row of the performance data gives for a metric; a missing value counts as 0. -/
noncomputable def Spec.rawNumber (E : Ext ℝ) (a : ExperimentArgs) (s : String × String) (p : Row ℝ) : ℝ :=
  match Spec.parsed E a s.1 (p s.2) with
  | .ok (.fin y) => y
  | _ => 0

/-- What the column `c` of the prepared data reads from a row of the performance data: the number of a metric, or whether this number is positive. -/
def Spec.RawReads (E : Ext ℝ) (a : ExperimentArgs) (c : String) (v : Row ℝ → ℝ) : Prop :=
  (∃ src, (c, src) ∈ Spec.metricSources a ∧ v = Spec.rawNumber E a (c, src)) ∨
  (∃ m src, (m, c) ∈ a.atLeastOne ∧ (m, src) ∈ Spec.metricSources a ∧ v = fun p => if 0 < Spec.rawNumber E a (m, src) p then 1 else 0)

open Classical in
/-- The total, per week, of what is read from the rows of the performance data of item `s` dated in the weeks `lo, ..., hi - 1` after the start of the experiment. -/
noncomputable def Spec.rawWeekly (E : Ext ℝ) (perf : Frame ℝ) (itemCol dateCol : String) (start : ℤ) (v : Row ℝ → ℝ) (lo hi : ℤ) (s : String) : ℝ :=
  ((perf.rows.filter (fun p => decide (E.toStr (p itemCol) = s ∧ ∃ t, E.toDate (p dateCol) = .ok (some t) ∧
    start + 7 * lo * 86400000000000 ≤ t ∧ t < start + 7 * hi * 86400000000000))).map v).sum / ((hi - lo : ℤ) : ℝ)

/-- The item is assigned to group 1 (`b` is true) or to group 0. -/
def Spec.RawGroup (E : Ext ℝ) (assign : Frame ℝ) (itemCol treatCol : String) (b : Bool) (s : String) : Prop :=
  ∃ r ∈ assign.rows, E.toStr (r itemCol) = s ∧ E.toInt (r treatCol) = .ok (if b then 1 else 0)

/-! ### Cells of the prepared data -/

section cells
variable {K : Type} [Field K] [LinearOrder K]

theorem names_metric {perf assign : Frame K} {itemCol dateCol treatCol : String} {a : ExperimentArgs}
    (hn : Spec.NamesFit perf assign itemCol dateCol treatCol a) {m : String} (hm : m ∈ preparedMetrics a) : m ∉ Spec.calendarNames := by
  rcases mem_preparedMetrics.mp hm with hm | hm
  · obtain ⟨q, hq, rfl⟩ := List.mem_map.mp hm
    intro hc
    have := (requestedMetrics_names hq).1
    revert this hc
    generalize q.1 = x
    intro hc h
    simp only [Spec.calendarNames, List.mem_cons, List.not_mem_nil, or_false] at hc
    rcases hc with rfl | rfl | rfl | rfl <;> revert h <;> decide
  · exact (hn.other m hm).2

theorem Built.gap_zero {E : Ext K} {perf : Frame K} {itemCol dateCol : String} {a : ExperimentArgs} {a' out : Frame K} {missing : List (Row K)}
    {f1 f2 f5 : Frame K} {d : Design K} {start : ℤ} (B : Built E perf itemCol dateCol a a' out missing f1 f2 f5 d start) {m : String}
    (hm : m ∈ preparedMetrics a) {r : Row K} (hr : r ∈ f2.rows)
    (hno : ∀ p ∈ perf.rows, ∀ t, E.toDate (p dateCol) = .ok (some t) → ¬ (r "item_id" = .str (E.toStr (p itemCol)) ∧ r "date" = .time t)) :
    Spec.IsZero (r m) := by
  obtain ⟨n1, n2⟩ := B.metric_names hm
  have hnull : ∀ q : Row K, q m = .null → Spec.IsZero (fillRow (mergeMissing f1 missing) "item_id" "date" q m) := by
    intro q e
    unfold fillRow
    simp only [n1, n2, or_self, if_false]
    rw [e]
    exact B.zero hm
  rw [(fill_perm B.fill).mem_iff, List.mem_append] at hr
  rcases hr with hr | hr
  · obtain ⟨q, hq, rfl⟩ := List.mem_map.mp hr
    rcases B.merged_mem.mp hq with hq | hq
    · exfalso
      obtain ⟨p, hp, e, t, e1, e2⟩ := forall₂_exists' B.keys hq
      obtain ⟨t', et'⟩ := B.date_some hp
      rw [e1] at et'
      obtain rfl := Except.ok.inj et'
      exact hno p hp t' e1 ⟨by rw [fillRow_key.1, e], by rw [fillRow_key.2, e2]; rfl⟩
    · obtain ⟨-, -, -, r0, -, hF⟩ := missingRows_ok B.missing_ok
      obtain ⟨i, -, t, -, rfl⟩ := forall₂_exists' hF hq
      exact hnull _ (by simp [n1, n2])
  · obtain ⟨i, t, -, -, -, rfl⟩ := mem_addedRows hr
    exact hnull _ (by simp [blankRow, n1, n2])

/-- A prepared metric is held as floats. -/
theorem Built.not_int {E : Ext K} {perf : Frame K} {itemCol dateCol : String} {a : ExperimentArgs} {a' out : Frame K} {missing : List (Row K)}
    {f1 f2 f5 : Frame K} {d : Design K} {start : ℤ} (B : Built E perf itemCol dateCol a a' out missing f1 f2 f5 d start) {m : String}
    (hm : m ∈ preparedMetrics a) {r : Row K} (hr : r ∈ f2.rows) (n : ℤ) : r m ≠ .int n := by
  obtain ⟨n1, n2⟩ := B.metric_names hm
  obtain ⟨c, hc⟩ := mem_metricSources hm
  have hof : ∀ (x : Fl K) (n : ℤ), Cell.ofFl x ≠ .int n := fun x n => by cases x <;> simp [Cell.ofFl]
  have h1 : ∀ q ∈ f1.rows, ∀ n : ℤ, q m ≠ .int n := by
    intro q hq n
    obtain ⟨p, hp, e⟩ := forall₂_exists' B.values hq
    obtain ⟨x, -, e⟩ := e _ hc
    simp only at e
    rw [e]
    exact hof x n
  have hcell : ∀ q ∈ (mergeMissing f1 missing).rows, ∀ n : ℤ, q m ≠ .int n := by
    intro q hq n
    rcases B.merged_mem.mp hq with hq | hq
    · exact h1 q hq n
    · obtain ⟨-, -, -, r0, -, hF⟩ := missingRows_ok B.missing_ok
      obtain ⟨i, -, t, -, rfl⟩ := forall₂_exists' hF hq
      simp only [if_neg n1, if_neg n2]
      simp
  have hz : ∀ n : ℤ, zeroCell ((mergeMissing f1 missing).col m) ≠ .int n := by
    obtain ⟨-, -, -, r0, hr0, -⟩ := missingRows_ok B.missing_ok
    obtain ⟨q0, hq0⟩ : ∃ q0, q0 ∈ f1.rows := by
      have hl := B.values.length_eq
      cases hf1 : f1.rows with
      | nil =>
        rw [hf1] at hl
        exact absurd hr0 (by rw [List.length_eq_zero_iff.mp hl]; simp)
      | cons q l => exact ⟨q, by simp⟩
    have hnum : ∀ c ∈ (mergeMissing f1 missing).col m, Spec.IsNumber c ∧ ∀ n : ℤ, c ≠ .int n := by
      intro c hc'
      obtain ⟨q, hq, rfl⟩ := List.mem_map.mp hc'
      refine ⟨?_, hcell q hq⟩
      rcases B.merged_mem.mp hq with hq | hq
      · obtain ⟨p, hp, e⟩ := forall₂_exists' B.values hq
        obtain ⟨x, -, e⟩ := e _ hc
        simp only at e
        rw [e]
        exact number_ofFl x
      · obtain ⟨-, -, -, r0, -, hF⟩ := missingRows_ok B.missing_ok
        obtain ⟨i, -, t, -, rfl⟩ := forall₂_exists' hF hq
        simp only [if_neg n1, if_neg n2]
        exact ⟨by simp, by simp⟩
    have hmem : q0 m ∈ (mergeMissing f1 missing).col m := List.mem_map.mpr ⟨q0, B.merged_mem.mpr (Or.inl hq0), rfl⟩
    revert hnum hmem
    generalize (mergeMissing f1 missing).col m = l
    generalize q0 m = c0
    intro hnum hmem n
    unfold zeroCell
    rw [if_neg, if_neg, if_neg]
    · simp
    · rw [List.any_eq_true]
      rintro ⟨c, hc, h⟩
      cases c with
      | time t => exact (hnum _ hc).1.2 t rfl
      | _ => simp at h
    · rw [List.any_eq_true]
      rintro ⟨c, hc, h⟩
      cases c with
      | str t => exact (hnum _ hc).1.1 t rfl
      | _ => simp at h
    · rw [List.all_eq_true]
      intro h
      have := h c0 hmem
      cases c0 with
      | int z => exact (hnum _ hmem).2 z rfl
      | _ => simp at this
  have hnull : ∀ q : Row K, (∀ n : ℤ, q m ≠ .int n) → fillRow (mergeMissing f1 missing) "item_id" "date" q m ≠ .int n := by
    intro q e
    unfold fillRow
    simp only [n1, n2, or_self, if_false]
    split
    · exact hz n
    · exact e n
  rw [(fill_perm B.fill).mem_iff, List.mem_append] at hr
  rcases hr with hr | hr
  · obtain ⟨q, hq, rfl⟩ := List.mem_map.mp hr
    exact hnull q (hcell q hq)
  · obtain ⟨i, t, -, -, -, rfl⟩ := mem_addedRows hr
    exact hnull _ (by simp [blankRow, n1, n2])

/-- The at-least-one metrics in the built data. -/
theorem build_positive [IsStrictOrderedRing K] [FloorRing K] {E : Ext K} {perf assign out : Frame K} {d : Design K} {startDate itemCol dateCol treatCol : String} {a : ExperimentArgs}
    (h : buildExperiment E perf assign d startDate itemCol dateCol treatCol a = .ok out) (hn : Spec.NamesFit perf assign itemCol dateCol treatCol a) :
    ∀ r ∈ out.rows, ∀ q ∈ a.atLeastOne, (Spec.IsPositive (r q.1) → r q.2 = .int 1) ∧ (¬ Spec.IsPositive (r q.1) → r q.2 = .int 0) := by
  unfold buildExperiment at h
  obtain ⟨a', ea, h⟩ := Py.bind_eq_ok.mp h
  obtain ⟨missing, em, h⟩ := Py.bind_eq_ok.mp h
  obtain ⟨f1, e1, h⟩ := Py.bind_eq_ok.mp h
  obtain ⟨f2, e2, h⟩ := Py.bind_eq_ok.mp h
  obtain ⟨f3, e3, h⟩ := Py.bind_eq_ok.mp h
  obtain ⟨f4, e4, h⟩ := Py.bind_eq_ok.mp h
  obtain ⟨f5, e5, h⟩ := Py.bind_eq_ok.mp h
  have hdis : ∀ q ∈ a.atLeastOne, q.1 ∉ a.atLeastOne.map Prod.snd := fun q hq hc => (hn.new.2 _ hc).1 (hn.sources q hq)
  obtain ⟨hc5, hF⟩ := C54_indicators a.atLeastOne f4 f5 e5 hn.new.1 hdis
  have hsrc : ∀ q ∈ a.atLeastOne, q.1 ∈ f4.cols := by
    clear hF hc5
    intro q hq
    have hd' := hdis q hq
    have hsub : ∀ (l : List (String × String)) (g g' : Frame K), addAtLeastOne l g = .ok g' → q ∈ l → q.1 ∉ l.map Prod.snd → q.1 ∈ g.cols := by
      intro l
      induction l with
      | nil => intro g g' _ hq; simp at hq
      | cons x l ih =>
        intro g g' hg hq hx
        obtain ⟨m, new⟩ := x
        unfold addAtLeastOne at hg
        obtain ⟨g1, hg⟩ := raiseIf_bind_ok.mp hg
        obtain ⟨-, hg⟩ := raiseIf_bind_ok.mp hg
        rcases List.mem_cons.mp hq with rfl | hq
        · exact not_not.mp g1
        · have := ih _ _ hg hq (fun hc => hx (by simp only [List.map_cons, List.mem_cons]; exact Or.inr hc))
          rw [setCol_mem] at this
          rcases this with this | this
          · exact this
          · exact absurd (by simp [this]) hx
    exact hsub a.atLeastOne f4 f5 e5 hq hd'
  unfold mergeAssignment at h
  obtain ⟨-, h⟩ := raiseIf_bind_ok.mp h
  cases h
  intro r hr q hq
  obtain ⟨z, hz, hr⟩ := List.mem_flatMap.mp hr
  obtain ⟨s, -, rfl⟩ := List.mem_map.mp hr
  obtain ⟨z4, hz4, ez, ek⟩ := forall₂_exists' hF hz
  unfold joinRow
  rw [if_pos ((hc5 q.1).mpr (Or.inl (hsrc q hq))), if_pos ((hc5 q.2).mpr (Or.inr (List.mem_map.mpr ⟨q, hq, rfl⟩))), ek _ (hdis q hq)]
  exact ez q hq

theorem rowsAt_unique {f : Frame K} {i d : String} {r r' : Row K} (hr : r ∈ f.rows) (hr' : r' ∈ f.rows) {x y : Cell K}
    (h1 : r i = x ∧ r d = y) (h2 : r' i = x ∧ r' d = y) (h : Spec.rowsAt f i d x y ≤ 1) : r = r' := by
  unfold Spec.rowsAt at h
  rw [List.countP_eq_length_filter] at h
  have m1 : r ∈ f.rows.filter (fun r => decide (r i = x ∧ r d = y)) := List.mem_filter.mpr ⟨hr, by simpa using h1⟩
  have m2 : r' ∈ f.rows.filter (fun r => decide (r i = x ∧ r d = y)) := List.mem_filter.mpr ⟨hr', by simpa using h2⟩
  revert h m1 m2
  generalize f.rows.filter (fun r => decide (r i = x ∧ r d = y)) = l
  intro h m1 m2
  match l, h with
  | [], _ => simp at m1
  | [a], _ => rw [List.mem_singleton] at m1 m2; rw [m1, m2]
  | a :: b :: l, h => simp at h

end cells

/-- What is known of prepared data. -/
structure Prepared (C : Checker ℝ) (d : Design ℝ) (perf assign out : Frame ℝ) (itemCol dateCol treatCol : String) (a : ExperimentArgs) (start : ℤ) : Prop where
  data : Spec.ExperimentData d "item_id" "week_id" "treatment_assignment" (preparedMetrics a ++ a.atLeastOne.map Prod.snd) (out.dropCol "time_period")
  week : ∀ r ∈ out.rows, ∃ t w : ℤ, r "date" = .time t ∧ r "week_id" = .int w ∧ start + 7 * w * 86400000000000 ≤ t ∧ t < start + 7 * (w + 1) * 86400000000000
  items : ∀ i, i ∈ out.col "item_id" ↔ ∃ s ∈ assign.rows, i = .str (C.ext.toStr (s itemCol))
  dates : ∀ i ∈ out.col "item_id", ∀ c, (∃ r ∈ out.rows, r "item_id" = i ∧ r "date" = c) ↔
      ∃ p ∈ perf.rows, ∃ t, C.ext.toDate (p dateCol) = .ok (some t) ∧ c = .time t
  group : ∀ r ∈ out.rows, ∃ s ∈ assign.rows, r "item_id" = .str (C.ext.toStr (s itemCol)) ∧
      ∃ t, C.ext.toInt (s treatCol) = .ok t ∧ r "treatment_assignment" = .int t
  once : ∀ i d, Spec.rowsAt out "item_id" "date" i d ≤ 1
  perfOnce : ∀ s ∈ assign.rows, ∀ t, Spec.perfRows C.ext perf itemCol dateCol (C.ext.toStr (s itemCol)) t ≤ 1
  ids : (assign.rows.map (fun r => C.ext.toStr (r itemCol))).Nodup
  cell : ∀ c v, Spec.RawReads C.ext a c v → ∀ r ∈ out.rows, ∀ s t, r "item_id" = .str s → r "date" = .time t →
    Spec.cellNumber (r c) = ((perf.rows.filter (fun p => decide (C.ext.toStr (p itemCol) = s ∧ C.ext.toDate (p dateCol) = .ok (some t)))).map v).sum
  float : ∀ m ∈ preparedMetrics a, ∀ r ∈ out.rows, ∀ n : ℤ, r m ≠ .int n
  flag : ∀ c ∈ a.atLeastOne.map Prod.snd, ∀ r ∈ out.rows, ∃ n : ℤ, r c = .int n

theorem cellNumber_ofFl (x : Fl ℝ) : Spec.cellNumber (Cell.ofFl x) = match x with | .fin y => y | _ => 0 := by
  cases x <;> rfl

theorem cellNumber_zero {c : Cell ℝ} (h : Spec.IsZero c) : Spec.cellNumber c = 0 := by
  rcases h with rfl | rfl
  · simp [Spec.cellNumber, Cell.toFl]
  · rfl

theorem isPositive_iff {c : Cell ℝ} (h : ∃ y, c.toFl = .fin y) : Spec.IsPositive c ↔ 0 < Spec.cellNumber c := by
  obtain ⟨y, hy⟩ := h
  unfold Spec.IsPositive Spec.cellNumber
  rw [hy]
  cases c with
  | num x =>
    simp only [Cell.toFl, Fl.fin.injEq] at hy
    subst hy
    simp
  | int z =>
    simp only [Cell.toFl, Fl.fin.injEq] at hy
    subst hy
    simp
  | str s => simp [Cell.toFl] at hy
  | time t => simp [Cell.toFl] at hy
  | null => simp [Cell.toFl] at hy
  | inf b => cases b <;> simp [Cell.toFl] at hy

theorem prepared {R : Rounding ℝ} {p : DesignParams ℝ} {d : Design ℝ} (hd : mkDesign R p = .ok d) {C : Checker ℝ} {perf assign out : Frame ℝ}
    {startDate itemCol dateCol treatCol : String} {a : ExperimentArgs}
    (h : prepareExperiment C perf assign d startDate itemCol dateCol treatCol a = .ok out) (hskip : a.skip = []) (hcon : a.concluded = true)
    (hn : Spec.NamesFit perf assign itemCol dateCol treatCol a) :
    ∃ start, C.ext.strptime startDate = some start ∧ Prepared C d perf assign out itemCol dateCol treatCol a start := by
  have hi : itemCol ∈ assign.cols := by rw [hn.assignCols]; simp
  have ht : treatCol ∈ assign.cols := by rw [hn.assignCols]; simp
  have data := C103_prepared_is_experiment_data R p d hd C perf assign out startDate itemCol dateCol treatCol a h hskip hcon hn.different hi ht (names_keep hn)
  have hnew : ∀ n ∈ a.atLeastOne.map Prod.snd, n ≠ "item_id" ∧ n ≠ "date" := by
    intro n hm
    have := (hn.new.2 n hm).2.1
    simp only [List.mem_cons, List.not_mem_nil, or_false, not_or] at this
    exact this
  have kept := C61_values_kept C perf assign out d startDate itemCol dateCol treatCol a h hn.different hi ht
    (fun n hm => ⟨(hnew n hm).1, (hnew n hm).2, (hn.new.2 n hm).1⟩)
    (fun m hm => by
      have := names_metric hn hm
      simp only [Spec.calendarNames, List.mem_cons, List.not_mem_nil, or_false, not_or] at this ⊢
      exact ⟨this.1, this.2.1⟩)
  unfold prepareExperiment at h
  obtain ⟨f, hb, h⟩ := Py.bind_eq_ok.mp h
  obtain ⟨_, hv, h⟩ := Py.bind_eq_ok.mp h
  obtain rfl : f = out := Except.ok.inj h
  rw [hskip, hcon] at hv
  unfold validateExperiment at hv
  obtain ⟨_, -, hv⟩ := Py.bind_eq_ok.mp hv
  obtain ⟨_, -, hv⟩ := Py.bind_eq_ok.mp hv
  obtain ⟨_, -, hv⟩ := Py.bind_eq_ok.mp hv
  obtain ⟨_, cD, hv⟩ := Py.bind_eq_ok.mp hv
  replace cD := runCheck_passed cD
  obtain ⟨start, hst, hcol, hrows⟩ := C85_calendar_columns R p C perf assign f d hd startDate itemCol dateCol treatCol a hb
    (fun n hm hc => names_keep hn n hm (by simp only [List.mem_cons] at hc ⊢; tauto))
  obtain ⟨b1, b2, -, b4⟩ := build_items hb hn.different hi ht hnew
  have hitem : ∀ r ∈ f.rows, r "item_id" ≠ .null := fun r hr => by
    obtain ⟨s, -, e, -⟩ := b4 r hr
    rw [e]
    simp
  obtain ⟨once', -, -⟩ := C51_one_row_each_partial f "item_id" "date" (fun r hr => by
    obtain ⟨t, w, e, -⟩ := hrows r hr
    exact ⟨t, e⟩) hitem cD
  have once : ∀ i d, Spec.rowsAt f "item_id" "date" i d ≤ 1 := by
    intro i d
    by_cases h' : i ∈ f.col "item_id"
    · exact once' i h' d
    · have : Spec.rowsAt f "item_id" "date" i d = 0 := by
        unfold Spec.rowsAt
        rw [List.countP_eq_zero]
        intro r hr
        simp only [decide_eq_true_eq, not_and]
        intro e
        exact absurd (List.mem_map.mpr ⟨r, hr, e⟩) h'
      omega
  have hcounts : ∀ s ∈ assign.rows, ∀ t, (∃ p ∈ perf.rows, C.ext.toDate (p dateCol) = .ok (some t)) →
      max 1 (Spec.perfRows C.ext perf itemCol dateCol (C.ext.toStr (s itemCol)) t) * Spec.assignRows C.ext assign itemCol (C.ext.toStr (s itemCol)) ≤ 1 ∧
      0 < Spec.assignRows C.ext assign itemCol (C.ext.toStr (s itemCol)) := by
    intro s hs t htd
    have hpos : 0 < Spec.assignRows C.ext assign itemCol (C.ext.toStr (s itemCol)) := by
      unfold Spec.assignRows
      rw [List.countP_pos_iff]
      exact ⟨s, hs, by simp⟩
    rw [← build_row_counts hb hn.different hi ht hnew _ hpos t htd]
    exact ⟨once _ _, hpos⟩
  have perfOnce : ∀ s ∈ assign.rows, ∀ t, Spec.perfRows C.ext perf itemCol dateCol (C.ext.toStr (s itemCol)) t ≤ 1 := by
    intro s hs t
    by_cases htd : ∃ p ∈ perf.rows, C.ext.toDate (p dateCol) = .ok (some t)
    · obtain ⟨h1, h2⟩ := hcounts s hs t htd
      have h3 := Nat.le_mul_of_pos_right (max 1 (Spec.perfRows C.ext perf itemCol dateCol (C.ext.toStr (s itemCol)) t)) h2
      omega
    · have : Spec.perfRows C.ext perf itemCol dateCol (C.ext.toStr (s itemCol)) t = 0 := by
        unfold Spec.perfRows
        rw [List.countP_eq_zero]
        intro p hp
        simp only [decide_eq_true_eq, not_and]
        intro _ e
        exact htd ⟨p, hp, e⟩
      omega
  have hdate : ∃ t, ∃ p ∈ perf.rows, C.ext.toDate (p dateCol) = .ok (some t) := by
    obtain ⟨-, hrun⟩ := created_pretest hd
    obtain ⟨hp0, -⟩ := created_pretest hd
    obtain ⟨r, hr, -⟩ := data.everyWeek 0 (by omega) (by omega)
    have hr : r ∈ f.rows := hr
    obtain ⟨p, hp, t, et, -⟩ := (b2 _ (List.mem_map.mpr ⟨r, hr, rfl⟩) (r "date")).mp ⟨r, hr, rfl, rfl⟩
    exact ⟨t, p, hp, et⟩
  have cellm : ∀ m src, (m, src) ∈ Spec.metricSources a → ∀ r ∈ f.rows, ∀ s t, r "item_id" = .str s → r "date" = .time t →
      Spec.cellNumber (r m) = ((perf.rows.filter (fun p => decide (C.ext.toStr (p itemCol) = s ∧ C.ext.toDate (p dateCol) = .ok (some t)))).map
        (Spec.rawNumber C.ext a (m, src))).sum := by
    intro m src hm r hr s t e1 e2
    have hmm : m ∈ preparedMetrics a := metricSources_names.mp (List.mem_map.mpr ⟨_, hm, rfl⟩)
    obtain ⟨s0, hs0, e3, -⟩ := b4 r hr
    obtain rfl : s = C.ext.toStr (s0 itemCol) := by
      rw [e1] at e3
      exact Cell.str.inj e3
    have h1 := perfOnce s0 hs0 t
    unfold Spec.perfRows at h1
    rw [List.countP_eq_length_filter] at h1
    have hmem : ∀ p, p ∈ perf.rows.filter (fun p => decide (C.ext.toStr (p itemCol) = C.ext.toStr (s0 itemCol) ∧ C.ext.toDate (p dateCol) = .ok (some t))) ↔
        p ∈ perf.rows ∧ C.ext.toStr (p itemCol) = C.ext.toStr (s0 itemCol) ∧ C.ext.toDate (p dateCol) = .ok (some t) := by
      intro p
      rw [List.mem_filter, decide_eq_true_eq]
    revert h1 hmem
    generalize perf.rows.filter (fun p => decide (C.ext.toStr (p itemCol) = C.ext.toStr (s0 itemCol) ∧ C.ext.toDate (p dateCol) = .ok (some t))) = L
    intro h1 hmem
    match L, h1 with
    | [], _ =>
      rw [List.map_nil, List.sum_nil]
      apply cellNumber_zero
      obtain ⟨start', a', missing, f1, f2, f5, -, -, B⟩ := buildExperiment_ok hb
      obtain ⟨q, hq, s', hs', e, rfl⟩ := B.mem_out.mp hr
      obtain ⟨z, hz, ez, -⟩ := forall₂_exists' B.rows hq
      have hitem' : "item_id" ∉ a.atLeastOne.map Prod.snd := fun hc => (hnew _ hc).1 rfl
      have hdate' : "date" ∉ a.atLeastOne.map Prod.snd := fun hc => (hnew _ hc).2 rfl
      have hcal := names_metric hn hmm
      simp only [Spec.calendarNames, List.mem_cons, List.not_mem_nil, or_false, not_or] at hcal
      have hmc : m ∈ f2.cols := by
        rw [B.f2_cols, B.f1_cols]
        exact names_columns.mpr (Or.inr (Or.inr hmm))
      unfold joinRow at e1 e2 ⊢
      rw [if_pos B.key_cols.1, ez _ (by decide) hitem'] at e1
      rw [if_pos B.key_cols.2, ez _ (by decide) hdate'] at e2
      rw [if_pos (B.cols _ (Or.inl hmc)), ez m (by simp only [List.mem_cons, List.not_mem_nil, or_false, not_or]; exact ⟨hcal.1, hcal.2.1, hcal.2.2.1⟩)
        (fun hc => (hn.new.2 _ hc).1 hmm)]
      refine B.gap_zero hmm hz ?_
      rintro p hp t' et' ⟨k1, k2⟩
      rw [e1] at k1
      rw [e2] at k2
      cases k2
      exact absurd ((hmem p).mpr ⟨hp, (Cell.str.inj k1).symm, et'⟩) (by simp)
    | [p], _ =>
      obtain ⟨hp, k1, k2⟩ := (hmem p).mp (by simp)
      obtain ⟨r', hr', j1, ⟨t', j2, j3⟩, j4⟩ := kept p hp (by rw [k1]; exact (hcounts s0 hs0 t ⟨p, hp, k2⟩).2)
      rw [k2] at j2
      obtain rfl : t = t' := by simpa using j2
      obtain rfl : r' = r := rowsAt_unique hr' hr ⟨by rw [j1, k1], j3⟩ ⟨e1, e2⟩ (once _ _)
      obtain ⟨x, x1, x2, x3⟩ := j4 _ hm
      simp only [List.map_cons, List.map_nil, List.sum_cons, List.sum_nil, add_zero]
      unfold Spec.rawNumber
      rw [x1]
      by_cases hx : x = .nan
      · rw [cellNumber_zero (x3 hx), hx]
      · have := x2 hx
        simp only at this
        rw [this, cellNumber_ofFl]
        cases x <;> rfl
    | _ :: _ :: _, h1 => simp at h1
  refine ⟨start, hst, data, ?_, b1, b2, b4, once, perfOnce, ?_, ?_, ?_, ?_⟩
  · intro r hr
    obtain ⟨t, w, e1, e2, -, e3, e4, -⟩ := hrows r hr
    exact ⟨t, w, e1, e2, e3, e4⟩
  · obtain ⟨t, htd⟩ := hdate
    rw [List.nodup_iff_count_le_one]
    intro x
    by_cases hx : x ∈ assign.rows.map (fun r => C.ext.toStr (r itemCol))
    · obtain ⟨s, hs, rfl⟩ := List.mem_map.mp hx
      obtain ⟨h1, h2⟩ := hcounts s hs t htd
      have h3 := Nat.le_mul_of_pos_left (Spec.assignRows C.ext assign itemCol (C.ext.toStr (s itemCol)))
        (show 0 < max 1 (Spec.perfRows C.ext perf itemCol dateCol (C.ext.toStr (s itemCol)) t) by omega)
      rw [List.count_eq_countP, List.countP_map]
      unfold Spec.assignRows at h1 h2 h3
      have e : assign.rows.countP ((fun y => y == C.ext.toStr (s itemCol)) ∘ fun r => C.ext.toStr (r itemCol)) =
          assign.rows.countP (fun r => decide (C.ext.toStr (r itemCol) = C.ext.toStr (s itemCol))) := by
        refine List.countP_congr fun r _ => ?_
        simp
      rw [e]
      omega
    · rw [List.count_eq_zero_of_not_mem hx]
      omega
  · intro c v hv r hr s t e1 e2
    rcases hv with ⟨src, hm, rfl⟩ | ⟨m, src, hq, hm, rfl⟩
    · exact cellm c src hm r hr s t e1 e2
    · have hmm : m ∈ preparedMetrics a := metricSources_names.mp (List.mem_map.mpr ⟨_, hm, rfl⟩)
      have key := cellm m src hm r hr s t e1 e2
      have hpos := isPositive_iff (data.finite m (List.mem_append_left _ hmm) r hr)
      obtain ⟨p1, p0⟩ := build_positive hb hn r hr _ hq
      simp only at p1 p0
      rw [hpos] at p1 p0
      obtain ⟨s0, hs0, e3, -⟩ := b4 r hr
      obtain rfl : s = C.ext.toStr (s0 itemCol) := by
        rw [e1] at e3
        exact Cell.str.inj e3
      have h1 := perfOnce s0 hs0 t
      unfold Spec.perfRows at h1
      rw [List.countP_eq_length_filter] at h1
      revert h1 key
      generalize perf.rows.filter (fun p => decide (C.ext.toStr (p itemCol) = C.ext.toStr (s0 itemCol) ∧ C.ext.toDate (p dateCol) = .ok (some t))) = L
      intro key h1
      match L, h1 with
      | [], _ =>
        simp only [List.map_nil, List.sum_nil] at key ⊢
        rw [p0 (by rw [key]; simp)]
        simp [Spec.cellNumber, Cell.toFl]
      | [p], _ =>
        simp only [List.map_cons, List.map_nil, List.sum_cons, List.sum_nil, add_zero] at key ⊢
        rw [← key]
        by_cases hp : 0 < Spec.cellNumber (r m)
        · rw [p1 hp, if_pos hp]
          simp [Spec.cellNumber, Cell.toFl]
        · rw [p0 hp, if_neg hp]
          simp [Spec.cellNumber, Cell.toFl]
      | _ :: _ :: _, h1 => simp at h1
  · intro m hmm r hr n
    obtain ⟨start', a', missing, f1, f2, f5, -, -, B⟩ := buildExperiment_ok hb
    obtain ⟨q, hq, s', hs', e, rfl⟩ := B.mem_out.mp hr
    obtain ⟨z, hz, ez, -⟩ := forall₂_exists' B.rows hq
    have hcal := names_metric hn hmm
    simp only [Spec.calendarNames, List.mem_cons, List.not_mem_nil, or_false, not_or] at hcal
    have hmc : m ∈ f2.cols := by
      rw [B.f2_cols, B.f1_cols]
      exact names_columns.mpr (Or.inr (Or.inr hmm))
    unfold joinRow
    rw [if_pos (B.cols _ (Or.inl hmc)), ez m (by simp only [List.mem_cons, List.not_mem_nil, or_false, not_or]; exact ⟨hcal.1, hcal.2.1, hcal.2.2.1⟩)
      (fun hc => (hn.new.2 _ hc).1 hmm)]
    exact B.not_int hmm hz n
  · intro c hc r hr
    obtain ⟨q, hq, rfl⟩ := List.mem_map.mp hc
    obtain ⟨p1, p0⟩ := build_positive hb hn r hr q hq
    by_cases hp : Spec.IsPositive (r q.1)
    · exact ⟨1, p1 hp⟩
    · exact ⟨0, p0 hp⟩

/-! ### Values of the items -/

section values
variable {C : Checker ℝ} {d : Design ℝ} {perf assign out : Frame ℝ} {itemCol dateCol treatCol : String} {a : ExperimentArgs} {start : ℤ}

theorem Prepared.weekly (P : Prepared C d perf assign out itemCol dateCol treatCol a start) {c : String} {v : Row ℝ → ℝ} (hv : Spec.RawReads C.ext a c v)
    {s0 : Row ℝ} (hs0 : s0 ∈ assign.rows) (lo hi : ℤ) :
    Spec.weeklyValue (out.dropCol "time_period") "item_id" "week_id" c lo hi (.str (C.ext.toStr (s0 itemCol))) =
      Spec.rawWeekly C.ext perf itemCol dateCol start v lo hi (C.ext.toStr (s0 itemCol)) := by
  classical
  unfold Spec.weeklyValue Spec.rawWeekly
  congr 1
  obtain ⟨s, es⟩ : ∃ s, s = C.ext.toStr (s0 itemCol) := ⟨_, rfl⟩
  rw [← es]
  have hrows : (out.dropCol "time_period").rows = out.rows := rfl
  rw [hrows]
  obtain ⟨L, hL⟩ : ∃ L, L = out.rows.filter (fun r => decide (r "item_id" = .str s ∧ ∃ w : ℤ, r "week_id" = .int w ∧ lo ≤ w ∧ w < hi)) := ⟨_, rfl⟩
  have hmem : ∀ r, r ∈ L ↔ r ∈ out.rows ∧ r "item_id" = .str s ∧ ∃ w : ℤ, r "week_id" = .int w ∧ lo ≤ w ∧ w < hi := by
    intro r
    rw [hL, List.mem_filter, decide_eq_true_eq]
  obtain ⟨date, hdate⟩ : ∃ date : Row ℝ → ℤ, ∀ r ∈ out.rows, r "date" = .time (date r) := by
    refine ⟨fun r => match r "date" with | .time t => t | _ => 0, ?_⟩
    intro r hr
    obtain ⟨t, -, e, -⟩ := P.week r hr
    simp only [e]
  have hT : (L.map (fun r => (.ok (some (date r)) : Py (Option ℤ)))).Nodup := by
    rw [List.nodup_iff_count_le_one]
    intro x
    rw [List.count_eq_countP, List.countP_map]
    by_cases hx : ∃ t : ℤ, x = .ok (some t)
    · obtain ⟨t, rfl⟩ := hx
      refine le_trans ?_ (P.once (.str s) (.time t))
      unfold Spec.rowsAt
      rw [hL, List.countP_filter]
      refine List.countP_mono_left fun r hr h => ?_
      simp only [Function.comp, Bool.and_eq_true, decide_eq_true_eq, beq_iff_eq, Except.ok.injEq, Option.some.injEq] at h ⊢
      exact ⟨h.2.1, by rw [hdate r hr, h.1]⟩
    · have : L.countP ((fun y => y == x) ∘ fun r => (.ok (some (date r)) : Py (Option ℤ))) = 0 := by
        rw [List.countP_eq_zero]
        intro r _ h
        simp only [Function.comp, beq_iff_eq] at h
        exact hx ⟨_, h.symm⟩
      omega
  have key := sum_totals hT (fun p : Row ℝ => C.ext.toDate (p dateCol)) (fun p => C.ext.toStr (p itemCol) = s) v perf.rows
  rw [List.map_map] at key
  have e1 : (L.map (fun r => Spec.cellNumber (r c))).sum = (L.map ((fun i => ((perf.rows.filter (fun p => decide (C.ext.toDate (p dateCol) = i ∧
      C.ext.toStr (p itemCol) = s))).map v).sum) ∘ fun r => (.ok (some (date r)) : Py (Option ℤ)))).sum := by
    congr 1
    refine List.map_congr_left fun r hr => ?_
    obtain ⟨hr', h1, -⟩ := (hmem r).mp hr
    rw [P.cell c v hv r hr' s (date r) h1 (hdate r hr')]
    simp only [Function.comp]
    congr 2
    refine List.filter_congr fun p _ => ?_
    rw [Bool.eq_iff_iff, decide_eq_true_eq, decide_eq_true_eq]
    exact and_comm
  rw [← hL, e1]
  refine (Eq.trans (by congr!) key).trans ?_
  congr 2
  refine List.filter_congr fun p hp => ?_
  refine decide_eq_decide.mpr ?_
  constructor
  · rintro ⟨h1, h2⟩
    obtain ⟨r, hr, er⟩ := List.mem_map.mp h1
    obtain ⟨hr', -, w, ew, l1, l2⟩ := (hmem r).mp hr
    obtain ⟨t, w', et, ew', l3, l4⟩ := P.week r hr'
    rw [ew] at ew'
    obtain rfl := Cell.int.inj ew'
    rw [hdate r hr'] at et
    obtain rfl := Cell.time.inj et
    exact ⟨h2, _, er.symm, by omega, by omega⟩
  · rintro ⟨h2, t, et, l1, l2⟩
    refine ⟨?_, h2⟩
    obtain ⟨r, hr, k1, k2⟩ := (P.dates (.str s) ((P.items _).mpr ⟨s0, hs0, by rw [es]⟩) (.time t)).mpr ⟨p, hp, t, et, rfl⟩
    obtain ⟨t', w, et', ew, l3, l4⟩ := P.week r hr
    rw [k2] at et'
    obtain rfl := Cell.time.inj et'
    have hd' := hdate r hr
    rw [k2] at hd'
    refine List.mem_map.mpr ⟨r, (hmem r).mpr ⟨hr, k1, w, ew, by omega, by omega⟩, ?_⟩
    rw [et, ← Cell.time.inj hd']

theorem Prepared.rawGroup (P : Prepared C d perf assign out itemCol dateCol treatCol a start) {s0 : Row ℝ} (hs0 : s0 ∈ assign.rows) (b : Bool) :
    Spec.InGroup (out.dropCol "time_period") "item_id" "treatment_assignment" b (.str (C.ext.toStr (s0 itemCol))) ↔
      Spec.RawGroup C.ext assign itemCol treatCol b (C.ext.toStr (s0 itemCol)) := by
  constructor
  · rintro ⟨r, hr, e1, e2⟩
    obtain ⟨s1, hs1, e3, t, e4, e5⟩ := P.group r hr
    refine ⟨s1, hs1, ?_, ?_⟩
    · rw [e1] at e3
      exact (Cell.str.inj e3).symm
    · rw [e4]
      rw [e2] at e5
      rw [← Cell.int.inj e5]
  · rintro ⟨r1, hr1, e1, e2⟩
    obtain ⟨r, hr, er⟩ := List.mem_map.mp ((P.items (.str (C.ext.toStr (s0 itemCol)))).mpr ⟨s0, hs0, rfl⟩)
    refine ⟨r, hr, er, ?_⟩
    obtain ⟨s1, hs1, e3, t, e4, e5⟩ := P.group r hr
    rw [er] at e3
    have : s1 = r1 := List.inj_on_of_nodup_map P.ids hs1 hr1 (by
      show C.ext.toStr (s1 itemCol) = C.ext.toStr (r1 itemCol)
      rw [e1, Cell.str.inj e3])
    rw [this, e2] at e4
    rw [e5, Except.ok.inj e4]

/-- The items of the prepared data are the assigned items. -/
theorem Prepared.idsOf (P : Prepared C d perf assign out itemCol dateCol treatCol a start) {items : List (Cell ℝ)}
    (hit : Spec.ListsAll (out.dropCol "time_period") "item_id" items) :
    ∃ ids : List String, ids.Perm (assign.rows.map (fun r => C.ext.toStr (r itemCol))) ∧ items = ids.map Cell.str := by
  have hmem : ∀ i, i ∈ items ↔ ∃ s ∈ assign.rows, i = .str (C.ext.toStr (s itemCol)) := by
    intro i
    rw [hit.2, ← P.items]
    exact List.mem_map.symm
  obtain ⟨ids, rfl⟩ : ∃ ids : List String, items = ids.map Cell.str := by
    have hs : ∀ i ∈ items, ∃ s, i = .str s := fun i hi => by
      obtain ⟨s, -, e⟩ := (hmem i).mp hi
      exact ⟨_, e⟩
    clear hmem hit
    induction items with
    | nil => exact ⟨[], rfl⟩
    | cons i items ih =>
      obtain ⟨s, rfl⟩ := hs i (by simp)
      obtain ⟨ids, rfl⟩ := ih (fun i hi => hs i (by simp [hi]))
      exact ⟨s :: ids, rfl⟩
  refine ⟨ids, ?_, rfl⟩
  rw [List.perm_ext_iff_of_nodup (hit.1.of_map _) P.ids]
  intro x
  have := hmem (.str x)
  rw [List.mem_map] at this
  rw [List.mem_map]
  constructor
  · intro hx
    obtain ⟨s, hs, e⟩ := this.mp ⟨x, hx, rfl⟩
    exact ⟨s, hs, (Cell.str.inj e).symm⟩
  · rintro ⟨s, hs, rfl⟩
    obtain ⟨y, hy, e⟩ := this.mpr ⟨s, hs, rfl⟩
    rw [← Cell.str.inj e]
    exact hy

end values

/-! ### Transfer of reports -/

section transfer
variable {ι κ : Type} {R : Rounding ℝ} {argsort : List ℝ → List ℕ} {D : TDist} {d : Design ℝ}

theorem valuesIn_transfer {g : κ → ι} {ids : List κ} {G : ι → Prop} {G' : κ → Prop} (hG : ∀ s ∈ ids, G (g s) ↔ G' s) {y : ι → ℝ} {y' : κ → ℝ}
    (hy : ∀ s ∈ ids, y (g s) = y' s) : Spec.valuesIn (ids.map g) G y = Spec.valuesIn ids G' y' := by
  classical
  unfold Spec.valuesIn
  rw [List.filter_map, List.map_map]
  have e : ids.filter ((fun i => decide (G i)) ∘ g) = ids.filter (fun i => decide (G' i)) := by
    refine List.filter_congr fun s hs => ?_
    simp only [Function.comp, decide_eq_decide]
    exact hG s hs
  rw [e]
  refine List.map_congr_left fun s hs => ?_
  exact hy s (List.mem_filter.mp hs).1

theorem compared_transfer {g : κ → ι} {ids : List κ} {val : ℤ → ℤ → ι → ℝ} {val' : ℤ → ℤ → κ → ℝ} (hval : ∀ lo hi, ∀ s ∈ ids, val lo hi (g s) = val' lo hi s)
    {q : ℝ} {y : ι → ℝ} (h : Spec.Compared R argsort d (ids.map g) val q y) :
    ∃ y', Spec.Compared R argsort d ids val' q y' ∧ ∀ s ∈ ids, y (g s) = y' s := by
  rcases h with ⟨h0, rfl⟩ | ⟨h0, h⟩
  · exact ⟨_, Or.inl ⟨h0, rfl⟩, fun s hs => hval _ _ s hs⟩
  · refine ⟨fun s => y (g s), Or.inr ⟨h0, ?_⟩, fun s hs => rfl⟩
    rw [List.map_map, List.map_map, List.map_map] at h
    have e : ∀ lo hi, ids.map (val lo hi ∘ g) = ids.map (val' lo hi) := fun lo hi => List.map_congr_left fun s hs => hval lo hi s hs
    rw [e, e] at h
    exact h

theorem regularReport_transfer {g : κ → ι} {ids : List κ} {G : Bool → ι → Prop} {G' : Bool → κ → Prop} (hG : ∀ b, ∀ s ∈ ids, G b (g s) ↔ G' b s)
    {val : String → ℤ → ℤ → ι → ℝ} {val' : String → ℤ → ℤ → κ → ℝ} {m : Metric} {r : TestResult}
    (hval : ∀ c, c = m.column ∨ m.denominator = some c → ∀ lo hi, ∀ s ∈ ids, val c lo hi (g s) = val' c lo hi s)
    (h : Spec.RegularReport R argsort D d (ids.map g) G val m r) : Spec.RegularReport R argsort D d ids G' val' m r := by
  have hadj : ∀ c ∈ m.column :: m.denominator.toList, Spec.NothingToAdjust R d (ids.map g) (val c) (m.override.getD d.postTrim.val) ↔
      Spec.NothingToAdjust R d ids (val' c) (m.override.getD d.postTrim.val) := by
    intro c hc
    have hc' : c = m.column ∨ m.denominator = some c := by simpa using hc
    unfold Spec.NothingToAdjust
    rw [List.length_map]
    refine and_congr_right fun _ => and_congr_left fun _ => exists_congr fun x => ?_
    rw [List.forall_mem_map]
    exact forall₂_congr fun s hs => by rw [hval c hc' _ _ s hs]
  unfold Spec.RegularReport at h ⊢
  obtain ⟨hn, h⟩ := h
  rw [List.length_map] at hn
  refine ⟨fun ⟨c, hc, hc'⟩ => hn ⟨c, hc, (hadj c hc).mpr hc'⟩, fun hall => ?_⟩
  obtain ⟨y, hy, h⟩ := h fun c hc hc' => hall c hc ((hadj c hc).mp hc')
  obtain ⟨y', hy', e⟩ := compared_transfer (hval _ (Or.inl rfl)) hy
  refine ⟨y', hy', ?_⟩
  cases hden : m.denominator with
  | none =>
    rw [hden] at h
    rw [valuesIn_transfer (hG true) e, valuesIn_transfer (hG false) e] at h
    exact h
  | some c =>
    rw [hden] at h
    obtain ⟨z, hz, h⟩ := h
    obtain ⟨z', hz', e'⟩ := compared_transfer (hval _ (Or.inr hden)) hz
    rw [valuesIn_transfer (hG true) e, valuesIn_transfer (hG false) e, valuesIn_transfer (hG true) e', valuesIn_transfer (hG false) e'] at h
    exact ⟨z', hz', h⟩

theorem loses_transfer {g : κ → ι} {ids : List κ} {w w' : Prop} (hw : w ↔ w') {val : ℤ → ℤ → ι → ℝ} {val' : ℤ → ℤ → κ → ℝ}
    (hval : ∀ lo hi, ∀ s ∈ ids, val lo hi (g s) = val' lo hi s) :
    Spec.LosesFractions w d (ids.map g) val ↔ Spec.LosesFractions w' d ids val' := by
  unfold Spec.LosesFractions
  rw [hw]
  refine and_congr_right fun _ => ?_
  simp only [List.forall_mem_map]
  refine forall_congr' fun s => forall_congr' fun hs => ?_
  rw [hval _ _ s hs]

theorem crossoverReport_transfer {g : κ → ι} {ids : List κ} {G : Bool → ι → Prop} {G' : Bool → κ → Prop} (hG : ∀ b, ∀ s ∈ ids, G b (g s) ↔ G' b s)
    {val : String → ℤ → ℤ → ι → ℝ} {val' : String → ℤ → ℤ → κ → ℝ} {whole whole' : String → Prop} {m : Metric} {r : TestResult}
    (hval : ∀ c, c = m.column ∨ m.denominator = some c → ∀ lo hi, ∀ s ∈ ids, val c lo hi (g s) = val' c lo hi s)
    (hwhole : ∀ c, c = m.column ∨ m.denominator = some c → (whole c ↔ whole' c))
    (h : Spec.CrossoverReportInto R argsort D d (ids.map g) G val whole m r) : Spec.CrossoverReportInto R argsort D d ids G' val' whole' m r := by
  have e : ∀ c, c = m.column ∨ m.denominator = some c → (ids.map g).map (Spec.crossoverOf d G (val c)) = ids.map (Spec.crossoverOf d G' (val' c)) := by
    intro c hc
    rw [List.map_map]
    refine List.map_congr_left fun s hs => ?_
    unfold Spec.crossoverOf
    simp only [Function.comp, hval c hc _ _ s hs, propext (hG true s hs)]
  have el : ∀ c, c = m.column ∨ m.denominator = some c →
      Spec.LosesFractions (whole c) d (ids.map g) (val c) = Spec.LosesFractions (whole' c) d ids (val' c) :=
    fun c hc => propext (loses_transfer (hwhole c hc) (hval c hc))
  unfold Spec.CrossoverReportInto at h ⊢
  obtain ⟨s, v1, v2, hs, h1, h⟩ := h
  rw [e _ (Or.inl rfl)] at h1
  rw [el _ (Or.inl rfl)] at hs
  refine ⟨s, v1, v2, hs, h1, ?_⟩
  cases hden : m.denominator with
  | none =>
    rw [hden] at h
    exact h
  | some c =>
    rw [hden] at h
    obtain ⟨s', w1, w2, hs', h2, h⟩ := h
    rw [e c (Or.inr hden)] at h2
    rw [el c (Or.inr hden)] at hs'
    exact ⟨s', w1, w2, hs', h2, h⟩

end transfer

/-- **C115, from the raw data, regular experiments.**  If no check is skipped and the experiment has concluded, then the analysis of the prepared data (without its
column "time_period") reports the t-tests of the values of the assigned items in the performance data: for each item, the total of the numbers in its rows dated in the
runtime, per week, adjusted with those of the pretest weeks; the groups are those of the assignment table. -/
theorem C115_raw_regular (R : Rounding ℝ) (argsort : List ℝ → List ℕ) (D : TDist) (p : DesignParams ℝ) (d : Design ℝ) (hd : mkDesign R p = .ok d)
    (hx : d.isCrossover = false) (C : Checker ℝ) (perf assign out : Frame ℝ) (startDate itemCol dateCol treatCol : String) (a : ExperimentArgs)
    (h : prepareExperiment C perf assign d startDate itemCol dateCol treatCol a = .ok out) (hskip : a.skip = []) (hcon : a.concluded = true)
    (hn : Spec.NamesFit perf assign itemCol dateCol treatCol a) (metrics : List Metric)
    (hm : Spec.MetricsFrom (preparedMetrics a ++ a.atLeastOne.map Prod.snd) metrics) (rows : List (String × TestResult))
    (hr : (analyzeExperiment R argsort D d.toDesignParams metrics "week_id" "item_id" "treatment_assignment" (out.dropCol "time_period")).1 = .ok rows)
    (v : String → Row ℝ → ℝ) (hv : ∀ c ∈ preparedMetrics a ++ a.atLeastOne.map Prod.snd, Spec.RawReads C.ext a c (v c)) :
    ∃ start, C.ext.strptime startDate = some start ∧ ∃ ids : List String, ids.Perm (assign.rows.map (fun r => C.ext.toStr (r itemCol))) ∧
      List.Forall₂ (fun m e => e.1 = m.name ∧ Spec.RegularReport R argsort D d ids (Spec.RawGroup C.ext assign itemCol treatCol)
        (fun c => Spec.rawWeekly C.ext perf itemCol dateCol start (v c)) m e.2) metrics rows := by
  obtain ⟨start, hst, P⟩ := prepared hd h hskip hcon hn
  obtain ⟨items, hit, hrows⟩ := C115_regular R argsort D p d hd hx _ _ _ _ _ P.data metrics hm rows hr
  obtain ⟨ids, hperm, rfl⟩ := P.idsOf hit
  refine ⟨start, hst, ids, hperm, ?_⟩
  have hid : ∀ s ∈ ids, ∃ s0 ∈ assign.rows, C.ext.toStr (s0 itemCol) = s := fun s hs => List.mem_map.mp (hperm.mem_iff.mp hs)
  refine forall₂_mem_imp hrows ?_
  rintro m e hmem ⟨e1, e2⟩
  refine ⟨e1, regularReport_transfer ?_ ?_ e2⟩
  · intro b s hs
    obtain ⟨s0, hs0, rfl⟩ := hid s hs
    exact P.rawGroup hs0 b
  · intro c hc lo hi s hs
    obtain ⟨s0, hs0, rfl⟩ := hid s hs
    refine P.weekly (hv c ?_) hs0 lo hi
    rcases hc with rfl | hc
    · exact (hm.2 m hmem).1
    · exact (hm.2 m hmem).2.1 c hc

theorem Prepared.integerColumn {C : Checker ℝ} {d : Design ℝ} {perf assign out : Frame ℝ} {itemCol dateCol treatCol : String} {a : ExperimentArgs} {start : ℤ}
    (P : Prepared C d perf assign out itemCol dateCol treatCol a start) (hrun : 0 < d.runtime) (hpre : 0 ≤ d.pretest) {c : String}
    (hc : c ∈ preparedMetrics a ++ a.atLeastOne.map Prod.snd) :
    Spec.IntegerColumn (out.dropCol "time_period") c ↔ c ∈ a.atLeastOne.map Prod.snd := by
  constructor
  · intro h
    rcases List.mem_append.mp hc with hc | hc
    · exfalso
      obtain ⟨r, hr, -⟩ := P.data.everyWeek 0 (by omega) hrun
      obtain ⟨n, e⟩ := h r hr
      exact P.float c hc r hr n e
    · exact hc
  · exact fun h r hr => P.flag c h r hr

/-- **C115, from the raw data, crossover experiments, every metric.**  The same, with the paired t-tests of the values of the assigned items in the two test periods,
where the at-least-one metrics may lose fractions. -/
theorem C115_raw_crossover_stored (R : Rounding ℝ) (argsort : List ℝ → List ℕ) (D : TDist) (p : DesignParams ℝ) (d : Design ℝ) (hd : mkDesign R p = .ok d)
    (hx : d.isCrossover = true) (C : Checker ℝ) (perf assign out : Frame ℝ) (startDate itemCol dateCol treatCol : String) (a : ExperimentArgs)
    (h : prepareExperiment C perf assign d startDate itemCol dateCol treatCol a = .ok out) (hskip : a.skip = []) (hcon : a.concluded = true)
    (hn : Spec.NamesFit perf assign itemCol dateCol treatCol a) (metrics : List Metric)
    (hm : Spec.MetricsFrom (preparedMetrics a ++ a.atLeastOne.map Prod.snd) metrics) (rows : List (String × TestResult))
    (hr : (analyzeExperiment R argsort D d.toDesignParams metrics "week_id" "item_id" "treatment_assignment" (out.dropCol "time_period")).1 = .ok rows)
    (v : String → Row ℝ → ℝ) (hv : ∀ c ∈ preparedMetrics a ++ a.atLeastOne.map Prod.snd, Spec.RawReads C.ext a c (v c)) :
    ∃ start, C.ext.strptime startDate = some start ∧ ∃ ids : List String, ids.Perm (assign.rows.map (fun r => C.ext.toStr (r itemCol))) ∧
      List.Forall₂ (fun m e => e.1 = m.name ∧ Spec.CrossoverReportInto R argsort D d ids (Spec.RawGroup C.ext assign itemCol treatCol)
        (fun c => Spec.rawWeekly C.ext perf itemCol dateCol start (v c)) (fun c => c ∈ a.atLeastOne.map Prod.snd) m e.2) metrics rows := by
  obtain ⟨start, hst, P⟩ := prepared hd h hskip hcon hn
  obtain ⟨items, hit, hrows⟩ := C115_crossover_stored R argsort D p d hd hx _ _ _ _ _ P.data metrics hm rows hr
  obtain ⟨ids, hperm, rfl⟩ := P.idsOf hit
  refine ⟨start, hst, ids, hperm, ?_⟩
  have hid : ∀ s ∈ ids, ∃ s0 ∈ assign.rows, C.ext.toStr (s0 itemCol) = s := fun s hs => List.mem_map.mp (hperm.mem_iff.mp hs)
  refine forall₂_mem_imp hrows ?_
  rintro m e hmem ⟨e1, e2⟩
  have hcol : ∀ c, c = m.column ∨ m.denominator = some c → c ∈ preparedMetrics a ++ a.atLeastOne.map Prod.snd := by
    rintro c (rfl | hc)
    · exact (hm.2 m hmem).1
    · exact (hm.2 m hmem).2.1 c hc
  refine ⟨e1, crossoverReport_transfer ?_ ?_ ?_ e2⟩
  · intro b s hs
    obtain ⟨s0, hs0, rfl⟩ := hid s hs
    exact P.rawGroup hs0 b
  · intro c hc lo hi s hs
    obtain ⟨s0, hs0, rfl⟩ := hid s hs
    exact P.weekly (hv c (hcol c hc)) hs0 lo hi
  · intro c hc
    obtain ⟨h0, h1⟩ := created_pretest hd
    exact P.integerColumn h1 h0 (hcol c hc)

/-- **C115, from the raw data, crossover experiments** (partial: an at-least-one metric or denominator only if it loses no fractions; see
`C115_crossover_false`). -/
theorem C115_raw_crossover_partial (R : Rounding ℝ) (argsort : List ℝ → List ℕ) (D : TDist) (p : DesignParams ℝ) (d : Design ℝ) (hd : mkDesign R p = .ok d)
    (hx : d.isCrossover = true) (C : Checker ℝ) (perf assign out : Frame ℝ) (startDate itemCol dateCol treatCol : String) (a : ExperimentArgs)
    (h : prepareExperiment C perf assign d startDate itemCol dateCol treatCol a = .ok out) (hskip : a.skip = []) (hcon : a.concluded = true)
    (hn : Spec.NamesFit perf assign itemCol dateCol treatCol a) (metrics : List Metric)
    (hm : Spec.MetricsFrom (preparedMetrics a ++ a.atLeastOne.map Prod.snd) metrics) (rows : List (String × TestResult))
    (hr : (analyzeExperiment R argsort D d.toDesignParams metrics "week_id" "item_id" "treatment_assignment" (out.dropCol "time_period")).1 = .ok rows)
    (v : String → Row ℝ → ℝ) (hv : ∀ c ∈ preparedMetrics a ++ a.atLeastOne.map Prod.snd, Spec.RawReads C.ext a c (v c)) :
    ∃ start, C.ext.strptime startDate = some start ∧ ∃ ids : List String, ids.Perm (assign.rows.map (fun r => C.ext.toStr (r itemCol))) ∧
      List.Forall₂ (fun m e => e.1 = m.name ∧ (Spec.MetricKept d ids (fun c => Spec.rawWeekly C.ext perf itemCol dateCol start (v c))
          (fun c => c ∈ a.atLeastOne.map Prod.snd) m →
        Spec.CrossoverReport R argsort D d ids (Spec.RawGroup C.ext assign itemCol treatCol)
          (fun c => Spec.rawWeekly C.ext perf itemCol dateCol start (v c)) m e.2)) metrics rows := by
  obtain ⟨start, hst, ids, hids, hrows⟩ := C115_raw_crossover_stored R argsort D p d hd hx C perf assign out startDate itemCol dateCol treatCol a h hskip hcon hn metrics hm
    rows hr v hv
  exact ⟨start, hst, ids, hids, hrows.imp fun m e h => ⟨h.1, fun hk => crossoverReport_kept hk h.2⟩⟩

/-- No fractions are lost if the test periods are one week long: an at-least-one metric then counts whole days. -/
theorem raw_metricKept_one_week {d : Design ℝ} (hev : Even d.runtime) (h1 : d.runtime = 2 * (d.washout.getD 0 + 1)) {E : Ext ℝ} {perf assign : Frame ℝ}
    {itemCol dateCol treatCol : String} {a : ExperimentArgs} (hn : Spec.NamesFit perf assign itemCol dateCol treatCol a) (start : ℤ) (ids : List String)
    {v : String → Row ℝ → ℝ} (hv : ∀ c ∈ preparedMetrics a ++ a.atLeastOne.map Prod.snd, Spec.RawReads E a c (v c)) (m : Metric) :
    Spec.MetricKept d ids (fun c => Spec.rawWeekly E perf itemCol dateCol start (v c)) (fun c => c ∈ a.atLeastOne.map Prod.snd) m := by
  intro c _ hl x _
  obtain ⟨hc, -⟩ := hl
  rw [Int.even_iff] at hev
  have e : d.runtime - (d.runtime / 2 + d.washout.getD 0) = 1 := by omega
  show ∃ n : ℤ, Spec.rawWeekly E perf itemCol dateCol start (v c) _ _ x = n
  unfold Spec.rawWeekly
  rw [e, Int.cast_one, div_one]
  refine whole_sum fun r _ => ?_
  rcases hv c (List.mem_append_right _ hc) with ⟨src, hs, -⟩ | ⟨m', src, -, -, e⟩
  · exact absurd (metricSources_names.mp (List.mem_map.mpr ⟨_, hs, rfl⟩)) (hn.new.2 c hc).1
  · rw [e]
    dsimp only
    split
    · exact ⟨1, by simp⟩
    · exact ⟨0, by simp⟩

open Classical in
/-- The total of what is read from the rows of the performance data of the items of a group, dated in the weeks `lo, ..., hi - 1` after the start of the experiment. -/
noncomputable def Spec.rawTotal (E : Ext ℝ) (perf assign : Frame ℝ) (itemCol dateCol treatCol : String) (start : ℤ) (v : Row ℝ → ℝ) (b : Bool) (lo hi : ℤ) : ℝ :=
  ((perf.rows.filter (fun p => decide (Spec.RawGroup E assign itemCol treatCol b (E.toStr (p itemCol)) ∧ ∃ t, E.toDate (p dateCol) = .ok (some t) ∧
    start + 7 * lo * 86400000000000 ≤ t ∧ t < start + 7 * hi * 86400000000000))).map v).sum

/-- **C115, from the raw data, totals.**  The totals and the numbers of items of the groups, from which an untrimmed analysis is computed (see the theorems above), are
those of the performance data and of the assignment table. -/
theorem C115_raw_totals (R : Rounding ℝ) (p : DesignParams ℝ) (d : Design ℝ) (hd : mkDesign R p = .ok d) (C : Checker ℝ) (perf assign out : Frame ℝ)
    (startDate itemCol dateCol treatCol : String) (a : ExperimentArgs)
    (h : prepareExperiment C perf assign d startDate itemCol dateCol treatCol a = .ok out) (hskip : a.skip = []) (hcon : a.concluded = true)
    (hn : Spec.NamesFit perf assign itemCol dateCol treatCol a) :
    ∃ start, C.ext.strptime startDate = some start ∧ ∀ b,
      (∀ c v, Spec.RawReads C.ext a c v → ∀ lo hi : ℤ, lo < hi →
        Spec.groupTotal (out.dropCol "time_period") "week_id" "treatment_assignment" c b lo hi =
          Spec.rawTotal C.ext perf assign itemCol dateCol treatCol start v b lo hi) ∧
      (Spec.groupItems (out.dropCol "time_period") "item_id" "treatment_assignment" b).card =
        assign.rows.countP (fun r => decide (C.ext.toInt (r treatCol) = .ok (if b then 1 else 0))) := by
  classical
  obtain ⟨start, hst, P⟩ := prepared hd h hskip hcon hn
  refine ⟨start, hst, fun b => ?_⟩
  obtain ⟨ids, hids⟩ : ∃ ids, ids = assign.rows.map (fun r => C.ext.toStr (r itemCol)) := ⟨_, rfl⟩
  have hit : Spec.ListsAll (out.dropCol "time_period") "item_id" (ids.map Cell.str) := by
    refine ⟨?_, ?_⟩
    · rw [hids]
      exact P.ids.map (fun _ _ e => Cell.str.inj e)
    · intro i
      rw [hids, List.map_map]
      constructor
      · intro hi
        obtain ⟨s, hs, e⟩ := List.mem_map.mp hi
        exact List.mem_map.mp ((P.items i).mpr ⟨s, hs, e.symm⟩)
      · intro hi
        obtain ⟨s, hs, e⟩ := (P.items i).mp (List.mem_map.mpr hi)
        exact List.mem_map.mpr ⟨s, hs, e.symm⟩
  have hid : ∀ s ∈ ids, ∃ s0 ∈ assign.rows, C.ext.toStr (s0 itemCol) = s := fun s hs => List.mem_map.mp (hids ▸ hs)
  have hG : ∀ s ∈ ids, Spec.InGroup (out.dropCol "time_period") "item_id" "treatment_assignment" b (.str s) ↔
      Spec.RawGroup C.ext assign itemCol treatCol b s := by
    intro s hs
    obtain ⟨s0, hs0, rfl⟩ := hid s hs
    exact P.rawGroup hs0 b
  constructor
  · intro c v hv lo hi hlt
    have h1 := grouped_sum P.data hit b lo hi c
    rw [show Spec.groupedValues (out.dropCol "time_period") "item_id" "treatment_assignment" (ids.map Cell.str) b
        (Spec.weeklyValue (out.dropCol "time_period") "item_id" "week_id" c lo hi) =
        Spec.valuesIn ids (Spec.RawGroup C.ext assign itemCol treatCol b) (Spec.rawWeekly C.ext perf itemCol dateCol start v lo hi) from
      valuesIn_transfer hG (by
        intro s hs
        obtain ⟨s0, hs0, rfl⟩ := hid s hs
        exact P.weekly hv hs0 lo hi)] at h1
    have hne : ((hi - lo : ℤ) : ℝ) ≠ 0 := by exact_mod_cast (by omega)
    rw [eq_div_iff hne] at h1
    rw [← h1]
    unfold Spec.valuesIn Spec.rawWeekly Spec.rawTotal
    simp only [div_eq_mul_inv]
    rw [List.sum_map_mul_right, mul_assoc, inv_mul_cancel₀ hne, mul_one]
    have hnd : (ids.filter (fun s => decide (Spec.RawGroup C.ext assign itemCol treatCol b s))).Nodup := by
      rw [hids]
      exact P.ids.filter _
    have key := sum_totals hnd (fun p : Row ℝ => C.ext.toStr (p itemCol)) (fun p => ∃ t, C.ext.toDate (p dateCol) = .ok (some t) ∧
      start + 7 * lo * 86400000000000 ≤ t ∧ t < start + 7 * hi * 86400000000000) v perf.rows
    refine (Eq.trans (by congr!) key).trans ?_
    congr 2
    refine List.filter_congr fun p hp => ?_
    refine decide_eq_decide.mpr (and_congr_left fun _ => ?_)
    rw [List.mem_filter, decide_eq_true_eq]
    refine ⟨fun h => h.2, fun h => ⟨?_, h⟩⟩
    obtain ⟨r, hr, e, -⟩ := h
    rw [hids]
    exact List.mem_map.mpr ⟨r, hr, e⟩
  · rw [← grouped_length hit b (fun _ => 0), show Spec.groupedValues (out.dropCol "time_period") "item_id" "treatment_assignment" (ids.map Cell.str) b (fun _ => 0) =
        Spec.valuesIn ids (Spec.RawGroup C.ext assign itemCol treatCol b) (fun _ => 0) from valuesIn_transfer hG (fun _ _ => rfl)]
    unfold Spec.valuesIn
    rw [List.length_map, ← List.countP_eq_length_filter, hids, List.countP_map]
    refine List.countP_congr fun r hr => ?_
    simp only [Function.comp, decide_eq_true_eq]
    constructor
    · rintro ⟨r', hr', e1, e2⟩
      have : r' = r := List.inj_on_of_nodup_map P.ids hr' hr e1
      rwa [← this]
    · intro e
      exact ⟨r, hr, rfl, e⟩

/-! ### Examples -/

/-- What the two columns of the example read. -/
noncomputable def runReads (c : String) (p : Row ℝ) : ℝ :=
  if c = "clicks" then Spec.rawNumber (runChecker ℝ).ext runArgs ("clicks", "clk") p
  else if 0 < Spec.rawNumber (runChecker ℝ).ext runArgs ("clicks", "clk") p then 1 else 0

theorem runReads_ok : ∀ c ∈ preparedMetrics runArgs ++ runArgs.atLeastOne.map Prod.snd, Spec.RawReads (runChecker ℝ).ext runArgs c (runReads c) := by
  rw [show preparedMetrics runArgs ++ runArgs.atLeastOne.map Prod.snd = ["clicks", "any"] by decide]
  intro c hc
  simp only [List.mem_cons, List.not_mem_nil, or_false] at hc
  rcases hc with rfl | rfl
  · left
    refine ⟨"clk", by rw [run_sources]; simp, ?_⟩
    funext p
    simp [runReads]
  · right
    refine ⟨"clicks", "clk", by simp [runArgs], by rw [run_sources]; simp, ?_⟩
    funext p
    simp [runReads]

theorem enoughLeft_zero (R : Rounding ℝ) {n : ℕ} (h : 1 < n) : Spec.EnoughLeft R 0 n := by
  have h0 : R.rnd 0 = 0 := by simpa using R.intFix 0 (by norm_num)
  unfold Spec.EnoughLeft
  rw [zero_mul, h0]
  simp
  omega

/-- The same metrics without trimming. -/
noncomputable def untrimmedMetrics : List Metric := runMetrics.map (fun m => { m with override := some 0 })

theorem untrimmedMetrics_fit : Spec.MetricsFrom (preparedMetrics runArgs ++ runArgs.atLeastOne.map Prod.snd) untrimmedMetrics := by
  refine ⟨by simp [untrimmedMetrics, runMetrics], ?_⟩
  intro m hm
  obtain ⟨m', hm', rfl⟩ := List.mem_map.mp hm
  obtain ⟨h1, h2, -⟩ := runMetrics_fit.2 m' hm'
  refine ⟨h1, h2, ?_⟩
  intro q hq
  cases hq
  norm_num

/-- The hypotheses of the crossover theorems are met: the report of the sixty items, trimmed, from the raw data. -/
example (R : Rounding ℝ) (argsort : List ℝ → List ℕ) (ha : ArgsortOk argsort) (D : TDist) :
    ∃ (rows : List (String × TestResult)) (ids : List String), ids.length = 60 ∧ rows.length = 3 ∧
      List.Forall₂ (fun m e => e.1 = m.name ∧ Spec.CrossoverReport R argsort D (sixtyDesign ℝ true) ids (Spec.RawGroup (runChecker ℝ).ext (runAssign ℝ) "id" "t")
        (fun c => Spec.rawWeekly (runChecker ℝ).ext (runPerf ℝ) "id" "day" (7 * 86400000000000) (runReads c)) m e.2) runMetrics rows := by
  obtain ⟨out, rows, ho, hr, hrows⟩ := C103_correct_crossover_analysed R argsort ha D _ _ (sixtyDesign_created R true) (by show (60 : ℤ) ≤ 2 ^ 53; norm_num)
    rfl (runChecker ℝ) (runPerf ℝ) (runAssign ℝ) "2024-01-08" "id" "day" "t" runArgs (7 * 86400000000000) "abc" 1 rfl run_names
    ⟨run_performance true, run_assignment true⟩ rfl rfl runMetrics runMetrics_fit (by
      intro m hm q hq
      obtain ⟨e, h⟩ := runMetrics_left R (n := 60) (by norm_num) (by norm_num) hm
      rw [e] at hq
      cases hq
      exact h)
  obtain ⟨start, hst, ids, hids, h⟩ := C115_raw_crossover_partial R argsort D _ _ (sixtyDesign_created R true) rfl _ _ _ out _ _ _ _ _ ho rfl rfl run_names runMetrics
    runMetrics_fit rows hr runReads runReads_ok
  obtain rfl : 7 * 86400000000000 = start := Option.some.inj hst
  refine ⟨rows, ids, ?_, ?_, h.imp fun m e k => ⟨k.1, k.2 (raw_metricKept_one_week (by decide) rfl run_names _ _ runReads_ok m)⟩⟩
  · rw [hids.length_eq, List.length_map]
    unfold runAssign
    simp
  · have := congrArg List.length hrows
    simpa [runMetrics] using this

/-- And without trimming, where the theorem on the totals gives every number of the report. -/
example (R : Rounding ℝ) (argsort : List ℝ → List ℕ) (ha : ArgsortOk argsort) (D : TDist) :
    ∃ (out : Frame ℝ) (rows : List (String × TestResult)),
      prepareExperiment (runChecker ℝ) (runPerf ℝ) (runAssign ℝ) (sixtyDesign ℝ true) "2024-01-08" "id" "day" "t" runArgs = .ok out ∧
      List.Forall₂ (fun m e => e.1 = m.name ∧ (m.denominator = none → e.2.controlAverage =
        fin (Spec.untreatedAverage (sixtyDesign ℝ true) (out.dropCol "time_period") "item_id" "week_id" "treatment_assignment" m.column))) untrimmedMetrics rows := by
  obtain ⟨out, rows, ho, hr, hrows⟩ := C103_correct_crossover_analysed R argsort ha D _ _ (sixtyDesign_created R true) (by show (60 : ℤ) ≤ 2 ^ 53; norm_num)
    rfl (runChecker ℝ) (runPerf ℝ) (runAssign ℝ) "2024-01-08" "id" "day" "t" runArgs (7 * 86400000000000) "abc" 1 rfl run_names
    ⟨run_performance true, run_assignment true⟩ rfl rfl untrimmedMetrics untrimmedMetrics_fit (by
      intro m hm q hq
      obtain ⟨m', -, rfl⟩ := List.mem_map.mp hm
      cases hq
      exact enoughLeft_zero R (by show 1 < 60; norm_num))
  obtain ⟨start, hst, P⟩ := prepared (sixtyDesign_created R true) ho rfl rfl run_names
  obtain ⟨items, hit, htot⟩ := C115_crossover_totals_partial R argsort D _ _ (sixtyDesign_created R true) rfl _ _ _ _ _ P.data untrimmedMetrics
    untrimmedMetrics_fit rows hr
  refine ⟨out, rows, ho, forall₂_mem_imp htot ?_⟩
  rintro m e hm ⟨e1, e2⟩
  obtain ⟨m', -, rfl⟩ := List.mem_map.mp hm
  exact ⟨e1, fun hd => ((e2 rfl (metricKept_one_week (by decide) rfl _ _ _ _ _)).2.1 hd).2⟩

/-- The hypotheses of the theorem on regular experiments are met, with pretest weeks and trimming. -/
example (R : Rounding ℝ) (argsort : List ℝ → List ℕ) (ha : ArgsortOk argsort) (D : TDist) :
    ∃ (r : TestResult) (ids : List String), ids.length = 60 ∧
      Spec.RegularReport R argsort D (sixtyDesign ℝ false) ids (Spec.RawGroup (runChecker ℝ).ext (runAssign ℝ) "id" "t")
        (fun c => Spec.rawWeekly (runChecker ℝ).ext (runPerf ℝ) "id" "day" (7 * 86400000000000) (runReads c))
        ⟨"clicks_per_active", "clicks", some "any", some (1 / 30)⟩ r := by
  have hmem : ∀ m ∈ [(⟨"clicks_per_active", "clicks", some "any", some (1 / 30)⟩ : Metric)], m ∈ runMetrics := by
    intro m hm
    rw [List.mem_singleton.mp hm]
    simp [runMetrics]
  have hfit : Spec.MetricsFrom (preparedMetrics runArgs ++ runArgs.atLeastOne.map Prod.snd) [⟨"clicks_per_active", "clicks", some "any", some (1 / 30)⟩] :=
    ⟨by simp, fun m hm => runMetrics_fit.2 m (hmem m hm)⟩
  obtain ⟨out, ho, h⟩ := C103_correct_regular_analysed_partial R argsort ha D _ _ (sixtyDesign_created R false)
    (by show (60 : ℤ) ≤ 2 ^ 53; norm_num) rfl (runChecker ℝ) (runPerf ℝ) (runAssign ℝ) "2024-01-08" "id" "day" "t" runArgs (7 * 86400000000000)
    "abc" 1 rfl run_names ⟨run_performance false, run_assignment false⟩ rfl rfl [⟨"clicks_per_active", "clicks", some "any", some (1 / 30)⟩] hfit (by
      intro m hm q hq
      obtain ⟨e, h⟩ := runMetrics_left R (n := 60) (by norm_num) (by norm_num) (hmem m hm)
      rw [e] at hq
      cases hq
      exact h) (by
      intro m hm b
      obtain ⟨e, h⟩ := runMetrics_left R (run_groups b).1 (run_groups b).2 (hmem m hm)
      rw [e]
      exact h)
  rcases h with ⟨rows, hr, -⟩ | ⟨⟨m, hm, e, -⟩, -⟩
  · obtain ⟨start, hst, ids, hids, h⟩ := C115_raw_regular R argsort D _ _ (sixtyDesign_created R false) rfl _ _ _ out _ _ _ _ _ ho rfl rfl run_names _
      hfit rows hr runReads runReads_ok
    obtain rfl : 7 * 86400000000000 = start := Option.some.inj hst
    cases h with
    | cons h1 _ =>
      refine ⟨_, ids, ?_, h1.2⟩
      rw [hids.length_eq, List.length_map]
      unfold runAssign
      simp
  · rw [List.mem_singleton.mp hm] at e
    cases e

/-- The total of a group in the data of one week: the treated items have 2 clicks each, the others 1. -/
theorem weekData_total (b : Bool) : Spec.groupTotal weekData "week" "t" "clicks" b 0 1 = if b then 60 else 30 := by
  classical
  unfold Spec.groupTotal weekData
  simp only [List.filter_map, List.map_map]
  have e : ∀ i ∈ (List.range 60).filter (fun i => decide (i % 2 = if b then 1 else 0)), i % 2 = if b then 1 else 0 := fun i hi => by
    simpa using (List.mem_filter.mp hi).2
  rw [show ((List.range 60).filter _) = (List.range 60).filter (fun i => decide (i % 2 = if b then 1 else 0)) from ?_]
  · rw [List.map_congr_left (g := fun _ => if b then (2 : ℝ) else 1)]
    · rw [List.map_const', List.sum_replicate]
      rw [show ((List.range 60).filter (fun i => decide (i % 2 = if b then 1 else 0))).length = 30 by cases b <;> decide +kernel]
      cases b <;> norm_num
    · intro i hi
      have := e i hi
      show ((((i : ℤ) % 2 + 1 : ℤ)) : ℝ) = _
      have h2 : ((i : ℤ) % 2) = if b then 1 else 0 := by cases b <;> simp at this ⊢ <;> omega
      rw [h2]
      cases b <;> norm_num
  · refine List.filter_congr fun i hi => ?_
    simp only [Function.comp]
    refine decide_eq_decide.mpr ?_
    constructor
    · rintro ⟨h, -⟩
      have := Cell.int.inj h
      cases b <;> simp at this ⊢ <;> omega
    · intro h
      refine ⟨?_, 0, rfl, le_refl _, zero_lt_one⟩
      show (Cell.int ((i : ℤ) % 2) : Cell ℝ) = _
      congr 1
      cases b <;> simp at h ⊢ <;> omega

/-- The hypotheses of the theorem without pretest weeks are met, and its formula gives the difference of one click. -/
example (R : Rounding ℝ) (argsort : List ℝ → List ℕ) (ha : ArgsortOk argsort) (D : TDist) :
    ∃ r, (analyzeExperiment R argsort D weekDesign.toDesignParams [⟨"clicks", "clicks", none, none⟩] "week" "id" "t" weekData).1 = .ok [("clicks", r)] ∧
      r.absoluteDifference = fin 1 ∧ r.controlAverage = fin 1 ∧ r.sampleSize = 60 := by
  obtain ⟨rows, hr, hn⟩ := weekData_analysed R argsort ha D
  have h := C115_regular_totals R argsort D _ _ (weekDesign_created R) rfl rfl "id" "week" "t" ["clicks"] weekData weekData_experiment
    [⟨"clicks", "clicks", none, none⟩] (by
      refine ⟨by simp, ?_⟩
      intro m hm
      obtain rfl := List.mem_singleton.mp hm
      exact ⟨by simp, by simp, by simp⟩) rows hr
  have av : ∀ b, Spec.groupAverage weekData "id" "week" "t" "clicks" b 0 weekDesign.runtime = if b then 2 else 1 := by
    intro b
    unfold Spec.groupAverage
    rw [weekData_group, show weekDesign.runtime = 1 from rfl, weekData_total]
    cases b <;> norm_num
  cases h with
  | cons h1 h2 =>
    cases h2
    rename_i e
    obtain ⟨nm, r⟩ := e
    obtain ⟨rfl, h1⟩ := h1
    obtain ⟨k1, k2, -⟩ := h1 rfl
    obtain ⟨k2, k3⟩ := k2 rfl
    rw [av, av] at k2
    rw [av] at k3
    rw [weekData_group, weekData_group] at k1
    refine ⟨r, hr, ?_, ?_, ?_⟩
    · rw [k2]
      norm_num
    · rw [k3]
      norm_num
    · rw [k1]

/-- Item "0" has 3 clicks in the week before the start, item "1" none. -/
theorem run_pretest : Spec.rawWeekly (runChecker ℝ).ext (runPerf ℝ) "id" "day" (7 * 86400000000000) (runReads "clicks") (-1) 0 "0" = 3 ∧
    Spec.rawWeekly (runChecker ℝ).ext (runPerf ℝ) "id" "day" (7 * 86400000000000) (runReads "any") (-1) 0 "0" = 1 ∧
    ∀ c, Spec.rawWeekly (runChecker ℝ).ext (runPerf ℝ) "id" "day" (7 * 86400000000000) (runReads c) (-1) 0 "1" = 0 := by
  classical
  refine ⟨?_, ?_, fun c => ?_⟩ <;>
  simp [Spec.rawWeekly, runPerf, runChecker, runReads, Spec.rawNumber, Spec.parsed, Cell.toFl]

/-- The hypotheses of the theorem on the totals with pretest weeks are met. -/
example (R : Rounding ℝ) (argsort : List ℝ → List ℕ) (ha : ArgsortOk argsort) (D : TDist) :
    ∃ (out : Frame ℝ) (r : TestResult),
      prepareExperiment (runChecker ℝ) (runPerf ℝ) (runAssign ℝ) (sixtyDesign ℝ false) "2024-01-08" "id" "day" "t" runArgs = .ok out ∧
      r.sampleSize = 60 ∧ (let Y := Spec.adjustedAverage (sixtyDesign ℝ false) (out.dropCol "time_period") "item_id" "week_id" "treatment_assignment"
        Y "any" true ≠ 0 → Y "any" false ≠ 0 → r.controlAverage = fin (Y "clicks" false / Y "any" false)) := by
  have hfit : Spec.MetricsFrom (preparedMetrics runArgs ++ runArgs.atLeastOne.map Prod.snd) [⟨"clicks_per_active", "clicks", some "any", some 0⟩] := by
    refine ⟨by simp, fun m hm => untrimmedMetrics_fit.2 m ?_⟩
    rw [List.mem_singleton.mp hm]
    simp [untrimmedMetrics, runMetrics]
  obtain ⟨out, ho, h⟩ := C103_correct_regular_analysed_partial R argsort ha D _ _ (sixtyDesign_created R false)
    (by show (60 : ℤ) ≤ 2 ^ 53; norm_num) rfl (runChecker ℝ) (runPerf ℝ) (runAssign ℝ) "2024-01-08" "id" "day" "t" runArgs (7 * 86400000000000)
    "abc" 1 rfl run_names ⟨run_performance false, run_assignment false⟩ rfl rfl [⟨"clicks_per_active", "clicks", some "any", some 0⟩] hfit (by
      intro m hm q hq
      rw [List.mem_singleton.mp hm] at hq
      cases hq
      exact enoughLeft_zero R (by show 1 < 60; norm_num)) (by
      intro m hm b
      rw [List.mem_singleton.mp hm]
      exact enoughLeft_zero R (by have := (run_groups b).1; omega))
  obtain ⟨start, hst, P⟩ := prepared (sixtyDesign_created R false) ho rfl rfl run_names
  obtain rfl : 7 * 86400000000000 = start := Option.some.inj hst
  refine ⟨out, ?_⟩
  have hitem : ∀ s : ℕ, s < 60 → ∃ s0 ∈ (runAssign ℝ).rows, (runChecker ℝ).ext.toStr (s0 "id") = toString s := by
    intro s hs
    have : toString s ∈ (runAssign ℝ).rows.map (fun r => (runChecker ℝ).ext.toStr (r "id")) := by
      rw [run_texts]
      exact List.mem_map.mpr ⟨s, List.mem_range.mpr hs, rfl⟩
    exact List.mem_map.mp this
  have hrow : ∀ s0 ∈ (runAssign ℝ).rows, ∃ r ∈ (out.dropCol "time_period").rows, r "item_id" = .str ((runChecker ℝ).ext.toStr (s0 "id")) := by
    intro s0 hs0
    obtain ⟨r, hr, e⟩ := List.mem_map.mp ((P.items _).mpr ⟨s0, hs0, rfl⟩)
    exact ⟨r, hr, e⟩
  have hvar : ∀ c ∈ preparedMetrics runArgs ++ runArgs.atLeastOne.map Prod.snd,
      Spec.PretestDiffers (sixtyDesign ℝ false) "item_id" "week_id" "treatment_assignment" (out.dropCol "time_period") c := by
    intro c hc
    obtain ⟨s0, hs0, e0⟩ := hitem 0 (by norm_num)
    obtain ⟨s1, hs1, e1⟩ := hitem 1 (by norm_num)
    obtain ⟨r0, hr0, i0⟩ := hrow s0 hs0
    obtain ⟨r1, hr1, i1⟩ := hrow s1 hs1
    refine pretestDiffers_of_weekly P.data (by show (0 : ℤ) < 1; norm_num) hc hr0 hr1 ?_
    rw [i0, i1, P.weekly (runReads_ok c hc) hs0, P.weekly (runReads_ok c hc) hs1, e0, e1]
    obtain ⟨k1, k2, k3⟩ := run_pretest
    have k4 := k3 c
    show ¬ (Spec.rawWeekly (runChecker ℝ).ext (runPerf ℝ) "id" "day" (7 * 86400000000000) (runReads c) (-1) 0 "0" =
      Spec.rawWeekly (runChecker ℝ).ext (runPerf ℝ) "id" "day" (7 * 86400000000000) (runReads c) (-1) 0 "1")
    rw [k4]
    rw [show preparedMetrics runArgs ++ runArgs.atLeastOne.map Prod.snd = ["clicks", "any"] by decide] at hc
    simp only [List.mem_cons, List.not_mem_nil, or_false] at hc
    rcases hc with rfl | rfl
    · rw [k1]; norm_num
    · rw [k2]; norm_num
  rcases h with ⟨rows, hr, -⟩ | ⟨⟨m, hm, e, -⟩, -⟩
  · have h := C115_regular_pretest_totals R argsort D _ _ (sixtyDesign_created R false) rfl (by show (0 : ℤ) < 1; norm_num) _ _ _ _ _ P.data _ hfit rows hr
    cases h with
    | cons h1 _ =>
      obtain ⟨k1, k2⟩ := h1.2 rfl
      obtain ⟨-, k3⟩ := k2 (fun c hc => hvar c (by
        rw [show preparedMetrics runArgs ++ runArgs.atLeastOne.map Prod.snd = ["clicks", "any"] by decide]
        simpa using hc))
      refine ⟨_, ho, ?_, fun h1 h2 => (k3 "any" rfl h1 h2).2⟩
      rw [k1, (C115_raw_totals R _ _ (sixtyDesign_created R false) _ _ _ out _ _ _ _ _ ho rfl rfl run_names).choose_spec.2 true |>.2,
        (C115_raw_totals R _ _ (sixtyDesign_created R false) _ _ _ out _ _ _ _ _ ho rfl rfl run_names).choose_spec.2 false |>.2]
      have e : ∀ b : Bool, (runAssign ℝ).rows.countP (fun r => decide ((runChecker ℝ).ext.toInt (r "t") = .ok (if b then 1 else 0))) =
          ((List.range 60).map toString).countP (fun s => decide ((Coinflip.mk "abc").flip s = if b then 1 else 0)) := by
        intro b
        unfold runAssign
        rw [List.countP_map]
        refine List.countP_congr fun s _ => ?_
        simp only [Function.comp, decide_eq_true_eq]
        show (Except.ok (((Coinflip.mk "abc").flip s : ℕ) : ℤ) : Py ℤ) = .ok _ ↔ _
        constructor
        · intro h
          have := Except.ok.inj h
          cases b <;> simp at this ⊢ <;> exact_mod_cast this
        · intro h
          rw [h]
          cases b <;> rfl
      rw [e, e]
      decide +kernel
  · rw [List.mem_singleton.mp hm] at e
    cases e

end Feedx
