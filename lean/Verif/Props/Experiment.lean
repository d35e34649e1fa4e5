import Verif.Proofs.Experiment
import Verif.Props.Assign
import Verif.Props.TimePeriod
import Verif.Props.Pipeline
import Mathlib.Tactic.Linarith

/-!
Prepared experiment data (C60, C61, C85).
-/

set_option linter.unusedSectionVars false
set_option linter.unusedSimpArgs false

namespace Feedx

variable {K : Type} [Field K] [LinearOrder K]

theorem number_ofFl (x : Fl K) : Spec.IsNumber (Cell.ofFl x) := by
  unfold Spec.IsNumber Cell.ofFl
  cases x <;> simp

/-- The number read from a cell of the input for a metric: standard metrics and other metrics are converted differently. -/
def Spec.parsed (E : Ext K) (a : ExperimentArgs) (m : String) (c : Cell K) : Py (Fl K) :=
  if m ∈ a.other then E.toFloat c else E.toNumeric c

/-- The metrics asked for, with their columns in the performance data. -/
def Spec.metricSources (a : ExperimentArgs) : List (String × String) :=
  Spec.requestedMetrics a.std ++ a.other.map (fun c => (c, c))

section built
variable {E : Ext K} {perf : Frame K} {itemCol dateCol : String} {a : ExperimentArgs} {a' out : Frame K} {missing : List (Row K)}
  {f1 f2 f5 : Frame K} {d : Design K} {start : ℤ}

theorem Built.metric_names (h : Built E perf itemCol dateCol a a' out missing f1 f2 f5 d start) {m : String}
    (hm : m ∈ preparedMetrics a) : m ≠ "item_id" ∧ m ≠ "date" := by
  rcases mem_preparedMetrics.mp hm with hm | hm
  · obtain ⟨p, hp, rfl⟩ := List.mem_map.mp hm
    exact (requestedMetrics_names hp).2
  · have := (standardize_ok (standardize_nodup h.std) h.std).1 (m, m) (List.mem_map.mpr ⟨m, hm, rfl⟩)
    constructor
    · rintro rfl; exact this (by simp [standardNames])
    · rintro rfl; exact this (by simp [standardNames])

theorem standardize_values
    (h : standardize E perf itemCol dateCol a.std (a.other.map (fun c => (c, c))) (a.other.map (fun c => (c, floatParse E))) = .ok f1) :
    List.Forall₂ (fun r r' => ∀ p ∈ Spec.metricSources a, ∃ x, Spec.parsed E a p.1 (r p.2) = .ok x ∧ r' p.1 = Cell.ofFl x)
      perf.rows f1.rows := by
  obtain ⟨s1, s2, -, -, s5⟩ := standardize_ok (standardize_nodup h) h
  have hother : ∀ c ∈ a.other, c ∉ standardNames := fun c hc => s1 (c, c) (List.mem_map.mpr ⟨c, hc, rfl⟩)
  refine s5.imp fun r r' hr p hp => ?_
  have hp' := hr p (by
    rw [columnNames_eq]
    unfold Spec.metricSources at hp
    simp only [List.mem_cons, List.mem_append] at hp ⊢
    tauto)
  unfold Spec.metricSources at hp
  rcases List.mem_append.mp hp with hp | hp
  · obtain ⟨n1, n2, n3⟩ := requestedMetrics_names hp
    have hno : p.1 ∉ a.other := fun hc => hother _ hc n1
    have look : (a.other.map (fun c => (c, floatParse E))).lookup p.1 = none := by
      rw [List.lookup_eq_none_iff]
      intro q hq
      rw [bne_iff_ne]
      obtain ⟨c, hc, rfl⟩ := List.mem_map.mp hq
      rintro e
      exact hno (e ▸ hc)
    unfold parseCell at hp'
    rw [look] at hp'
    simp only [if_neg n2, if_neg n3, if_pos n1] at hp'
    unfold Spec.parsed
    rw [if_neg hno]
    cases e : E.toNumeric (r p.2) with
    | error x => rw [e] at hp'; cases hp'
    | ok x => rw [e] at hp'; exact ⟨x, rfl, (Except.ok.inj hp').symm⟩
  · obtain ⟨c, hc, rfl⟩ := List.mem_map.mp hp
    have hnd : ((a.other.map (fun c => (c, floatParse E))).map Prod.fst).Nodup := by
      have := standardize_nodup h
      simpa [Function.comp_def] using this
    have look := lookup_of_mem hnd (List.mem_map.mpr ⟨c, hc, rfl⟩ : (c, floatParse E) ∈ a.other.map (fun c => (c, floatParse E)))
    simp only at look hp'
    unfold parseCell at hp'
    rw [look] at hp'
    simp only [floatParse] at hp'
    unfold Spec.parsed
    simp only [if_pos hc]
    cases e : E.toFloat (r c) with
    | error x => rw [e] at hp'; cases hp'
    | ok x => rw [e] at hp'; exact ⟨x, rfl, (Except.ok.inj hp').symm⟩

theorem Built.values (h : Built E perf itemCol dateCol a a' out missing f1 f2 f5 d start) :
    List.Forall₂ (fun r r' => ∀ p ∈ Spec.metricSources a, ∃ x, Spec.parsed E a p.1 (r p.2) = .ok x ∧ r' p.1 = Cell.ofFl x)
      perf.rows f1.rows := standardize_values h.std

theorem mem_metricSources {m : String} (hm : m ∈ preparedMetrics a) : ∃ c, (m, c) ∈ Spec.metricSources a := by
  unfold Spec.metricSources
  rcases mem_preparedMetrics.mp hm with hm | hm
  · obtain ⟨⟨n, c⟩, hp, rfl⟩ := List.mem_map.mp hm
    exact ⟨c, List.mem_append_left _ hp⟩
  · exact ⟨m, List.mem_append_right _ (List.mem_map.mpr ⟨m, hm, rfl⟩)⟩

theorem Built.zero (h : Built E perf itemCol dateCol a a' out missing f1 f2 f5 d start) {m : String} (hm : m ∈ preparedMetrics a) :
    Spec.IsZero (zeroCell ((mergeMissing f1 missing).col m)) := by
  refine zeroCell_isZero ?_
  intro c hc
  obtain ⟨r, hr, rfl⟩ := List.mem_map.mp hc
  rcases h.merged_mem.mp hr with hr | hr
  · obtain ⟨q, hq, e⟩ := forall₂_exists' h.values hr
    obtain ⟨c, hc⟩ := mem_metricSources hm
    obtain ⟨x, -, e⟩ := e _ hc
    simp only at e
    rw [e]
    exact number_ofFl x
  · obtain ⟨-, -, -, r0, -, hF⟩ := missingRows_ok h.missing_ok
    obtain ⟨i, -, t, -, rfl⟩ := forall₂_exists' hF hr
    simp only [if_neg (h.metric_names hm).1, if_neg (h.metric_names hm).2]
    exact ⟨by simp, by simp⟩

/-- Filled rows of items without performance data are zero. -/
theorem Built.missing_zero (h : Built E perf itemCol dateCol a a' out missing f1 f2 f5 d start) {m : String} (hm : m ∈ preparedMetrics a)
    {r : Row K} (hr : r ∈ f2.rows) (hi : ∀ p ∈ perf.rows, r "item_id" ≠ .str (E.toStr (p itemCol))) : Spec.IsZero (r m) := by
  obtain ⟨n1, n2⟩ := h.metric_names hm
  obtain ⟨-, -, hne, -, e⟩ := fillMissing_ok h.fill
  rw [e] at hr
  obtain ⟨i, -, hr⟩ := List.mem_flatMap.mp hr
  obtain ⟨c, -, hr⟩ := List.mem_flatMap.mp hr
  obtain ⟨q, hq, rfl⟩ := List.mem_map.mp hr
  rw [fillRow_key.1] at hi
  have hnull : q m = .null := by
    unfold mergeRows at hq
    simp only at hq
    split at hq
    · rw [List.mem_singleton] at hq
      rw [hq]
      simp [n1, n2]
    · rcases h.merged_mem.mp (List.mem_filter.mp hq).1 with hq | hq
      · obtain ⟨p, hp, e, -⟩ := forall₂_exists' h.keys hq
        exact absurd e (hi p hp)
      · obtain ⟨-, -, -, r0, -, hF⟩ := missingRows_ok h.missing_ok
        obtain ⟨i, -, t, -, rfl⟩ := forall₂_exists' hF hq
        simp [n1, n2]
  unfold fillRow
  simp only [n1, n2, or_self, if_false, hnull, Cell.isNull, if_true]
  exact h.zero hm

/-- Filled rows of the performance data. -/
theorem Built.kept (h : Built E perf itemCol dateCol a a' out missing f1 f2 f5 d start) :
    ∀ p ∈ perf.rows, ∃ r ∈ f2.rows, r "item_id" = .str (E.toStr (p itemCol)) ∧
      (∃ t, E.toDate (p dateCol) = .ok (some t) ∧ r "date" = .time t) ∧
      ∀ s ∈ Spec.metricSources a, ∃ x, Spec.parsed E a s.1 (p s.2) = .ok x ∧ (x ≠ .nan → r s.1 = Cell.ofFl x) ∧
        (x = .nan → Spec.IsZero (r s.1)) := by
  intro p hp
  obtain ⟨hs1, hs2⟩ := List.forall₂_iff_get.mp h.keys
  obtain ⟨hv1, hv2⟩ := List.forall₂_iff_get.mp h.values
  obtain ⟨n, hn, rfl⟩ := List.getElem_of_mem hp
  obtain ⟨k1, t, k2, k3⟩ := hs2 n hn (hs1 ▸ hn)
  have v := hv2 n hn (hs1 ▸ hn)
  set q := f1.rows[n]'(hs1 ▸ hn) with hq
  have hqm : q ∈ (mergeMissing f1 missing).rows := h.merged_mem.mpr (Or.inl (List.getElem_mem _))
  obtain ⟨t', et'⟩ := h.date_some hp
  refine ⟨fillRow (mergeMissing f1 missing) "item_id" "date" q, ?_, ?_, ?_, ?_⟩
  · refine (fill_perm h.fill).mem_iff.mpr (List.mem_append_left _ (List.mem_map.mpr ⟨q, hqm, rfl⟩))
  · rw [fillRow_key.1]; exact k1
  · refine ⟨t', et', ?_⟩
    rw [fillRow_key.2]
    have : E.toDate (perf.rows[n] dateCol) = .ok t := k2
    rw [et'] at this
    cases this
    exact k3
  · intro s hs
    obtain ⟨x, e1, e2⟩ := v s hs
    have hm : s.1 ∈ preparedMetrics a := by
      rw [mem_preparedMetrics]
      unfold Spec.metricSources at hs
      rcases List.mem_append.mp hs with hs | hs
      · exact Or.inl (List.mem_map.mpr ⟨s, hs, rfl⟩)
      · obtain ⟨c, hc, rfl⟩ := List.mem_map.mp hs
        exact Or.inr hc
    obtain ⟨n1, n2⟩ := h.metric_names hm
    have e2 : q s.1 = Cell.ofFl x := e2
    refine ⟨x, e1, ?_, ?_⟩
    · intro hx
      unfold fillRow
      simp only [n1, n2, or_self, if_false]
      rw [if_neg, e2]
      rw [e2]
      cases x <;> simp_all [Cell.ofFl, Cell.isNull]
    · rintro rfl
      unfold fillRow
      simp only [n1, n2, or_self, if_false, e2, Cell.ofFl, Cell.isNull, if_true]
      exact h.zero hm

end built

theorem build_items {E : Ext K} {perf assign out : Frame K} {d : Design K} {startDate itemCol dateCol treatCol : String}
    {a : ExperimentArgs} (hb : buildExperiment E perf assign d startDate itemCol dateCol treatCol a = .ok out)
    (hne : itemCol ≠ treatCol) (hi : itemCol ∈ assign.cols) (ht : treatCol ∈ assign.cols)
    (hk : ∀ n ∈ a.atLeastOne.map Prod.snd, n ≠ "item_id" ∧ n ≠ "date") :
    (∀ i, i ∈ out.col "item_id" ↔ ∃ s ∈ assign.rows, i = .str (E.toStr (s itemCol))) ∧
    (∀ i ∈ out.col "item_id", ∀ c, (∃ r ∈ out.rows, r "item_id" = i ∧ r "date" = c) ↔
      ∃ p ∈ perf.rows, ∃ t, E.toDate (p dateCol) = .ok (some t) ∧ c = .time t) ∧
    (∀ m ∈ preparedMetrics a, m ∉ ["week_id", "week_start"] → m ∉ a.atLeastOne.map Prod.snd → ∀ r ∈ out.rows,
      (∀ p ∈ perf.rows, r "item_id" ≠ .str (E.toStr (p itemCol))) → Spec.IsZero (r m)) ∧
    (∀ r ∈ out.rows, ∃ s ∈ assign.rows, r "item_id" = .str (E.toStr (s itemCol)) ∧
      ∃ t, E.toInt (s treatCol) = .ok t ∧ r "treatment_assignment" = .int t) := by
  obtain ⟨start, a', missing, f1, f2, f5, -, hca, B⟩ := buildExperiment_ok hb
  obtain ⟨ca1, ca2, ca3⟩ := cleanAssignment_ok hne hi ht hca
  have hitem : "item_id" ∉ a.atLeastOne.map Prod.snd := fun hc => (hk _ hc).1 rfl
  have hdate : "date" ∉ a.atLeastOne.map Prod.snd := fun hc => (hk _ hc).2 rfl
  have hassign : ∀ i, i ∈ a'.col "item_id" ↔ ∃ s ∈ assign.rows, i = .str (E.toStr (s itemCol)) := by
    intro i
    unfold Frame.col
    rw [List.mem_map]
    constructor
    · rintro ⟨r, hr, rfl⟩
      obtain ⟨s, hs, e, -⟩ := forall₂_exists' ca3 hr
      exact ⟨s, hs, e⟩
    · rintro ⟨s, hs, rfl⟩
      obtain ⟨r, hr, e, -⟩ := forall₂_exists ca3 hs
      exact ⟨r, hr, e⟩
  -- rows of an assigned item on a date
  have hcell : ∀ i c, (∃ r ∈ out.rows, r "item_id" = i ∧ r "date" = c) ↔ i ∈ a'.col "item_id" ∧
      ∃ p ∈ perf.rows, ∃ t, E.toDate (p dateCol) = .ok (some t) ∧ c = .time t := by
    intro i c
    constructor
    · rintro ⟨r, hr, rfl, rfl⟩
      obtain ⟨q, hq, s, hs, e, rfl⟩ := B.mem_out.mp hr
      unfold joinRow
      rw [if_pos B.key_cols.1, if_pos B.key_cols.2]
      refine ⟨List.mem_map.mpr ⟨s, hs, e⟩, ?_⟩
      obtain ⟨z, hz, ez, -⟩ := forall₂_exists' B.rows hq
      obtain ⟨p, hp, t, e1, e2⟩ := B.dates.mp (fill_mem B.fill hz).2
      obtain ⟨t', et'⟩ := B.times z hz
      rw [ez _ (by decide) hdate]
      cases t with
      | none => rw [e2] at et'; cases et'
      | some t => exact ⟨p, hp, t, e1, e2⟩
    · rintro ⟨h1, p, hp, t, e, rfl⟩
      obtain ⟨z, hz, z1, z2⟩ := (fill_grid B.fill).mpr ⟨B.items.mpr (Or.inr h1), B.dates.mpr ⟨p, hp, some t, e, rfl⟩⟩
      obtain ⟨q, hq, eq, -⟩ := forall₂_exists B.rows hz
      obtain ⟨s, hs, es⟩ := List.mem_map.mp h1
      refine ⟨joinRow f5.cols q s, B.mem_out.mpr ⟨q, hq, s, hs, ?_, rfl⟩, ?_, ?_⟩
      · rw [eq _ (by decide) hitem, z1]; exact es
      · unfold joinRow
        rw [if_pos B.key_cols.1, eq _ (by decide) hitem, z1]
      · unfold joinRow
        rw [if_pos B.key_cols.2, eq _ (by decide) hdate, z2]
        rfl
  have hmem : ∀ i, i ∈ out.col "item_id" ↔ i ∈ a'.col "item_id" := by
    intro i
    constructor
    · intro hi'
      obtain ⟨r, hr, rfl⟩ := List.mem_map.mp hi'
      exact ((hcell _ _).mp ⟨r, hr, rfl, rfl⟩).1
    · intro hi'
      obtain ⟨-, -, -, r0, hr0, -⟩ := missingRows_ok B.missing_ok
      obtain ⟨t, et⟩ := B.date_some hr0
      obtain ⟨r, hr, e, -⟩ := (hcell i (.time t)).mpr ⟨hi', r0, hr0, t, et, rfl⟩
      exact List.mem_map.mpr ⟨r, hr, e⟩
  refine ⟨fun i => (hmem i).trans (hassign i), ?_, ?_, ?_⟩
  · intro i hi' c
    rw [hcell]
    exact ⟨fun h => h.2, fun h => ⟨(hmem i).mp hi', h⟩⟩
  · intro m hm hw hal r hr hp
    obtain ⟨q, hq, s, hs, e, rfl⟩ := B.mem_out.mp hr
    obtain ⟨z, hz, ez, -⟩ := forall₂_exists' B.rows hq
    have hmc : m ∈ f2.cols := by
      rw [B.f2_cols, B.f1_cols]
      obtain ⟨c, hc⟩ := mem_metricSources hm
      refine List.mem_map.mpr ⟨(m, c), ?_, rfl⟩
      rw [columnNames_eq]
      unfold Spec.metricSources at hc
      simp only [List.mem_cons, List.mem_append] at hc ⊢
      tauto
    have hmt : m ≠ "time_period" := fun e => B.noPeriod (e ▸ hmc)
    have hmr : m ∉ ["week_id", "week_start", "time_period"] := by
      simp only [List.mem_cons, List.not_mem_nil, or_false, not_or] at hw ⊢
      exact ⟨hw.1, hw.2, hmt⟩
    unfold joinRow at hp ⊢
    rw [if_pos B.key_cols.1, ez _ (by decide) hitem] at hp
    rw [if_pos (B.cols m (Or.inl hmc)), ez m hmr hal]
    exact B.missing_zero hm hz hp
  · intro r hr
    obtain ⟨q, hq, s, hs, e, rfl⟩ := B.mem_out.mp hr
    obtain ⟨s0, hs0, c1, t, c2, c3⟩ := forall₂_exists' ca3 hs
    refine ⟨s0, hs0, ?_, t, c2, ?_⟩
    · unfold joinRow
      rw [if_pos B.key_cols.1, ← e, c1]
    · unfold joinRow
      rw [if_neg (B.disjoint ca2 (by decide)), c3]

/-- **C61.**  Prepared experiment data has rows for exactly the items of the treatment assignment, each of them on exactly the dates of the
performance data; items without performance data are 0 in every metric, and every row has the assignment of its item.  (The
assignment table has the two columns named; at-least-one metrics do not replace the item, the date or the metric.) -/
theorem C61_exactly_assigned_items (C : Checker K) (perf assign out : Frame K) (d : Design K) (startDate itemCol dateCol treatCol : String)
    (a : ExperimentArgs) (h : prepareExperiment C perf assign d startDate itemCol dateCol treatCol a = .ok out)
    (hne : itemCol ≠ treatCol) (hi : itemCol ∈ assign.cols) (ht : treatCol ∈ assign.cols)
    (hk : ∀ n ∈ a.atLeastOne.map Prod.snd, n ≠ "item_id" ∧ n ≠ "date") :
    (∀ i, i ∈ out.col "item_id" ↔ ∃ s ∈ assign.rows, i = .str (C.ext.toStr (s itemCol))) ∧
    (∀ i ∈ out.col "item_id", ∀ c, (∃ r ∈ out.rows, r "item_id" = i ∧ r "date" = c) ↔
      ∃ p ∈ perf.rows, ∃ t, C.ext.toDate (p dateCol) = .ok (some t) ∧ c = .time t) ∧
    (∀ m ∈ preparedMetrics a, m ∉ ["week_id", "week_start"] → m ∉ a.atLeastOne.map Prod.snd → ∀ r ∈ out.rows,
      (∀ p ∈ perf.rows, r "item_id" ≠ .str (C.ext.toStr (p itemCol))) → Spec.IsZero (r m)) ∧
    (∀ r ∈ out.rows, ∃ s ∈ assign.rows, r "item_id" = .str (C.ext.toStr (s itemCol)) ∧
      ∃ t, C.ext.toInt (s treatCol) = .ok t ∧ r "treatment_assignment" = .int t) := by
  unfold prepareExperiment at h
  obtain ⟨f, hb, h⟩ := Py.bind_eq_ok.mp h
  obtain ⟨_, -, h⟩ := Py.bind_eq_ok.mp h
  cases h
  exact build_items hb hne hi ht hk

/-- Number of rows of the performance data for an item id and a date. -/
def Spec.perfRows (E : Ext K) (perf : Frame K) (itemCol dateCol s : String) (t : ℤ) : ℕ :=
  perf.rows.countP (fun p => decide (E.toStr (p itemCol) = s ∧ E.toDate (p dateCol) = .ok (some t)))

/-- Number of rows of the assignment table for an item id. -/
def Spec.assignRows (E : Ext K) (assign : Frame K) (itemCol s : String) : ℕ :=
  assign.rows.countP (fun r => decide (E.toStr (r itemCol) = s))

theorem countP_forall₂ {α β : Type} {P : α → β → Prop} {l : List α} {m : List β} (h : List.Forall₂ P l m) {p : α → Bool} {q : β → Bool}
    (hpq : ∀ a b, a ∈ l → b ∈ m → P a b → p a = q b) : l.countP p = m.countP q := by
  induction h with
  | nil => rfl
  | cons hab _ ih =>
    rw [List.countP_cons, List.countP_cons, ih (fun a b ha hb => hpq a b (by simp [ha]) (by simp [hb])),
      hpq _ _ (by simp) (by simp) hab]

theorem countP_flatMap_const {α β : Type} {l : List α} {g : α → List β} {p : β → Bool} {q : α → Bool} {n : ℕ}
    (h1 : ∀ a ∈ l, q a = true → (g a).countP p = n) (h2 : ∀ a ∈ l, q a = false → (g a).countP p = 0) :
    (l.flatMap g).countP p = l.countP q * n := by
  induction l with
  | nil => simp
  | cons a l ih =>
    rw [List.flatMap_cons, List.countP_append, List.countP_cons,
      ih (fun b hb => h1 b (by simp [hb])) (fun b hb => h2 b (by simp [hb]))]
    cases hq : q a with
    | true => rw [h1 a (by simp) hq]; simp; ring
    | false => rw [h2 a (by simp) hq]; simp

theorem build_row_counts {E : Ext K} {perf assign out : Frame K} {d : Design K} {startDate itemCol dateCol treatCol : String}
    {a : ExperimentArgs} (h : buildExperiment E perf assign d startDate itemCol dateCol treatCol a = .ok out)
    (hne : itemCol ≠ treatCol) (hi : itemCol ∈ assign.cols) (ht : treatCol ∈ assign.cols)
    (hk : ∀ n ∈ a.atLeastOne.map Prod.snd, n ≠ "item_id" ∧ n ≠ "date") (s : String) (hs : 0 < Spec.assignRows E assign itemCol s)
    (t : ℤ) (htd : ∃ p ∈ perf.rows, E.toDate (p dateCol) = .ok (some t)) :
    Spec.rowsAt out "item_id" "date" (.str s) (.time t) =
      max 1 (Spec.perfRows E perf itemCol dateCol s t) * Spec.assignRows E assign itemCol s := by
  obtain ⟨start, a', missing, f1, f2, f5, -, hca, B⟩ := buildExperiment_ok h
  obtain ⟨ca1, ca2, ca3⟩ := cleanAssignment_ok hne hi ht hca
  have hitem : "item_id" ∉ a.atLeastOne.map Prod.snd := fun hc => (hk _ hc).1 rfl
  have hdate : "date" ∉ a.atLeastOne.map Prod.snd := fun hc => (hk _ hc).2 rfl
  have hassign : a'.rows.countP (fun r => decide (r "item_id" = .str s)) = Spec.assignRows E assign itemCol s := by
    unfold Spec.assignRows
    refine (countP_forall₂ ca3 ?_).symm
    rintro r r' - - ⟨e, -⟩
    rw [e]
    simp
  have hmem : (.str s : Cell K) ∈ a'.col "item_id" := by
    rw [← hassign] at hs
    obtain ⟨r, hr, e⟩ := List.countP_pos_iff.mp hs
    exact List.mem_map.mpr ⟨r, hr, by simpa using e⟩
  obtain ⟨p0, hp0, ep0⟩ := htd
  have hout : Spec.rowsAt out "item_id" "date" (.str s) (.time t) =
      Spec.rowsAt f5 "item_id" "date" (.str s) (.time t) * Spec.assignRows E assign itemCol s := by
    have hm := B.merge
    unfold mergeAssignment at hm
    obtain ⟨-, hm⟩ := raiseIf_bind_ok.mp hm
    cases hm
    unfold Spec.rowsAt
    rw [← hassign]
    refine countP_flatMap_const ?_ ?_
    · intro q _ hq
      simp only [decide_eq_true_eq] at hq
      rw [List.countP_map, List.countP_eq_length.mpr, List.countP_eq_length_filter]
      · congr 1
        refine List.filter_congr fun r _ => ?_
        rw [hq.1]
      · intro r _
        simp only [Function.comp, joinRow, if_pos B.key_cols.1, if_pos B.key_cols.2, hq, and_self, decide_true]
    · intro q _ hq
      rw [List.countP_map, List.countP_eq_zero]
      intro r _
      simp only [Function.comp, joinRow, if_pos B.key_cols.1, if_pos B.key_cols.2]
      simp only [decide_eq_false_iff_not] at hq
      simpa using hq
  have hf5 : Spec.rowsAt f5 "item_id" "date" (.str s) (.time t) = Spec.rowsAt f2 "item_id" "date" (.str s) (.time t) := by
    unfold Spec.rowsAt
    refine (countP_forall₂ B.rows ?_).symm
    rintro r r' - - ⟨e, -⟩
    rw [e _ (by decide) hitem, e _ (by decide) hdate]
  rw [hout, hf5, fill_rowsAt (d := .time t) B.fill (B.items.mpr (Or.inr hmem)) (B.dates.mpr ⟨p0, hp0, some t, ep0, rfl⟩)]
  congr 1
  have hperf : f1.rows.countP (fun r => decide (r "item_id" = .str s ∧ r "date" = .time t)) = Spec.perfRows E perf itemCol dateCol s t := by
    unfold Spec.perfRows
    refine (countP_forall₂ B.keys ?_).symm
    rintro r r' - - ⟨e, t', e1, e2⟩
    rw [e, e1, e2]
    cases t' <;> simp [Cell.ofTime]
  unfold Spec.rowsAt
  rw [(mergeMissing_perm f1 missing).countP_eq, List.countP_append, hperf]
  obtain ⟨-, -, -, r0, -, hF⟩ := missingRows_ok B.missing_ok
  by_cases hp : ∃ p ∈ perf.rows, E.toStr (p itemCol) = s
  · have : missing.countP (fun r => decide (r "item_id" = .str s ∧ r "date" = .time t)) = 0 := by
      rw [List.countP_eq_zero]
      intro r hr
      obtain ⟨i, hi', t', -, rfl⟩ := forall₂_exists' hF hr
      obtain ⟨p, hp, rfl⟩ := hp
      simp only [if_true, decide_eq_true_eq, not_and]
      intro e
      exact absurd e ((mem_missingItems.mp hi').2 p hp)
    rw [this]
    simp
  · push Not at hp
    have h0 : Spec.perfRows E perf itemCol dateCol s t = 0 := by
      unfold Spec.perfRows
      rw [List.countP_eq_zero]
      intro p hp'
      simp [hp p hp']
    have h1 : missing.countP (fun r => decide (r "item_id" = .str s ∧ r "date" = .time t)) ≤ 1 := by
      have hle : missing.countP (fun r => decide (r "item_id" = .str s ∧ r "date" = .time t)) ≤
          missing.countP (fun r => decide (r "item_id" = .str s)) := by
        refine List.countP_mono_left fun r _ => ?_
        simp only [decide_eq_true_eq]
        exact fun h => h.1
      refine hle.trans ?_
      have : missing.countP (fun r => decide (r "item_id" = .str s)) =
          (missingItems E perf a' itemCol).countP (fun i => decide (i = .str s)) := by
        refine (countP_forall₂ hF ?_).symm
        rintro i r - - ⟨t', -, rfl⟩
        simp
      rw [this]
      have hnd : (missingItems E perf a' itemCol).Nodup := nodup_dropDup _
      have := List.nodup_iff_count_le_one.mp hnd (.str s)
      rw [List.count_eq_countP] at this
      refine le_trans (le_of_eq ?_) this
      refine List.countP_congr fun i _ => ?_
      simp
    rw [h0]
    omega

/-- **C61** (number of rows).  An assigned item has as many rows on a date of the performance data as the performance data has, at least
one, times the number of its rows in the assignment table. -/
theorem C61_row_counts (C : Checker K) (perf assign out : Frame K) (d : Design K) (startDate itemCol dateCol treatCol : String)
    (a : ExperimentArgs) (h : prepareExperiment C perf assign d startDate itemCol dateCol treatCol a = .ok out)
    (hne : itemCol ≠ treatCol) (hi : itemCol ∈ assign.cols) (ht : treatCol ∈ assign.cols)
    (hk : ∀ n ∈ a.atLeastOne.map Prod.snd, n ≠ "item_id" ∧ n ≠ "date") (s : String) (hs : 0 < Spec.assignRows C.ext assign itemCol s)
    (t : ℤ) (htd : ∃ p ∈ perf.rows, C.ext.toDate (p dateCol) = .ok (some t)) :
    Spec.rowsAt out "item_id" "date" (.str s) (.time t) =
      max 1 (Spec.perfRows C.ext perf itemCol dateCol s t) * Spec.assignRows C.ext assign itemCol s := by
  unfold prepareExperiment at h
  obtain ⟨f, hb, h⟩ := Py.bind_eq_ok.mp h
  obtain ⟨_, -, h⟩ := Py.bind_eq_ok.mp h
  cases h
  exact build_row_counts hb hne hi ht hk s hs t htd

/-- **C61** (values).  Every row of the performance data whose item is assigned is a row of the prepared data, with the same item and date
and the parsed value of every metric, where missing values have become 0. -/
theorem C61_values_kept (C : Checker K) (perf assign out : Frame K) (d : Design K) (startDate itemCol dateCol treatCol : String)
    (a : ExperimentArgs) (h : prepareExperiment C perf assign d startDate itemCol dateCol treatCol a = .ok out)
    (hne : itemCol ≠ treatCol) (hi : itemCol ∈ assign.cols) (ht : treatCol ∈ assign.cols)
    (hk : ∀ n ∈ a.atLeastOne.map Prod.snd, n ≠ "item_id" ∧ n ≠ "date" ∧ n ∉ preparedMetrics a)
    (hm : ∀ m ∈ preparedMetrics a, m ∉ ["week_id", "week_start"]) :
    ∀ p ∈ perf.rows, 0 < Spec.assignRows C.ext assign itemCol (C.ext.toStr (p itemCol)) →
      ∃ r ∈ out.rows, r "item_id" = .str (C.ext.toStr (p itemCol)) ∧
        (∃ t, C.ext.toDate (p dateCol) = .ok (some t) ∧ r "date" = .time t) ∧
        ∀ s ∈ Spec.metricSources a, ∃ x, Spec.parsed C.ext a s.1 (p s.2) = .ok x ∧ (x ≠ .nan → r s.1 = Cell.ofFl x) ∧
          (x = .nan → Spec.IsZero (r s.1)) := by
  unfold prepareExperiment at h
  obtain ⟨f, hb, h⟩ := Py.bind_eq_ok.mp h
  obtain ⟨_, -, h⟩ := Py.bind_eq_ok.mp h
  cases h
  obtain ⟨start, a', missing, f1, f2, f5, -, hca, B⟩ := buildExperiment_ok hb
  obtain ⟨ca1, ca2, ca3⟩ := cleanAssignment_ok hne hi ht hca
  have hitem : "item_id" ∉ a.atLeastOne.map Prod.snd := fun hc => (hk _ hc).1 rfl
  have hdate : "date" ∉ a.atLeastOne.map Prod.snd := fun hc => (hk _ hc).2.1 rfl
  intro p hp hpos
  unfold Spec.assignRows at hpos
  obtain ⟨s0, hs0, es0⟩ := List.countP_pos_iff.mp hpos
  simp only [decide_eq_true_eq] at es0
  obtain ⟨s, hs, es, -⟩ := forall₂_exists ca3 hs0
  obtain ⟨z, hz, z1, ⟨t, et, z2⟩, z3⟩ := B.kept p hp
  obtain ⟨q, hq, eq, -⟩ := forall₂_exists B.rows hz
  refine ⟨joinRow f5.cols q s, B.mem_out.mpr ⟨q, hq, s, hs, ?_, rfl⟩, ?_, ⟨t, et, ?_⟩, ?_⟩
  · rw [eq _ (by decide) hitem, z1, es, es0]
  · unfold joinRow
    rw [if_pos B.key_cols.1, eq _ (by decide) hitem, z1]
  · unfold joinRow
    rw [if_pos B.key_cols.2, eq _ (by decide) hdate, z2]
  · intro m hm'
    have hmm : m.1 ∈ preparedMetrics a := by
      rw [mem_preparedMetrics]
      unfold Spec.metricSources at hm'
      rcases List.mem_append.mp hm' with hs | hs
      · exact Or.inl (List.mem_map.mpr ⟨m, hs, rfl⟩)
      · obtain ⟨c, hc, rfl⟩ := List.mem_map.mp hs
        exact Or.inr hc
    have hmc : m.1 ∈ f2.cols := by
      rw [B.f2_cols, B.f1_cols]
      refine List.mem_map.mpr ⟨m, ?_, rfl⟩
      rw [columnNames_eq]
      unfold Spec.metricSources at hm'
      simp only [List.mem_cons, List.mem_append] at hm' ⊢
      tauto
    have hmr : m.1 ∉ ["week_id", "week_start", "time_period"] := by
      have hw := hm _ hmm
      simp only [List.mem_cons, List.not_mem_nil, or_false, not_or] at hw ⊢
      exact ⟨hw.1, hw.2, fun e => B.noPeriod (e ▸ hmc)⟩
    have : joinRow f5.cols q s m.1 = z m.1 := by
      unfold joinRow
      rw [if_pos (B.cols _ (Or.inl hmc)), eq _ hmr (fun hc => (hk _ hc).2.2 hmm)]
    rw [this]
    exact z3 m hm'

section own
variable [IsStrictOrderedRing K] [FloorRing K]

theorem sameItemCounts_of_one {f : Frame K} {itemCol dateCol : String} (hn : ∀ r ∈ f.rows, r itemCol ≠ .null)
    (h : Spec.OneRowEach f itemCol dateCol) : Spec.SameItemCounts f itemCol dateCol := by
  have hcount : ∀ t, Spec.HasDate f dateCol t → ∀ i, (Spec.itemsAt f itemCol dateCol (.time t)).count i =
      if i ∈ f.col itemCol then 1 else 0 := by
    rintro t ⟨r0, hr0, e0⟩ i
    split
    · rename_i hi
      obtain ⟨r, hr, rfl⟩ := List.mem_map.mp hi
      rw [count_itemsAt _ _ _ _ _ (hn r hr)]
      exact h _ hi _ (List.mem_map.mpr ⟨r0, hr0, e0⟩)
    · rename_i hi
      rw [List.count_eq_zero]
      intro hm
      unfold Spec.itemsAt at hm
      obtain ⟨r, hr, e⟩ := List.mem_map.mp (List.mem_filter.mp hm).1
      exact hi (List.mem_map.mpr ⟨r, (List.mem_filter.mp hr).1, e⟩)
  refine ⟨?_, ?_⟩
  · intro t ht
    rw [List.nodup_iff_count_le_one]
    intro i
    rw [hcount t ht i]
    split <;> omega
  · intro s t hs ht
    refine List.Perm.length_eq (List.perm_iff_count.mpr fun i => ?_)
    rw [hcount s hs, hcount t ht]

/-- The names of the three checks of C60. -/
def Spec.ownChecks : List String := ["coinflip_salt_validation", "treatment_assignment_is_unique", "no_duplicate_items_per_date"]

theorem runCheck_extra {extra skip : List String} {name : String} (c : Py Bool) (h : name ∉ extra) :
    runCheck (extra ++ skip) name c = runCheck skip name c := by
  unfold runCheck
  congr 1
  funext b
  simp [h]

theorem runCheck_false {skip : List String} {name : String} : runCheck skip name (.ok false) = .ok () := by
  simp [runCheck, raiseIf, bind, Except.bind]

/-- **C60.**  Take the assignment table of a call of the treatment assignment and the design as that call leaves it.  For performance data
with at most one row per item and date, the coinflip check, the uniqueness check and the check for one row per item and date pass
on the experiment data prepared from them; so the preparation does the same whether or not these checks are skipped.  (The assigned
items are different as strings; at-least-one metrics do not replace the item or the date.) -/
theorem C60_own_assignment_passes (R : Rounding K) (σ : Shuffle) (C : Checker K) (bytes : List ℕ) (hist assign : Frame K) (d d' : Design K)
    (itemCol : String) (weekCol : Option String) (treatCol : String) (hn : hist.rows.length ≤ 2 ^ 51)
    (ha : performAssignment R σ C.ext C.binom bytes hist d itemCol weekCol treatCol = (d', .ok assign))
    (htext : ∀ i ∈ assign.col itemCol, ∀ j ∈ assign.col itemCol, C.ext.toStr i = C.ext.toStr j → i = j)
    (perf : Frame K) (startDate dateCol : String) (a : ExperimentArgs)
    (hperf : ∀ s t, Spec.perfRows C.ext perf itemCol dateCol s t ≤ 1)
    (hk : ∀ n ∈ a.atLeastOne.map Prod.snd, n ≠ "item_id" ∧ n ≠ "date") :
    (∀ f, buildExperiment C.ext perf assign d' startDate itemCol dateCol treatCol a = .ok f →
      checkCoinflip C.ext f d' "treatment_assignment" "item_id" = .ok false ∧
      checkUnique f "item_id" "treatment_assignment" = .ok false ∧ checkDuplicates f "item_id" "date" = .ok false) ∧
    prepareExperiment C perf assign d' startDate itemCol dateCol treatCol { a with skip := Spec.ownChecks ++ a.skip } =
      prepareExperiment C perf assign d' startDate itemCol dateCol treatCol a := by
  obtain ⟨⟨salt, hs1, hs2, hs3⟩, hcols, hnd, -, -⟩ := C57_each_eligible_item_once R σ C.ext C.binom bytes hist assign d d' itemCol weekCol
    treatCol hn ha
  have hne : itemCol ≠ treatCol := (performAssignment_ok ha).2.2.1
  have hi : itemCol ∈ assign.cols := by simp [hcols]
  have ht : treatCol ∈ assign.cols := by simp [hcols]
  have hpass : ∀ f, buildExperiment C.ext perf assign d' startDate itemCol dateCol treatCol a = .ok f →
      checkCoinflip C.ext f d' "treatment_assignment" "item_id" = .ok false ∧
      checkUnique f "item_id" "treatment_assignment" = .ok false ∧ checkDuplicates f "item_id" "date" = .ok false := by
    intro f hb
    obtain ⟨b1, b2, -, b4⟩ := build_items hb hne hi ht hk
    obtain ⟨start, a', missing, f1, f2, f5, -, hca, B⟩ := buildExperiment_ok hb
    obtain ⟨ca1, ca2, -⟩ := cleanAssignment_ok hne hi ht hca
    have fi : "item_id" ∈ f.cols := B.out_cols.mpr (Or.inl B.key_cols.1)
    have fd : "date" ∈ f.cols := B.out_cols.mpr (Or.inl B.key_cols.2)
    have ft : "treatment_assignment" ∈ f.cols := B.out_cols.mpr (Or.inr ⟨ca2, by decide⟩)
    have hflip : ∀ r ∈ f.rows, r "treatment_assignment" = .int ((Coinflip.mk salt).flip (C.ext.toStr (r "item_id"))) := by
      intro r hr
      obtain ⟨s, hs, e1, t, e2, e3⟩ := b4 r hr
      rw [hs3 s hs, C.ext.toInt_int] at e2
      rw [e3, e1, C.ext.toStr_str, ← Except.ok.inj e2]
    have hstr : ∀ r ∈ f.rows, r "item_id" ≠ .null := by
      intro r hr
      obtain ⟨s, -, e, -⟩ := b4 r hr
      rw [e]; simp
    refine ⟨?_, ?_, ?_⟩
    · obtain ⟨b, hb', hiff⟩ := checkCoinflip_verdict (E := C.ext) fi ft hs1 hs2
      rw [hb', hiff.mpr]
      intro r hr
      rw [hflip r hr]
      exact Or.inl rfl
    · obtain ⟨b, hb', hiff⟩ := checkUnique_verdict fi ft
      rw [hb', hiff.mpr]
      intro i hi' _
      obtain ⟨r, hr, rfl⟩ := List.mem_map.mp hi'
      refine ⟨r "treatment_assignment", ?_, ⟨r, hr, rfl, rfl⟩, ?_⟩
      · rw [hflip r hr]; simp
      · intro q hq e
        left
        rw [hflip r hr, hflip q hq, e]
    · have hrows : f.rows ≠ [] := by
        obtain ⟨-, -, hne', -⟩ := missingRows_ok B.missing_ok
        obtain ⟨s, hs⟩ := List.exists_mem_of_ne_nil _ hne'
        obtain ⟨-, -, ca3⟩ := cleanAssignment_ok hne hi ht hca
        obtain ⟨s0, hs0, e, -⟩ := forall₂_exists' ca3 hs
        obtain ⟨r, hr, -⟩ := List.mem_map.mp ((b1 _).mpr ⟨s0, hs0, rfl⟩)
        exact List.ne_nil_of_mem hr
      have htime : ∀ r ∈ f.rows, ∃ t, r "date" = .time t := by
        intro r hr
        obtain ⟨p, -, t, -, e⟩ := (b2 _ (List.mem_map.mpr ⟨r, hr, rfl⟩) _).mp ⟨r, hr, rfl, rfl⟩
        exact ⟨t, e⟩
      obtain ⟨b, hb', hiff⟩ := checkDuplicates_verdict fi fd (by decide) hrows htime
      rw [hb', hiff.mpr]
      refine sameItemCounts_of_one hstr ?_
      intro i hi' c hc
      obtain ⟨s0, hs0, rfl⟩ := (b1 i).mp hi'
      obtain ⟨r, hr, rfl⟩ := List.mem_map.mp hc
      obtain ⟨p, hp, t, et, e⟩ := (b2 _ (List.mem_map.mpr ⟨r, hr, rfl⟩) _).mp ⟨r, hr, rfl, rfl⟩
      have hone : Spec.assignRows C.ext assign itemCol (C.ext.toStr (s0 itemCol)) = 1 := by
        have hpos : 0 < Spec.assignRows C.ext assign itemCol (C.ext.toStr (s0 itemCol)) :=
          List.countP_pos_iff.mpr ⟨s0, hs0, by simp⟩
        have hle : Spec.assignRows C.ext assign itemCol (C.ext.toStr (s0 itemCol)) ≤ 1 := by
          have hnd' : ((assign.col itemCol).map C.ext.toStr).Nodup := List.Nodup.map_on htext hnd
          have := List.nodup_iff_count_le_one.mp hnd' (C.ext.toStr (s0 itemCol))
          unfold Spec.assignRows
          refine le_trans (le_of_eq ?_) this
          rw [List.count_eq_countP, Frame.col, List.map_map, List.countP_map]
          refine List.countP_congr fun r _ => ?_
          simp
        omega
      rw [e, build_row_counts hb hne hi ht hk _ (by omega) t ⟨p, hp, et⟩, hone]
      have := hperf (C.ext.toStr (s0 itemCol)) t
      omega
  refine ⟨hpass, ?_⟩
  unfold prepareExperiment
  have hbe : buildExperiment C.ext perf assign d' startDate itemCol dateCol treatCol { a with skip := Spec.ownChecks ++ a.skip } =
      buildExperiment C.ext perf assign d' startDate itemCol dateCol treatCol a := rfl
  rw [hbe]
  cases hb : buildExperiment C.ext perf assign d' startDate itemCol dateCol treatCol a with
  | error e => rfl
  | ok f =>
    obtain ⟨p1, p2, p3⟩ := hpass f hb
    have hv : validateExperiment C f d' "item_id" "date" "week_id" "treatment_assignment" (preparedMetrics a) startDate a.concluded
        a.canBeNegative (Spec.ownChecks ++ a.skip) = validateExperiment C f d' "item_id" "date" "week_id" "treatment_assignment"
        (preparedMetrics a) startDate a.concluded a.canBeNegative a.skip := by
      unfold validateExperiment
      have hassert : assertChecksExist (Spec.ownChecks ++ a.skip) = assertChecksExist a.skip := by
        unfold assertChecksExist
        congr 1
      have hneg : runNonNegative f (preparedMetrics a) a.canBeNegative (Spec.ownChecks ++ a.skip) =
          runNonNegative f (preparedMetrics a) a.canBeNegative a.skip := by
        unfold runNonNegative
        simp only
        split
        · rfl
        · exact runCheck_extra _ (by decide)
      rw [p1, p2, p3, hassert, hneg]
      simp only [runCheck_false]
      rw [runCheck_extra (name := "primary_metric_in_metrics") _ (by decide), runCheck_extra (name := "no_nulls") _ (by decide),
        runCheck_extra (name := "dates_are_daily_or_weekly") _ (by decide),
        runCheck_extra (name := "week_ids_are_consecutive_integers") _ (by decide),
        runCheck_extra (name := "all_metrics_are_finite") _ (by decide),
        runCheck_extra (name := "number_of_items_matches_design") _ (by decide),
        runCheck_extra (name := "experiment_dates_match_design") _ (by decide),
        runCheck_extra (name := "no_sample_ratio_mismatch") _ (by decide)]
    have hm : preparedMetrics { a with skip := Spec.ownChecks ++ a.skip } = preparedMetrics a := rfl
    change (do
      let f ← (Except.ok f : Py (Frame K))
      validateExperiment C f d' "item_id" "date" "week_id" "treatment_assignment" (preparedMetrics a) startDate a.concluded
        a.canBeNegative (Spec.ownChecks ++ a.skip)
      return f) = _
    simp only [bind, Except.bind]
    rw [hv]

end own

section window
variable [IsStrictOrderedRing K] [FloorRing K]

theorem label_null_iff {R : Rounding K} {p : DesignParams K} {d : Design K} (h : mkDesign R p = .ok d) (w : ℤ) :
    (match designLabel d.toDesignParams 0 (.fin (w : K)) with
      | .ok l => labelCell l
      | .error _ => (.null : Cell K)) = .null ↔ w < -d.pretest ∨ d.runtime ≤ w := by
  have hf : ∃ g, addTimePeriodColumn d.toDesignParams 0 "w" "p" ⟨["w"], [fun _ => .int w]⟩ = .ok g :=
    C09_labelling_returns R p d h 0 "w" "p" ⟨["w"], [fun _ => .int w]⟩ (by simp) (by simp) (by simp [Cell.isNumeric])
  obtain ⟨g, hg⟩ := hf
  have hrow : g.rows = [Function.update (fun _ => .int w) "p" (match designLabel d.toDesignParams 0 (.fin (w : K)) with
      | .ok l => labelCell l
      | .error _ => (.null : Cell K))] := by
    unfold addTimePeriodColumn at hg
    obtain ⟨-, hg⟩ := raiseIf_bind_ok.mp hg
    obtain ⟨-, hg⟩ := raiseIf_bind_ok.mp hg
    unfold labelRows at hg
    obtain ⟨-, hg⟩ := raiseIf_bind_ok.mp hg
    obtain ⟨-, hg⟩ := raiseIf_bind_ok.mp hg
    cases hg
    rfl
  by_cases hc : d.isCrossover = true
  · obtain ⟨wo, -, -, hF⟩ := C10_crossover_labels R p d h hc 0 "w" "p" _ g hg
    rw [hrow] at hF
    cases hF with
    | cons hh _ =>
      have := (hh.2 w rfl).2
      simpa using this
  · obtain ⟨-, hF⟩ := C09_regular_labels R p d h (by simpa using hc) 0 "w" "p" _ g hg
    rw [hrow] at hF
    cases hF with
    | cons hh _ =>
      have := (hh.2 w rfl).2.2
      simpa using this

/-- **C85** (calendar columns).  In the experiment data prepared for a created design, every row's week id is the number of whole weeks
from the start date to its date, its week start is the first day of that week, and its period label is missing exactly outside the
weeks from the start of the pretest to the end of the runtime. -/
theorem C85_calendar_columns (R : Rounding K) (p : DesignParams K) (C : Checker K) (perf assign out : Frame K) (d : Design K)
    (hd : mkDesign R p = .ok d) (startDate itemCol dateCol treatCol : String)
    (a : ExperimentArgs) (h : buildExperiment C.ext perf assign d startDate itemCol dateCol treatCol a = .ok out)
    (hk : ∀ n ∈ a.atLeastOne.map Prod.snd, n ∉ ["date", "week_id", "week_start", "time_period"]) :
    ∃ start, C.ext.strptime startDate = some start ∧ "time_period" ∈ out.cols ∧
      ∀ r ∈ out.rows, ∃ t w : ℤ, r "date" = .time t ∧ r "week_id" = .int w ∧ r "week_start" = .time (start + 7 * w * 86400000000000) ∧
        start + 7 * w * 86400000000000 ≤ t ∧ t < start + 7 * (w + 1) * 86400000000000 ∧
        (r "time_period" = .null ↔ w < -d.pretest ∨ d.runtime ≤ w) := by
  obtain ⟨start, a', missing, f1, f2, f5, hs, hca, B⟩ := buildExperiment_ok h
  have nk : ∀ n, n ∈ ["date", "week_id", "week_start", "time_period"] → n ∉ a.atLeastOne.map Prod.snd := fun n hn hc => hk n hc hn
  refine ⟨start, hs, B.out_cols.mpr (Or.inl (B.cols _ (by simp))), ?_⟩
  intro r hr
  obtain ⟨q, hq, s, hs', e, rfl⟩ := B.mem_out.mp hr
  obtain ⟨z, hz, ez, ew⟩ := forall₂_exists' B.rows hq
  obtain ⟨t, et⟩ := B.times z hz
  obtain ⟨w1, w2, w3⟩ := ew t et
  have hle := weekStart_le start t
  refine ⟨t, weekId start t, ?_, ?_, ?_, ?_, ?_, ?_⟩
  · unfold joinRow
    rw [if_pos B.key_cols.2, ez _ (by decide) (nk _ (by simp)), et]
  · unfold joinRow
    rw [if_pos (B.cols _ (by simp)), w1 (nk _ (by simp))]
  · unfold joinRow
    rw [if_pos (B.cols _ (by simp)), w2 (nk _ (by simp))]
    unfold weekStart dayNs
    congr 1
    ring
  · unfold weekStart dayNs at hle
    linarith [hle.1]
  · unfold weekStart dayNs at hle
    linarith [hle.2]
  · unfold joinRow
    rw [if_pos (B.cols _ (by simp)), w3 (nk _ (by simp))]
    exact label_null_iff hd _

/-- **C85.**  If the preparation returns with the check for missing values not skipped, no date of the performance data is before the
pretest or after the runtime. -/
theorem C85_only_window_dates (R : Rounding K) (p : DesignParams K) (C : Checker K) (perf assign out : Frame K) (d : Design K)
    (hd : mkDesign R p = .ok d) (startDate itemCol dateCol treatCol : String)
    (a : ExperimentArgs) (h : prepareExperiment C perf assign d startDate itemCol dateCol treatCol a = .ok out)
    (hne : itemCol ≠ treatCol) (hi : itemCol ∈ assign.cols) (ht : treatCol ∈ assign.cols) (hs : "no_nulls" ∉ a.skip)
    (hk : ∀ n ∈ a.atLeastOne.map Prod.snd, n ∉ ["item_id", "date", "week_id", "week_start", "time_period"]) :
    ∃ start, C.ext.strptime startDate = some start ∧ ∀ r ∈ perf.rows, ∃ t, C.ext.toDate (r dateCol) = .ok (some t) ∧
      start - d.pretest * (7 * 86400000000000) ≤ t ∧ t < start + d.runtime * (7 * 86400000000000) := by
  unfold prepareExperiment at h
  obtain ⟨f, hb, h⟩ := Py.bind_eq_ok.mp h
  obtain ⟨_, hv, h⟩ := Py.bind_eq_ok.mp h
  obtain rfl : f = out := Except.ok.inj h
  obtain ⟨start, hst, hcol, hrows⟩ := C85_calendar_columns R p C perf assign f d hd startDate itemCol dateCol treatCol a hb
    (fun n hn hc => hk n hn (by simp only [List.mem_cons] at hc ⊢; tauto))
  have hnn : ∀ r ∈ f.rows, r "time_period" ≠ .null := by
    intro r hr e
    have := (C44_nulls_reported_partial (stableSorter K) C f d "item_id" "date" "week_id" "treatment_assignment" "" startDate
      (preparedMetrics a) a.canBeNegative a.skip a.concluded ⟨r, hr, "time_period", hcol, e⟩ hs).2
    rw [this] at hv
    cases hv
  refine ⟨start, hst, ?_⟩
  intro q hq
  obtain ⟨b1, b2, -, -⟩ := build_items hb hne hi ht (fun n hn => by
    have := hk n hn
    simp only [List.mem_cons, not_or] at this
    exact ⟨this.1, this.2.1⟩)
  obtain ⟨_, a', missing, f1, f2, f5, -, hca, B⟩ := buildExperiment_ok hb
  obtain ⟨t, et⟩ := B.date_some hq
  obtain ⟨-, -, hne', -⟩ := missingRows_ok B.missing_ok
  obtain ⟨-, -, ca3⟩ := cleanAssignment_ok hne hi ht hca
  obtain ⟨s, hs'⟩ := List.exists_mem_of_ne_nil _ hne'
  obtain ⟨s0, hs0, -, -⟩ := forall₂_exists' ca3 hs'
  obtain ⟨r, hr, -, er⟩ := (b2 _ ((b1 _).mpr ⟨s0, hs0, rfl⟩) (.time t)).mpr ⟨q, hq, t, et, rfl⟩
  obtain ⟨t', w, e1, -, -, l1, l2, hnull⟩ := hrows r hr
  obtain rfl : t' = t := by rw [er] at e1; simpa using e1.symm
  have := (not_congr hnull).mp (hnn r hr)
  push Not at this
  refine ⟨t', et, ?_, ?_⟩
  · nlinarith [this.1]
  · nlinarith [this.2]

/-- **C85** (dates outside).  If everything up to validation works and some date of the performance data is before the pretest or after the
runtime, the preparation raises `ValueError` unless the check for missing values is skipped. -/
theorem C85_outside_dates_raise (R : Rounding K) (p : DesignParams K) (C : Checker K) (perf assign f : Frame K) (d : Design K)
    (hd : mkDesign R p = .ok d) (startDate itemCol dateCol treatCol : String) (start : ℤ) (hst : C.ext.strptime startDate = some start)
    (a : ExperimentArgs) (hb : buildExperiment C.ext perf assign d startDate itemCol dateCol treatCol a = .ok f)
    (hne : itemCol ≠ treatCol) (hi : itemCol ∈ assign.cols) (ht : treatCol ∈ assign.cols) (hs : "no_nulls" ∉ a.skip)
    (hk : ∀ n ∈ a.atLeastOne.map Prod.snd, n ∉ ["item_id", "date", "week_id", "week_start", "time_period"])
    (r : Row K) (hr : r ∈ perf.rows) (t : ℤ) (ht' : C.ext.toDate (r dateCol) = .ok (some t))
    (hout : t < start - d.pretest * (7 * 86400000000000) ∨ start + d.runtime * (7 * 86400000000000) ≤ t) :
    prepareExperiment C perf assign d startDate itemCol dateCol treatCol a = .error .valueError := by
  obtain ⟨start', hst', hcol, hrows⟩ := C85_calendar_columns R p C perf assign f d hd startDate itemCol dateCol treatCol a hb
    (fun n hn hc => hk n hn (by simp only [List.mem_cons] at hc ⊢; tauto))
  obtain rfl : start' = start := by rw [hst] at hst'; simpa using hst'.symm
  obtain ⟨b1, b2, -, -⟩ := build_items hb hne hi ht (fun n hn => by
    have := hk n hn
    simp only [List.mem_cons, not_or] at this
    exact ⟨this.1, this.2.1⟩)
  obtain ⟨_, a', missing, f1, f2, f5, -, hca, B⟩ := buildExperiment_ok hb
  obtain ⟨-, -, hne', -⟩ := missingRows_ok B.missing_ok
  obtain ⟨-, -, ca3⟩ := cleanAssignment_ok hne hi ht hca
  obtain ⟨s, hs'⟩ := List.exists_mem_of_ne_nil _ hne'
  obtain ⟨s0, hs0, -, -⟩ := forall₂_exists' ca3 hs'
  obtain ⟨q, hq, -, eq⟩ := (b2 _ ((b1 _).mpr ⟨s0, hs0, rfl⟩) (.time t)).mpr ⟨r, hr, t, ht', rfl⟩
  obtain ⟨t', w, e1, -, -, l1, l2, hnull⟩ := hrows q hq
  obtain rfl : t' = t := by rw [eq] at e1; simpa using e1.symm
  have hn : q "time_period" = .null := by
    rw [hnull]
    by_contra hcon
    push Not at hcon
    rcases hout with h | h
    · nlinarith [hcon.1]
    · nlinarith [hcon.2]
  unfold prepareExperiment
  rw [hb]
  have := (C44_nulls_reported_partial (stableSorter K) C f d "item_id" "date" "week_id" "treatment_assignment" "" startDate
    (preparedMetrics a) a.canBeNegative a.skip a.concluded ⟨q, hq, "time_period", hcol, hn⟩ hs).2
  simp only [bind, Except.bind]
  rw [this]

end window

/-! ### Examples -/

/-- Performance data of three weeks (first day `7 * 86400000000000` of the second week is the start date); item `x` is not assigned and
item `d` has no row. -/
def threeWeeks : Frame ℚ where
  cols := ["id", "day", "clk"]
  rows := [("a", 0, 1), ("a", 1, 2), ("b", 2, 5), ("c", 0, 3), ("x", 1, 9)].map (fun p c =>
    if c = "id" then Cell.str p.1 else if c = "day" then .time (p.2.1 * (7 * 86400000000000)) else if c = "clk" then .int p.2.2 else .null)

/-- The same history with the item column called `id`. -/
def fourIds : Frame ℚ where
  cols := ["id", "clicks"]
  rows := [("a", 100), ("b", 1), ("c", 2), ("d", 3)].map (fun p c =>
    if c = "id" then Cell.str p.1 else if c = "clicks" then .int p.2 else .null)

/-- The design of the example: one pretest week and two runtime weeks (a design needs more than 50 items, so the check of their number is
skipped below). -/
def fourDesign : Py (Design ℚ) := mkDesign (Rounding.exact ℚ) saltedDesign.toDesignParams

/-- The table assigned by the coinflip. -/
def fourAssigned : Py (Frame ℚ) := do
  let d ← fourDesign
  (performAssignment (Rounding.exact ℚ) noShuffle exampleChecker.ext exampleChecker.binom [] fourIds d "id" none "t").2

/-- Prepares the experiment data of some performance data for this assignment: the assignment, the columns and some of the content. -/
def fourPrepared (perf : Frame ℚ) : Py (List (List (Cell ℚ)) × List String × List (List (Cell ℚ))) := do
  let d ← fourDesign
  let assign ← fourAssigned
  let out ← prepareExperiment exampleChecker perf assign d "2024-01-08" "id" "day" "t"
    { std := { clicks := some "clk" }, atLeastOne := [("clicks", "any")], skip := ["number_of_items_matches_design"] }
  pure (assign.table, out.cols, out.rows.map (fun r => ["item_id", "date", "clicks", "week_id", "time_period", "any"].map r))

/-- The expected rows. -/
def fourExpected (p : String × ℤ × ℚ) : List (Cell ℚ) :=
  [.str p.1, .time (p.2.1 * (7 * 86400000000000)), .num p.2.2, .int (p.2.1 - 1), .str (if p.2.1 = 0 then "pretest" else "test"),
    .int (if p.2.2 = 0 then 0 else 1)]

/-- C60, C61 and C85 are not vacuous: a design is created, four items are assigned, and the experiment data prepared from them
has one row for each of them in each of the three weeks. -/
example : fourPrepared threeWeeks =
    .ok (["a", "b", "c", "d"].map (fun i => [.str i, .int ((Coinflip.mk "abc").flip i)]),
      ["item_id", "date", "clicks", "week_id", "week_start", "time_period", "any", "treatment_assignment"],
      [("a", 0, 1), ("a", 1, 2), ("a", 2, 0), ("b", 0, 0), ("b", 1, 0), ("b", 2, 5), ("c", 0, 3), ("c", 1, 0), ("c", 2, 0),
        ("d", 0, 0), ("d", 1, 0), ("d", 2, 0)].map fourExpected) := by
  decide +kernel

/-- Performance data with a date in the week after the runtime. -/
def fourWeeks : Frame ℚ where
  cols := threeWeeks.cols
  rows := threeWeeks.rows ++ [fun c => if c = "id" then .str "a" else if c = "day" then .time (3 * (7 * 86400000000000)) else .int 1]

/-- C85: a date after the runtime raises `ValueError`, although the data is built without an error. -/
example : (fourDesign >>= fun d => fourAssigned >>= fun assign =>
      (buildExperiment exampleChecker.ext fourWeeks assign d "2024-01-08" "id" "day" "t" { std := { clicks := some "clk" } }).map
        (fun o => o.rows.length)) = .ok 16 ∧
    fourPrepared fourWeeks = .error .valueError := by
  decide +kernel

end Feedx
