import Verif.Props.Experiment
import Verif.Props.TimePeriod

/-!
C104: the data of a correctly run experiment is accepted.
-/

set_option linter.unusedSectionVars false
set_option linter.unusedSimpArgs false

namespace Feedx

variable {K : Type} [Field K] [LinearOrder K]

/-! ### Specification -/

/-- A date of the performance data. -/
def Spec.PerfDate (E : Ext K) (perf : Frame K) (dateCol : String) (t : ℤ) : Prop := ∃ r ∈ perf.rows, E.toDate (r dateCol) = .ok (some t)

/-- Names used by the prepared data itself. -/
def Spec.calendarNames : List String := ["week_id", "week_start", "time_period", "treatment_assignment"]

/-- The names given by the caller can be used together. -/
structure Spec.NamesFit (perf assign : Frame K) (itemCol dateCol treatCol : String) (a : ExperimentArgs) : Prop where
  /-- the performance data has the columns named, and no two of them are the same -/
  perfCols : ∀ c ∈ itemCol :: dateCol :: (Spec.metricSources a).map Prod.snd, c ∈ perf.cols
  distinct : (itemCol :: dateCol :: (Spec.metricSources a).map Prod.snd).Nodup
  /-- the assignment table has an item and a treatment column -/
  assignCols : assign.cols = [itemCol, treatCol]
  different : itemCol ≠ treatCol
  /-- other metrics are not called like a standard column -/
  other : ∀ c ∈ a.other, c ∉ standardNames ∧ c ∉ Spec.calendarNames
  /-- at-least-one metrics are made from the metrics and have new names -/
  sources : ∀ q ∈ a.atLeastOne, q.1 ∈ preparedMetrics a
  new : (a.atLeastOne.map Prod.snd).Nodup ∧ ∀ n ∈ a.atLeastOne.map Prod.snd, n ∉ preparedMetrics a ∧ n ∉ ["item_id", "date"] ∧
    n ∉ Spec.calendarNames

/-- The performance data of an experiment that was run according to the design `d` from the date `start` on. -/
structure Spec.CorrectPerformance (E : Ext K) (d : Design K) (perf : Frame K) (itemCol dateCol : String) (a : ExperimentArgs) (start : ℤ) :
    Prop where
  /-- every row has a date of the experiment, from the pretest to the runtime -/
  dates : ∀ r ∈ perf.rows, ∃ t, E.toDate (r dateCol) = .ok (some t) ∧ start - d.pretest * (7 * 86400000000000) ≤ t ∧
    t < start + d.runtime * (7 * 86400000000000)
  first : Spec.PerfDate E perf dateCol (start - d.pretest * (7 * 86400000000000))
  last : a.concluded = true → ∃ t, Spec.PerfDate E perf dateCol t ∧ start + (d.runtime - 1) * (7 * 86400000000000) ≤ t
  /-- the dates are all one day or all one week apart -/
  spaced : ∃ n : ℤ, (n = 1 ∨ n = 7) ∧ ∀ s t, Spec.PerfDate E perf dateCol s → Spec.PerfDate E perf dateCol t → s < t →
    (∀ u, Spec.PerfDate E perf dateCol u → ¬ (s < u ∧ u < t)) → t - s = n * 86400000000000
  /-- no item has two rows on a date -/
  once : ∀ s t, Spec.perfRows E perf itemCol dateCol s t ≤ 1
  /-- the metrics are finite or missing, and not negative unless they may be -/
  numbers : ∀ s ∈ Spec.metricSources a, ∀ r ∈ perf.rows, ∃ x, Spec.parsed E a s.1 (r s.2) = .ok x ∧
    (x = .nan ∨ ∃ y, x = .fin y ∧ (s.1 ∉ a.canBeNegative → 0 ≤ y))
  /-- the design's primary metric is among the metrics -/
  primary : d.primaryMetric ∈ preparedMetrics a

/-- The assignment table of the design `d`. -/
structure Spec.CorrectAssignment (C : Checker K) (d : Design K) (assign : Frame K) (itemCol treatCol salt : String) (pvalue : K) : Prop where
  /-- as many items as the design says are assigned, each once and by its coinflip -/
  ids : (assign.rows.map (fun r => C.ext.toStr (r itemCol))).Nodup
  count : (assign.rows.length : ℤ) = d.nAfterPre
  salted : d.salt = some salt ∧ salt ≠ ""
  treated : ∀ r ∈ assign.rows, C.ext.toInt (r treatCol) = .ok ((Coinflip.mk salt).flip (C.ext.toStr (r itemCol)) : ℤ)
  /-- the binomial test does not find a sample ratio mismatch -/
  ratio : C.binom (assign.rows.countP (fun r => decide ((Coinflip.mk salt).flip (C.ext.toStr (r itemCol)) = 1))) assign.rows.length = .ok pvalue ∧
    1 / 1000 ≤ pvalue

/-- The performance data and the assignment table of an experiment that was run according to the design. -/
structure Spec.CorrectRun (C : Checker K) (d : Design K) (perf assign : Frame K) (itemCol dateCol treatCol : String) (a : ExperimentArgs)
    (start : ℤ) (salt : String) (pvalue : K) : Prop extends
  Spec.CorrectPerformance C.ext d perf itemCol dateCol a start, Spec.CorrectAssignment C d assign itemCol treatCol salt pvalue

/-! ### The data is built -/

theorem standardize_returns {E : Ext K} {f : Frame K} {itemCol dateCol : String} {s : StdCols} {other : List String}
    (h1 : ∀ c ∈ other, c ∉ standardNames)
    (h3 : ∀ p ∈ columnNames itemCol dateCol s (other.map (fun c => (c, c))), p.2 ∈ f.cols)
    (h4 : ((columnNames itemCol dateCol s (other.map (fun c => (c, c)))).map Prod.snd).Nodup)
    (h5 : ∀ p ∈ columnNames itemCol dateCol s (other.map (fun c => (c, c))), ∀ r ∈ f.rows,
      ∃ c, parseCell E (other.map (fun c => (c, floatParse E))) p.1 (r p.2) = .ok c) :
    ∃ out, standardize E f itemCol dateCol s (other.map (fun c => (c, c))) (other.map (fun c => (c, floatParse E))) = .ok out := by
  unfold standardize
  obtain ⟨cols, hcols⟩ := Py.mapM_returns (l := columnNames itemCol dateCol s (other.map (fun c => (c, c)))) (f := fun p => do
    let l ← (f.col p.2).mapM (parseCell E (other.map (fun c => (c, floatParse E))) p.1)
    pure (p.1, l)) (by
      intro p hp
      obtain ⟨l, hl⟩ := Py.mapM_returns (l := f.col p.2) (f := parseCell E (other.map (fun c => (c, floatParse E))) p.1) (by
        intro c hc
        obtain ⟨r, hr, rfl⟩ := List.mem_map.mp hc
        exact h5 p hp r hr)
      exact ⟨(p.1, l), by simp only [hl]; rfl⟩)
  refine ⟨ofColumns f.rows.length cols, raiseIf_bind_ok.mpr ⟨?_, raiseIf_bind_ok.mpr ⟨?_, raiseIf_bind_ok.mpr ⟨?_, raiseIf_bind_ok.mpr ⟨?_, ?_⟩⟩⟩⟩⟩
  · simp only [List.any_eq_true, not_exists, not_and]
    intro p hp
    obtain ⟨c, hc, rfl⟩ := List.mem_map.mp hp
    simpa using h1 c hc
  · simp only [List.any_eq_true, not_exists, not_and]
    intro p hp
    obtain ⟨c, hc, rfl⟩ := List.mem_map.mp hp
    simp [h1 c hc, hc]
  · simp only [List.any_eq_true, not_exists, not_and]
    intro p hp
    simpa using h3 p hp
  · exact not_not.mpr h4
  · rw [hcols]
    rfl

theorem parse_returns {E : Ext K} {itemCol dateCol : String} {a : ExperimentArgs} (h1 : ∀ c ∈ a.other, c ∉ standardNames) {r : Row K}
    (hdate : ∃ t, E.toDate (r dateCol) = .ok t) (hnum : ∀ s ∈ Spec.metricSources a, ∃ x, Spec.parsed E a s.1 (r s.2) = .ok x)
    (hnd : a.other.Nodup) {p : String × String} (hp : p ∈ columnNames itemCol dateCol a.std (a.other.map (fun c => (c, c)))) :
    ∃ c, parseCell E (a.other.map (fun c => (c, floatParse E))) p.1 (r p.2) = .ok c := by
  have look : ∀ m, m ∈ standardNames → (a.other.map (fun c => (c, floatParse E))).lookup m = none := by
    intro m hm
    rw [List.lookup_eq_none_iff]
    intro q hq
    rw [bne_iff_ne]
    obtain ⟨c, hc, rfl⟩ := List.mem_map.mp hq
    rintro rfl
    exact h1 _ hc hm
  rw [columnNames_eq, List.mem_cons, List.mem_cons, List.mem_append] at hp
  unfold parseCell
  rcases hp with rfl | rfl | hp | hp
  · rw [look _ (by simp [standardNames])]
    simp
  · rw [look _ (by simp [standardNames])]
    obtain ⟨t, ht⟩ := hdate
    simp only [ht]
    exact ⟨Cell.ofTime t, rfl⟩
  · obtain ⟨n1, n2, n3⟩ := requestedMetrics_names hp
    obtain ⟨x, hx⟩ := hnum p (List.mem_append_left _ hp)
    rw [look _ n1]
    unfold Spec.parsed at hx
    rw [if_neg (fun hc => h1 _ hc n1)] at hx
    simp only [if_neg n2, if_neg n3, if_pos n1, hx]
    exact ⟨Cell.ofFl x, rfl⟩
  · obtain ⟨x, hx⟩ := hnum p (List.mem_append_right _ hp)
    obtain ⟨c, hc, rfl⟩ := List.mem_map.mp hp
    have hnd' : ((a.other.map (fun c => (c, floatParse E))).map Prod.fst).Nodup := by simpa [Function.comp_def] using hnd
    have := lookup_of_mem hnd' (List.mem_map.mpr ⟨c, hc, rfl⟩ : (c, floatParse E) ∈ a.other.map (fun c => (c, floatParse E)))
    simp only at this hx ⊢
    rw [this]
    unfold Spec.parsed at hx
    rw [if_pos hc] at hx
    simp only [floatParse, hx]
    exact ⟨Cell.ofFl x, rfl⟩

/-- The metric cells of the filled data: zero, or a number of the performance data. -/
theorem filled_metric {E : Ext K} {perf f1 f2 a' : Frame K} {itemCol dateCol : String} {a : ExperimentArgs} {missing : List (Row K)}
    (hstd : standardize E perf itemCol dateCol a.std (a.other.map (fun c => (c, c))) (a.other.map (fun c => (c, floatParse E))) = .ok f1)
    (hmiss : missingRows E perf a' itemCol dateCol = .ok missing)
    (hfill : fillMissing (mergeMissing f1 missing) "item_id" "date" = .ok f2) {s : String × String} (hs : s ∈ Spec.metricSources a)
    {r : Row K} (hr : r ∈ f2.rows) :
    Spec.IsZero (r s.1) ∨ ∃ p ∈ perf.rows, ∃ x, Spec.parsed E a s.1 (p s.2) = .ok x ∧ x ≠ .nan ∧ r s.1 = Cell.ofFl x := by
  obtain ⟨s1, -, -, -, -⟩ := standardize_ok (standardize_nodup hstd) hstd
  have hv := standardize_values hstd
  obtain ⟨-, -, -, r0, -, hF⟩ := missingRows_ok hmiss
  have hn : s.1 ≠ "item_id" ∧ s.1 ≠ "date" := by
    rcases List.mem_append.mp hs with hs | hs
    · exact (requestedMetrics_names hs).2
    · obtain ⟨c, hc, rfl⟩ := List.mem_map.mp hs
      have := s1 (c, c) (List.mem_map.mpr ⟨c, hc, rfl⟩)
      constructor
      · rintro rfl; exact this (by simp [standardNames])
      · rintro rfl; exact this (by simp [standardNames])
  have hcell : ∀ q ∈ (mergeMissing f1 missing).rows, q s.1 = .null ∨ ∃ p ∈ perf.rows, ∃ x, Spec.parsed E a s.1 (p s.2) = .ok x ∧
      q s.1 = Cell.ofFl x := by
    intro q hq
    rw [(mergeMissing_perm f1 missing).mem_iff, List.mem_append] at hq
    rcases hq with hq | hq
    · obtain ⟨p, hp, e⟩ := forall₂_exists' hv hq
      obtain ⟨x, e1, e2⟩ := e s hs
      exact Or.inr ⟨p, hp, x, e1, e2⟩
    · obtain ⟨i, -, t, -, rfl⟩ := forall₂_exists' hF hq
      exact Or.inl (by simp [hn.1, hn.2])
  have hzero : Spec.IsZero (zeroCell ((mergeMissing f1 missing).col s.1)) := by
    refine zeroCell_isZero ?_
    intro c hc
    obtain ⟨q, hq, rfl⟩ := List.mem_map.mp hc
    rcases hcell q hq with e | ⟨p, hp, x, -, e⟩
    · rw [e]; exact ⟨by simp, by simp⟩
    · rw [e]; exact number_ofFl x
  have hfilled : ∀ q : Row K, (q s.1 = .null ∨ ∃ p ∈ perf.rows, ∃ x, Spec.parsed E a s.1 (p s.2) = .ok x ∧ q s.1 = Cell.ofFl x) →
      Spec.IsZero (fillRow (mergeMissing f1 missing) "item_id" "date" q s.1) ∨ ∃ p ∈ perf.rows, ∃ x, Spec.parsed E a s.1 (p s.2) = .ok x ∧
        x ≠ .nan ∧ fillRow (mergeMissing f1 missing) "item_id" "date" q s.1 = Cell.ofFl x := by
    intro q hq
    unfold fillRow
    simp only [hn.1, hn.2, or_self, if_false]
    rcases hq with e | ⟨p, hp, x, e1, e2⟩
    · rw [e]
      exact Or.inl hzero
    · rw [e2]
      cases x with
      | nan => exact Or.inl hzero
      | pinf => exact Or.inr ⟨p, hp, _, e1, by simp, rfl⟩
      | ninf => exact Or.inr ⟨p, hp, _, e1, by simp, rfl⟩
      | fin y => exact Or.inr ⟨p, hp, _, e1, by simp, rfl⟩
  rw [(fill_perm hfill).mem_iff, List.mem_append] at hr
  rcases hr with hr | hr
  · obtain ⟨q, hq, rfl⟩ := List.mem_map.mp hr
    exact hfilled q (hcell q hq)
  · obtain ⟨i, t, -, -, -, rfl⟩ := mem_addedRows hr
    exact hfilled _ (Or.inl (by simp [blankRow, hn.1, hn.2]))

theorem sources_columns {a : ExperimentArgs} {itemCol dateCol : String} :
    (columnNames itemCol dateCol a.std (a.other.map (fun c => (c, c)))).map Prod.snd =
      itemCol :: dateCol :: (Spec.metricSources a).map Prod.snd := by
  rw [columnNames_eq]
  rfl

theorem metricSources_names {a : ExperimentArgs} {m : String} : m ∈ (Spec.metricSources a).map Prod.fst ↔ m ∈ preparedMetrics a := by
  rw [mem_preparedMetrics]
  unfold Spec.metricSources
  simp [List.map_append]

/-- The columns of the data before the assignment is joined. -/
theorem names_columns {a : ExperimentArgs} {itemCol dateCol : String} {c : String} :
    c ∈ (columnNames itemCol dateCol a.std (a.other.map (fun c => (c, c)))).map Prod.fst ↔
      c = "item_id" ∨ c = "date" ∨ c ∈ preparedMetrics a := by
  rw [columnNames_eq, ← metricSources_names]
  unfold Spec.metricSources
  simp only [List.map_cons, List.mem_cons]

theorem cleanAssignment_returns {E : Ext K} {assign : Frame K} {itemCol treatCol : String} (hc : assign.cols = [itemCol, treatCol])
    (hne : itemCol ≠ treatCol) (h : ∀ r ∈ assign.rows, ∃ z, E.toInt (r treatCol) = .ok z) :
    ∃ a', cleanAssignment E assign itemCol treatCol = .ok a' ∧ a'.cols = ["item_id", "treatment_assignment"] := by
  have e1 : renameCol itemCol treatCol itemCol = "item_id" := by unfold renameCol; rw [if_neg hne, if_pos rfl]
  have e2 : renameCol itemCol treatCol treatCol = "treatment_assignment" := by unfold renameCol; rw [if_pos rfl]
  have hcols : assign.cols.map (renameCol itemCol treatCol) = ["item_id", "treatment_assignment"] := by
    rw [hc]
    simp [e1, e2]
  have hold : (assign.cols.find? (fun k => decide (renameCol itemCol treatCol k = "treatment_assignment"))).getD "treatment_assignment" =
      treatCol := by
    rw [hc]
    simp [e1, e2]
  unfold cleanAssignment
  simp only [hcols]
  obtain ⟨rows, hrows⟩ := Py.mapM_returns (l := assign.rows) (f := fun r => do
    let t ← E.toInt (r ((assign.cols.find? (fun k => decide (renameCol itemCol treatCol k = "treatment_assignment"))).getD
      "treatment_assignment"))
    pure ((fun c => if c = "item_id" then .str (E.toStr (r ((assign.cols.find? (fun k => decide (renameCol itemCol treatCol k = "item_id"))).getD
      "item_id"))) else if c = "treatment_assignment" then .int t
      else r ((assign.cols.find? (fun k => decide (renameCol itemCol treatCol k = c))).getD c)) : Row K)) (by
      intro r hr
      obtain ⟨z, hz⟩ := h r hr
      rw [← hold] at hz
      simp only [hz]
      exact ⟨_, rfl⟩)
  refine ⟨⟨["item_id", "treatment_assignment"], rows⟩, raiseIf_bind_ok.mpr ⟨by decide, raiseIf_bind_ok.mpr ⟨by decide, raiseIf_bind_ok.mpr ⟨by decide, ?_⟩⟩⟩, rfl⟩
  rw [hrows]
  rfl

theorem missingRows_returns {E : Ext K} {perf a' : Frame K} {itemCol dateCol : String} (hi : itemCol ∈ perf.cols) (hd : dateCol ∈ perf.cols)
    (ha : nunique (a'.col "item_id") ≠ 0) (hr : perf.rows ≠ []) (ht : ∀ r ∈ perf.rows, ∃ t, E.toDate (r dateCol) = .ok t) :
    ∃ missing, missingRows E perf a' itemCol dateCol = .ok missing := by
  unfold missingRows
  cases e : perf.rows with
  | nil => exact absurd e hr
  | cons r0 rest =>
    obtain ⟨t, ht⟩ := ht r0 (by rw [e]; simp)
    obtain ⟨missing, hm⟩ := Py.mapM_returns (l := missingItems E perf a' itemCol) (f := fun i => do
      let t ← E.toDate (r0 dateCol)
      pure ((fun c => if c = "item_id" then i else if c = "date" then Cell.ofTime t else .null) : Row K)) (by
        intro i _
        simp only [ht]
        exact ⟨_, rfl⟩)
    exact ⟨missing, raiseIf_bind_ok.mpr ⟨not_not.mpr hi, raiseIf_bind_ok.mpr ⟨ha, raiseIf_bind_ok.mpr ⟨not_not.mpr hd, hm⟩⟩⟩⟩

theorem numeric_ofFl (x : Fl K) : (Cell.ofFl x).isNumeric = true := by cases x <;> rfl

theorem numeric_zero {c : Cell K} (h : Spec.IsZero c) : c.isNumeric = true := by
  rcases h with rfl | rfl <;> rfl

theorem all_columns {c : String} {P Q : Prop} :
    ((c = "item_id" ∨ c = "date" ∨ P ∨ c = "week_id" ∨ c = "week_start" ∨ c = "time_period") ∨ Q) ∨
      c ∈ ["item_id", "treatment_assignment"].filter (fun c => decide (c ≠ "item_id")) ↔
    c ∈ ["item_id", "date", "week_id", "week_start", "time_period", "treatment_assignment"] ∨ P ∨ Q := by
  rw [show ["item_id", "treatment_assignment"].filter (fun c => decide (c ≠ "item_id")) = ["treatment_assignment"] by decide]
  simp only [List.mem_cons, List.not_mem_nil, or_false]
  tauto

section build
variable [IsStrictOrderedRing K] [FloorRing K]

/-- The data is built, and has exactly the expected columns. -/
theorem buildExperiment_returns {R : Rounding K} {p : DesignParams K} {d : Design K} (hdes : mkDesign R p = .ok d) {E : Ext K}
    {perf assign : Frame K} {startDate itemCol dateCol treatCol : String} {a : ExperimentArgs} {start : ℤ}
    (hst : E.strptime startDate = some start) (hn : Spec.NamesFit perf assign itemCol dateCol treatCol a)
    (hrows : perf.rows ≠ []) (harows : assign.rows ≠ [])
    (hdates : ∀ r ∈ perf.rows, ∃ t, E.toDate (r dateCol) = .ok (some t))
    (hnum : ∀ s ∈ Spec.metricSources a, ∀ r ∈ perf.rows, ∃ x, Spec.parsed E a s.1 (r s.2) = .ok x)
    (htr : ∀ r ∈ assign.rows, ∃ z, E.toInt (r treatCol) = .ok z) :
    ∃ out, buildExperiment E perf assign d startDate itemCol dateCol treatCol a = .ok out ∧
      ∀ c, c ∈ out.cols ↔ c ∈ ["item_id", "date", "week_id", "week_start", "time_period", "treatment_assignment"] ∨ c ∈ preparedMetrics a ∨
        c ∈ a.atLeastOne.map Prod.snd := by
  have hi : itemCol ∈ assign.cols := by rw [hn.assignCols]; simp
  have ht : treatCol ∈ assign.cols := by rw [hn.assignCols]; simp
  obtain ⟨a', ea, eac⟩ := cleanAssignment_returns (E := E) hn.assignCols hn.different htr
  obtain ⟨-, -, ca3⟩ := cleanAssignment_ok hn.different hi ht ea
  have hne0 : nunique (a'.col "item_id") ≠ 0 := by
    rw [nunique_eq]
    cases e : assign.rows with
    | nil => exact absurd e harows
    | cons r0 rest =>
      obtain ⟨s, hs, e1, -⟩ := forall₂_exists ca3 (by rw [e]; simp : r0 ∈ assign.rows)
      apply Finset.card_ne_zero_of_mem (a := s "item_id")
      rw [Finset.mem_erase, List.mem_toFinset]
      exact ⟨by rw [e1]; simp, List.mem_map.mpr ⟨s, hs, rfl⟩⟩
  obtain ⟨missing, em⟩ := missingRows_returns (a' := a') (hn.perfCols itemCol (by simp)) (hn.perfCols dateCol (by simp)) hne0 hrows
    (fun r hr => by obtain ⟨t, ht⟩ := hdates r hr; exact ⟨some t, ht⟩)
  have hother : ∀ c ∈ a.other, c ∉ standardNames := fun c hc => (hn.other c hc).1
  have hond : a.other.Nodup := by
    have := hn.distinct
    unfold Spec.metricSources at this
    simp only [List.map_append, List.map_map, List.nodup_cons, List.nodup_append] at this
    simpa [Function.comp_def] using this.2.2.2.1
  obtain ⟨f1, e1⟩ := standardize_returns (E := E) (f := perf) (itemCol := itemCol) (dateCol := dateCol) (s := a.std) hother
    (by
      intro q hq
      refine hn.perfCols q.2 ?_
      rw [← sources_columns]
      exact List.mem_map.mpr ⟨q, hq, rfl⟩)
    (by rw [sources_columns]; exact hn.distinct)
    (fun q hq r hr => parse_returns hother (by obtain ⟨t, ht⟩ := hdates r hr; exact ⟨some t, ht⟩) (fun s hs => hnum s hs r hr) hond hq)
  have hc1 : ∀ c, c ∈ f1.cols ↔ c = "item_id" ∨ c = "date" ∨ c ∈ preparedMetrics a := by
    intro c
    rw [(standardize_ok (standardize_nodup e1) e1).2.2.2.1]
    exact names_columns
  obtain ⟨f2, e2⟩ := (C42_fill_returns (mergeMissing f1 missing) "item_id" "date" (by decide)).1
    ⟨(hc1 _).mpr (Or.inl rfl), (hc1 _).mpr (Or.inr (Or.inl rfl))⟩
  have hc2 : ∀ c, c ∈ f2.cols ↔ c = "item_id" ∨ c = "date" ∨ c ∈ preparedMetrics a := by
    intro c
    obtain ⟨-, -, -, h4, -⟩ := fillMissing_ok e2
    rw [h4]
    simp only [List.mem_cons, List.mem_filter, decide_eq_true_eq]
    have := hc1 c
    unfold mergeMissing
    simp only
    tauto
  have ht2 : ∀ r ∈ f2.rows, ∃ t, r "date" = .time t := by
    intro r hr
    have := (fill_mem e2 hr).2
    obtain ⟨q, hq, e⟩ := List.mem_map.mp this
    rw [← e]
    rw [(mergeMissing_perm f1 missing).mem_iff, List.mem_append] at hq
    rcases hq with hq | hq
    · obtain ⟨q', hq', -, t, e1, e2⟩ := forall₂_exists' (standardize_keys (standardize_nodup e1) e1) hq
      obtain ⟨t', ht'⟩ := hdates q' hq'
      rw [ht'] at e1
      cases e1
      exact ⟨t', e2⟩
    · obtain ⟨-, -, -, r0, hr0, hF⟩ := missingRows_ok em
      obtain ⟨i, -, t, e1, rfl⟩ := forall₂_exists' hF hq
      obtain ⟨t', ht'⟩ := hdates r0 hr0
      rw [ht'] at e1
      cases e1
      exact ⟨t', rfl⟩
  obtain ⟨f3, e3⟩ := addWeeks_returns (E := E) (f := f2) "week_id" "week_start" (startDate := some startDate)
    ((hc2 _).mpr (Or.inr (Or.inl rfl))) ht2 (by intro s hs; cases hs; rw [hst]; rfl)
  obtain ⟨-, -, t0, -, -, h3⟩ := addWeeks_ok e3
  have hmetric : ∀ m ∈ preparedMetrics a, m ∉ Spec.calendarNames ∧ m ≠ "item_id" ∧ m ≠ "date" := by
    intro m hm
    rcases mem_preparedMetrics.mp hm with hm | hm
    · obtain ⟨q, hq, rfl⟩ := List.mem_map.mp hm
      unfold Spec.requestedMetrics at hq
      simp only [List.mem_append, List.mem_map] at hq
      rcases hq with (((⟨_, _, rfl⟩ | ⟨_, _, rfl⟩) | ⟨_, _, rfl⟩) | ⟨_, _, rfl⟩) | ⟨_, _, rfl⟩ <;> simp [Spec.calendarNames]
    · refine ⟨(hn.other m hm).2, ?_, ?_⟩
      · rintro rfl; exact (hn.other _ hm).1 (by simp [standardNames])
      · rintro rfl; exact (hn.other _ hm).1 (by simp [standardNames])
  have hc3 : ∀ c, c ∈ f3.cols ↔ c = "item_id" ∨ c = "date" ∨ c ∈ preparedMetrics a ∨ c = "week_id" ∨ c = "week_start" := by
    intro c
    rw [h3]
    unfold withWeeks
    rw [setCol_mem, setCol_mem, hc2]
    tauto
  have hw3 := withWeeks_forall₂ f2 t0
  rw [← h3] at hw3
  obtain ⟨f4, e4⟩ := C09_labelling_returns R p d hdes 0 "week_id" "time_period" f3
    (by
      rw [hc3]
      rintro (h | h | h | h | h)
      · simp at h
      · simp at h
      · exact (hmetric _ h).1 (by simp [Spec.calendarNames])
      · simp at h
      · simp at h)
    ((hc3 _).mpr (by simp))
    (by
      intro r hr
      obtain ⟨q, hq, -, e⟩ := forall₂_exists' hw3 hr
      obtain ⟨t, ht⟩ := ht2 q hq
      rw [(e t ht).1]
      rfl)
  have h4 := e4
  unfold addTimePeriodColumn at h4
  obtain ⟨-, h4⟩ := raiseIf_bind_ok.mp h4
  obtain ⟨-, h4⟩ := raiseIf_bind_ok.mp h4
  unfold labelRows at h4
  obtain ⟨-, h4⟩ := raiseIf_bind_ok.mp h4
  obtain ⟨-, h4⟩ := raiseIf_bind_ok.mp h4
  replace h4 := (Except.ok.inj h4).symm
  have hc4 : ∀ c, c ∈ f4.cols ↔ c = "item_id" ∨ c = "date" ∨ c ∈ preparedMetrics a ∨ c = "week_id" ∨ c = "week_start" ∨ c = "time_period" := by
    intro c
    rw [h4, setCol_mem, hc3]
    tauto
  have hdis : ∀ q ∈ a.atLeastOne, q.1 ∉ a.atLeastOne.map Prod.snd := fun q hq hc => (hn.new.2 _ hc).1 (hn.sources q hq)
  obtain ⟨f5, e5⟩ := C54_returns a.atLeastOne f4 hn.new.1 hdis
    (fun q hq => (hc4 _).mpr (Or.inr (Or.inr (Or.inl (hn.sources q hq)))))
    (by
      intro q hq r hr
      obtain ⟨hcal, hn1, hn2⟩ := hmetric _ (hn.sources q hq)
      simp only [Spec.calendarNames, List.mem_cons, List.not_mem_nil, or_false, not_or] at hcal
      rw [h4] at hr
      obtain ⟨r3, hr3, -, k4⟩ := forall₂_exists' (setCol_forall₂ ..) hr
      obtain ⟨r2, hr2, k3, -⟩ := forall₂_exists' hw3 hr3
      rw [k4 _ hcal.2.2.1, k3 _ hcal.1 hcal.2.1]
      obtain ⟨c, hc⟩ := mem_metricSources (hn.sources q hq)
      rcases filled_metric e1 em e2 hc hr2 with hz | ⟨_, _, x, _, _, e⟩
      · exact numeric_zero hz
      · simp only at e
        rw [e]
        exact numeric_ofFl x)
  obtain ⟨hc5, -⟩ := C54_indicators a.atLeastOne f4 f5 e5 hn.new.1 hdis
  have e6 : mergeAssignment f5 a' = .ok {
      cols := f5.cols ++ a'.cols.filter (fun c => decide (c ≠ "item_id"))
      rows := f5.rows.flatMap (fun r => (a'.rows.filter (fun s => decide (s "item_id" = r "item_id"))).map (joinRow f5.cols r)) } := by
    unfold mergeAssignment
    refine raiseIf_bind_ok.mpr ⟨?_, rfl⟩
    rw [List.any_eq_true]
    rintro ⟨c, hc, hc'⟩
    rw [eac] at hc
    rw [decide_eq_true_eq, hc5, hc4] at hc'
    simp only [List.mem_cons, List.not_mem_nil, or_false] at hc
    rcases hc with rfl | rfl
    · exact hc'.1 rfl
    · rcases hc'.2 with (h | h | h | h | h | h) | h
      · simp at h
      · simp at h
      · exact (hmetric _ h).1 (by simp [Spec.calendarNames])
      · simp at h
      · simp at h
      · simp at h
      · exact (hn.new.2 _ h).2.2 (by simp [Spec.calendarNames])
  obtain ⟨out, e6, hout⟩ : ∃ out, mergeAssignment f5 a' = .ok out ∧ out.cols = f5.cols ++ a'.cols.filter (fun c => decide (c ≠ "item_id")) :=
    ⟨_, e6, rfl⟩
  refine ⟨out, ?_, ?_⟩
  · unfold buildExperiment
    rw [ea]
    simp only [bind, Except.bind, em, e1, e2, e3, e4, e5]
    exact e6
  · intro c
    rw [hout, eac, List.mem_append, hc5, hc4]
    exact all_columns

/-- What the built data holds. -/
structure RunTable (C : Checker K) (d : Design K) (perf assign out : Frame K) (itemCol dateCol : String) (a : ExperimentArgs) (start : ℤ)
    (salt : String) : Prop where
  cols : ∀ c, c ∈ out.cols ↔ c ∈ ["item_id", "date", "week_id", "week_start", "time_period", "treatment_assignment"] ∨ c ∈ preparedMetrics a ∨
    c ∈ a.atLeastOne.map Prod.snd
  calendar : ∀ r ∈ out.rows, ∃ t w : ℤ, r "date" = .time t ∧ r "week_id" = .int w ∧ r "week_start" = .time (start + 7 * w * 86400000000000) ∧
    start + 7 * w * 86400000000000 ≤ t ∧ t < start + 7 * (w + 1) * 86400000000000 ∧ r "time_period" ≠ .null
  items : ∀ i, i ∈ out.col "item_id" ↔ ∃ s ∈ assign.rows, i = .str (C.ext.toStr (s itemCol))
  dates : ∀ t, Spec.HasDate out "date" t ↔ Spec.PerfDate C.ext perf dateCol t
  treated : ∀ r ∈ out.rows, ∃ s ∈ assign.rows, r "item_id" = .str (C.ext.toStr (s itemCol)) ∧
    r "treatment_assignment" = .int ((Coinflip.mk salt).flip (C.ext.toStr (s itemCol)))
  once : Spec.OneRowEach out "item_id" "date"
  metrics : ∀ m ∈ preparedMetrics a, ∀ r ∈ out.rows, Spec.IsZero (r m) ∨ ∃ y, r m = .num y ∧ (m ∉ a.canBeNegative → 0 ≤ y)
  indicators : ∀ n ∈ a.atLeastOne.map Prod.snd, ∀ r ∈ out.rows, r n = .int 0 ∨ r n = .int 1

theorem addAtLeastOne_bits {pairs : List (String × String)} {f out : Frame K} (h : addAtLeastOne pairs f = .ok out) {n : String}
    (hn : n ∈ pairs.map Prod.snd) {r : Row K} (hr : r ∈ out.rows) : r n = .int 0 ∨ r n = .int 1 := by
  induction pairs generalizing f with
  | nil => simp at hn
  | cons q pairs ih =>
    obtain ⟨m, new⟩ := q
    unfold addAtLeastOne at h
    obtain ⟨-, h⟩ := raiseIf_bind_ok.mp h
    obtain ⟨-, h⟩ := raiseIf_bind_ok.mp h
    by_cases hin : n ∈ pairs.map Prod.snd
    · exact ih h hin
    · obtain rfl : n = new := by
        rw [List.map_cons, List.mem_cons] at hn
        exact hn.resolve_right hin
      obtain ⟨-, hk⟩ := addAtLeastOne_keeps h
      obtain ⟨r1, hr1, e1⟩ := forall₂_exists' hk hr
      obtain ⟨r0, -, e0, -⟩ := forall₂_exists' (setCol_forall₂ ..) hr1
      rw [e1 _ hin, e0]
      unfold positiveCell
      split
      · exact Or.inr rfl
      · exact Or.inl rfl

theorem runTable {R : Rounding K} {p : DesignParams K} {d : Design K} (hdes : mkDesign R p = .ok d) {C : Checker K}
    {perf assign : Frame K} {startDate itemCol dateCol treatCol : String} {a : ExperimentArgs} {start : ℤ} {salt : String} {pvalue : K}
    (hst : C.ext.strptime startDate = some start) (hn : Spec.NamesFit perf assign itemCol dateCol treatCol a)
    (h : Spec.CorrectRun C d perf assign itemCol dateCol treatCol a start salt pvalue) :
    ∃ out, buildExperiment C.ext perf assign d startDate itemCol dateCol treatCol a = .ok out ∧
      RunTable C d perf assign out itemCol dateCol a start salt := by
  have hi : itemCol ∈ assign.cols := by rw [hn.assignCols]; simp
  have ht : treatCol ∈ assign.cols := by rw [hn.assignCols]; simp
  have hpos : 50 < d.nAfterPre := by
    obtain ⟨hdd, hvalid⟩ := (mkDesign_ok_iff R p d).mp hdes
    obtain ⟨hleg, h50⟩ := (validateDesign_ok_iff R _).mp hvalid
    have hpost : d.nAfterPost = d.nAfterPre - 2 * R.floorMul d.postTrim.val d.nAfterPre := by rw [hdd]; rfl
    have h50 : 50 < d.nAfterPost := h50
    have h0 : 0 ≤ d.nAfterPre := by rw [← h.count]; positivity
    have := floorMul_nonneg R hleg.post_nonneg h0
    omega
  have harows : assign.rows ≠ [] := by
    intro e
    have := h.count
    rw [e] at this
    simp at this
    omega
  have hrows : perf.rows ≠ [] := by
    obtain ⟨r, hr, -⟩ := h.first
    exact List.ne_nil_of_mem hr
  obtain ⟨out, hb, hcols⟩ := buildExperiment_returns hdes hst hn hrows harows
    (fun r hr => by obtain ⟨t, ht, -⟩ := h.dates r hr; exact ⟨t, ht⟩)
    (fun s hs r hr => by obtain ⟨x, hx, -⟩ := h.numbers s hs r hr; exact ⟨x, hx⟩)
    (fun r hr => ⟨_, h.treated r hr⟩)
  have hnew : ∀ n ∈ a.atLeastOne.map Prod.snd, n ∉ ["item_id", "date", "week_id", "week_start", "time_period"] := by
    intro n hm hc
    obtain ⟨-, h2, h3⟩ := hn.new.2 n hm
    simp only [Spec.calendarNames, List.mem_cons, List.not_mem_nil, or_false, not_or] at h2 h3 hc
    tauto
  have hnew' : ∀ n ∈ a.atLeastOne.map Prod.snd, n ≠ "item_id" ∧ n ≠ "date" := by
    intro n hm
    have := hnew n hm
    simp only [List.mem_cons, not_or] at this
    exact ⟨this.1, this.2.1⟩
  obtain ⟨start', hst', -, hcal⟩ := C85_calendar_columns R p C perf assign out d hdes startDate itemCol dateCol treatCol a hb
    (fun n hm hc => hnew n hm (by simp only [List.mem_cons] at hc ⊢; tauto))
  rw [hst] at hst'
  obtain rfl : start = start' := Option.some.inj hst'
  obtain ⟨b1, b2, -, b4⟩ := build_items hb hn.different hi ht hnew'
  have hdates : ∀ t, Spec.HasDate out "date" t ↔ Spec.PerfDate C.ext perf dateCol t := by
    intro t
    constructor
    · rintro ⟨r, hr, e⟩
      obtain ⟨q, hq, t', e1, e2⟩ := (b2 (r "item_id") (List.mem_map.mpr ⟨r, hr, rfl⟩) (.time t)).mp ⟨r, hr, rfl, e⟩
      cases e2
      exact ⟨q, hq, e1⟩
    · rintro ⟨q, hq, e⟩
      cases ha : assign.rows with
      | nil => exact absurd ha harows
      | cons s0 rest =>
        obtain ⟨r, hr, -, e'⟩ := (b2 (.str (C.ext.toStr (s0 itemCol))) ((b1 _).mpr ⟨s0, by rw [ha]; simp, rfl⟩) (.time t)).mpr ⟨q, hq, t, e, rfl⟩
        exact ⟨r, hr, e'⟩
  refine ⟨out, hb, hcols, ?_, b1, hdates, ?_, ?_, ?_, ?_⟩
  · intro r hr
    obtain ⟨t, w, e1, e2, e3, e4, e5, e6⟩ := hcal r hr
    refine ⟨t, w, e1, e2, e3, e4, e5, ?_⟩
    rw [ne_eq, e6]
    obtain ⟨q, hq, et⟩ := (hdates t).mp ⟨r, hr, e1⟩
    obtain ⟨t', et', l1, l2⟩ := h.dates q hq
    rw [et] at et'
    cases et'
    push Not
    constructor
    · by_contra hc
      have : w + 1 ≤ -d.pretest := by omega
      nlinarith
    · by_contra hc
      have : d.runtime ≤ w := by omega
      nlinarith
  · intro r hr
    obtain ⟨s, hs, e1, z, e2, e3⟩ := b4 r hr
    rw [h.treated s hs] at e2
    cases e2
    exact ⟨s, hs, e1, e3⟩
  · intro i hi' c hc
    obtain ⟨s, hs, rfl⟩ := (b1 i).mp hi'
    obtain ⟨r, hr, rfl⟩ := List.mem_map.mp hc
    obtain ⟨t, w, e, -⟩ := hcal r hr
    obtain ⟨q, hq, et⟩ := (hdates t).mp ⟨r, hr, e⟩
    have hone : Spec.assignRows C.ext assign itemCol (C.ext.toStr (s itemCol)) = 1 := by
      have h1 := List.count_eq_one_of_mem h.ids (List.mem_map.mpr ⟨s, hs, rfl⟩)
      rw [← h1, List.count, List.countP_map]
      unfold Spec.assignRows
      congr 1
    show Spec.rowsAt out "item_id" "date" _ (r "date") = 1
    rw [e, build_row_counts hb hn.different hi ht hnew' _ (by rw [hone]; omega) t ⟨q, hq, et⟩, hone,
      max_eq_left (h.once _ _)]
  · intro m hm r hr
    obtain ⟨start', a', missing, f1, f2, f5, -, hca, B⟩ := buildExperiment_ok hb
    obtain ⟨q, hq, s, hs, -, rfl⟩ := B.mem_out.mp hr
    obtain ⟨c, hc⟩ := mem_metricSources hm
    have hm5 : m ∈ f5.cols := B.cols _ (Or.inl (by
      rw [B.f2_cols, B.f1_cols]
      exact names_columns.mpr (Or.inr (Or.inr hm))))
    obtain ⟨q2, hq2, k, -⟩ := forall₂_exists' B.rows hq
    have hmn : m ∉ a.atLeastOne.map Prod.snd := fun hc => (hn.new.2 m hc).1 hm
    have hcn : m ∉ ["week_id", "week_start", "time_period"] := by
      rcases mem_preparedMetrics.mp hm with hm' | hm'
      · obtain ⟨x, hx, rfl⟩ := List.mem_map.mp hm'
        unfold Spec.requestedMetrics at hx
        simp only [List.mem_append, List.mem_map] at hx
        rcases hx with (((⟨_, _, rfl⟩ | ⟨_, _, rfl⟩) | ⟨_, _, rfl⟩) | ⟨_, _, rfl⟩) | ⟨_, _, rfl⟩ <;> simp
      · have := (hn.other m hm').2
        simp only [Spec.calendarNames, List.mem_cons, List.not_mem_nil, or_false, not_or] at this ⊢
        tauto
    have hval : joinRow f5.cols q s m = q2 m := by
      unfold joinRow
      rw [if_pos hm5]
      exact k m hcn hmn
    rw [hval]
    rcases filled_metric B.std B.missing_ok B.fill hc hq2 with hz | ⟨pr, hpr, x, hx, hxn, e⟩
    · exact Or.inl hz
    · obtain ⟨x', hx', hor⟩ := h.numbers _ hc pr hpr
      rw [hx] at hx'
      cases hx'
      rcases hor with rfl | ⟨y, rfl, hy⟩
      · exact absurd rfl hxn
      · exact Or.inr ⟨y, e, hy⟩
  · intro n hm r hr
    have hb' := hb
    unfold buildExperiment at hb'
    obtain ⟨a', ea, hb'⟩ := Py.bind_eq_ok.mp hb'
    obtain ⟨missing, em, hb'⟩ := Py.bind_eq_ok.mp hb'
    obtain ⟨f1, e1, hb'⟩ := Py.bind_eq_ok.mp hb'
    obtain ⟨f2, e2, hb'⟩ := Py.bind_eq_ok.mp hb'
    obtain ⟨f3, e3, hb'⟩ := Py.bind_eq_ok.mp hb'
    obtain ⟨f4, e4, hb'⟩ := Py.bind_eq_ok.mp hb'
    obtain ⟨f5, e5, hb'⟩ := Py.bind_eq_ok.mp hb'
    obtain ⟨hc5, -⟩ := C54_indicators a.atLeastOne f4 f5 e5 hn.new.1 (fun q hq hc => (hn.new.2 _ hc).1 (hn.sources q hq))
    unfold mergeAssignment at hb'
    obtain ⟨-, hb'⟩ := raiseIf_bind_ok.mp hb'
    cases hb'
    simp only [List.mem_flatMap, List.mem_map, List.mem_filter, decide_eq_true_eq] at hr
    obtain ⟨q, hq, s, -, rfl⟩ := hr
    unfold joinRow
    rw [if_pos ((hc5 n).mpr (Or.inr hm))]
    exact addAtLeastOne_bits e5 hm hq

theorem weekSteps_bounds {start s t v w n : ℤ} (hn : n = 1 ∨ n = 7) (e : t - s = n * 86400000000000) (v1 : start + 7 * v * 86400000000000 ≤ s)
    (v2 : s < start + 7 * (v + 1) * 86400000000000) (w1 : start + 7 * w * 86400000000000 ≤ t)
    (w2 : t < start + 7 * (w + 1) * 86400000000000) : w = v ∨ w = v + 1 := by
  rcases hn with rfl | rfl <;> omega

/-- The size of an arm. -/
theorem RunTable.arm_card {C : Checker K} {d : Design K} {perf assign out : Frame K} {itemCol dateCol : String} {a : ExperimentArgs} {start : ℤ}
    {salt : String} (h : RunTable C d perf assign out itemCol dateCol a start salt)
    (hids : (assign.rows.map (fun r => C.ext.toStr (r itemCol))).Nodup) (n : ℕ) :
    (Spec.arm out "item_id" "treatment_assignment" n).card =
      assign.rows.countP (fun r => decide ((Coinflip.mk salt).flip (C.ext.toStr (r itemCol)) = n)) := by
  classical
  obtain ⟨l, hl⟩ : ∃ l : List String, l = (assign.rows.map (fun r => C.ext.toStr (r itemCol))).filter
    (fun s => decide ((Coinflip.mk salt).flip s = n)) := ⟨_, rfl⟩
  have hset : Spec.arm out "item_id" "treatment_assignment" n = (l.map (Cell.str : String → Cell K)).toFinset := by
    unfold Spec.arm
    ext c
    simp only [Finset.mem_erase, List.mem_toFinset, List.mem_map, List.mem_filter, decide_eq_true_eq, hl]
    constructor
    · rintro ⟨hnull, r, ⟨hr, hnat⟩, rfl⟩
      obtain ⟨s, hs, e1, e2⟩ := h.treated r hr
      rw [e2] at hnat
      refine ⟨_, ⟨⟨s, hs, rfl⟩, ?_⟩, e1.symm⟩
      rcases hnat with e | e
      · have := Cell.int.inj e
        exact_mod_cast this
      · cases e
    · rintro ⟨x, ⟨⟨s, hs, rfl⟩, hflip⟩, rfl⟩
      refine ⟨by simp, ?_⟩
      obtain ⟨r, hr, e⟩ := List.mem_map.mp ((h.items _).mpr ⟨s, hs, rfl⟩)
      obtain ⟨s', hs', e1, e2⟩ := h.treated r hr
      rw [e] at e1
      refine ⟨r, ⟨hr, Or.inl ?_⟩, e⟩
      rw [e2, ← Cell.str.inj e1, hflip]
  rw [hset, List.toFinset_card_of_nodup, List.length_map, hl, ← List.countP_eq_length_filter, List.countP_map]
  · rfl
  · rw [hl]
    exact (hids.filter _).map (fun x y e => Cell.str.inj e)

/-- **C104.**  The data of every correctly run experiment is accepted: the preparation returns. -/
theorem C104_correct_run_accepted (R : Rounding K) (p : DesignParams K) (d : Design K) (hdes : mkDesign R p = .ok d) (C : Checker K)
    (perf assign : Frame K) (startDate itemCol dateCol treatCol : String) (a : ExperimentArgs) (start : ℤ) (salt : String) (pvalue : K)
    (hst : C.ext.strptime startDate = some start) (hn : Spec.NamesFit perf assign itemCol dateCol treatCol a)
    (h : Spec.CorrectRun C d perf assign itemCol dateCol treatCol a start salt pvalue) (hskip : ∀ s ∈ a.skip, s ∈ Spec.registeredChecks) :
    ∃ out, prepareExperiment C perf assign d startDate itemCol dateCol treatCol a = .ok out := by
  classical
  obtain ⟨out, hb, T⟩ := runTable hdes hst hn h
  refine ⟨out, ?_⟩
  have hnotnull : ∀ m ∈ preparedMetrics a, ∀ r ∈ out.rows, Spec.IsFinite (r m) ∧ Spec.IsNumber (r m) ∧
      (m ∉ a.canBeNegative → ¬ Spec.IsNegative (r m)) ∧ r m ≠ .null := by
    intro m hm r hr
    rcases T.metrics m hm r hr with (e | e) | ⟨y, e, hy⟩
    · rw [e]
      refine ⟨Or.inl ⟨0, rfl⟩, ⟨by simp, by simp⟩, ?_, by simp⟩
      rintro - (⟨i, hi, hlt⟩ | ⟨x, hx, -⟩ | hx)
      · cases hi; exact lt_irrefl _ hlt
      · cases hx
      · cases hx
    · rw [e]
      refine ⟨Or.inr ⟨0, rfl⟩, ⟨by simp, by simp⟩, ?_, by simp⟩
      rintro - (⟨i, hi, hlt⟩ | ⟨x, hx, hlt⟩ | hx)
      · cases hi
      · cases hx; exact lt_irrefl _ hlt
      · cases hx
    · rw [e]
      refine ⟨Or.inr ⟨y, rfl⟩, ⟨by simp, by simp⟩, ?_, by simp⟩
      rintro hneg (⟨i, hi, hlt⟩ | ⟨x, hx, hlt⟩ | hx)
      · cases hi
      · cases hx; exact absurd (hy hneg) (not_le.mpr hlt)
      · cases hx
  have hrows : out.rows ≠ [] := by
    obtain ⟨r, hr, -⟩ := (T.dates _).mpr h.first
    exact List.ne_nil_of_mem hr
  have hlen : assign.rows.countP (fun r => decide ((Coinflip.mk salt).flip (C.ext.toStr (r itemCol)) = 1)) +
      assign.rows.countP (fun r => decide ((Coinflip.mk salt).flip (C.ext.toStr (r itemCol)) = 0)) = assign.rows.length := by
    rw [List.length_eq_countP_add_countP (fun r => decide ((Coinflip.mk salt).flip (C.ext.toStr (r itemCol)) = 1)) (l := assign.rows)]
    congr 1
    refine List.countP_congr fun r _ => ?_
    have hlt : (Coinflip.mk salt).flip (C.ext.toStr (r itemCol)) < 2 := Nat.mod_lt _ (by decide)
    simp only [decide_eq_true_eq, Bool.not_eq_true', decide_eq_false_iff_not]
    omega
  have hcheck : Spec.CheckableExperiment C out d "item_id" "date" "week_id" "treatment_assignment" (preparedMetrics a) startDate start salt
      pvalue := by
    refine ⟨(T.cols _).mpr (by simp), (T.cols _).mpr (by simp), (T.cols _).mpr (by simp), (T.cols _).mpr (by simp),
      fun m hm => (T.cols _).mpr (Or.inr (Or.inl hm)), by decide, by decide, hrows, ?_, ?_, ?_, fun m hm r hr => (hnotnull m hm r hr).2.1, hst,
      h.salted, ?_⟩
    · intro r hr
      obtain ⟨t, w, e, -⟩ := T.calendar r hr
      exact ⟨t, e⟩
    · intro r hr
      obtain ⟨t, w, -, e, -⟩ := T.calendar r hr
      exact ⟨w, e⟩
    · intro r hr r' hr' e
      obtain ⟨t, w, e1, e2, -, l1, l2, -⟩ := T.calendar r hr
      obtain ⟨t', w', e1', e2', -, l1', l2', -⟩ := T.calendar r' hr'
      rw [e1, e1'] at e
      obtain rfl : t = t' := Cell.time.inj e
      rw [e2, e2']
      congr 1
      omega
    · rw [T.arm_card h.ids 1, T.arm_card h.ids 0, hlen]
      exact h.ratio.1
  have hv := (C49_experiment_partial C out d "item_id" "date" "week_id" "treatment_assignment" (preparedMetrics a) startDate a.concluded
    a.canBeNegative a.skip start salt pvalue hcheck).1.mpr
    ⟨hskip, Or.inr h.primary, Or.inr ?_, Or.inr ?_, Or.inr ?_, Or.inr ?_, Or.inr ?_, Or.inr ?_, Or.inr ?_, Or.inr ?_, Or.inr ?_, Or.inr ?_,
      Or.inr h.ratio.2⟩
  · unfold prepareExperiment
    rw [hb]
    simp only [bind, Except.bind, hv]
    rfl
  · intro r hr c hc
    obtain ⟨t, w, e1, e2, e3, -, -, e6⟩ := T.calendar r hr
    obtain ⟨s, -, e7, e8⟩ := T.treated r hr
    rcases (T.cols c).mp hc with hc | hc | hc
    · simp only [List.mem_cons, List.not_mem_nil, or_false] at hc
      rcases hc with rfl | rfl | rfl | rfl | rfl | rfl
      · rw [e7]; simp
      · rw [e1]; simp
      · rw [e2]; simp
      · rw [e3]; simp
      · exact e6
      · rw [e8]; simp
    · exact (hnotnull c hc r hr).2.2.2
    · rcases T.indicators c hc r hr with e | e <;> rw [e] <;> simp
  · refine sameItemCounts_of_one ?_ T.once
    intro r hr
    obtain ⟨s, -, e, -⟩ := T.treated r hr
    rw [e]; simp
  · obtain ⟨n, hn1, hs⟩ := h.spaced
    have : Spec.SpacedBy n out "date" := by
      refine ⟨?_, ?_⟩
      · intro _ _ r hr
        obtain ⟨t, w, e, -⟩ := T.calendar r hr
        rw [e]; simp
      · intro s t hs1 ht1 hlt hbetween
        have := hs s t ((T.dates s).mp hs1) ((T.dates t).mp ht1) hlt (fun u hu => hbetween u ((T.dates u).mpr hu))
        rcases hn1 with rfl | rfl <;> constructor <;> omega
    rcases hn1 with rfl | rfl
    · exact Or.inr this
    · exact Or.inl this
  · obtain ⟨n, hn1, hs⟩ := h.spaced
    intro r hr r' hr' v w s t ev es ew et hlt hbetween
    have e := hs s t ((T.dates s).mp ⟨r, hr, es⟩) ((T.dates t).mp ⟨r', hr', et⟩) hlt (fun u hu => hbetween u ((T.dates u).mpr hu))
    obtain ⟨t1, w1, e1, e2, -, l1, l2, -⟩ := T.calendar r hr
    obtain ⟨t2, w2, e1', e2', -, l1', l2', -⟩ := T.calendar r' hr'
    rw [es] at e1; rw [ev] at e2; rw [et] at e1'; rw [ew] at e2'
    cases e1; cases e2; cases e1'; cases e2'
    exact weekSteps_bounds hn1 e l1 l2 l1' l2'
  · exact fun m hm r hr => (hnotnull m hm r hr).1
  · exact fun m hm hneg r hr => (hnotnull m hm r hr).2.2.1 hneg
  · rw [← h.count]
    congr 1
    have : Spec.itemSet out "item_id" = ((assign.rows.map (fun r => C.ext.toStr (r itemCol))).map (Cell.str : String → Cell K)).toFinset := by
      unfold Spec.itemSet
      ext c
      rw [Finset.mem_erase, List.mem_toFinset, List.mem_toFinset, T.items]
      simp only [List.mem_map]
      constructor
      · rintro ⟨-, s, hs, rfl⟩
        exact ⟨_, ⟨s, hs, rfl⟩, rfl⟩
      · rintro ⟨_, ⟨s, hs, rfl⟩, rfl⟩
        exact ⟨by simp, s, hs, rfl⟩
    rw [this, List.toFinset_card_of_nodup (h.ids.map (fun x y e => Cell.str.inj e)), List.length_map, List.length_map]
  · refine ⟨⟨_, (T.dates _).mpr h.first, le_refl _⟩, ?_⟩
    intro hc
    obtain ⟨t, h1, h2⟩ := h.last hc
    exact ⟨t, (T.dates t).mpr h1, h2⟩
  · intro i hi hnull
    obtain ⟨s, hs, rfl⟩ := (T.items i).mp hi
    refine ⟨.int ((Coinflip.mk salt).flip (C.ext.toStr (s itemCol))), by simp, ?_, ?_⟩
    · obtain ⟨r, hr, e⟩ := List.mem_map.mp hi
      obtain ⟨s', hs', e1, e2⟩ := T.treated r hr
      rw [e] at e1
      exact ⟨r, hr, e, by rw [e2, Cell.str.inj e1]⟩
    · intro r hr e
      obtain ⟨s', hs', e1, e2⟩ := T.treated r hr
      rw [e] at e1
      exact Or.inl (by rw [e2, Cell.str.inj e1])
  · intro r hr
    obtain ⟨s, hs, e1, e2⟩ := T.treated r hr
    rw [e1, e2, C.ext.toStr_str]
    exact Or.inl rfl

/-- The table returned by the treatment assignment is a correct assignment table of the design as the call leaves it. -/
theorem correct_own_assignment {R : Rounding K} {σ : Shuffle} {C : Checker K} {bytes : List ℕ} {hist assign : Frame K} {d d' : Design K}
    {itemCol : String} {weekCol : Option String} {treatCol : String} (hsize : hist.rows.length ≤ 2 ^ 51)
    (ha : performAssignment R σ C.ext C.binom bytes hist d itemCol weekCol treatCol = (d', .ok assign))
    (htext : ∀ i ∈ assign.col itemCol, ∀ j ∈ assign.col itemCol, C.ext.toStr i = C.ext.toStr j → i = j)
    (hnull : Cell.null ∉ assign.col itemCol) (hcount : (assign.rows.length : ℤ) = d.nAfterPre) :
    ∃ salt pvalue, Spec.CorrectAssignment C d' assign itemCol treatCol salt pvalue := by
  classical
  obtain ⟨⟨salt, hs1, hs2, hflip⟩, hcols, hnd, -, -⟩ := C57_each_eligible_item_once R σ C.ext C.binom bytes hist assign d d' itemCol weekCol
    treatCol hsize ha
  obtain ⟨salt', -, hd'⟩ := C58_salt_set R σ C.ext C.binom bytes hist assign d d' itemCol weekCol treatCol ha
  have hids : (assign.rows.map (fun r => C.ext.toStr (r itemCol))).Nodup := by
    have : assign.rows.map (fun r => C.ext.toStr (r itemCol)) = (assign.col itemCol).map C.ext.toStr := by
      unfold Frame.col
      rw [List.map_map]
      rfl
    rw [this]
    exact List.Nodup.map_on htext hnd
  have hr := ha
  unfold performAssignment at hr
  split at hr
  · cases hr
  split at hr
  · cases hr
  split at hr
  · cases hr
  split at hr
  · cases hr
  rename_i coin hcoin
  have hr2 := congrArg Prod.snd hr
  simp only at hr2
  obtain ⟨items, -, hr2⟩ := Py.bind_eq_ok.mp hr2
  obtain ⟨_, hratio, hr2⟩ := Py.bind_eq_ok.mp hr2
  have hr3 : assignedFrame C.ext coin itemCol treatCol items = assign := Except.ok.inj hr2
  rw [hr3] at hratio
  replace hratio := runCheck_passed hratio
  unfold checkRatio at hratio
  obtain ⟨-, hratio⟩ := raiseIf_bind_ok.mp hratio
  obtain ⟨pv, hpv, hratio⟩ := Py.bind_eq_ok.mp hratio
  have hge := of_decide_eq_false (Except.ok.inj hratio)
  have harm : ∀ n : ℕ, armSize assign itemCol treatCol (n : K) =
      assign.rows.countP (fun r => decide ((Coinflip.mk salt).flip (C.ext.toStr (r itemCol)) = n)) := by
    intro n
    unfold armSize
    rw [nunique_eq]
    have hfil : assign.rows.filter (fun r => decide ((r treatCol).toFl = .fin (n : K))) =
        assign.rows.filter (fun r => decide ((Coinflip.mk salt).flip (C.ext.toStr (r itemCol)) = n)) := by
      refine List.filter_congr fun r hr => ?_
      rw [hflip r hr]
      refine decide_eq_decide.mpr ⟨fun e => ?_, fun e => ?_⟩
      · have := Fl.fin.inj e
        exact_mod_cast this
      · rw [e]
        show Fl.fin _ = Fl.fin _
        push_cast
        rfl
    rw [hfil, Finset.erase_eq_of_notMem, List.toFinset_card_of_nodup, List.length_map, List.countP_eq_length_filter]
    · exact hnd.sublist (List.filter_sublist.map _)
    · rw [List.mem_toFinset]
      intro hc
      obtain ⟨r, hr, e⟩ := List.mem_map.mp hc
      exact hnull (List.mem_map.mpr ⟨r, List.mem_of_mem_filter hr, e⟩)
  have a1 := harm 1
  have a0 := harm 0
  push_cast at a1 a0
  have hlen : assign.rows.countP (fun r => decide ((Coinflip.mk salt).flip (C.ext.toStr (r itemCol)) = 1)) +
      assign.rows.countP (fun r => decide ((Coinflip.mk salt).flip (C.ext.toStr (r itemCol)) = 0)) = assign.rows.length := by
    rw [List.length_eq_countP_add_countP (fun r => decide ((Coinflip.mk salt).flip (C.ext.toStr (r itemCol)) = 1)) (l := assign.rows)]
    congr 1
    refine List.countP_congr fun r _ => ?_
    have hlt : (Coinflip.mk salt).flip (C.ext.toStr (r itemCol)) < 2 := Nat.mod_lt _ (by decide)
    simp only [decide_eq_true_eq, Bool.not_eq_true', decide_eq_false_iff_not]
    omega
  rw [a1, a0, hlen] at hpv
  refine ⟨salt, pv, hids, ?_, ⟨hs1, hs2⟩, ?_, hpv, not_lt.mp hge⟩
  · rw [hcount, hd']
  · intro r hr
    rw [hflip r hr]
    exact C.ext.toInt_int _

/-- **C104, with the tool's own assignment.**  The treatment assignment of a created design, followed by the preparation of performance data
of a correctly run experiment: the preparation returns.  (The texts of the items differ, no item is missing, and as many items were assigned as
the design says; C56 states when the assignment does that.) -/
theorem C104_own_assignment_accepted (R : Rounding K) (p : DesignParams K) (d d' : Design K) (hdes : mkDesign R p = .ok d) (σ : Shuffle)
    (C : Checker K) (bytes : List ℕ) (hist assign perf : Frame K) (startDate itemCol dateCol treatCol : String) (weekCol : Option String)
    (hsize : hist.rows.length ≤ 2 ^ 51)
    (ha : performAssignment R σ C.ext C.binom bytes hist d itemCol weekCol treatCol = (d', .ok assign))
    (htext : ∀ i ∈ assign.col itemCol, ∀ j ∈ assign.col itemCol, C.ext.toStr i = C.ext.toStr j → i = j)
    (hnull : Cell.null ∉ assign.col itemCol) (hcount : (assign.rows.length : ℤ) = d.nAfterPre) (a : ExperimentArgs) (start : ℤ)
    (hst : C.ext.strptime startDate = some start) (hn : Spec.NamesFit perf assign itemCol dateCol treatCol a)
    (h : Spec.CorrectPerformance C.ext d perf itemCol dateCol a start) (hskip : ∀ s ∈ a.skip, s ∈ Spec.registeredChecks) :
    ∃ out, prepareExperiment C perf assign d' startDate itemCol dateCol treatCol a = .ok out := by
  obtain ⟨salt, pv, hca⟩ := correct_own_assignment hsize ha htext hnull hcount
  obtain ⟨salt', -, hd'⟩ := C58_salt_set R σ C.ext C.binom bytes hist assign d d' itemCol weekCol treatCol ha
  have hdes' : mkDesign R { p with salt := some salt' } = .ok d' := by
    obtain ⟨hdd, hval⟩ := (mkDesign_ok_iff R p d).mp hdes
    rw [mkDesign_ok_iff, hd', hdd]
    refine ⟨rfl, ?_⟩
    rw [hdd] at hval
    exact hval
  refine C104_correct_run_accepted R _ d' hdes' C perf assign startDate itemCol dateCol treatCol a start salt pv hst hn ⟨?_, hca⟩ hskip
  rw [hd']
  exact ⟨h.dates, h.first, h.last, h.spaced, h.once, h.numbers, h.primary⟩

end build

/-! ### A concrete case -/

section example_
variable [IsStrictOrderedRing K] [FloorRing K]

/-- Sixty items, one pretest week, two weeks of runtime. -/
def sixtyParams (K : Type) [Field K] (x : Bool) : DesignParams K where
  nBefore := 60
  runtime := 2
  primaryMetric := "clicks"
  pretest := 1
  isCrossover := x
  preTop := .float 0
  preBottom := .float 0
  postTrim := .float 0
  washout := if x then some 0 else none
  alpha := .float (1 / 20)
  power := .float (4 / 5)
  salt := some "abc"

/-- See `sixtyParams`. -/
def sixtyDesign (K : Type) [Field K] (x : Bool) : Design K := { sixtyParams K x with nAfterPre := 60, nAfterPost := 60 }

theorem sixtyDesign_created (R : Rounding K) (x : Bool) : mkDesign R (sixtyParams K x) = .ok (sixtyDesign K x) := by
  have h0 : R.rnd 0 = 0 := by simpa using R.intFix 0 (by norm_num)
  have hf : ∀ n : ℤ, R.floorMul 0 n = 0 := by
    intro n
    unfold Rounding.floorMul
    rw [zero_mul, h0]; simp
  rw [mkDesign_ok_iff]
  constructor
  · unfold deriveCounts sixtyDesign
    have h1 : (sixtyParams K x).preTop.val = 0 := rfl
    have h2 : (sixtyParams K x).preBottom.val = 0 := rfl
    have h3 : (sixtyParams K x).postTrim.val = 0 := rfl
    simp only [h1, h2, h3, hf]
    rfl
  · rw [validateDesign_ok_iff]
    refine ⟨⟨(by decide : (0 : ℤ) < 2), (by decide : (0 : ℤ) ≤ 1), le_refl _, le_refl _, le_refl _, ?_, ?_,
      by simp [sixtyDesign, sixtyParams], ?_⟩, (by decide : (50 : ℤ) < 60)⟩
    · show R.rnd (0 + 0) < 1
      rw [zero_add, h0]; exact zero_lt_one
    · show (0 : K) < 1 / 2
      norm_num
    · intro hx
      have hx : x = true := hx
      subst hx
      exact ⟨0, rfl, le_refl _, (by decide : (2 * 0 : ℤ) < 2), ⟨1, rfl⟩⟩

/-- A conversion and a binomial test for the examples. -/
def runChecker (K : Type) [Field K] [LinearOrder K] : Checker K where
  ext := {
    toStr := fun c => match c with | .str s => s | _ => ""
    toStr_str := fun _ => rfl
    toInt := fun c => match c with | .int i => .ok i | _ => .error .valueError
    toInt_int := fun _ => rfl
    toDate := fun c => match c with | .time t => .ok (some t) | _ => .ok none
    toNumeric := fun c => .ok c.toFl
    toFloat := fun c => .ok c.toFl
    strptime := fun _ => some (7 * 86400000000000) }
  sorter := stableSorter K
  binom := fun _ _ => .ok 1

/-- Weekly performance data of two of the items; one row is missing, one value is missing. -/
def runPerf (K : Type) [Field K] : Frame K where
  cols := ["id", "day", "clk"]
  rows := [("0", 0, Cell.num 3), ("0", 7 * 86400000000000, .num 1), ("0", 14 * 86400000000000, .null), ("1", 7 * 86400000000000, .num 2),
    ("1", 14 * 86400000000000, .num 5)].map (fun q c => if c = "id" then .str q.1 else if c = "day" then .time q.2.1 else if c = "clk" then q.2.2
      else .null)

/-- The coinflips of the sixty items. -/
def runAssign (K : Type) : Frame K where
  cols := ["id", "t"]
  rows := ((List.range 60).map toString).map (fun i c => if c = "id" then .str i else if c = "t" then .int ((Coinflip.mk "abc").flip i) else .null)

/-- The clicks, and whether there were any. -/
def runArgs : ExperimentArgs := { std := { clicks := some "clk" }, atLeastOne := [("clicks", "any")] }

theorem run_sources : Spec.metricSources runArgs = [("clicks", "clk")] := by decide

theorem run_names : Spec.NamesFit (runPerf K) (runAssign K) "id" "day" "t" runArgs where
  perfCols := by
    rw [run_sources]
    show ∀ c ∈ _, c ∈ ["id", "day", "clk"]
    decide
  distinct := by decide
  assignCols := rfl
  different := by decide
  other := by decide
  sources := by decide
  new := by decide

theorem run_rows {r : Row K} (hr : r ∈ (runPerf K).rows) :
    ∃ t, (runChecker K).ext.toDate (r "day") = .ok (some t) ∧ (t = 0 ∨ t = 7 * 86400000000000 ∨ t = 14 * 86400000000000) ∧
      (r "clk" = .null ∨ ∃ y, r "clk" = .num y ∧ 0 ≤ y) := by
  obtain ⟨q, hq, rfl⟩ := List.mem_map.mp hr
  simp only [List.mem_cons, List.not_mem_nil, or_false] at hq
  rcases hq with rfl | rfl | rfl | rfl | rfl
  · exact ⟨0, rfl, by decide, Or.inr ⟨3, rfl, by norm_num⟩⟩
  · exact ⟨7 * 86400000000000, rfl, by decide, Or.inr ⟨1, rfl, by norm_num⟩⟩
  · exact ⟨14 * 86400000000000, rfl, by decide, Or.inl rfl⟩
  · exact ⟨7 * 86400000000000, rfl, by decide, Or.inr ⟨2, rfl, by norm_num⟩⟩
  · exact ⟨14 * 86400000000000, rfl, by decide, Or.inr ⟨5, rfl, by norm_num⟩⟩

theorem run_dates {t : ℤ} : Spec.PerfDate (runChecker K).ext (runPerf K) "day" t ↔ t = 0 ∨ t = 7 * 86400000000000 ∨ t = 14 * 86400000000000 := by
  constructor
  · rintro ⟨r, hr, e⟩
    obtain ⟨t', e', h, -⟩ := run_rows hr
    rw [e] at e'
    cases e'
    exact h
  · have hm : ∀ q ∈ [("0", (0 : ℤ), (Cell.num 3 : Cell K)), ("0", 7 * 86400000000000, .num 1), ("0", 14 * 86400000000000, .null),
        ("1", 7 * 86400000000000, .num 2), ("1", 14 * 86400000000000, .num 5)], Spec.PerfDate (runChecker K).ext (runPerf K) "day" q.2.1 :=
      fun q hq => ⟨_, List.mem_map.mpr ⟨q, hq, rfl⟩, rfl⟩
    rintro (rfl | rfl | rfl)
    · exact hm ("0", 0, .num 3) (by simp)
    · exact hm ("0", 7 * 86400000000000, .num 1) (by simp)
    · exact hm ("0", 14 * 86400000000000, .null) (by simp)

theorem run_performance (x : Bool) : Spec.CorrectPerformance (runChecker K).ext (sixtyDesign K x) (runPerf K) "id" "day" runArgs
    (7 * 86400000000000) where
  dates := by
    intro r hr
    obtain ⟨t, e, h, -⟩ := run_rows hr
    refine ⟨t, e, ?_⟩
    show 7 * 86400000000000 - 1 * (7 * 86400000000000) ≤ t ∧ t < 7 * 86400000000000 + 2 * (7 * 86400000000000)
    omega
  first := run_dates.mpr (by left; rfl)
  last := fun _ => ⟨14 * 86400000000000, run_dates.mpr (by simp),
    (by decide : (7 * 86400000000000 + (2 - 1) * (7 * 86400000000000) : ℤ) ≤ 14 * 86400000000000)⟩
  spaced := by
    refine ⟨7, Or.inr rfl, ?_⟩
    intro s t hs ht hlt hb
    have := hb (7 * 86400000000000) (run_dates.mpr (by simp))
    rw [run_dates] at hs ht
    omega
  once := by
    intro s t
    have hkeys : ((runPerf K).rows.map (fun r => ((runChecker K).ext.toStr (r "id"), (runChecker K).ext.toDate (r "day")))).Nodup := by
      show ([("0", .ok (some 0)), ("0", .ok (some (7 * 86400000000000))), ("0", .ok (some (14 * 86400000000000))),
        ("1", .ok (some (7 * 86400000000000))), ("1", .ok (some (14 * 86400000000000)))] : List (String × Py (Option ℤ))).Nodup
      decide
    have := List.nodup_iff_count_le_one.mp hkeys (s, .ok (some t))
    rw [List.count, List.countP_map] at this
    refine le_trans (le_of_eq ?_) this
    unfold Spec.perfRows
    refine List.countP_congr fun r _ => ?_
    simp
  numbers := by
    intro s hs r hr
    rw [run_sources, List.mem_singleton] at hs
    subst hs
    obtain ⟨-, -, -, h⟩ := run_rows hr
    refine ⟨(r "clk").toFl, rfl, ?_⟩
    rcases h with e | ⟨y, e, hy⟩
    · rw [e]; exact Or.inl rfl
    · rw [e]; exact Or.inr ⟨y, rfl, fun _ => hy⟩
  primary := by
    show "clicks" ∈ preparedMetrics runArgs
    decide

theorem run_texts : (runAssign K).rows.map (fun r => (runChecker K).ext.toStr (r "id")) = (List.range 60).map toString := by
  unfold runAssign
  simp only [List.map_map]
  rfl

theorem run_assignment (x : Bool) : Spec.CorrectAssignment (runChecker K) (sixtyDesign K x) (runAssign K) "id" "t" "abc" 1 where
  ids := by
    rw [run_texts]
    decide +kernel
  count := by
    unfold runAssign
    simp
    rfl
  salted := ⟨rfl, by decide⟩
  treated := by
    intro r hr
    obtain ⟨i, -, rfl⟩ := List.mem_map.mp hr
    rfl
  ratio := ⟨rfl, by norm_num⟩

/-- The hypotheses of C104 are met, for crossover and regular designs; so the data is prepared. -/
theorem run_prepared (R : Rounding K) (x : Bool) :
    ∃ out, prepareExperiment (runChecker K) (runPerf K) (runAssign K) (sixtyDesign K x) "2024-01-08" "id" "day" "t" runArgs = .ok out :=
  C104_correct_run_accepted R _ _ (sixtyDesign_created R x) (runChecker K) (runPerf K) (runAssign K) "2024-01-08" "id" "day" "t" runArgs
    (7 * 86400000000000) "abc" 1 rfl run_names ⟨run_performance x, run_assignment x⟩ (by decide)

/-- The sixty items of the history. -/
def runHistory (K : Type) : Frame K where
  cols := ["id"]
  rows := ((List.range 60).map toString).map (fun i _ => .str i)

/-- The hypotheses of the theorem with the tool's own assignment are met: the history is assigned, and the data is prepared. -/
example (R : Rounding K) (σ : Shuffle) (x : Bool) :
    ∃ assign out, performAssignment R σ (runChecker K).ext (runChecker K).binom [] (runHistory K) (sixtyDesign K x) "id" none "t" =
        (sixtyDesign K x, .ok assign) ∧
      prepareExperiment (runChecker K) (runPerf K) assign (sixtyDesign K x) "2024-01-08" "id" "day" "t" runArgs = .ok out := by
  classical
  have hcol : (runHistory K).col "id" = ((List.range 60).map toString).map Cell.str := by
    unfold runHistory Frame.col
    simp only [List.map_map]
    rfl
  have hnd : ((List.range 60).map toString).Nodup := by decide +kernel
  obtain ⟨assign, ha⟩ := (C57_returns R σ (runChecker K).ext (runChecker K).binom [] (runHistory K) (sixtyDesign K x) "id" none "t" "abc" rfl
    (by decide) ⟨le_refl _, le_refl _⟩ (List.mem_singleton.mpr rfl) (by decide) (by rw [hcol]; simp) 1 rfl).1 (by norm_num)
  have hsize : (runHistory K).rows.length ≤ 2 ^ 51 := by
    unfold runHistory
    rw [List.length_map, List.length_map, List.length_range]
    norm_num
  obtain ⟨-, hcols, hnodup, hitems, -⟩ := C57_each_eligible_item_once R σ (runChecker K).ext (runChecker K).binom [] (runHistory K) assign
    (sixtyDesign K x) (sixtyDesign K x) "id" none "t" hsize ha
  replace hitems := hitems ⟨le_refl _, le_refl _⟩
  have hstr : ∀ i ∈ assign.col "id", ∃ s, i = .str s := by
    intro i hi
    rw [hitems, hcol] at hi
    obtain ⟨s, -, rfl⟩ := List.mem_map.mp hi
    exact ⟨s, rfl⟩
  obtain ⟨out, ho⟩ := C104_own_assignment_accepted R _ (sixtyDesign K x) (sixtyDesign K x) (sixtyDesign_created R x) σ (runChecker K) []
    (runHistory K) assign (runPerf K) "2024-01-08" "id" "day" "t" none hsize ha
    (by
      intro i hi j hj e
      obtain ⟨s, rfl⟩ := hstr i hi
      obtain ⟨s', rfl⟩ := hstr j hj
      exact congrArg Cell.str e)
    (by
      intro hc
      obtain ⟨s, e⟩ := hstr _ hc
      cases e)
    (by
      have : (assign.col "id").length = 60 := by
        rw [← List.toFinset_card_of_nodup hnodup, show (assign.col "id").toFinset = ((runHistory K).col "id").toFinset from
          Finset.ext fun i => by rw [List.mem_toFinset, List.mem_toFinset, hitems], hcol,
          List.toFinset_card_of_nodup (hnd.map (fun a b e => Cell.str.inj e)), List.length_map, List.length_map, List.length_range]
      unfold Frame.col at this
      rw [List.length_map] at this
      rw [this]
      rfl)
    runArgs (7 * 86400000000000) rfl { run_names with assignCols := hcols } (run_performance x) (by decide)
  exact ⟨assign, out, ha, ho⟩

end example_

end Feedx
