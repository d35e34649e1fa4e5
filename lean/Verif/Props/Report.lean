import Verif.Proofs.Report
import Verif.Props.EndToEnd
import Verif.Props.ConstantPretest

/-!
Property C115: what an analysis reports, from the rows of the data.
-/

set_option linter.unusedSectionVars false

namespace Feedx
open Fl

/-- What a crossover analysis reports for a metric of the items: the paired t-test of the values of the items while they were treated and while they were not
(C38), or of the ratios of these values. -/
def Spec.CrossoverReport {ι : Type} (R : Rounding ℝ) (argsort : List ℝ → List ℕ) (D : TDist) (d : Design ℝ) (items : List ι) (group : Bool → ι → Prop)
    (val : String → ℤ → ℤ → ι → ℝ) (m : Metric) (r : TestResult) : Prop :=
  ∃ v1 v2, CrossoverArrays (items.map (Spec.crossoverOf d group (val m.column))) (m.override.getD d.postTrim.val) v1 v2 ∧
    match m.denominator with
    | none => pairedTest R argsort D v1 v2 (m.override.getD d.postTrim.val) none none "two-sided" (1 / 20) = .ok r
    | some c => ∃ w1 w2, CrossoverArrays (items.map (Spec.crossoverOf d group (val c))) (m.override.getD d.postTrim.val) w1 w2 ∧
        pairedTest R argsort D v1 v2 (m.override.getD d.postTrim.val) (some w1) (some w2) "two-sided" (1 / 20) = .ok r

/-- The same if the values of the second test period may lose their fractions; `whole c` tells whether the column `c` is held as integers. -/
def Spec.CrossoverReportInto {ι : Type} (R : Rounding ℝ) (argsort : List ℝ → List ℕ) (D : TDist) (d : Design ℝ) (items : List ι) (group : Bool → ι → Prop)
    (val : String → ℤ → ℤ → ι → ℝ) (whole : String → Prop) (m : Metric) (r : TestResult) : Prop :=
  ∃ s v1 v2, Spec.DropsFractions (Spec.LosesFractions (whole m.column) d items (val m.column)) s ∧
    CrossoverArraysInto s (items.map (Spec.crossoverOf d group (val m.column))) (m.override.getD d.postTrim.val) v1 v2 ∧
    match m.denominator with
    | none => pairedTest R argsort D v1 v2 (m.override.getD d.postTrim.val) none none "two-sided" (1 / 20) = .ok r
    | some c => ∃ s' w1 w2, Spec.DropsFractions (Spec.LosesFractions (whole c) d items (val c)) s' ∧
        CrossoverArraysInto s' (items.map (Spec.crossoverOf d group (val c))) (m.override.getD d.postTrim.val) w1 w2 ∧
        pairedTest R argsort D v1 v2 (m.override.getD d.postTrim.val) (some w1) (some w2) "two-sided" (1 / 20) = .ok r

/-- No fraction is lost in the values of the metric and of its denominator. -/
def Spec.MetricKept {ι : Type} (d : Design ℝ) (items : List ι) (val : String → ℤ → ℤ → ι → ℝ) (whole : String → Prop) (m : Metric) : Prop :=
  ∀ c, c = m.column ∨ m.denominator = some c → Spec.FractionsKept (whole c) d items (val c)

theorem drops_kept {ι : Type} {whole : Prop} {d : Design ℝ} {items : List ι} {group : Bool → ι → Prop} {val : ℤ → ℤ → ι → ℝ} {s : ℝ → ℝ}
    (hs : Spec.DropsFractions (Spec.LosesFractions whole d items val) s) (hk : Spec.FractionsKept whole d items val) {q : ℝ} {v1 v2 : List ℝ}
    (ha : CrossoverArraysInto s (items.map (Spec.crossoverOf d group val)) q v1 v2) :
    CrossoverArrays (items.map (Spec.crossoverOf d group val)) q v1 v2 := by
  have e : ∀ i ∈ items.map (Spec.crossoverOf d group val), i.stored s = i := by
    intro x hx
    obtain ⟨i, hi, rfl⟩ := List.mem_map.mp hx
    have e1 : s (val (d.runtime / 2 + d.washout.getD 0) d.runtime i) = val (d.runtime / 2 + d.washout.getD 0) d.runtime i := by
      by_cases hl : Spec.LosesFractions whole d items val
      · obtain ⟨n, hn⟩ := hk hl i hi
        exact drops_whole (hs.1 hl _) ⟨n, hn⟩
      · exact hs.2 hl _
    unfold Spec.CrossoverItem.stored Spec.crossoverOf
    dsimp only
    rw [e1]
  have e1 := List.map_congr_left (f := fun i : Spec.CrossoverItem => (i.stored s).treated 0 0) (g := fun i => i.treated 0 0) (fun i hi => by rw [e i hi])
  have e2 := List.map_congr_left (f := fun i : Spec.CrossoverItem => (i.stored s).untreated 0 0) (g := fun i => i.untreated 0 0) (fun i hi => by rw [e i hi])
  unfold CrossoverArraysInto at ha
  rw [e1, e2] at ha
  exact ha

theorem crossoverReport_kept {ι : Type} {R : Rounding ℝ} {argsort : List ℝ → List ℕ} {D : TDist} {d : Design ℝ} {items : List ι} {group : Bool → ι → Prop}
    {val : String → ℤ → ℤ → ι → ℝ} {whole : String → Prop} {m : Metric} {r : TestResult} (hk : Spec.MetricKept d items val whole m)
    (h : Spec.CrossoverReportInto R argsort D d items group val whole m r) : Spec.CrossoverReport R argsort D d items group val m r := by
  obtain ⟨s, v1, v2, hs, ha, h⟩ := h
  refine ⟨v1, v2, drops_kept hs (hk _ (Or.inl rfl)) ha, ?_⟩
  cases hden : m.denominator with
  | none =>
    rw [hden] at h
    exact h
  | some c =>
    rw [hden] at h
    obtain ⟨s', w1, w2, hs', hb, h⟩ := h
    exact ⟨w1, w2, drops_kept hs' (hk _ (Or.inr hden)) hb, h⟩

/-- The same, from the rows of the data. -/
abbrev Spec.ReportsCrossover (R : Rounding ℝ) (argsort : List ℝ → List ℕ) (D : TDist) (d : Design ℝ) (f : Frame ℝ) (itemCol weekCol treatCol : String)
    (items : List (Cell ℝ)) (m : Metric) (r : TestResult) : Prop :=
  Spec.CrossoverReport R argsort D d items (Spec.InGroup f itemCol treatCol) (Spec.weeklyValue f itemCol weekCol) m r

theorem analyze_rows {R : Rounding ℝ} {argsort : List ℝ → List ℕ} {D : TDist} {p : DesignParams ℝ} {d : Design ℝ} (hd : mkDesign R p = .ok d)
    {itemCol weekCol treatCol : String} {columns : List String} {f : Frame ℝ} (hf : Spec.ExperimentData d itemCol weekCol treatCol columns f)
    {metrics : List Metric} (hm : Spec.MetricsFrom columns metrics) {rows : List (String × TestResult)}
    (h : (analyzeExperiment R argsort D d.toDesignParams metrics weekCol itemCol treatCol f).1 = .ok rows) :
    ∃ piv, PivotedData d itemCol weekCol treatCol (metricColumns metrics) f piv ∧
      List.Forall₂ (fun m e => e.1 = m.name ∧ m ∈ metrics ∧ analyzeSingleMetric R argsort D piv (metricColumns metrics) [itemCol, treatCol] d.toDesignParams
        m.column m.denominator treatCol m.override = .ok e.2) metrics rows := by
  obtain ⟨piv, f', hpiv, hP⟩ := analysable_pivot hd hf (mem_metricColumns hm)
  refine ⟨piv, hP, ?_⟩
  unfold analyzeExperiment at h
  rw [if_neg hm.1] at h
  simp only [hpiv] at h
  have h := mapM_ok h
  have hsub : ∀ l : List Metric, (∀ m ∈ l, m ∈ metrics) → ∀ rows', List.Forall₂ (fun m (e : String × TestResult) => (do
      let r ← analyzeSingleMetric R argsort D piv (metricColumns metrics) [itemCol, treatCol] d.toDesignParams m.column m.denominator treatCol m.override
      pure (m.name, r) : Py (String × TestResult)) = .ok e) l rows' →
      List.Forall₂ (fun m e => e.1 = m.name ∧ m ∈ metrics ∧ analyzeSingleMetric R argsort D piv (metricColumns metrics) [itemCol, treatCol] d.toDesignParams
        m.column m.denominator treatCol m.override = .ok e.2) l rows' := by
    intro l hl rows' h'
    induction h' with
    | nil => exact List.Forall₂.nil
    | @cons m e l rows' h1 _ ih =>
      refine List.Forall₂.cons ?_ (ih (fun m hm => hl m (by simp [hm])))
      obtain ⟨r, hr, e'⟩ := Py.bind_eq_ok.mp h1
      cases e'
      exact ⟨rfl, hl m (by simp), hr⟩
  exact hsub metrics (fun _ h => h) rows h

/-- **C115, regular experiments.**  The rows of the analysis of a regular experiment are the t-tests of the values of the items: of the weekly values of
the test weeks, adjusted with those of the pretest weeks if there are any, in the two groups of items; without estimates for a metric that is constant in
the pretest weeks. -/
theorem C115_regular (R : Rounding ℝ) (argsort : List ℝ → List ℕ) (D : TDist) (p : DesignParams ℝ) (d : Design ℝ) (hd : mkDesign R p = .ok d)
    (hx : d.isCrossover = false) (itemCol weekCol treatCol : String) (columns : List String) (f : Frame ℝ)
    (hf : Spec.ExperimentData d itemCol weekCol treatCol columns f) (metrics : List Metric) (hm : Spec.MetricsFrom columns metrics)
    (rows : List (String × TestResult)) (h : (analyzeExperiment R argsort D d.toDesignParams metrics weekCol itemCol treatCol f).1 = .ok rows) :
    ∃ items, Spec.ListsAll f itemCol items ∧
      List.Forall₂ (fun m e => e.1 = m.name ∧ Spec.ReportsRegular R argsort D d f itemCol weekCol treatCol items m e.2) metrics rows := by
  obtain ⟨piv, hP, hrows⟩ := analyze_rows hd hf hm h
  refine ⟨itemsOfPivot piv, hP.listsAll hf, hrows.imp ?_⟩
  rintro m ⟨nm, r⟩ ⟨rfl, hmem, hr⟩
  refine ⟨rfl, ?_⟩
  obtain ⟨hi, ht, hidx, -, -⟩ := hP.plain hf.names
  have hcols := mem_metricColumns hm
  have hc1 : m.column ∈ metricColumns metrics := List.mem_append_left _ (List.mem_map.mpr ⟨m, hmem, rfl⟩)
  have g1 := fun (y : Cell ℝ → ℝ) => hP.groupOf_eq hf true y
  have g0 := fun (y : Cell ℝ → ℝ) => hP.groupOf_eq hf false y
  simp only [if_true, Bool.false_eq_true, if_false] at g1 g0
  unfold Spec.ReportsRegular Spec.RegularReport
  have hlen' : (itemsOfPivot piv).length = piv.index.length := by simp [itemsOfPivot]
  have hall : ∀ k ∈ piv.index, Spec.AssignedTo 0 k ∨ Spec.AssignedTo 1 k := by
    intro k hk
    obtain ⟨x, b, rfl⟩ := hP.keys k hk
    cases b
    · exact Or.inl ⟨x, _, rfl, by simp [Cell.toFl]⟩
    · exact Or.inr ⟨x, _, rfl, by simp [Cell.toFl]⟩
  cases hden : m.denominator with
  | none =>
    dsimp only at hr
    rw [hden] at hr
    simp only [Option.toList_none, List.mem_singleton, exists_eq_left, forall_eq]
    rw [← hP.constantPretest hd hf hcols hx hc1, hlen']
    refine ⟨fun hc => C124_constant_pretest R argsort D piv _ itemCol treatCol hf.names.1 hi ht hidx hall d.toDesignParams hx _ _ _ hc hr, fun hc => ?_⟩
    obtain ⟨y, hy, hlen, hind, -⟩ := C39_regular_split R argsort D piv _ itemCol treatCol hf.names.1 hi ht hidx d.toDesignParams hx _ _ _ hc hr
    obtain ⟨g, rfl, hg⟩ := hP.compared hd hf hcols hx hc1 hy hlen
    rw [g1, g0] at hind
    exact ⟨g, hg, hind⟩
  | some c =>
    dsimp only at hr
    rw [hden] at hr
    have hc2 : c ∈ metricColumns metrics := List.mem_append_right _ (List.mem_filterMap.mpr ⟨m, hmem, hden⟩)
    simp only [Option.toList_some, List.mem_cons, List.not_mem_nil, or_false, exists_eq_or_imp, exists_eq_left, forall_eq_or_imp, forall_eq]
    rw [← hP.constantPretest hd hf hcols hx hc1, ← hP.constantPretest hd hf hcols hx hc2, hlen']
    refine ⟨fun hc => C124_constant_pretest_ratio R argsort D piv _ itemCol treatCol hf.names.1 hi ht hidx hall d.toDesignParams hx _ _ _ _ hc hr, fun hc => ?_⟩
    obtain ⟨y, z, hy, hz, hlen, hlen', hind⟩ := C39_regular_split_ratio R argsort D piv _ itemCol treatCol hf.names.1 hi ht hidx d.toDesignParams hx _ _ _ _ hc.1 hc.2 hr
    obtain ⟨g, rfl, hg⟩ := hP.compared hd hf hcols hx hc1 hy hlen
    obtain ⟨g', rfl, hg'⟩ := hP.compared hd hf hcols hx hc2 hz hlen'
    rw [g1, g0, g1, g0] at hind
    exact ⟨g, hg, g', hg', hind⟩

theorem PivotedData.crossoverItems {R : Rounding ℝ} {p : DesignParams ℝ} {d : Design ℝ} (hd : mkDesign R p = .ok d) (hx : d.isCrossover = true)
    {i w t : String} {cols metrics : List String} {f : Frame ℝ} {piv : Pivoted ℝ} (h : PivotedData d i w t metrics f piv)
    (hf : Spec.ExperimentData d i w t cols f) (hm : ∀ m ∈ metrics, m ∈ cols) {m : String} (hmm : m ∈ metrics) {items : List Spec.CrossoverItem}
    (hit : Spec.CrossoverItems piv m items) : items = (itemsOfPivot piv).map (Spec.crossoverItem d f i w t m) := by
  obtain ⟨wo, hwo, hwo0, hwo1, hev⟩ := created_crossover hd hx
  rw [Int.even_iff] at hev
  have t1 : ("test_1", wo, d.runtime / 2) ∈ Spec.timeline d.toDesignParams 0 := by
    unfold Spec.timeline
    rw [hx, hwo]
    simp [Spec.crossoverTimeline]
  have t2 : ("test_2", d.runtime / 2 + wo, d.runtime) ∈ Spec.timeline d.toDesignParams 0 := by
    unfold Spec.timeline
    rw [hx, hwo]
    simp [Spec.crossoverTimeline]
  have k1 := fun k (hk : k ∈ piv.index) => h.value_weekly hf hm hmm t1 (by omega) hk
  have k2 := fun k (hk : k ∈ piv.index) => h.value_weekly hf hm hmm t2 (by omega) hk
  have kg := fun k (hk : k ∈ piv.index) => h.inGroup hf hk true
  simp only [if_true] at kg
  unfold Spec.CrossoverItems at hit
  unfold itemsOfPivot
  generalize piv.index = idx at hit k1 k2 kg
  induction hit with
  | nil => rfl
  | @cons k x idx items hk _ ih =>
    rw [ih (fun k hk => k1 k (by simp [hk])) (fun k hk => k2 k (by simp [hk])) (fun k hk => kg k (by simp [hk]))]
    obtain ⟨e0, e1, e2⟩ := hk
    rw [k1 k (by simp)] at e1
    rw [k2 k (by simp)] at e2
    rw [kg k (by simp)] at e0
    obtain ⟨a, b, c⟩ := x
    simp only [List.map_cons]
    congr 1
    unfold Spec.crossoverItem Spec.crossoverOf
    rw [hwo]
    simp only [Spec.CrossoverItem.mk.injEq, Option.getD_some]
    exact ⟨propext e0, (Fl.fin.inj e1).symm, (Fl.fin.inj e2).symm⟩

theorem PivotedData.stores {R : Rounding ℝ} {p : DesignParams ℝ} {d : Design ℝ} (hd : mkDesign R p = .ok d) (hx : d.isCrossover = true)
    {i w t : String} {cols metrics : List String} {f : Frame ℝ} {piv : Pivoted ℝ} (h : PivotedData d i w t metrics f piv)
    (hf : Spec.ExperimentData d i w t cols f) (hm : ∀ m ∈ metrics, m ∈ cols) {m : String} (hmm : m ∈ metrics) {s : ℝ → ℝ} (hs : Spec.Stores piv m s) :
    Spec.DropsFractions (Spec.LosesFractions (Spec.IntegerColumn f m) d (itemsOfPivot piv) (Spec.weeklyValue f i w m)) s := by
  obtain ⟨wo, hwo, hwo0, hwo1, hev⟩ := created_crossover hd hx
  rw [Int.even_iff] at hev
  have t1 : ("test_1", wo, d.runtime / 2) ∈ Spec.timeline d.toDesignParams 0 := by
    unfold Spec.timeline
    rw [hx, hwo]
    simp [Spec.crossoverTimeline]
  have k1 := fun k (hk : k ∈ piv.index) => h.value_weekly hf hm hmm t1 (by omega) hk
  have e : Spec.LosesFractions (Spec.IntegerColumn f m) d (itemsOfPivot piv) (Spec.weeklyValue f i w m) ↔
      (piv.whole m = true ∧ ∀ k ∈ piv.index, ∃ n : ℤ, piv.value k m "test_1" = .fin (n : ℝ)) := by
    unfold Spec.LosesFractions Spec.IntegerColumn
    rw [h.whole m hmm, hwo]
    refine and_congr_right fun _ => ?_
    unfold itemsOfPivot
    simp only [List.forall_mem_map, Option.getD_some]
    refine forall_congr' fun k => forall_congr' fun hk => ?_
    rw [k1 k hk]
    simp only [Fl.fin.injEq]
  rw [propext e]
  exact hs

/-- **C115, crossover experiments, every metric.**  The rows of the analysis of a crossover experiment are the paired t-tests of the weekly values of the items in
the test weeks of the two halves, treated against untreated, where the values of the second half lose their fractions if the column is held as integers and all items
have whole values in the first half. -/
theorem C115_crossover_stored (R : Rounding ℝ) (argsort : List ℝ → List ℕ) (D : TDist) (p : DesignParams ℝ) (d : Design ℝ) (hd : mkDesign R p = .ok d)
    (hx : d.isCrossover = true) (itemCol weekCol treatCol : String) (columns : List String) (f : Frame ℝ)
    (hf : Spec.ExperimentData d itemCol weekCol treatCol columns f) (metrics : List Metric) (hm : Spec.MetricsFrom columns metrics)
    (rows : List (String × TestResult)) (h : (analyzeExperiment R argsort D d.toDesignParams metrics weekCol itemCol treatCol f).1 = .ok rows) :
    ∃ items, Spec.ListsAll f itemCol items ∧
      List.Forall₂ (fun m e => e.1 = m.name ∧ Spec.CrossoverReportInto R argsort D d items (Spec.InGroup f itemCol treatCol) (Spec.weeklyValue f itemCol weekCol)
        (Spec.IntegerColumn f) m e.2) metrics rows := by
  obtain ⟨piv, hP, hrows⟩ := analyze_rows hd hf hm h
  refine ⟨itemsOfPivot piv, hP.listsAll hf, hrows.imp ?_⟩
  rintro m ⟨nm, r⟩ ⟨rfl, hmem, hr⟩
  refine ⟨rfl, ?_⟩
  obtain ⟨hi, ht, hidx, -, -⟩ := hP.plain hf.names
  have hcols := mem_metricColumns hm
  have hc1 : m.column ∈ metricColumns metrics := List.mem_append_left _ (List.mem_map.mpr ⟨m, hmem, rfl⟩)
  unfold Spec.CrossoverReportInto
  cases hden : m.denominator with
  | none =>
    dsimp only at hr
    rw [hden] at hr
    obtain ⟨items, v1, v2, s, hit, hs, harr, hp⟩ := C38_crossover_pairs_stored R argsort D piv _ itemCol treatCol hf.names.1 hi ht hidx d.toDesignParams hx _ _ _ hr
    rw [hP.crossoverItems hd hx hf hcols hc1 hit] at harr
    exact ⟨s, v1, v2, hP.stores hd hx hf hcols hc1 hs, harr, hp⟩
  | some c =>
    dsimp only at hr
    rw [hden] at hr
    have hc2 : c ∈ metricColumns metrics := List.mem_append_right _ (List.mem_filterMap.mpr ⟨m, hmem, hden⟩)
    obtain ⟨items, items', v1, v2, w1, w2, s, s', hit, hit', hs, hs', harr, harr', hp⟩ := C38_crossover_pairs_ratio_stored R argsort D piv _ itemCol treatCol
      hf.names.1 hi ht hidx d.toDesignParams hx _ _ _ _ hr
    rw [hP.crossoverItems hd hx hf hcols hc1 hit] at harr
    rw [hP.crossoverItems hd hx hf hcols hc2 hit'] at harr'
    exact ⟨s, v1, v2, hP.stores hd hx hf hcols hc1 hs, harr, s', w1, w2, hP.stores hd hx hf hcols hc2 hs', harr', hp⟩

/-- **C115, crossover experiments** (partial: only metrics that lose no fractions; see `C115_crossover_false`).  The rows of the analysis of a crossover
experiment are the paired t-tests of the weekly values of the items in the test weeks of the two halves, treated against untreated. -/
theorem C115_crossover_partial (R : Rounding ℝ) (argsort : List ℝ → List ℕ) (D : TDist) (p : DesignParams ℝ) (d : Design ℝ) (hd : mkDesign R p = .ok d)
    (hx : d.isCrossover = true) (itemCol weekCol treatCol : String) (columns : List String) (f : Frame ℝ)
    (hf : Spec.ExperimentData d itemCol weekCol treatCol columns f) (metrics : List Metric) (hm : Spec.MetricsFrom columns metrics)
    (rows : List (String × TestResult)) (h : (analyzeExperiment R argsort D d.toDesignParams metrics weekCol itemCol treatCol f).1 = .ok rows) :
    ∃ items, Spec.ListsAll f itemCol items ∧
      List.Forall₂ (fun m e => e.1 = m.name ∧ (Spec.MetricKept d items (Spec.weeklyValue f itemCol weekCol) (Spec.IntegerColumn f) m →
        Spec.ReportsCrossover R argsort D d f itemCol weekCol treatCol items m e.2)) metrics rows := by
  obtain ⟨items, hit, hrows⟩ := C115_crossover_stored R argsort D p d hd hx itemCol weekCol treatCol columns f hf metrics hm rows h
  exact ⟨items, hit, hrows.imp fun m e h => ⟨h.1, fun hk => crossoverReport_kept hk h.2⟩⟩

end Feedx
