import Verif.Props.AnalyseStudy
import Verif.Props.DesignExample

/-!
C119 is not vacuous: the designs of the concrete study (DesignExample) are exported, run and analysed.
-/

set_option linter.unusedSectionVars false
set_option linter.unusedSimpArgs false

namespace Feedx

/-- The performance data of an item in a week. -/
def scaledRow (z : ℝ) (p : ℕ × ℕ) : Row ℝ := fun c =>
  if c = "id" then .str (itemText p.1) else if c = "day" then .time (p.2 * (7 * 86400000000000)) else .num (z * (p.1 + 1))

abbrev reportRow := scaledRow 1

/-- Some items over the four weeks of the experiment. -/
def scaledPerf (z : ℝ) (n : ℕ) : Frame ℝ where
  cols := ["id", "day", "profit", "clk", "imp", "cost", "conv", "val"]
  rows := (List.range n ×ˢ List.range 4).map (scaledRow z)

abbrev reportPerfOf := scaledPerf 1

/-- The sixty items over the four weeks of the experiment. -/
def reportPerf : Frame ℝ := reportPerfOf 60

/-- What the user enters in the analyser. -/
def reportForm : AnalyserForm where
  itemCol := "id"
  dateCol := "day"
  treatCol := "t"
  startDate := "1970-01-01"
  clicks := "clk"
  impressions := "imp"
  totalCost := "cost"
  conversions := "conv"
  totalConversionValue := "val"
  others := ["profit"]
  concluded := true
  skip := []

theorem reportPerf_mem {z : ℝ} {n : ℕ} {r : Row ℝ} (h : r ∈ (scaledPerf z n).rows) : ∃ i w, i < n ∧ w < 4 ∧ r = scaledRow z (i, w) := by
  obtain ⟨⟨i, w⟩, hp, rfl⟩ := List.mem_map.mp h
  rw [List.mem_product, List.mem_range, List.mem_range] at hp
  exact ⟨i, w, hp.1, hp.2, rfl⟩

theorem mem_reportPerf {z : ℝ} {n i w : ℕ} (hi : i < n) (hw : w < 4) : scaledRow z (i, w) ∈ (scaledPerf z n).rows :=
  List.mem_map.mpr ⟨(i, w), List.mem_product.mpr ⟨List.mem_range.mpr hi, List.mem_range.mpr hw⟩, rfl⟩

theorem reportRow_date (z : ℝ) (p : ℕ × ℕ) : studyExt.toDate (scaledRow z p "day") = .ok (some ((p.2 : ℤ) * (7 * 86400000000000))) := rfl

theorem reportPerf_date {z : ℝ} {n : ℕ} (hn : 0 < n) (t : ℤ) : Spec.PerfDate studyExt (scaledPerf z n) "day" t ↔ ∃ w : ℕ, w < 4 ∧ t = (w : ℤ) * (7 * 86400000000000) := by
  unfold Spec.PerfDate
  constructor
  · rintro ⟨r, hr, e⟩
    obtain ⟨i, w, -, hw, rfl⟩ := reportPerf_mem hr
    rw [reportRow_date] at e
    exact ⟨w, hw, (Option.some.inj (Except.ok.inj e)).symm⟩
  · rintro ⟨w, hw, rfl⟩
    exact ⟨_, mem_reportPerf (i := 0) hn hw, rfl⟩

theorem reportForm_fits (z : ℝ) (n : ℕ) : Spec.FormFits (scaledPerf z n) reportForm where
  columns := by
    have e : Spec.givenColumns reportForm = ["clk", "imp", "cost", "conv", "val"] := by decide
    rw [e]
    show ∀ c ∈ ["id", "day", "clk", "imp", "cost", "conv", "val", "profit"], c ∈ ["id", "day", "profit", "clk", "imp", "cost", "conv", "val"]
    decide
  distinct := by
    have e : Spec.givenColumns reportForm = ["clk", "imp", "cost", "conv", "val"] := by decide
    rw [e]
    decide
  different := by decide
  others := by decide

theorem reportForm_given : Spec.AllGiven reportForm := by
  unfold Spec.AllGiven
  decide

theorem reportPerf_correct {z : ℝ} (hz : 0 ≤ z) {n : ℕ} (hn : 0 < n) {d : Design ℝ} (h1 : d.runtime = 4) (h2 : d.pretest = 0) (h3 : d.primaryMetric = "profit") :
    Spec.CorrectPerformance studyExt d (scaledPerf z n) "id" "day" reportForm.args 0 where
  dates := by
    intro r hr
    obtain ⟨i, w, -, hw, rfl⟩ := reportPerf_mem hr
    refine ⟨_, reportRow_date _ _, ?_, ?_⟩
    · rw [h2]
      show (0 : ℤ) - 0 * _ ≤ (w : ℤ) * (7 * 86400000000000)
      omega
    · rw [h1]
      show (w : ℤ) * (7 * 86400000000000) < 0 + 4 * (7 * 86400000000000)
      omega
  first := by
    rw [reportPerf_date hn]
    exact ⟨0, by norm_num, by rw [h2]; norm_num⟩
  last := by
    intro _
    refine ⟨3 * (7 * 86400000000000), (reportPerf_date hn _).mpr ⟨3, by norm_num, by norm_num⟩, ?_⟩
    rw [h1]
    norm_num
  spaced := by
    refine ⟨7, Or.inr rfl, ?_⟩
    intro s t hs ht hst hno
    obtain ⟨a, ha, rfl⟩ := (reportPerf_date hn s).mp hs
    obtain ⟨b, hb, rfl⟩ := (reportPerf_date hn t).mp ht
    have hab : a < b := by omega
    by_cases hb1 : b = a + 1
    · subst hb1
      push_cast
      ring
    · exact absurd ⟨by push_cast; omega, by push_cast; omega⟩ (hno _ ((reportPerf_date hn _).mpr ⟨a + 1, by omega, rfl⟩))
  once := by
    intro s t
    unfold Spec.perfRows scaledPerf
    rw [List.countP_map]
    have hnd : (List.range n ×ˢ List.range 4).Nodup := List.Nodup.product List.nodup_range List.nodup_range
    rw [List.countP_eq_length_filter]
    have hsub : ∀ p ∈ (List.range n ×ˢ List.range 4).filter ((fun p => decide (studyExt.toStr (p "id") = s ∧ studyExt.toDate (p "day") = .ok (some t))) ∘ scaledRow z),
        ∀ q ∈ (List.range n ×ˢ List.range 4).filter ((fun p => decide (studyExt.toStr (p "id") = s ∧ studyExt.toDate (p "day") = .ok (some t))) ∘ scaledRow z),
        p = q := by
      intro p hp q hq
      have hp := of_decide_eq_true (List.mem_filter.mp hp).2
      have hq := of_decide_eq_true (List.mem_filter.mp hq).2
      have e1 : itemText p.1 = itemText q.1 := hp.1.trans hq.1.symm
      have e2 := hp.2.trans hq.2.symm
      rw [reportRow_date, reportRow_date] at e2
      have e2 : (p.2 : ℤ) * (7 * 86400000000000) = (q.2 : ℤ) * (7 * 86400000000000) := Option.some.inj (Except.ok.inj e2)
      exact Prod.ext (itemText_inj e1) (by omega)
    have hnd' := hnd.filter ((fun p : Row ℝ => decide (studyExt.toStr (p "id") = s ∧ studyExt.toDate (p "day") = .ok (some t))) ∘ scaledRow z)
    generalize (List.range n ×ˢ List.range 4).filter _ = l at hsub hnd'
    match l with
    | [] => simp
    | [_] => simp
    | a :: b :: l' =>
      have := hsub a (by simp) b (by simp)
      subst this
      simp at hnd'
  numbers := by
    intro s hs r hr
    obtain ⟨i, w, -, -, rfl⟩ := reportPerf_mem hr
    have hs : s.2 ≠ "id" ∧ s.2 ≠ "day" := by
      have : s.2 ∈ (Spec.metricSources reportForm.args).map Prod.snd := List.mem_map.mpr ⟨s, hs, rfl⟩
      rw [form_sources] at this
      have e : Spec.givenColumns reportForm ++ reportForm.others = ["clk", "imp", "cost", "conv", "val", "profit"] := by decide
      rw [e] at this
      constructor <;> (rintro h; rw [h] at this; revert this; decide)
    have hc : scaledRow z (i, w) s.2 = .num (z * (i + 1)) := by
      unfold scaledRow
      rw [if_neg hs.1, if_neg hs.2]
    refine ⟨.fin (z * (i + 1)), ?_, Or.inr ⟨_, rfl, fun _ => by positivity⟩⟩
    rw [hc]
    unfold Spec.parsed
    split <;> rfl
  primary := by
    rw [h3, form_metricNames]
    decide

/-- The exported table with other column names. -/
def renamed (items : Frame ℝ) : Frame ℝ where
  cols := ["id", "t"]
  rows := items.rows.map (fun r c => if c = "id" then r "item_id" else r "treatment_assignment")

theorem renamed_readBack (E : Ext ℝ) (items : Frame ℝ) : Spec.ReadBack E items (renamed items) "id" "t" := by
  refine ⟨rfl, List.Perm.of_eq ?_⟩
  unfold renamed
  rw [List.map_map]
  exact List.map_congr_left fun r _ => rfl

/-- All hypotheses of C119 are met by the study of the crossover and by that of the other design: with the binomial test, the file read in reverse order,
the renamed table, and the metrics of the notebook. -/
theorem oneForm_run_scaled (x : Bool) {z : ℝ} (hz : 0 ≤ z) (n : ℕ) (hn0 : 0 < n) : ∃ (V : StudyEnv) (data : Frame ℝ) (cells : List StudyCell) (C : Checker ℝ) (items : Frame ℝ) (file : Dict (YVal ℝ)) (d : Design ℝ),
    C.ext = V.ext ∧ C.binom = binomTest ∧ Spec.Exported V (oneForm x) (studyRaw "profit") data cells C.binom items file ∧ data.rows.length ≤ 2 ^ 51 ∧
    loadFromDict V.R (1 / 20) (4 / 5) file.reverse = .ok d ∧ d.isCrossover = x ∧ d.pretest = 0 ∧ d.nAfterPre = 60 ∧ d.primaryMetric = "profit" ∧ d.runtime = 4 ∧ C.ext = studyExt ∧
    Spec.StudyRun C.ext d items (scaledPerf z n) (renamed items) reportForm 0 := by
  obtain ⟨V, data, s, cells, id, hV, ha, -, h, hn, hlen, -, -, items, file, s1, hexp⟩ := oneForm_exported x
  have hE : Spec.Exported V (oneForm x) (studyRaw "profit") data cells binomTest items file := ⟨s, noShuffle, [1], id, "design.yaml", s1, h, hexp⟩
  obtain ⟨d, hl, ⟨designs, salt, hg, d0, hd0, e⟩, -⟩ := C119_data_accepted V (oneForm x) (studyRaw "profit") data cells
    ⟨V.ext, V.sorter, binomTest⟩ rfl items file hE rfl hlen file.reverse file.reverse_perm (1 / 20) (4 / 5)
  obtain ⟨m1, m2, m3, m4, m5, m6, m7, m8, m9⟩ := oneForm_design hn hg d0 hd0
  refine ⟨V, data, cells, ⟨V.ext, V.sorter, binomTest⟩, items, file, d, rfl, rfl, hE, hlen, hl, by rw [e]; exact m1, by rw [e]; exact m3, by rw [e]; exact m5, by rw [e]; exact m9,
    by rw [e]; exact m2, hV, ?_⟩
  show Spec.StudyRun V.ext d items (scaledPerf z n) (renamed items) reportForm 0
  rw [hV]
  exact ⟨renamed_readBack _ _, reportForm_fits z n, rfl, reportPerf_correct hz hn0 (by rw [e]; exact m2) (by rw [e]; exact m3) (by rw [e]; exact m9), rfl, rfl⟩

theorem oneForm_run_of (x : Bool) (n : ℕ) (hn0 : 0 < n) : ∃ (V : StudyEnv) (data : Frame ℝ) (cells : List StudyCell) (C : Checker ℝ) (items : Frame ℝ) (file : Dict (YVal ℝ)) (d : Design ℝ),
    C.ext = V.ext ∧ C.binom = binomTest ∧ Spec.Exported V (oneForm x) (studyRaw "profit") data cells C.binom items file ∧ data.rows.length ≤ 2 ^ 51 ∧
    loadFromDict V.R (1 / 20) (4 / 5) file.reverse = .ok d ∧ d.isCrossover = x ∧ d.pretest = 0 ∧ d.nAfterPre = 60 ∧ d.primaryMetric = "profit" ∧ d.runtime = 4 ∧ C.ext = studyExt ∧
    Spec.StudyRun C.ext d items (reportPerfOf n) (renamed items) reportForm 0 :=
  oneForm_run_scaled x zero_le_one n hn0

theorem oneForm_run (x : Bool) : ∃ (V : StudyEnv) (data : Frame ℝ) (cells : List StudyCell) (C : Checker ℝ) (items : Frame ℝ) (file : Dict (YVal ℝ)) (d : Design ℝ),
    C.ext = V.ext ∧ C.binom = binomTest ∧ Spec.Exported V (oneForm x) (studyRaw "profit") data cells C.binom items file ∧ data.rows.length ≤ 2 ^ 51 ∧
    loadFromDict V.R (1 / 20) (4 / 5) file.reverse = .ok d ∧ d.isCrossover = x ∧ d.pretest = 0 ∧ d.nAfterPre = 60 ∧ d.primaryMetric = "profit" ∧ d.runtime = 4 ∧ C.ext = studyExt ∧
    Spec.StudyRun C.ext d items reportPerf (renamed items) reportForm 0 :=
  oneForm_run_of x 60 (by norm_num)

theorem notebook_override {m : Metric} (hm : m ∈ notebookMetrics) {q : ℝ} (hq : m.override = some q) : q = 0 := by
  simp only [notebookMetrics, List.mem_cons, List.not_mem_nil, or_false] at hm
  rcases hm with rfl | rfl | rfl | rfl | rfl | rfl | rfl | rfl | rfl | rfl | rfl <;> first | (cases hq; done) | (cases hq; rfl)

/-- The crossover is analysed: eleven results, and the projection is shown. -/
example (argsort : List ℝ → List ℕ) (ha : ArgsortOk argsort) (D : TDist) (general : ℕ → Fl ℝ → String) :
    ∃ (V : StudyEnv) (data : Frame ℝ) (cells : List StudyCell) (C : Checker ℝ) (items : Frame ℝ) (file : Dict (YVal ℝ)) (rows : List (String × TestResult)),
    Spec.Exported V (oneForm true) (studyRaw "profit") data cells C.binom items file ∧
    prepareStudy V.R (1 / 20) (4 / 5) C reportForm file.reverse reportPerf (renamed items) >>= analyseData V.R argsort D notebookMetrics = .ok rows ∧
    rows.length = 11 ∧ ∃ shown, showProjection V.R general projectedNames rows = .ok shown ∧ shown.length = 5 := by
  obtain ⟨V, data, cells, C, items, file, d, h1, h2, h3, h4, h5, h6, h7, h8, -, -, -, h9⟩ := oneForm_run true
  obtain ⟨rows, hr, hn⟩ := C119_crossover_analysed V (oneForm true) (studyRaw "profit") data cells C h1 items file h3 rfl h4 file.reverse file.reverse_perm (1 / 20)
    (4 / 5) d h5 h6 reportForm reportPerf (renamed items) 0 h9 argsort ha D notebookMetrics (notebookMetrics_fit reportForm_given) (by
      intro m hm q hq
      rw [notebook_override hm hq, h8]
      exact enoughLeft_zero V.R (by norm_num))
  obtain ⟨⟨shown, hs, hnames⟩, -⟩ := C119_tables V.R general rows hn
  refine ⟨V, data, cells, C, items, file, rows, h3, hr, ?_, shown, hs, ?_⟩
  · have := congrArg List.length hn
    simpa [notebookMetrics] using this
  · have := congrArg List.length hnames
    simpa [projectedNames] using this

/-- The other design is analysed, or its division by zero is raised. -/
example (argsort : List ℝ → List ℕ) (ha : ArgsortOk argsort) (D : TDist) :
    ∃ (V : StudyEnv) (data : Frame ℝ) (cells : List StudyCell) (C : Checker ℝ) (items : Frame ℝ) (file : Dict (YVal ℝ)) (d : Design ℝ) (out : Frame ℝ),
    Spec.Exported V (oneForm false) (studyRaw "profit") data cells C.binom items file ∧
    prepareStudy V.R (1 / 20) (4 / 5) C reportForm file.reverse reportPerf (renamed items) = .ok (d, out) ∧
    ((∃ rows, analyseData V.R argsort D notebookMetrics (d, out) = .ok rows ∧ rows.length = 11) ∨
      analyseData V.R argsort D notebookMetrics (d, out) = .error .zeroDivision) := by
  obtain ⟨V, data, cells, C, items, file, d, h1, h2, h3, h4, h5, h6, h7, h8, -, -, -, h9⟩ := oneForm_run false
  have hr0 : V.R.rnd 0 = 0 := by simpa using V.R.intFix 0 (by norm_num)
  obtain ⟨out, ho, hr⟩ := C119_regular_analysed_partial V (oneForm false) (studyRaw "profit") data cells C h1 h2 items file h3 rfl h4 file.reverse file.reverse_perm
    (1 / 20) (4 / 5) d h5 h6 reportForm reportPerf (renamed items) 0 h9 argsort ha D notebookMetrics (notebookMetrics_fit reportForm_given) (by
      intro m hm q hq
      rw [notebook_override hm hq, h8, zero_mul, hr0]
      norm_num)
  refine ⟨V, data, cells, C, items, file, d, out, h3, ho, hr.imp ?_ (fun h => h.2)⟩
  rintro ⟨rows, h, hn⟩
  refine ⟨rows, h, ?_⟩
  have := congrArg List.length hn
  simpa [notebookMetrics] using this

end Feedx
