import Verif.Props.AnalyseStudyExample

/-!
Properties C103 and C119: a metric that is zero for all control items makes the analysis raise `ZeroDivisionError`.
-/

set_option linter.unusedSectionVars false
set_option linter.unusedSimpArgs false

namespace Feedx

open Fl

theorem mean_of_zeros {l : List ℝ} (h : ∀ x ∈ l, x = 0) : Spec.mean l = 0 := by
  have : l.sum = 0 := List.sum_eq_zero h
  unfold Spec.mean
  rw [this, zero_div]

theorem mean_of_nonneg {l : List ℝ} (h : ∀ x ∈ l, 0 ≤ x) : 0 ≤ Spec.mean l :=
  div_nonneg (List.sum_nonneg h) (Nat.cast_nonneg _)

/-- The test of two samples without denominators does not return if the second sample is all zero and the first is not negative. -/
theorem indTest_zero_control {R : Rounding ℝ} {argsort : List ℝ → List ℕ} (ha : ArgsortOk argsort) {D : TDist} {v1 v2 : List ℝ} {q : ℝ} {ev : Bool}
    {alt : String} {α : ℝ} {r : TestResult} (h1 : ∀ x ∈ v1, 0 ≤ x) (h2 : ∀ x ∈ v2, x = 0) : indTest R argsort D v1 v2 q none none ev alt α ≠ .ok r := by
  intro h
  obtain ⟨g1, g2, n1, n2, mu1, mu2, ss1, ss2, -, -, ⟨k1, -, -, t1, -, -, m1, -⟩, ⟨k2, -, -, t2, -, -, m2, -⟩, e1, e2, -⟩ :=
    C83_independent_test_reports R argsort ha D _ _ _ _ _ _ _ h
  have m1 : 0 ≤ mu1 := m1 ▸ mean_of_nonneg fun x hx => h1 x (t1.1.subset hx)
  have m2 : mu2 = 0 := m2 ▸ mean_of_zeros fun x hx => h2 x (t2.1.subset hx)
  rcases indTest_ok h with ⟨x1, x2, e, -⟩ | ⟨-, -, T1, T2, -, -, -, -, hr⟩
  · cases e
  have k := resultsFrom_ok hr
  have k5 : r.absoluteDifference = fin (T1.mean 0 - T2.mean 0) := k.2.2.2.2.2.1
  have k10 : r.controlAverage = fin (T2.mean 0) := k.2.2.2.2.2.2.2.2.2.2
  rw [e1] at k5
  rw [e2] at k10
  have a2 : T2.mean 0 = 0 := (Fl.fin.inj k10).symm.trans m2
  have a1 : 0 ≤ T1.mean 0 := by
    have := Fl.fin.inj k5
    rw [m2, a2] at this
    linarith
  unfold resultsFrom at hr
  obtain ⟨sp, -, hr⟩ := Py.bind_eq_ok.mp hr
  obtain ⟨ci, -, hr⟩ := Py.bind_eq_ok.mp hr
  rw [if_pos (by simp [indEstimates, Fl.le, a1, a2])] at hr
  obtain ⟨hz, -⟩ := raiseIf_bind_ok.mp hr
  exact hz ⟨rfl, by simp [indEstimates, a2]⟩

/-- **C119, refuted for data in which no control item has any of a metric.**  Once the designer has exported a design without pretest weeks that is not a
crossover, using the binomial test, the analyser raises `ZeroDivisionError` for every concluded experiment that was run according to it in which some
metric without denominator is zero in the runtime for all the control items, and not negative for the others. -/
theorem C119_division_false (V : StudyEnv) (form : StudyForm) (raw data : Frame ℝ) (cells : List StudyCell) (C : Checker ℝ) (hext : C.ext = V.ext)
    (hC : C.binom = binomTest) (items : Frame ℝ) (file : Dict (YVal ℝ)) (h : Spec.Exported V form raw data cells C.binom items file) (hskip : form.skip = [])
    (hsize : data.rows.length ≤ 2 ^ 51) (m : Dict (YVal ℝ)) (hm : m.Perm file) (dflt05 dflt08 : ℝ) (d : Design ℝ)
    (hl : loadFromDict V.R dflt05 dflt08 m = .ok d) (hx : d.isCrossover = false) (hpre : d.pretest = 0) (analyser : AnalyserForm) (perf assign : Frame ℝ)
    (start : ℤ) (hrun : Spec.StudyRun C.ext d items perf assign analyser start) (argsort : List ℝ → List ℕ) (ha : ArgsortOk argsort) (D : TDist)
    (metrics : List Metric) (hmet : Spec.MetricsFrom (preparedMetrics analyser.args ++ analyser.args.atLeastOne.map Prod.snd) metrics)
    (hleft : ∀ m ∈ metrics, ∀ q, m.override = some q → 50 < d.nAfterPre - 2 * ⌊V.R.rnd (q * (d.nAfterPre.toNat : ℝ))⌋)
    (v : String → Row ℝ → ℝ)
    (hv : ∀ c ∈ preparedMetrics analyser.args ++ analyser.args.atLeastOne.map Prod.snd, Spec.RawReads C.ext analyser.args c (v c))
    (m0 : Metric) (hm0 : m0 ∈ metrics) (hden : m0.denominator = none)
    (hval : ∀ salt, d.salt = some salt → ∀ i : String, Cell.str i ∈ items.col "item_id" →
      0 ≤ Spec.rawWeekly C.ext perf analyser.itemCol analyser.dateCol start (v m0.column) 0 d.runtime i ∧
      (Spec.FlippedTo salt false i → Spec.rawWeekly C.ext perf analyser.itemCol analyser.dateCol start (v m0.column) 0 d.runtime i = 0)) :
    ∃ out, prepareStudy V.R dflt05 dflt08 C analyser m perf assign = .ok (d, out) ∧ analyseData V.R argsort D metrics (d, out) = .error .zeroDivision := by
  obtain ⟨out, ho, ⟨rows, hr, -⟩ | ⟨-, hr⟩⟩ := C119_regular_analysed_partial V form raw data cells C hext hC items file h hskip hsize m hm dflt05 dflt08 d hl hx
    analyser perf assign start hrun argsort ha D metrics hmet hleft
  swap
  · exact ⟨out, ho, hr⟩
  obtain ⟨salt, hs, ids, hids, hres⟩ := C119_regular_report V form raw data cells C hext items file h hskip hsize m hm dflt05 dflt08 d hl hx analyser perf
    assign out start hrun argsort D metrics hmet rows ho hr v hv
  exfalso
  obtain ⟨k, hk, rfl⟩ := List.mem_iff_getElem.mp hm0
  have hk' : k < rows.length := by rw [← hres.length_eq]; exact hk
  obtain ⟨-, -, hrep⟩ := hres.get hk hk'
  simp only [List.get_eq_getElem] at hrep
  obtain ⟨y, hy, hrep⟩ := hrep (fun c _ hc => by have := hc.1; omega)
  rw [hden] at hrep
  rcases hy with ⟨-, rfl⟩ | ⟨h0, -⟩
  swap
  · omega
  have hmem : ∀ i ∈ ids, Cell.str i ∈ items.col "item_id" := fun i hi => hids.mem_iff.mp (List.mem_map_of_mem hi)
  refine indTest_zero_control ha ?_ ?_ hrep
  · intro x hx
    unfold Spec.valuesIn at hx
    obtain ⟨i, hi, rfl⟩ := List.mem_map.mp hx
    exact (hval salt hs i (hmem i (List.mem_filter.mp hi).1)).1
  · intro x hx
    unfold Spec.valuesIn at hx
    obtain ⟨i, hi, rfl⟩ := List.mem_map.mp hx
    exact (hval salt hs i (hmem i (List.mem_filter.mp hi).1)).2 (by simpa using (List.mem_filter.mp hi).2)

/-- The theorem applies to the study of C119 if none of the sixty items has any activity. -/
example (argsort : List ℝ → List ℕ) (ha : ArgsortOk argsort) (D : TDist) :
    ∃ (V : StudyEnv) (data : Frame ℝ) (cells : List StudyCell) (C : Checker ℝ) (items : Frame ℝ) (file : Dict (YVal ℝ)) (d : Design ℝ) (out : Frame ℝ),
    Spec.Exported V (oneForm false) (studyRaw "profit") data cells C.binom items file ∧
    Spec.StudyRun C.ext d items (scaledPerf 0 60) (renamed items) reportForm 0 ∧
    prepareStudy V.R (1 / 20) (4 / 5) C reportForm file.reverse (scaledPerf 0 60) (renamed items) = .ok (d, out) ∧
    analyseData V.R argsort D notebookMetrics (d, out) = .error .zeroDivision := by
  obtain ⟨V, data, cells, C, items, file, d, h1, h2, h3, h4, h5, h6, h7, h8, -, -, hE, h9⟩ := oneForm_run_scaled false le_rfl 60 (by norm_num)
  have hr0 : V.R.rnd 0 = 0 := by simpa using V.R.intFix 0 (by norm_num)
  have hsrc : Spec.metricSources reportForm.args = [("clicks", "clk"), ("impressions", "imp"), ("total_cost", "cost"), ("conversions", "conv"),
      ("total_conversion_value", "val"), ("profit", "profit")] := by decide
  have hone : reportForm.args.atLeastOne = [("clicks", "at_least_one_click"), ("impressions", "at_least_one_impression"),
      ("conversions", "at_least_one_conversion")] := by decide
  have hzero : ∀ s ∈ Spec.metricSources reportForm.args, ∀ p ∈ (scaledPerf 0 60).rows, Spec.rawNumber C.ext reportForm.args s p = 0 := by
    intro s hs p hp
    obtain ⟨i, w, -, -, rfl⟩ := reportPerf_mem hp
    have hc : scaledRow 0 (i, w) s.2 = .num 0 := by
      rw [hsrc] at hs
      simp only [List.mem_cons, List.not_mem_nil, or_false] at hs
      rcases hs with rfl | rfl | rfl | rfl | rfl | rfl <;> simp [scaledRow]
    unfold Spec.rawNumber
    rw [hc, hE]
    unfold Spec.parsed
    split
    · rename_i h
      split at h <;> cases h <;> rfl
    · rfl
  have hex : ∀ c, ∃ v, c ∈ preparedMetrics reportForm.args ++ reportForm.args.atLeastOne.map Prod.snd → Spec.RawReads C.ext reportForm.args c v := by
    intro c
    by_cases hc : c ∈ preparedMetrics reportForm.args ++ reportForm.args.atLeastOne.map Prod.snd
    · have e : preparedMetrics reportForm.args ++ reportForm.args.atLeastOne.map Prod.snd = ["clicks", "impressions", "total_cost", "conversions",
        "total_conversion_value", "profit", "at_least_one_click", "at_least_one_impression", "at_least_one_conversion"] := by decide
      rw [e] at hc
      unfold Spec.RawReads
      rw [hsrc, hone]
      simp only [List.mem_cons, List.not_mem_nil, or_false] at hc
      rcases hc with rfl | rfl | rfl | rfl | rfl | rfl | rfl | rfl | rfl
      · exact ⟨_, fun _ => Or.inl ⟨"clk", by simp, rfl⟩⟩
      · exact ⟨_, fun _ => Or.inl ⟨"imp", by simp, rfl⟩⟩
      · exact ⟨_, fun _ => Or.inl ⟨"cost", by simp, rfl⟩⟩
      · exact ⟨_, fun _ => Or.inl ⟨"conv", by simp, rfl⟩⟩
      · exact ⟨_, fun _ => Or.inl ⟨"val", by simp, rfl⟩⟩
      · exact ⟨_, fun _ => Or.inl ⟨"profit", by simp, rfl⟩⟩
      · exact ⟨_, fun _ => Or.inr ⟨"clicks", "clk", by simp, by simp, rfl⟩⟩
      · exact ⟨_, fun _ => Or.inr ⟨"impressions", "imp", by simp, by simp, rfl⟩⟩
      · exact ⟨_, fun _ => Or.inr ⟨"conversions", "conv", by simp, by simp, rfl⟩⟩
    · exact ⟨fun _ => 0, fun h => absurd h hc⟩
  choose v hv using hex
  have hall : ∀ p ∈ (scaledPerf 0 60).rows, v "clicks" p = 0 := by
    intro p hp
    rcases hv "clicks" (by decide) with ⟨src, hs, e⟩ | ⟨m, src, -, hs, e⟩
    · rw [e, hzero _ hs p hp]
    · rw [e]
      simp only [hzero _ hs p hp, lt_irrefl, if_false]
  have hval : ∀ i, Spec.rawWeekly C.ext (scaledPerf 0 60) reportForm.itemCol reportForm.dateCol 0 (v "clicks") 0 d.runtime i = 0 := by
    intro i
    unfold Spec.rawWeekly
    rw [List.sum_eq_zero, zero_div]
    intro x hx
    obtain ⟨p, hp, rfl⟩ := List.mem_map.mp hx
    exact hall p (List.mem_filter.mp hp).1
  obtain ⟨out, ho, hr⟩ := C119_division_false V (oneForm false) (studyRaw "profit") data cells C h1 h2 items file h3 rfl h4 file.reverse file.reverse_perm
    (1 / 20) (4 / 5) d h5 h6 h7 reportForm (scaledPerf 0 60) (renamed items) 0 h9 argsort ha D notebookMetrics (notebookMetrics_fit reportForm_given) (by
      intro m hm q hq
      rw [notebook_override hm hq, h8, zero_mul, hr0]
      norm_num) v (fun c hc => hv c hc) ⟨"Clicks", "clicks", none, none⟩ (by simp [notebookMetrics]) rfl
    (fun _ _ i _ => ⟨(hval i).ge, fun _ => hval i⟩)
  exact ⟨V, data, cells, C, items, file, d, out, h3, h9, ho, hr⟩

end Feedx
