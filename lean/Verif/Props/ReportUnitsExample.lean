import Verif.Props.ReportUnits
import Verif.Props.ReportDifference
import Verif.Props.ReportLost
import Verif.Props.ReportTotals
import Verif.Props.Trimmed

/-!
C128: a sorting function that meets the contract, and two experiments in other units.
-/

namespace Feedx

open Fl

/-- The stable argsort only looks at how the numbers compare. -/
theorem stableArgsort_units {c : ℝ} (hc : 0 < c) : Spec.SortsInUnits stableArgsort c := by
  intro l
  unfold stableArgsort
  rw [List.length_map]
  have h : (fun i j : ℕ => (l.map (fun x => c * x)).getD i 0 ≤ (l.map (fun x => c * x)).getD j 0) = fun i j => l.getD i 0 ≤ l.getD j 0 := by
    have e : ∀ i, (l.map (fun x => c * x)).getD i 0 = c * l.getD i 0 := by
      intro i
      rw [List.getD_eq_getElem?_getD, List.getD_eq_getElem?_getD, List.getElem?_map]
      cases l[i]? <;> simp
    funext i j
    rw [e, e, mul_le_mul_iff_right₀ hc]
  congr!

/-- The table with the numbers of one column multiplied by `c`. -/
noncomputable def timesColumn (c : ℝ) (col : String) (f : Frame ℝ) : Frame ℝ :=
  ⟨f.cols, f.rows.map (fun r x => if x = col then flCell (fin c * (r col).toFl) else r x)⟩

theorem timesColumn_spec (c : ℝ) (col : String) (f : Frame ℝ) : Spec.ColumnTimes c col f (timesColumn c col f) := by
  refine ⟨rfl, ?_⟩
  unfold timesColumn
  rw [List.forall₂_map_right_iff, List.forall₂_same]
  intro r _
  exact ⟨fun x hx => if_neg hx, by simp only [if_true]; exact flCell_reads _⟩

/-- The experiment of C115 in which the treatment brings one more click per item: with clicks counted in hundredths, the report says 100 more. -/
example (R : Rounding ℝ) (D : TDist) :
    ∃ (out : Frame ℝ) (r r' : TestResult), prepareExperiment (runChecker ℝ) weekPerf (runAssign ℝ) weekDesign "2024-01-08" "id" "day" "t" runArgs = .ok out ∧
      (analyzeExperiment R stableArgsort D weekDesign.toDesignParams [⟨"clicks", "clicks", none, none⟩] "week_id" "item_id" "treatment_assignment"
        (out.dropCol "time_period")).1 = .ok [("clicks", r)] ∧
      (analyzeExperiment R stableArgsort D weekDesign.toDesignParams [⟨"clicks", "clicks", none, none⟩] "week_id" "item_id" "treatment_assignment"
        (timesColumn 100 "clicks" (out.dropCol "time_period"))).1 = .ok [("clicks", r')] ∧
      r.absoluteDifference = fin 1 ∧ r'.absoluteDifference = fin 100 ∧ r'.controlAverage = fin 100 ∧ r'.pValue = r.pValue ∧
      r'.sampleSize = 60 := by
  obtain ⟨out, r, ho, hr, h1, h2, h3⟩ := week_report R stableArgsort stableArgsort_ok D
  have h := C128_report_units R stableArgsort D 100 (by norm_num) (stableArgsort_units (by norm_num)) weekDesign.toDesignParams
    [⟨"clicks", "clicks", none, none⟩] "week_id" "item_id" "treatment_assignment" "clicks" (by decide) (by decide) (by decide)
    (out.dropCol "time_period") _ (timesColumn_spec 100 "clicks" _) (fun h => by cases h)
  rw [hr] at h
  match e : (analyzeExperiment R stableArgsort D weekDesign.toDesignParams [⟨"clicks", "clicks", none, none⟩] "week_id" "item_id" "treatment_assignment"
        (timesColumn 100 "clicks" (out.dropCol "time_period"))).1 with
  | .error x => rw [e] at h; exact h.elim
  | .ok [] => rw [e] at h; exact absurd h.2.1 (by simp)
  | .ok (_ :: _ :: _) => rw [e] at h; exact absurd h.2.1 (by simp)
  | .ok [q] =>
    rw [e] at h
    obtain ⟨-, -, h⟩ := h
    simp only [List.zip_cons_cons, List.zip_nil_left, List.forall₂_cons] at h
    obtain ⟨⟨-, hn, ht, -, -⟩, -⟩ := h
    have hk : Spec.factorOf 100 "clicks" ⟨"clicks", "clicks", none, none⟩ = 100 := by simp [Spec.factorOf]
    rw [hk] at ht
    refine ⟨out, r, q.2, ho, hr, ?_, h1, ?_, ?_, ht.pValue, by rw [ht.sampleSize, h3]⟩
    · obtain ⟨n, q⟩ := q
      obtain rfl : n = "clicks" := hn
      exact e
    · rw [ht.absoluteDifference, h1]; show fin (100 * 1) = _; norm_num
    · rw [ht.controlAverage, h2]; show fin (100 * 1) = _; norm_num

/-- Experiment data with the metric in other units are experiment data. -/
theorem timesColumn_experiment {d : Design ℝ} {i w t : String} {columns : List String} {f : Frame ℝ} (hf : Spec.ExperimentData d i w t columns f) (c : ℝ)
    {col : String} (h : col ∉ [i, w, t]) : Spec.ExperimentData d i w t columns (timesColumn c col f) := by
  have hx : i ≠ col ∧ w ≠ col ∧ t ≠ col := by
    simp only [List.mem_cons, List.not_mem_nil, or_false, not_or] at h
    exact ⟨fun e => h.1 e.symm, fun e => h.2.1 e.symm, fun e => h.2.2 e.symm⟩
  obtain ⟨h1, h2, h3, h4, h5, h6, ⟨g, h7⟩, h8, h9⟩ := hf
  refine ⟨h1, h2, h3, ?_, ?_, ?_, ⟨g, ?_⟩, ?_, ?_⟩
  · intro r hr
    obtain ⟨r, hr0, rfl⟩ := List.mem_map.mp hr
    simp only [if_neg hx.2.1]
    exact h4 r hr0
  · intro k k1 k2
    obtain ⟨r, hr, e⟩ := h5 k k1 k2
    exact ⟨_, List.mem_map.mpr ⟨r, hr, rfl⟩, by simp only [if_neg hx.2.1]; exact e⟩
  · intro r hr
    obtain ⟨r, hr0, rfl⟩ := List.mem_map.mp hr
    simp only [if_neg hx.1]
    exact h6 r hr0
  · intro r hr
    obtain ⟨r, hr0, rfl⟩ := List.mem_map.mp hr
    simp only [if_neg hx.1, if_neg hx.2.2]
    exact h7 r hr0
  · rw [← h8]
    congr 2
    unfold Spec.itemsOf timesColumn
    simp [Function.comp_def, if_neg hx.1]
  · intro y hy r hr
    obtain ⟨r, hr0, rfl⟩ := List.mem_map.mp hr
    obtain ⟨v, hv⟩ := h9 y hy r hr0
    by_cases e : y = col
    · subst e
      exact ⟨c * v, by simp only [if_true]; rw [flCell_reads, hv]; rfl⟩
    · exact ⟨v, by simp only [if_neg e]; exact hv⟩

theorem timesColumn_lost_floats (c : ℝ) : ¬ Spec.IntegerColumn (timesColumn c "any" lostData) "any" := by
  intro h
  obtain ⟨n, hn⟩ := h _ (List.mem_map.mpr ⟨_, List.mem_map.mpr ⟨0, by rw [List.mem_range]; norm_num, rfl⟩, rfl⟩)
  simp only [if_true] at hn
  cases hn

theorem timesColumn_twice (a c : ℝ) (col : String) (f : Frame ℝ) (h : ∀ r ∈ f.rows, ∃ y, (r col).toFl = .fin y) :
    Spec.ColumnTimes a col (timesColumn c col f) (timesColumn (a * c) col f) := by
  refine ⟨rfl, ?_⟩
  unfold timesColumn
  rw [List.forall₂_map_right_iff, List.forall₂_map_left_iff, List.forall₂_same]
  intro r hr
  obtain ⟨y, hy⟩ := h r hr
  refine ⟨fun x hx => by simp only [if_neg hx], ?_⟩
  simp only [if_true]
  rw [flCell_reads, flCell_reads, hy]
  show fin (a * c * y) = fin (a * (c * y))
  rw [mul_assoc]

/-- A crossover experiment over four weeks with 64 items whose metric is held as floating-point numbers: data in both units are analysed, and the difference
in the new units is the difference in the old ones times 100. -/
theorem lost_units (R : Rounding ℝ) (D : TDist) {f f' : Frame ℝ} (hE : Spec.ExperimentData lostDesign "id" "week" "t" ["any"] f)
    (hf : Spec.ColumnTimes 100 "any" f f') (n1 : ¬ Spec.IntegerColumn f "any") (n2 : ¬ Spec.IntegerColumn f' "any") :
    ∃ (r r' : TestResult) (x : ℝ),
      (analyzeExperiment R stableArgsort D lostDesign.toDesignParams [⟨"any", "any", none, none⟩] "week" "id" "t" f).1 =
        .ok [("any", r)] ∧
      (analyzeExperiment R stableArgsort D lostDesign.toDesignParams [⟨"any", "any", none, none⟩] "week" "id" "t" f').1 =
        .ok [("any", r')] ∧
      r.absoluteDifference = fin x ∧ r'.absoluteDifference = fin (100 * x) ∧ r'.pValue = r.pValue := by
  have hfit : Spec.MetricsFrom ["any"] [⟨"any", "any", none, none⟩] := by
    refine ⟨by simp, ?_⟩
    intro m hm
    obtain rfl := List.mem_singleton.mp hm
    exact ⟨by simp, by simp, by simp⟩
  obtain ⟨rows, hr, hnames⟩ := C103_crossover_analysed R stableArgsort stableArgsort_ok D _ _ (lostDesign_created R) (by show (64 : ℤ) ≤ 2 ^ 53; norm_num) rfl
    "id" "week" "t" ["any"] _ hE [⟨"any", "any", none, none⟩] hfit (by
      intro m hm q hq
      obtain rfl := List.mem_singleton.mp hm
      cases hq)
  have hx := C115_crossover_difference R stableArgsort D _ _ (lostDesign_created R) rfl "id" "week" "t" ["any"] _ hE _ hfit rows hr
  obtain ⟨⟨n, r⟩, rfl⟩ : ∃ a, rows = [a] := by
    have hl := congrArg List.length hnames
    rw [List.length_map, List.length_map] at hl
    exact List.length_eq_one_iff.mp hl
  obtain ⟨⟨rfl, hx⟩, -⟩ := List.forall₂_cons.mp hx
  have h := C128_report_units R stableArgsort D 100 (by norm_num) (stableArgsort_units (by norm_num)) lostDesign.toDesignParams
    [⟨"any", "any", none, none⟩] "week" "id" "t" "any" (by decide) (by decide) (by decide) _ _
    hf (fun _ => ⟨n1, n2⟩)
  rw [hr] at h
  match e : (analyzeExperiment R stableArgsort D lostDesign.toDesignParams [⟨"any", "any", none, none⟩] "week" "id" "t"
        f').1 with
  | .error x => rw [e] at h; exact h.elim
  | .ok [] => rw [e] at h; exact absurd h.2.1 (by simp)
  | .ok (_ :: _ :: _) => rw [e] at h; exact absurd h.2.1 (by simp)
  | .ok [q] =>
    rw [e] at h
    obtain ⟨-, -, h⟩ := h
    simp only [List.zip_cons_cons, List.zip_nil_left, List.forall₂_cons] at h
    obtain ⟨⟨-, hn, ht, -, -⟩, -⟩ := h
    have hk : Spec.factorOf 100 "any" ⟨"any", "any", none, none⟩ = 100 := by simp [Spec.factorOf]
    rw [hk] at ht
    have hd := (hx (by simp [lostDesign, lostParams, sixtyParams, PyNum.val]) rfl).2
    refine ⟨r, q.2, _, hr, ?_, hd, ?_, ht.pValue⟩
    · obtain ⟨n, q⟩ := q
      obtain rfl : n = "any" := hn
      rfl
    · rw [ht.absoluteDifference, hd]; rfl

/-- Such data exist. -/
example : ∃ f f' : Frame ℝ, Spec.ExperimentData lostDesign "id" "week" "t" ["any"] f ∧ Spec.ColumnTimes 100 "any" f f' ∧ ¬ Spec.IntegerColumn f "any" ∧
    ¬ Spec.IntegerColumn f' "any" :=
  ⟨timesColumn (1 / 100) "any" lostData, timesColumn (100 * (1 / 100)) "any" lostData,
    timesColumn_experiment lostData_experiment (1 / 100) (by decide),
    timesColumn_twice 100 (1 / 100) "any" lostData (lostData_experiment.finite "any" (by simp)), timesColumn_lost_floats _, timesColumn_lost_floats _⟩

end Feedx
