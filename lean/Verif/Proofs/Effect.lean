import Verif.Model.Simulate
import Verif.Proofs.Wide
import Verif.Props.Analysis
import Verif.Props.Cuped
import Verif.Props.Trimmed
import Verif.Props.Wide

/-!
Lemmas about the analysis of tables to which a synthetic effect was added.
-/

namespace Feedx
open Fl

/-! ### The tests when a constant is added to the first sample -/

theorem ind_first_shift {R : Rounding ℝ} {argsort : List ℝ → List ℕ} (ha : ArgsortOk argsort) {D : TDist} {v1 v2 : List ℝ} {q e : ℝ}
    {ev : Bool} {alt : String} {α : ℝ} {r r' : TestResult}
    (h : indTest R argsort D v1 v2 q none none ev alt α = .ok r)
    (h' : indTest R argsort D (v1.map (· + e)) v2 q none none ev alt α = .ok r') :
    r'.absoluteDifference = r.absoluteDifference + fin e ∧ r'.standardError = r.standardError ∧
      r'.degreesOfFreedom = r.degreesOfFreedom ∧ r'.sampleSize = r.sampleSize := by
  rcases indTest_ok h with ⟨x1, -, h0, -⟩ | ⟨-, -, T1, T2, h1, h2, l1, l2, h⟩
  · cases h0
  rcases indTest_ok h' with ⟨x1, -, h0, -⟩ | ⟨-, -, T1', T2', h1', h2', l1', l2', h'⟩
  · cases h0
  rw [h2] at h2'
  cases h2'
  have hlen : T1'.len = T1.len := by
    obtain ⟨T, hT, hl⟩ := mkTrimmed_transfer (cols' := asStack (v1.map (· + e))) ha h1 (by simp [asStack])
    rw [h1'] at hT
    cases hT
    exact hl
  have hc := C20_shift_and_scale R argsort argsort ha ha 0 0 (asStack v1) (asStack (v1.map (· + e))) 1 e
    (by rw [row0_asStack, row0_asStack]; simp) q T1 T1' h1 h1' (by
      intro h0
      unfold TrimmedArray.len at l1
      rw [h0] at l1
      simp at l1) 1
  obtain ⟨-, -, -, -, -, a1, -, a2, a3, a4, -⟩ := resultsFrom_ok h
  obtain ⟨-, -, -, -, -, b1, -, b2, b3, b4, -⟩ := resultsFrom_ok h'
  have hv : T1'.var 1 0 = T1.var 1 0 := by rw [hc.2.2]; ring
  have hm : T1'.mean 0 = T1.mean 0 + e := by rw [hc.1]; ring
  rw [a1, a2, a3, a4, b1, b2, b3, b4, hlen, hv, hm]
  unfold indEstimates
  refine ⟨?_, rfl, rfl, rfl⟩
  simp only [fin_sub, fin_add, Fl.fin.injEq]
  ring

theorem paired_first_shift {R : Rounding ℝ} {argsort : List ℝ → List ℕ} (ha : ArgsortOk argsort) {D : TDist} {v1 v2 : List ℝ} {q e : ℝ}
    {alt : String} {α : ℝ} {r r' : TestResult}
    (h : pairedTest R argsort D v1 v2 q none none alt α = .ok r)
    (h' : pairedTest R argsort D (v1.map (· + e)) v2 q none none alt α = .ok r') :
    r'.absoluteDifference = r.absoluteDifference + fin e ∧ r'.standardError = r.standardError ∧
      r'.degreesOfFreedom = r.degreesOfFreedom ∧ r'.sampleSize = r.sampleSize := by
  rcases pairedTest_ok h with ⟨x1, -, h0, -⟩ | ⟨-, -, T, h1, l1, h⟩
  · cases h0
  rcases pairedTest_ok h' with ⟨x1, -, h0, -⟩ | ⟨-, -, T', h1', l1', h'⟩
  · cases h0
  have hlen : T'.len = T.len := by
    obtain ⟨T0, hT, hl⟩ := mkTrimmed_transfer (cols' := stack3 (v1.map (· + e)) v2) ha h1 (by simp [stack3])
    rw [h1'] at hT
    cases hT
    exact hl
  have hrow : rowOf (stack3 (v1.map (· + e)) v2) 0 = (rowOf (stack3 v1 v2) 0).map (fun x => 1 * x + e) := by
    unfold rowOf stack3
    clear * -
    induction v1 generalizing v2 with
    | nil => simp
    | cons a v1 ih =>
      cases v2 with
      | nil => simp
      | cons b v2 =>
        simp only [List.map_cons, List.zipWith_cons_cons, ih]
        simp
        ring
  have hc := C20_shift_and_scale R argsort argsort ha ha 2 2 (stack3 v1 v2) (stack3 (v1.map (· + e)) v2) 1 e
    hrow q T T' h1 h1' (by
      intro h0
      unfold TrimmedArray.len at l1
      rw [h0] at l1
      simp at l1) 1
  obtain ⟨-, -, -, -, -, a1, -, a2, a3, a4, -⟩ := resultsFrom_ok h
  obtain ⟨-, -, -, -, -, b1, -, b2, b3, b4, -⟩ := resultsFrom_ok h'
  have hv : T'.var 1 0 = T.var 1 0 := by rw [hc.2.2]; ring
  have hm : T'.mean 0 = T.mean 0 + e := by rw [hc.1]; ring
  rw [a1, a2, a3, a4, b1, b2, b3, b4]
  unfold pairedPlain
  simp only [hlen, hv, hm, fin_add, and_self]

/-- Without trimming the reported difference of two independent samples is the difference of their means. -/
theorem ind_untrimmed_difference {R : Rounding ℝ} {argsort : List ℝ → List ℕ} {D : TDist} {v1 v2 : List ℝ}
    {ev : Bool} {alt : String} {α : ℝ} {r : TestResult}
    (h : indTest R argsort D v1 v2 0 none none ev alt α = .ok r) :
    r.absoluteDifference = fin (Spec.mean v1 - Spec.mean v2) ∧ v1 ≠ [] ∧ v2 ≠ [] := by
  rcases indTest_ok h with ⟨x1, -, h0, -⟩ | ⟨-, -, T1, T2, h1, h2, l1, l2, h⟩
  · cases h0
  rw [mkTrimmed_zero] at h1 h2
  cases h1
  cases h2
  obtain ⟨-, -, -, -, -, a1, -⟩ := resultsFrom_ok h
  rw [a1]
  unfold indEstimates TrimmedArray.mean
  rw [row0_asStack, row0_asStack]
  refine ⟨?_, ?_, ?_⟩
  · simp [fin_sub, Spec.mean, TrimmedArray.len, length_asStack]
  · rintro rfl
    simp [TrimmedArray.len, asStack] at l1
  · rintro rfl
    simp [TrimmedArray.len, asStack] at l2

/-- Without trimming the reported difference of paired samples is the mean of the differences. -/
theorem paired_untrimmed_difference {R : Rounding ℝ} {argsort : List ℝ → List ℕ} {D : TDist} {v1 v2 : List ℝ}
    {alt : String} {α : ℝ} {r : TestResult}
    (h : pairedTest R argsort D v1 v2 0 none none alt α = .ok r) :
    r.absoluteDifference = fin (Spec.mean (List.zipWith (· - ·) v1 v2)) ∧ v1 ≠ [] ∧ v2 ≠ [] := by
  rcases pairedTest_ok h with ⟨x1, -, h0, -⟩ | ⟨-, -, T, h1, l1, h⟩
  · cases h0
  rw [mkTrimmed_zero] at h1
  cases h1
  obtain ⟨-, -, -, -, -, a1, -⟩ := resultsFrom_ok h
  rw [a1]
  have hrow : rowOf (stack3 v1 v2) 0 = List.zipWith (· - ·) v1 v2 := by
    unfold rowOf stack3
    rw [List.map_zipWith]
    rfl
  unfold pairedPlain TrimmedArray.mean
  refine ⟨?_, ?_, ?_⟩
  · show fin ((rowOf (stack3 v1 v2) 0).sum / ((stack3 v1 v2).length : ℝ)) = _
    rw [hrow]
    simp [Spec.mean, stack3]
  · rintro rfl
    simp [TrimmedArray.len, stack3] at l1
  · rintro rfl
    simp [TrimmedArray.len, stack3] at l1

/-! ### The table and the pivoted data -/

theorem addWhere_value (w : Wide ℝ) (mask : List (Cell ℝ) → Bool) (label : List String) (e : Fl ℝ) (metric : String)
    (k : List (Cell ℝ)) (m p : String) :
    ((addWhere w mask label e).pivoted metric).value k m p =
      if [m, p] = label ∧ mask k = true then (w.pivoted metric).value k m p + e else (w.pivoted metric).value k m p := by
  unfold Wide.pivoted addWhere
  simp only [List.find?_map, Function.comp_def]
  cases hf : w.rows.find? (fun r => decide (r.key = k)) with
  | none =>
    simp only [Option.map_none]
    split <;> rfl
  | some r =>
    have hk : r.key = k := by simpa using List.find?_some hf
    simp only [Option.map_some, hk]

theorem addWhere_index (w : Wide ℝ) (mask : List (Cell ℝ) → Bool) (label : List String) (e : Fl ℝ) (metric : String) :
    ((addWhere w mask label e).pivoted metric).index = (w.pivoted metric).index ∧
      ((addWhere w mask label e).pivoted metric).periods = (w.pivoted metric).periods := by
  unfold Wide.pivoted addWhere
  simp [List.map_map, Function.comp_def]

theorem isTreated_assigned {item treat : String} (hne : item ≠ treat) {k : List (Cell ℝ)} (hk : k.length = 2) :
    isTreated [item, treat] treat k = true ↔ Spec.AssignedTo 1 k := by
  obtain ⟨i, t, rfl⟩ := List.length_eq_two.mp hk
  have h1 : (treat == item) = false := by simpa using hne.symm
  unfold isTreated levelOf
  simp only [List.zip_cons_cons, List.zip_nil_right, List.lookup, h1, beq_self_eq_true, Option.getD_some, decide_eq_true_eq]
  constructor
  · intro h; exact ⟨i, t, rfl, h⟩
  · rintro ⟨i', t', e, ht⟩
    simp only [List.cons.injEq, and_true] at e
    rw [e.2]; exact ht

theorem analyzeWide_ok {R : Rounding ℝ} {argsort : List ℝ → List ℕ} {D : TDist} {w : Wide ℝ} {d : DesignParams ℝ} {metric treat : String}
    {r : TestResult} (h : analyzeWide R argsort D w d metric treat = .ok r) :
    analyzeSingleMetric R argsort D (w.pivoted metric) (w.cols.map (fun l => l.headD "")) w.names d metric none treat none = .ok r :=
  (raiseIf_bind_ok.mp h).2

theorem applyEffect_ok {w out : Wide ℝ} {metric treat : String} {cross : Bool} {e : Fl ℝ}
    (h : applyEffect w metric cross e treat = .ok out) :
    out = if cross then addWhere (addWhere w (isTreated w.names treat) [metric, "test_1"] e)
        (fun k => !isTreated w.names treat k) [metric, "test_2"] e
      else addWhere w (isTreated w.names treat) [metric, "test"] e := by
  unfold applyEffect at h
  have h := (raiseIf_bind_ok.mp (raiseIf_bind_ok.mp h).2).2
  cases cross
  · cases h; rfl
  · cases h; rfl

theorem pretest_periods (w : Wide ℝ) (metric : String) :
    Cell.str "pretest" ∈ (w.pivoted metric).periods ↔ [metric, "pretest"] ∈ w.cols := by
  unfold Wide.pivoted
  simp only [List.mem_filterMap]
  constructor
  · rintro ⟨l, hl, h⟩
    split at h
    · split_ifs at h with he
      · simp only [Option.some.injEq, Cell.str.injEq] at h
        subst he; subst h
        exact hl
    · cases h
  · intro h
    exact ⟨_, h, by simp⟩

/-- How the effect changes the values of the pivoted data in a regular experiment. -/
theorem regular_effect {w out : Wide ℝ} {metric item treat : String} {e : ℝ} (hn : w.names = [item, treat]) (hne : item ≠ treat)
    (hk : ∀ r ∈ w.rows, r.key.length = 2)
    (h : applyEffect w metric false (.fin e) treat = .ok out) :
    out.names = w.names ∧ out.cols = w.cols ∧ (out.pivoted metric).index = (w.pivoted metric).index ∧
      (out.pivoted metric).periods = (w.pivoted metric).periods ∧
      ∀ k ∈ (w.pivoted metric).index,
        (Spec.AssignedTo 1 k → (out.pivoted metric).value k metric "test" = (w.pivoted metric).value k metric "test" + .fin e) ∧
        (¬ Spec.AssignedTo 1 k → (out.pivoted metric).value k metric "test" = (w.pivoted metric).value k metric "test") ∧
        (out.pivoted metric).value k metric "pretest" = (w.pivoted metric).value k metric "pretest" := by
  have h := applyEffect_ok h
  simp only [Bool.false_eq_true, if_false] at h
  subst h
  refine ⟨rfl, rfl, (addWhere_index _ _ _ _ _).1, (addWhere_index _ _ _ _ _).2, ?_⟩
  intro k hk'
  have hl : k.length = 2 := by
    obtain ⟨r, hr, rfl⟩ := List.mem_map.mp hk'
    exact hk r hr
  rw [addWhere_value, addWhere_value, hn]
  have := isTreated_assigned hne hl
  refine ⟨fun ht => ?_, fun ht => ?_, ?_⟩
  · rw [if_pos ⟨rfl, this.mpr ht⟩]
  · rw [if_neg (fun h => ht (this.mp h.2))]
  · rw [if_neg (by simp)]

/-- How the effect changes the values of the pivoted data in a crossover experiment. -/
theorem crossover_effect {w out : Wide ℝ} {metric item treat : String} {e : ℝ} (hn : w.names = [item, treat]) (hne : item ≠ treat)
    (hk : ∀ r ∈ w.rows, r.key.length = 2)
    (h : applyEffect w metric true (.fin e) treat = .ok out) :
    out.names = w.names ∧ out.cols = w.cols ∧ (out.pivoted metric).index = (w.pivoted metric).index ∧
      (out.pivoted metric).periods = (w.pivoted metric).periods ∧
      ∀ k ∈ (w.pivoted metric).index,
        (Spec.AssignedTo 1 k → (out.pivoted metric).value k metric "test_1" = (w.pivoted metric).value k metric "test_1" + .fin e ∧
          (out.pivoted metric).value k metric "test_2" = (w.pivoted metric).value k metric "test_2") ∧
        (¬ Spec.AssignedTo 1 k → (out.pivoted metric).value k metric "test_1" = (w.pivoted metric).value k metric "test_1" ∧
          (out.pivoted metric).value k metric "test_2" = (w.pivoted metric).value k metric "test_2" + .fin e) := by
  have h := applyEffect_ok h
  simp only [if_true] at h
  subst h
  refine ⟨rfl, rfl, ?_, ?_, ?_⟩
  · rw [(addWhere_index _ _ _ _ _).1, (addWhere_index _ _ _ _ _).1]
  · rw [(addWhere_index _ _ _ _ _).2, (addWhere_index _ _ _ _ _).2]
  intro k hk'
  have hl : k.length = 2 := by
    obtain ⟨r, hr, rfl⟩ := List.mem_map.mp hk'
    exact hk r hr
  simp only [addWhere_value, hn]
  have := isTreated_assigned hne hl
  refine ⟨fun ht => ?_, fun ht => ?_⟩
  · simp [this.mpr ht]
  · have hf : isTreated [item, treat] treat k = false := by
      rw [← Bool.not_eq_true]; exact fun hc => ht (this.mp hc)
    simp [hf]

/-! ### Groups -/

open Classical in
theorem group_values_shift {idx : List (List (Cell ℝ))} {f f' : List (Cell ℝ) → Fl ℝ} {y y' : List ℝ} {e : ℝ}
    (hy : List.Forall₂ (fun k x => f k = .fin x) idx y) (hy' : List.Forall₂ (fun k x => f' k = .fin x) idx y')
    (h : ∀ k ∈ idx, (Spec.AssignedTo 1 k → f' k = f k + .fin e) ∧ (¬ Spec.AssignedTo 1 k → f' k = f k)) :
    y' = List.zipWith (fun k x => if Spec.AssignedTo 1 k then x + e else x) idx y := by
  induction hy generalizing y' with
  | nil => cases hy'; rfl
  | @cons k x idx y hx hr ih =>
    rcases hy' with _ | ⟨hx', hr'⟩
    rename_i x' y'
    rw [List.zipWith_cons_cons, ← ih hr' (fun k hk => h k (List.mem_cons_of_mem _ hk))]
    congr 1
    obtain ⟨h1, h2⟩ := h k (by simp)
    by_cases ht : Spec.AssignedTo 1 k
    · have := h1 ht
      rw [hx', hx, fin_add] at this
      rw [if_pos ht]
      exact Fl.fin.inj this
    · have := h2 ht
      rw [hx', hx] at this
      rw [if_neg ht]
      exact Fl.fin.inj this

theorem assigned_unique {k : List (Cell ℝ)} {a b : ℝ} (ha : Spec.AssignedTo a k) (hb : Spec.AssignedTo b k) : a = b := by
  obtain ⟨i, t, rfl, h⟩ := ha
  obtain ⟨i', t', e, h'⟩ := hb
  simp only [List.cons.injEq, and_true] at e
  rw [e.2, h'] at h
  exact (Fl.fin.inj h).symm

open Classical in
theorem groupOf_shift (piv : Pivoted ℝ) (y : List ℝ) (e : ℝ) :
    Spec.groupOf piv 1 (List.zipWith (fun k x => if Spec.AssignedTo 1 k then x + e else x) piv.index y) =
      (Spec.groupOf piv 1 y).map (· + e) ∧
    Spec.groupOf piv 0 (List.zipWith (fun k x => if Spec.AssignedTo 1 k then x + e else x) piv.index y) =
      Spec.groupOf piv 0 y := by
  unfold Spec.groupOf
  generalize piv.index = idx
  induction idx generalizing y with
  | nil => simp
  | cons k idx ih =>
    cases y with
    | nil => simp
    | cons x y =>
      simp only [List.zipWith_cons_cons, List.zip_cons_cons, List.filter_cons]
      obtain ⟨i1, i2⟩ := ih y
      constructor
      · by_cases h : Spec.AssignedTo 1 k
        · simp [h, i1]
        · simp [h, i1]
      · by_cases h : Spec.AssignedTo 0 k
        · have h1 : ¬ Spec.AssignedTo 1 k := fun h1 => by
            have := assigned_unique h h1
            norm_num at this
          simp [h, h1, i2]
        · simp [h, i2]

end Feedx
