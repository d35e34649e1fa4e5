import Verif.Props.Report
import Verif.Props.Effect
import Verif.Props.ExchangeRatio

/-!
Property C115 without trimming: the reported differences from the totals of the groups.
-/

set_option linter.unusedSectionVars false

namespace Feedx
open Fl

theorem sum_indicator {α : Type} [DecidableEq α] {L : List α} (hL : L.Nodup) (x : α) (v : ℝ) :
    (L.map (fun i => if x = i then v else 0)).sum = if x ∈ L then v else 0 := by
  induction L with
  | nil => simp
  | cons a L ih =>
    rw [List.nodup_cons] at hL
    rw [List.map_cons, List.sum_cons, ih hL.2]
    by_cases h : x = a
    · subst h
      simp [hL.1]
    · simp [h]

open Classical in
/-- Summing the totals of different keys sums the rows with one of these keys. -/
theorem sum_totals {ρ α : Type} {L : List α} (hL : L.Nodup) (key : ρ → α) (P : ρ → Prop) (v : ρ → ℝ) (rows : List ρ) :
    (L.map (fun i => ((rows.filter (fun r => decide (key r = i ∧ P r))).map v).sum)).sum =
      ((rows.filter (fun r => decide (key r ∈ L ∧ P r))).map v).sum := by
  induction rows with
  | nil => simp
  | cons r rows ih =>
    have e : (fun i => (((r :: rows).filter (fun r => decide (key r = i ∧ P r))).map v).sum) =
        fun i => (if key r = i then (if P r then v r else 0) else 0) + ((rows.filter (fun r => decide (key r = i ∧ P r))).map v).sum := by
      funext i
      rw [List.filter_cons]
      by_cases h1 : key r = i <;> by_cases h2 : P r <;> simp [h1, h2]
    rw [e, List.sum_map_add, ih, sum_indicator hL, List.filter_cons]
    by_cases h1 : key r ∈ L <;> by_cases h2 : P r <;> simp [h1, h2]

theorem grouped_sum {d : Design ℝ} {i w t : String} {cols : List String} {f : Frame ℝ} (hf : Spec.ExperimentData d i w t cols f)
    {items : List (Cell ℝ)} (hit : Spec.ListsAll f i items) (b : Bool) (lo hi : ℤ) (c : String) :
    (Spec.groupedValues f i t items b (Spec.weeklyValue f i w c lo hi)).sum = Spec.groupTotal f w t c b lo hi / ((hi - lo : ℤ) : ℝ) := by
  classical
  unfold Spec.groupedValues Spec.valuesIn Spec.weeklyValue Spec.groupTotal
  have := sum_totals (hit.1.filter (fun x => decide (Spec.InGroup f i t b x))) (fun r : Row ℝ => r i)
    (fun r => ∃ v : ℤ, r w = .int v ∧ lo ≤ v ∧ v < hi) (fun r => Spec.cellNumber (r c)) f.rows
  simp only [div_eq_mul_inv]
  rw [List.sum_map_mul_right]
  congr 1
  refine (Eq.trans (by congr!) this).trans ?_
  congr 2
  refine List.filter_congr fun r hr => ?_
  obtain ⟨tr, htr⟩ := hf.groups
  rw [Bool.eq_iff_iff]
  simp only [List.mem_filter, decide_eq_true_eq]
  constructor
  · rintro ⟨⟨-, r', hr', e, e'⟩, h⟩
    rw [htr r hr, ← e, ← htr r' hr']
    exact ⟨e', h⟩
  · rintro ⟨e, h⟩
    exact ⟨⟨(hit.2 _).mpr ⟨r, hr, rfl⟩, r, hr, rfl, e⟩, h⟩

theorem grouped_length {i t : String} {f : Frame ℝ} {items : List (Cell ℝ)} (hit : Spec.ListsAll f i items) (b : Bool) (y : Cell ℝ → ℝ) :
    (Spec.groupedValues f i t items b y).length = (Spec.groupItems f i t b).card := by
  classical
  unfold Spec.groupedValues Spec.valuesIn
  rw [List.length_map, ← List.toFinset_card_of_nodup (hit.1.filter _)]
  congr 1
  unfold Spec.groupItems Spec.itemsOf Spec.InGroup
  ext x
  simp only [List.mem_toFinset, List.mem_filter, decide_eq_true_eq, List.mem_map]
  constructor
  · rintro ⟨-, r, hr, rfl, e⟩
    exact ⟨r, ⟨hr, e⟩, rfl⟩
  · rintro ⟨r, ⟨hr, e⟩, rfl⟩
    exact ⟨(hit.2 _).mpr ⟨r, hr, rfl⟩, r, hr, rfl, e⟩

/-- Every item is in exactly one of the two groups. -/
theorem grouped_total {d : Design ℝ} {i w t : String} {cols : List String} {f : Frame ℝ} {items : List (Cell ℝ)} (hf : Spec.ExperimentData d i w t cols f)
    (hit : Spec.ListsAll f i items) : items.length = (Spec.groupItems f i t true).card + (Spec.groupItems f i t false).card := by
  classical
  rw [← grouped_length hit true (fun _ => 0), ← grouped_length hit false (fun _ => 0)]
  unfold Spec.groupedValues Spec.valuesIn
  rw [List.length_map, List.length_map, List.length_eq_length_filter_add (fun x => decide (Spec.InGroup f i t true x))]
  congr 2
  obtain ⟨tr, htr⟩ := hf.groups
  refine List.filter_congr fun x hx => ?_
  obtain ⟨r, hr, rfl⟩ := (hit.2 x).mp hx
  have key : ∀ b, Spec.InGroup f i t b (r i) ↔ tr (r i) = b := by
    intro b
    unfold Spec.InGroup
    constructor
    · rintro ⟨r', hr', e, e'⟩
      rw [htr r' hr', e] at e'
      cases h1 : tr (r i) <;> cases b <;> simp_all
    · intro e
      exact ⟨r, hr, rfl, by rw [htr r hr, e]⟩
  rw [Bool.eq_iff_iff]
  simp only [decide_eq_true_eq, Bool.not_eq_true', decide_eq_false_iff_not, key]
  cases tr (r i) <;> simp

theorem forall₂_mem_imp {α β : Type} {P Q : α → β → Prop} {l : List α} {l' : List β} (h : List.Forall₂ P l l') (hpq : ∀ x y, x ∈ l → P x y → Q x y) :
    List.Forall₂ Q l l' := by
  induction h with
  | nil => exact List.Forall₂.nil
  | cons h _ ih => exact List.Forall₂.cons (hpq _ _ (by simp) h) (ih fun x y hx => hpq x y (by simp [hx]))

theorem grouped_mean {d : Design ℝ} {i w t : String} {cols : List String} {f : Frame ℝ} (hf : Spec.ExperimentData d i w t cols f)
    {items : List (Cell ℝ)} (hit : Spec.ListsAll f i items) (b : Bool) (lo hi : ℤ) (c : String) :
    Spec.mean (Spec.groupedValues f i t items b (Spec.weeklyValue f i w c lo hi)) = Spec.groupAverage f i w t c b lo hi := by
  unfold Spec.mean Spec.groupAverage
  rw [grouped_sum hf hit, grouped_length hit, div_div]

/-- The untrimmed test of two independent samples of a ratio metric. -/
theorem ind_ratio_untrimmed {R : Rounding ℝ} {argsort : List ℝ → List ℕ} {D : TDist} {v1 v2 w1 w2 : List ℝ} {ev : Bool} {alt : String} {α : ℝ}
    {r : TestResult} (h : indTest R argsort D v1 v2 0 (some w1) (some w2) ev alt α = .ok r) :
    r.absoluteDifference = fin (Spec.mean v1) / fin (Spec.mean w1) - fin (Spec.mean v2) / fin (Spec.mean w2) ∧
      r.controlAverage = fin (Spec.mean v2) / fin (Spec.mean w2) ∧ r.sampleSize = v1.length + v2.length := by
  have hlen : v1.length = w1.length ∧ v2.length = w2.length := by
    unfold indTest at h
    obtain ⟨h0, -⟩ := raiseIf_bind_ok.mp h
    push Not at h0
    exact h0
  rcases indTest_ok h with ⟨x1, x2, e1, e2, T1, T2, h1, h2, l1, l2, h⟩ | ⟨e, -⟩
  swap
  · cases e
  cases e1; cases e2
  rw [mkTrimmed_zero] at h1 h2
  cases h1
  cases h2
  have row : ∀ {v w : List ℝ}, v.length = w.length → rowOf (stack2 v w) 0 = v ∧ rowOf (stack2 v w) 1 = w ∧ (stack2 v w).length = v.length := by
    intro v w hvw
    induction v generalizing w with
    | nil => cases w with
      | nil => exact ⟨rfl, rfl, rfl⟩
      | cons _ _ => simp at hvw
    | cons a v ih => cases w with
      | nil => simp at hvw
      | cons b w =>
        obtain ⟨i1, i2, i3⟩ := ih (w := w) (by simpa using hvw)
        unfold rowOf stack2 at i1 i2
        unfold stack2 at i3
        unfold rowOf stack2
        simp only [List.zipWith_cons_cons, List.map_cons, i1, i2, List.length_cons, i3]
        exact ⟨rfl, rfl, trivial⟩
  obtain ⟨r10, r11, n1⟩ := row hlen.1
  obtain ⟨r20, r21, n2⟩ := row hlen.2
  have m : ∀ {v w : List ℝ}, rowOf (stack2 v w) 0 = v → rowOf (stack2 v w) 1 = w → (stack2 v w).length = v.length → v.length = w.length →
      (⟨stack2 v w, 0, stack2 v w⟩ : TrimmedArray ℝ 1).mean 0 = Spec.mean v ∧ (⟨stack2 v w, 0, stack2 v w⟩ : TrimmedArray ℝ 1).mean 1 = Spec.mean w := by
    intro v w e0 e1 e2 e3
    unfold TrimmedArray.mean TrimmedArray.len Spec.mean
    simp only [e0, e1, e2, e3, and_self]
  obtain ⟨a1, a2⟩ := m r10 r11 n1 hlen.1
  obtain ⟨b1, b2⟩ := m r20 r21 n2 hlen.2
  obtain ⟨-, -, -, -, -, had, -, -, hn, -, hca⟩ := resultsFrom_ok h
  refine ⟨?_, ?_, ?_⟩
  · rw [had, ← a1, ← a2, ← b1, ← b2]
    rfl
  · rw [hca, ← b1, ← b2]
    rfl
  · rw [hn]
    show (stack2 v1 w1).length + (stack2 v2 w2).length = _
    rw [n1, n2]

/-- The untrimmed test of two independent samples. -/
theorem ind_plain_untrimmed {R : Rounding ℝ} {argsort : List ℝ → List ℕ} {D : TDist} {v1 v2 : List ℝ} {ev : Bool} {alt : String} {α : ℝ}
    {r : TestResult} (h : indTest R argsort D v1 v2 0 none none ev alt α = .ok r) :
    r.absoluteDifference = fin (Spec.mean v1 - Spec.mean v2) ∧ r.controlAverage = fin (Spec.mean v2) ∧ r.sampleSize = v1.length + v2.length := by
  refine ⟨(ind_untrimmed_difference h).1, ?_⟩
  rcases indTest_ok h with ⟨x1, -, h0, -⟩ | ⟨-, -, T1, T2, h1, h2, l1, l2, h⟩
  · cases h0
  rw [mkTrimmed_zero] at h1 h2
  cases h1
  cases h2
  obtain ⟨-, -, -, -, -, -, -, -, hn, -, hca⟩ := resultsFrom_ok h
  rw [hca, hn]
  unfold indEstimates TrimmedArray.mean
  rw [row0_asStack, row0_asStack]
  simp [Spec.mean, TrimmedArray.len, length_asStack]

/-- **C115, regular experiments without pretest weeks and trimming.**  The analysis reports, for every metric, the difference of the average weekly values of the
items of the two groups, from the totals of the rows of the groups; for a ratio metric, the difference of the ratios of the totals. -/
theorem C115_regular_totals (R : Rounding ℝ) (argsort : List ℝ → List ℕ) (D : TDist) (p : DesignParams ℝ) (d : Design ℝ) (hd : mkDesign R p = .ok d)
    (hx : d.isCrossover = false) (hpre : d.pretest = 0) (itemCol weekCol treatCol : String) (columns : List String) (f : Frame ℝ)
    (hf : Spec.ExperimentData d itemCol weekCol treatCol columns f) (metrics : List Metric) (hm : Spec.MetricsFrom columns metrics)
    (rows : List (String × TestResult)) (h : (analyzeExperiment R argsort D d.toDesignParams metrics weekCol itemCol treatCol f).1 = .ok rows) :
    List.Forall₂ (fun m e => e.1 = m.name ∧ (m.override.getD d.postTrim.val = 0 →
      e.2.sampleSize = (Spec.groupItems f itemCol treatCol true).card + (Spec.groupItems f itemCol treatCol false).card ∧
      (m.denominator = none →
        e.2.absoluteDifference = fin (Spec.groupAverage f itemCol weekCol treatCol m.column true 0 d.runtime -
          Spec.groupAverage f itemCol weekCol treatCol m.column false 0 d.runtime) ∧
        e.2.controlAverage = fin (Spec.groupAverage f itemCol weekCol treatCol m.column false 0 d.runtime)) ∧
      ∀ c, m.denominator = some c → Spec.groupTotal f weekCol treatCol c true 0 d.runtime ≠ 0 → Spec.groupTotal f weekCol treatCol c false 0 d.runtime ≠ 0 →
        e.2.absoluteDifference = fin (Spec.groupTotal f weekCol treatCol m.column true 0 d.runtime / Spec.groupTotal f weekCol treatCol c true 0 d.runtime -
          Spec.groupTotal f weekCol treatCol m.column false 0 d.runtime / Spec.groupTotal f weekCol treatCol c false 0 d.runtime) ∧
        e.2.controlAverage = fin (Spec.groupTotal f weekCol treatCol m.column false 0 d.runtime / Spec.groupTotal f weekCol treatCol c false 0 d.runtime)))
      metrics rows := by
  obtain ⟨items, hit, hrows⟩ := C115_regular R argsort D p d hd hx itemCol weekCol treatCol columns f hf metrics hm rows h
  obtain ⟨-, hrun⟩ := created_pretest hd
  refine hrows.imp ?_
  rintro m ⟨nm, r⟩ ⟨rfl, -, hr⟩
  obtain ⟨y, hy, hr⟩ := hr (fun c _ hc => by have := hc.1; omega)
  refine ⟨rfl, fun hq => ?_⟩
  rw [hq] at hr hy
  have hval : ∀ {c : String} {y : Cell ℝ → ℝ}, Spec.ComparedValues R argsort d f itemCol weekCol c 0 items y →
      y = Spec.weeklyValue f itemCol weekCol c 0 d.runtime := by
    intro c y hy
    rcases hy with ⟨-, e⟩ | ⟨h0, -⟩
    · exact e
    · omega
  cases hden : m.denominator with
  | none =>
    rw [hden] at hr
    obtain rfl := hval hy
    obtain ⟨h1, h2, h3⟩ := ind_plain_untrimmed hr
    rw [grouped_mean hf hit, grouped_mean hf hit] at h1
    rw [grouped_mean hf hit] at h2
    rw [grouped_length hit, grouped_length hit] at h3
    exact ⟨h3, fun _ => ⟨h1, h2⟩, fun c e => absurd e (by simp)⟩
  | some c =>
    rw [hden] at hr
    obtain ⟨z, hz, hr⟩ := hr
    obtain rfl := hval hy
    obtain rfl := hval hz
    obtain ⟨h1, h2, h3⟩ := ind_ratio_untrimmed hr
    have hlen : 0 < (Spec.groupItems f itemCol treatCol true).card ∧ 0 < (Spec.groupItems f itemCol treatCol false).card := by
      rcases indTest_ok hr with ⟨x1, x2, e1, e2, T1, T2, h1, h2, l1, l2, -⟩ | ⟨e, -⟩
      swap
      · cases e
      cases e1; cases e2
      rw [mkTrimmed_zero] at h1 h2
      cases h1
      cases h2
      unfold TrimmedArray.len stack2 at l1 l2
      simp only [List.length_zipWith, grouped_length hit, min_self] at l1 l2
      omega
    simp only [grouped_mean hf hit] at h1 h2
    rw [grouped_length hit, grouped_length hit] at h3
    refine ⟨h3, fun e => absurd e (by simp), fun c' e n1 n0 => ?_⟩
    cases e
    have hw : ((d.runtime - 0 : ℤ) : ℝ) ≠ 0 := by
      rw [sub_zero]
      exact_mod_cast (by omega : d.runtime ≠ 0)
    have c1 : ((Spec.groupItems f itemCol treatCol true).card : ℝ) ≠ 0 := by exact_mod_cast (by omega)
    have c0 : ((Spec.groupItems f itemCol treatCol false).card : ℝ) ≠ 0 := by exact_mod_cast (by omega)
    have q : ∀ (b : Bool) (m' : String), Spec.groupTotal f weekCol treatCol c b 0 d.runtime ≠ 0 → ((Spec.groupItems f itemCol treatCol b).card : ℝ) ≠ 0 →
        fin (Spec.groupAverage f itemCol weekCol treatCol m' b 0 d.runtime) / fin (Spec.groupAverage f itemCol weekCol treatCol c b 0 d.runtime) =
        fin (Spec.groupTotal f weekCol treatCol m' b 0 d.runtime / Spec.groupTotal f weekCol treatCol c b 0 d.runtime) := by
      intro b m' hn hc
      have : Spec.groupAverage f itemCol weekCol treatCol c b 0 d.runtime ≠ 0 := by
        unfold Spec.groupAverage
        exact div_ne_zero hn (mul_ne_zero hw hc)
      rw [fin_div_ne this]
      congr 1
      unfold Spec.groupAverage
      field_simp
    rw [q true _ n1 c1, q false _ n0 c0, fin_sub] at h1
    rw [q false _ n0 c0] at h2
    exact ⟨h1, h2⟩

/-- The untrimmed paired test. -/
theorem paired_plain_untrimmed {R : Rounding ℝ} {argsort : List ℝ → List ℕ} {D : TDist} {v1 v2 : List ℝ} {alt : String} {α : ℝ}
    {r : TestResult} (h : pairedTest R argsort D v1 v2 0 none none alt α = .ok r) :
    v1 ≠ [] ∧ r.absoluteDifference = fin (Spec.mean v1 - Spec.mean v2) ∧ r.controlAverage = fin (Spec.mean v2) ∧ r.sampleSize = v1.length := by
  have hlen : v1.length = v2.length := by
    unfold pairedTest at h
    obtain ⟨h0, -⟩ := raiseIf_bind_ok.mp h
    push Not at h0
    exact h0
  obtain ⟨hd, hne, -⟩ := paired_untrimmed_difference h
  refine ⟨hne, ?_, ?_⟩
  · rw [hd]
    congr 1
    unfold Spec.mean
    rw [← hlen, List.length_zipWith, ← hlen, min_self, ← sub_div]
    congr 1
    clear hd hne h
    induction v1 generalizing v2 with
    | nil => cases v2 with
      | nil => simp
      | cons _ _ => simp at hlen
    | cons a v1 ih => cases v2 with
      | nil => simp at hlen
      | cons b v2 =>
        rw [List.zipWith_cons_cons, List.sum_cons, List.sum_cons, List.sum_cons, ih (by simpa using hlen)]
        ring
  rcases pairedTest_ok h with ⟨x1, -, h0, -⟩ | ⟨-, -, T, h1, l1, h⟩
  · cases h0
  rw [mkTrimmed_zero] at h1
  cases h1
  obtain ⟨-, -, -, -, -, -, -, -, hn, -, hca⟩ := resultsFrom_ok h
  have hrow : rowOf (stack3 v1 v2) 2 = v2 := by
    unfold rowOf stack3
    clear * - hlen
    induction v1 generalizing v2 with
    | nil => cases v2 with
      | nil => simp
      | cons _ _ => simp at hlen
    | cons a v1 ih => cases v2 with
      | nil => simp at hlen
      | cons b v2 =>
        rw [List.zipWith_cons_cons, List.map_cons, ih (by simpa using hlen)]
        rfl
  have hl3 : (stack3 v1 v2).length = v2.length := by simp [stack3, hlen]
  constructor
  · rw [hca]
    show fin (TrimmedArray.mean _ 2) = _
    unfold TrimmedArray.mean TrimmedArray.len Spec.mean
    simp only [hrow, hl3]
  · rw [hn]
    show (stack3 v1 v2).length = _
    rw [hl3, hlen]

/-- The untrimmed paired test of a ratio metric. -/
theorem paired_ratio_plain {R : Rounding ℝ} {argsort : List ℝ → List ℕ} {D : TDist} {v1 v2 w1 w2 : List ℝ} {alt : String} {α : ℝ}
    {r : TestResult} (h : pairedTest R argsort D v1 v2 0 (some w1) (some w2) alt α = .ok r) :
    r.controlAverage = fin (Spec.mean v2) / fin (Spec.mean w2) ∧ r.sampleSize = v1.length := by
  have hlen : v1.length = v2.length ∧ v1.length = w1.length ∧ v1.length = w2.length := by
    unfold pairedTest at h
    obtain ⟨h0, h⟩ := raiseIf_bind_ok.mp h
    obtain ⟨h1, -⟩ := raiseIf_bind_ok.mp h
    push Not at h0 h1
    exact ⟨h0, h1⟩
  rcases pairedTest_ok h with ⟨x1, x2, e1, e2, T, hT, hl, h⟩ | ⟨e, -⟩
  swap
  · cases e
  cases e1; cases e2
  rw [mkTrimmed_zero] at hT
  cases hT
  have l5 : (stack5 v1 w1 v2 w2).length = v1.length := by simp [stack5, ← hlen.1, ← hlen.2.1, ← hlen.2.2]
  obtain ⟨r1, r2, r3, r4⟩ := rows_stack5 (a := v1) (b := w1) (c := v2) (d := w2) hlen.2.1.symm hlen.1.symm hlen.2.2.symm
  obtain ⟨-, -, -, -, -, -, -, -, hn, -, hca⟩ := resultsFrom_ok h
  refine ⟨?_, ?_⟩
  · rw [hca]
    have m3 : (⟨stack5 v1 w1 v2 w2, 0, stack5 v1 w1 v2 w2⟩ : TrimmedArray ℝ 4).mean 3 = Spec.mean v2 := by
      unfold TrimmedArray.mean TrimmedArray.len Spec.mean
      simp only [r3, l5, hlen.1]
    have m4 : (⟨stack5 v1 w1 v2 w2, 0, stack5 v1 w1 v2 w2⟩ : TrimmedArray ℝ 4).mean 4 = Spec.mean w2 := by
      unfold TrimmedArray.mean TrimmedArray.len Spec.mean
      simp only [r4, l5, hlen.2.2]
    rw [← m3, ← m4]
    rfl
  · rw [hn]
    exact l5

open Classical in
/-- The sums of the treated and untreated values of the items, from the values of the two groups. -/
theorem crossover_sums {items : List (Cell ℝ)} (P : Cell ℝ → Prop) (a b : Cell ℝ → ℝ) (m1 m2 : ℝ) :
    ((items.map (fun i => (⟨P i, a i, b i⟩ : Spec.CrossoverItem))).map (fun i => i.treated m1 m2)).sum =
      ((items.filter (fun i => decide (P i))).map a).sum - (items.filter (fun i => decide (P i))).length * m1 +
      (((items.filter (fun i => decide (¬ P i))).map b).sum - (items.filter (fun i => decide (¬ P i))).length * m2) ∧
    ((items.map (fun i => (⟨P i, a i, b i⟩ : Spec.CrossoverItem))).map (fun i => i.untreated m1 m2)).sum =
      ((items.filter (fun i => decide (P i))).map b).sum - (items.filter (fun i => decide (P i))).length * m2 +
      (((items.filter (fun i => decide (¬ P i))).map a).sum - (items.filter (fun i => decide (¬ P i))).length * m1) ∧
    (items.map a).sum = ((items.filter (fun i => decide (P i))).map a).sum + ((items.filter (fun i => decide (¬ P i))).map a).sum ∧
    (items.map b).sum = ((items.filter (fun i => decide (P i))).map b).sum + ((items.filter (fun i => decide (¬ P i))).map b).sum ∧
    items.length = (items.filter (fun i => decide (P i))).length + (items.filter (fun i => decide (¬ P i))).length := by
  induction items with
  | nil => simp
  | cons i l ih =>
    obtain ⟨h1, h2, h3, h4, h5⟩ := ih
    simp only [List.map_cons, List.sum_cons, List.filter_cons, List.length_cons, h1, h2, h3, h4]
    rw [h5]
    by_cases h : P i
    · simp only [Spec.CrossoverItem.treated, Spec.CrossoverItem.untreated, h, if_true, not_true, decide_true, decide_false, Bool.false_eq_true, if_false,
        List.map_cons, List.sum_cons, List.length_cons]
      push_cast
      refine ⟨by ring, by ring, by ring, by ring, by ring⟩
    · simp only [Spec.CrossoverItem.treated, Spec.CrossoverItem.untreated, h, if_true, not_false_eq_true, decide_true, decide_false, Bool.false_eq_true, if_false,
        List.map_cons, List.sum_cons, List.length_cons]
      push_cast
      refine ⟨by ring, by ring, by ring, by ring, by ring⟩

theorem crossover_algebra {A1 A2 B1 B2 x : ℝ} {n1 n0 : ℕ} (hx : 0 < x) (hn : (0 : ℝ) < (n1 : ℝ) + n0) (h1 : n1 = 0 → A1 = 0 ∧ A2 = 0) (h0 : n0 = 0 → B1 = 0 ∧ B2 = 0)
    {m1 m2 : ℝ} (e1 : m1 = (A1 / x + B1 / x) / ((n1 : ℝ) + n0)) (e2 : m2 = (A2 / x + B2 / x) / ((n1 : ℝ) + n0)) :
    ((A1 / x - n1 * m1 + (B2 / x - n0 * m2)) - (A2 / x - n1 * m2 + (B1 / x - n0 * m1))) / ((n1 : ℝ) + n0) =
      4 * n1 * n0 / ((n1 : ℝ) + n0) ^ 2 * (((A1 / (x * n1) - A2 / (x * n1)) + (B2 / (x * n0) - B1 / (x * n0))) / 2) := by
  subst e1 e2
  by_cases z1 : n1 = 0
  · obtain ⟨rfl, rfl⟩ := h1 z1
    subst z1
    simp only [Nat.cast_zero, zero_add] at hn ⊢
    field_simp
    ring
  by_cases z0 : n0 = 0
  · obtain ⟨rfl, rfl⟩ := h0 z0
    subst z0
    simp only [Nat.cast_zero, add_zero] at hn ⊢
    field_simp
    ring
  have y1 : (n1 : ℝ) ≠ 0 := by exact_mod_cast z1
  have y0 : (n0 : ℝ) ≠ 0 := by exact_mod_cast z0
  field_simp
  ring

theorem crossover_means {d : Design ℝ} {i w t : String} {cols : List String} {f : Frame ℝ} (hf : Spec.ExperimentData d i w t cols f)
    {items : List (Cell ℝ)} (hit : Spec.ListsAll f i items) (hne : items ≠ []) (hw : d.washout.getD 0 < d.runtime / 2) (hev : Even d.runtime) (c : String) :
    Spec.untreatedMean (items.map (Spec.crossoverItem d f i w t c)) = Spec.untreatedAverage d f i w t c ∧
      Spec.adjustedDifference (items.map (Spec.crossoverItem d f i w t c)) =
        Spec.balance (Spec.groupItems f i t true).card (Spec.groupItems f i t false).card * Spec.crossoverChange d f i w t c ∧
      items.length = (Spec.groupItems f i t true).card + (Spec.groupItems f i t false).card := by
  classical
  have hlen2 : d.runtime - (d.runtime / 2 + d.washout.getD 0) = d.runtime / 2 - d.washout.getD 0 := by
    rw [Int.even_iff] at hev
    omega
  have hnot : items.filter (fun x => decide (¬ Spec.InGroup f i t true x)) = items.filter (fun x => decide (Spec.InGroup f i t false x)) := by
    refine List.filter_congr fun x hx => ?_
    obtain ⟨tr, htr⟩ := hf.groups
    obtain ⟨r, hr, rfl⟩ := (hit.2 x).mp hx
    rw [Bool.eq_iff_iff]
    simp only [decide_eq_true_eq]
    unfold Spec.InGroup
    simp only [if_true, Bool.false_eq_true, if_false]
    have ht := htr r hr
    cases hb : tr (r i) with
    | true =>
      rw [hb] at ht
      simp only [if_true] at ht
      constructor
      · intro h
        exact absurd ⟨r, hr, rfl, ht⟩ h
      · rintro ⟨r', hr', e, e'⟩
        rw [htr r' hr', e, hb] at e'
        simp at e'
    | false =>
      rw [hb] at ht
      simp only [Bool.false_eq_true, if_false] at ht
      refine ⟨fun _ => ⟨r, hr, rfl, ht⟩, ?_⟩
      rintro - ⟨r', hr', e, e'⟩
      rw [htr r' hr', e, hb] at e'
      simp at e'
  have hL : ∀ lo hi : ℤ, ∀ b, ((items.filter (fun x => decide (Spec.InGroup f i t b x))).map (Spec.weeklyValue f i w c lo hi)).sum =
      Spec.groupTotal f w t c b lo hi / ((hi - lo : ℤ) : ℝ) := by
    intro lo hi b
    rw [← grouped_sum hf hit b lo hi c]
    rfl
  have hN : ∀ b, (items.filter (fun x => decide (Spec.InGroup f i t b x))).length = (Spec.groupItems f i t b).card := by
    intro b
    rw [← grouped_length hit b (fun _ => 0)]
    unfold Spec.groupedValues Spec.valuesIn
    rw [List.length_map]
  have key := fun m1 m2 => crossover_sums (items := items) (Spec.InGroup f i t true) (Spec.weeklyValue f i w c (d.washout.getD 0) (d.runtime / 2))
    (Spec.weeklyValue f i w c (d.runtime / 2 + d.washout.getD 0) d.runtime) m1 m2
  simp only [hnot, hL, hN, hlen2] at key
  have hpos : (0 : ℝ) < ((d.runtime / 2 - d.washout.getD 0 : ℤ) : ℝ) := by exact_mod_cast (by omega)
  have hn := (key 0 0).2.2.2.2
  have hn0 : (0 : ℝ) < (Spec.groupItems f i t true).card + (Spec.groupItems f i t false).card := by
    have : 0 < items.length := List.length_pos_iff.mpr hne
    rw [hn] at this
    exact_mod_cast this
  refine ⟨?_, ?_, hn⟩
  · unfold Spec.untreatedMean Spec.mean Spec.untreatedAverage
    have e : items.map (Spec.crossoverItem d f i w t c) = items.map (fun x => (⟨Spec.InGroup f i t true x, Spec.weeklyValue f i w c (d.washout.getD 0) (d.runtime / 2) x,
      Spec.weeklyValue f i w c (d.runtime / 2 + d.washout.getD 0) d.runtime x⟩ : Spec.CrossoverItem)) := rfl
    rw [e, (key 0 0).2.1]
    simp only [List.length_map]
    rw [hn]
    push_cast at hpos hn0 ⊢
    field_simp
    ring
  · unfold Spec.adjustedDifference
    have hfirst : (items.map (Spec.crossoverItem d f i w t c)).map (fun x => x.first) = items.map (Spec.weeklyValue f i w c (d.washout.getD 0) (d.runtime / 2)) := by
      rw [List.map_map]; rfl
    have hsecond : (items.map (Spec.crossoverItem d f i w t c)).map (fun x => x.second) =
        items.map (Spec.weeklyValue f i w c (d.runtime / 2 + d.washout.getD 0) d.runtime) := by
      rw [List.map_map]; rfl
    rw [hfirst, hsecond]
    have hm1 : Spec.mean (items.map (Spec.weeklyValue f i w c (d.washout.getD 0) (d.runtime / 2))) =
        (Spec.groupTotal f w t c true (d.washout.getD 0) (d.runtime / 2) / ((d.runtime / 2 - d.washout.getD 0 : ℤ) : ℝ) +
          Spec.groupTotal f w t c false (d.washout.getD 0) (d.runtime / 2) / ((d.runtime / 2 - d.washout.getD 0 : ℤ) : ℝ)) /
        ((Spec.groupItems f i t true).card + (Spec.groupItems f i t false).card) := by
      unfold Spec.mean
      rw [(key 0 0).2.2.1, List.length_map, hn]
      push_cast
      rfl
    have hm2 : Spec.mean (items.map (Spec.weeklyValue f i w c (d.runtime / 2 + d.washout.getD 0) d.runtime)) =
        (Spec.groupTotal f w t c true (d.runtime / 2 + d.washout.getD 0) d.runtime / ((d.runtime / 2 - d.washout.getD 0 : ℤ) : ℝ) +
          Spec.groupTotal f w t c false (d.runtime / 2 + d.washout.getD 0) d.runtime / ((d.runtime / 2 - d.washout.getD 0 : ℤ) : ℝ)) /
        ((Spec.groupItems f i t true).card + (Spec.groupItems f i t false).card) := by
      unfold Spec.mean
      rw [(key 0 0).2.2.2.1, List.length_map, hn]
      push_cast
      rfl
    rw [hm1, hm2]
    generalize (Spec.groupTotal f w t c true (d.washout.getD 0) (d.runtime / 2) / ((d.runtime / 2 - d.washout.getD 0 : ℤ) : ℝ) +
          Spec.groupTotal f w t c false (d.washout.getD 0) (d.runtime / 2) / ((d.runtime / 2 - d.washout.getD 0 : ℤ) : ℝ)) /
        ((Spec.groupItems f i t true).card + (Spec.groupItems f i t false).card : ℝ) = m1 at hm1 ⊢
    generalize (Spec.groupTotal f w t c true (d.runtime / 2 + d.washout.getD 0) d.runtime / ((d.runtime / 2 - d.washout.getD 0 : ℤ) : ℝ) +
          Spec.groupTotal f w t c false (d.runtime / 2 + d.washout.getD 0) d.runtime / ((d.runtime / 2 - d.washout.getD 0 : ℤ) : ℝ)) /
        ((Spec.groupItems f i t true).card + (Spec.groupItems f i t false).card : ℝ) = m2 at hm2 ⊢
    have e : items.map (Spec.crossoverItem d f i w t c) = items.map (fun x => (⟨Spec.InGroup f i t true x, Spec.weeklyValue f i w c (d.washout.getD 0) (d.runtime / 2) x,
      Spec.weeklyValue f i w c (d.runtime / 2 + d.washout.getD 0) d.runtime x⟩ : Spec.CrossoverItem)) := rfl
    unfold Spec.mean
    have hsub : ∀ L : List Spec.CrossoverItem, (L.map (fun i => i.treated m1 m2 - i.untreated m1 m2)).sum =
        (L.map (fun i => i.treated m1 m2)).sum - (L.map (fun i => i.untreated m1 m2)).sum := by
      intro L
      induction L with
      | nil => simp
      | cons a L ih => simp only [List.map_cons, List.sum_cons, ih]; ring
    rw [hsub, e, (key m1 m2).1, (key m1 m2).2.1]
    simp only [List.length_map]
    unfold Spec.mean at hm1 hm2
    rw [(key 0 0).2.2.1, List.length_map, hn] at hm1
    rw [(key 0 0).2.2.2.1, List.length_map, hn] at hm2
    rw [hn]
    have hz : ∀ b, (Spec.groupItems f i t b).card = 0 → Spec.groupTotal f w t c b (d.washout.getD 0) (d.runtime / 2) = 0 ∧
        Spec.groupTotal f w t c b (d.runtime / 2 + d.washout.getD 0) d.runtime = 0 := by
      intro b hb
      rw [← hN b, List.length_eq_zero_iff] at hb
      have g1 := hL (d.washout.getD 0) (d.runtime / 2) b
      have g2 := hL (d.runtime / 2 + d.washout.getD 0) d.runtime b
      rw [hb, List.map_nil, List.sum_nil] at g1 g2
      rw [hlen2] at g2
      constructor
      · rcases div_eq_zero_iff.mp g1.symm with h | h
        · exact h
        · exact absurd h hpos.ne'
      · rcases div_eq_zero_iff.mp g2.symm with h | h
        · exact h
        · exact absurd h hpos.ne'
    have z1 := hz true
    have z0 := hz false
    push_cast at hm1 hm2 ⊢
    unfold Spec.balance Spec.crossoverChange Spec.groupAverage
    rw [hlen2]
    push_cast
    push_cast at hpos
    exact crossover_algebra hpos hn0 z1 z0 hm1.symm hm2.symm

/-- **C115, crossover experiments without trimming, the difference of a plain metric.**  For every metric that is not a ratio the analysis reports the average over
the two groups of what changed while the group was treated, from the totals of the groups in the two test periods, times the share `4 n₁ n₀ / (n₁ + n₀)²` (all of it if
the groups are equally large). -/
theorem C115_crossover_difference (R : Rounding ℝ) (argsort : List ℝ → List ℕ) (D : TDist) (p : DesignParams ℝ) (d : Design ℝ) (hd : mkDesign R p = .ok d)
    (hx : d.isCrossover = true) (itemCol weekCol treatCol : String) (columns : List String) (f : Frame ℝ)
    (hf : Spec.ExperimentData d itemCol weekCol treatCol columns f) (metrics : List Metric) (hm : Spec.MetricsFrom columns metrics)
    (rows : List (String × TestResult)) (h : (analyzeExperiment R argsort D d.toDesignParams metrics weekCol itemCol treatCol f).1 = .ok rows) :
    List.Forall₂ (fun m e => e.1 = m.name ∧ (m.override.getD d.postTrim.val = 0 → m.denominator = none →
      e.2.sampleSize = (Spec.groupItems f itemCol treatCol true).card + (Spec.groupItems f itemCol treatCol false).card ∧
      e.2.absoluteDifference = fin (Spec.balance (Spec.groupItems f itemCol treatCol true).card (Spec.groupItems f itemCol treatCol false).card *
        Spec.crossoverChange d f itemCol weekCol treatCol m.column))) metrics rows := by
  obtain ⟨items, hit, hrows⟩ := C115_crossover_stored R argsort D p d hd hx itemCol weekCol treatCol columns f hf metrics hm rows h
  obtain ⟨wo, hwo, hwo0, hwo1, hev⟩ := created_crossover hd hx
  have hw : d.washout.getD 0 < d.runtime / 2 := by
    rw [hwo]
    rw [Int.even_iff] at hev
    simp only [Option.getD_some]
    omega
  refine hrows.imp ?_
  rintro m ⟨nm, r⟩ ⟨rfl, s, v1, v2, -, ha, hr⟩
  refine ⟨rfl, fun hq hden => ?_⟩
  rw [hq] at hr ha
  have hl1 : v1.length = items.length := by
    obtain ⟨m1, m2, c, -, -, rfl, -, -⟩ := ha.2 rfl
    simp
  have a2 := arrays_means_into ha
  rw [hden] at hr
  obtain ⟨hne, h1, -, h3⟩ := paired_plain_untrimmed hr
  have hne' : items ≠ [] := by
    rintro rfl
    exact hne (List.length_eq_zero_iff.mp hl1)
  obtain ⟨-, c2, c3⟩ := crossover_means hf hit hne' hw hev m.column
  rw [a2, c2] at h1
  refine ⟨by rw [← c3, ← hl1]; exact h3, ?_⟩
  rw [h1]
  congr 1
  ring

/-- **C115, crossover experiments without trimming** (partial: only metrics that lose no fractions).  For every metric the analysis reports the average over the two groups of what changed while the group was
treated, from the totals of the groups in the two test periods, times the share `4 n₁ n₀ / (n₁ + n₀)²` (all of it if the groups are equally large).
For a ratio metric it compares the ratio of the untreated averages with the ratio of these averages moved by such differences. -/
theorem C115_crossover_totals_partial (R : Rounding ℝ) (argsort : List ℝ → List ℕ) (D : TDist) (p : DesignParams ℝ) (d : Design ℝ) (hd : mkDesign R p = .ok d)
    (hx : d.isCrossover = true) (itemCol weekCol treatCol : String) (columns : List String) (f : Frame ℝ)
    (hf : Spec.ExperimentData d itemCol weekCol treatCol columns f) (metrics : List Metric) (hm : Spec.MetricsFrom columns metrics)
    (rows : List (String × TestResult)) (h : (analyzeExperiment R argsort D d.toDesignParams metrics weekCol itemCol treatCol f).1 = .ok rows) :
    ∃ items, Spec.ListsAll f itemCol items ∧ List.Forall₂ (fun m e => e.1 = m.name ∧ (m.override.getD d.postTrim.val = 0 →
      Spec.MetricKept d items (Spec.weeklyValue f itemCol weekCol) (Spec.IntegerColumn f) m →
      e.2.sampleSize = (Spec.groupItems f itemCol treatCol true).card + (Spec.groupItems f itemCol treatCol false).card ∧
      let U := Spec.untreatedAverage d f itemCol weekCol treatCol
      let E := fun c => Spec.balance (Spec.groupItems f itemCol treatCol true).card (Spec.groupItems f itemCol treatCol false).card *
        Spec.crossoverChange d f itemCol weekCol treatCol c
      (m.denominator = none → e.2.absoluteDifference = fin (E m.column) ∧ e.2.controlAverage = fin (U m.column)) ∧
      ∀ c, m.denominator = some c → U c ≠ 0 → U c + E c ≠ 0 →
        e.2.absoluteDifference = fin ((U m.column + E m.column) / (U c + E c) - U m.column / U c) ∧ e.2.controlAverage = fin (U m.column / U c)))
      metrics rows := by
  obtain ⟨items, hit, hrows⟩ := C115_crossover_partial R argsort D p d hd hx itemCol weekCol treatCol columns f hf metrics hm rows h
  obtain ⟨wo, hwo, hwo0, hwo1, hev⟩ := created_crossover hd hx
  have hw : d.washout.getD 0 < d.runtime / 2 := by
    rw [hwo]
    rw [Int.even_iff] at hev
    simp only [Option.getD_some]
    omega
  refine ⟨items, hit, hrows.imp ?_⟩
  rintro m ⟨nm, r⟩ ⟨rfl, hrep⟩
  refine ⟨rfl, fun hq hk => ?_⟩
  obtain ⟨v1, v2, ha, hr⟩ := hrep hk
  rw [hq] at hr ha
  have hl1 : v1.length = items.length := by
    obtain ⟨m1, m2, c, -, -, rfl, -, -⟩ := ha.2 rfl
    simp
  obtain ⟨a1, a2⟩ := arrays_means ha
  cases hden : m.denominator with
  | none =>
    rw [hden] at hr
    obtain ⟨hne, h1, h2, h3⟩ := paired_plain_untrimmed hr
    have hne' : items ≠ [] := by
      rintro rfl
      exact hne (List.length_eq_zero_iff.mp hl1)
    obtain ⟨c1, c2, c3⟩ := crossover_means hf hit hne' hw hev m.column
    rw [a2, a1, c1, c2] at h1
    rw [a1, c1] at h2
    refine ⟨by rw [← c3, ← hl1]; exact h3, fun _ => ⟨?_, h2⟩, fun c e => absurd e (by simp)⟩
    rw [h1]
    congr 1
    ring
  | some c =>
    rw [hden] at hr
    obtain ⟨w1, w2, hb, hr⟩ := hr
    obtain ⟨b1, b2⟩ := arrays_means hb
    obtain ⟨hne, h1⟩ := paired_ratio_untrimmed hr
    obtain ⟨h2, h3⟩ := paired_ratio_plain hr
    have hne' : items ≠ [] := by
      rintro rfl
      exact hne (List.length_eq_zero_iff.mp hl1)
    obtain ⟨c1, c2, c3⟩ := crossover_means hf hit hne' hw hev m.column
    obtain ⟨d1, d2, -⟩ := crossover_means hf hit hne' hw hev c
    rw [a2, a1, b2, b1, c1, c2, d1, d2] at h1
    rw [a1, b1, c1, d1] at h2
    refine ⟨by rw [← c3, ← hl1]; exact h3, fun e => absurd e (by simp), fun c' e n1 n2 => ?_⟩
    cases e
    rw [fin_div_ne n1, fin_div_ne n2, fin_sub] at h1
    rw [fin_div_ne n1] at h2
    exact ⟨h1, h2⟩

theorem whole_sum {α : Type} {l : List α} {v : α → ℝ} (h : ∀ x ∈ l, ∃ n : ℤ, v x = n) : ∃ n : ℤ, (l.map v).sum = n := by
  induction l with
  | nil => exact ⟨0, by simp⟩
  | cons x l ih =>
    obtain ⟨n, e⟩ := h x (by simp)
    obtain ⟨k, e'⟩ := ih fun y hy => h y (by simp [hy])
    exact ⟨n + k, by rw [List.map_cons, List.sum_cons, e, e']; push_cast; ring⟩

/-- No fractions are lost if the test periods are one week long. -/
theorem metricKept_one_week {d : Design ℝ} (hev : Even d.runtime) (h1 : d.runtime = 2 * (d.washout.getD 0 + 1)) (f : Frame ℝ) (i w : String) (items : List (Cell ℝ))
    (m : Metric) : Spec.MetricKept d items (Spec.weeklyValue f i w) (Spec.IntegerColumn f) m := by
  intro c _ hl x _
  obtain ⟨hint, -⟩ := hl
  rw [Int.even_iff] at hev
  have e : d.runtime - (d.runtime / 2 + d.washout.getD 0) = 1 := by omega
  unfold Spec.weeklyValue
  rw [e, Int.cast_one, div_one]
  refine whole_sum fun r hr => ?_
  obtain ⟨n, e⟩ := hint r (List.mem_filter.mp hr).1
  exact ⟨n, by rw [e]; rfl⟩

theorem items_sum {i : String} {f : Frame ℝ} {items : List (Cell ℝ)} (hit : Spec.ListsAll f i items) (v : Cell ℝ → ℝ) :
    (items.map v).sum = ∑ x ∈ Spec.itemsOf f i (fun _ => True), v x ∧ items.length = (Spec.itemsOf f i (fun _ => True)).card := by
  classical
  have e : Spec.itemsOf f i (fun _ => True) = items.toFinset := by
    ext x
    unfold Spec.itemsOf
    simp only [decide_true, List.filter_true, List.mem_toFinset, List.mem_map]
    rw [hit.2]
  rw [e, List.sum_toFinset _ hit.1, List.toFinset_card_of_nodup hit.1]
  exact ⟨rfl, rfl⟩

theorem items_mean {i : String} {f : Frame ℝ} {items : List (Cell ℝ)} (hit : Spec.ListsAll f i items) (v : Cell ℝ → ℝ) :
    Spec.mean (items.map v) = Spec.itemAverage f i v := by
  unfold Spec.mean Spec.itemAverage
  rw [(items_sum hit v).1, List.length_map, (items_sum hit v).2]

theorem items_slope {d : Design ℝ} {i w : String} {f : Frame ℝ} {items : List (Cell ℝ)} (hit : Spec.ListsAll f i items) (c : String) :
    Spec.crossDev (items.map (Spec.weeklyValue f i w c 0 d.runtime)) (items.map (Spec.weeklyValue f i w c (-d.pretest) 0)) /
      Spec.sumSqDev (items.map (Spec.weeklyValue f i w c (-d.pretest) 0)) = Spec.pretestSlope d f i w c := by
  unfold Spec.crossDev Spec.sumSqDev Spec.pretestSlope
  rw [items_mean hit, items_mean hit, List.map_map, List.zipWith_map, List.zipWith_self]
  rw [← (items_sum hit _).1, ← (items_sum hit _).1]
  rfl

theorem adjusted_mean {R : Rounding ℝ} {argsort : List ℝ → List ℕ} {d : Design ℝ} {i w t : String} {cols : List String} {f : Frame ℝ}
    (hf : Spec.ExperimentData d i w t cols f) {items : List (Cell ℝ)} (hit : Spec.ListsAll f i items) (hpre : 0 < d.pretest) {c : String} {y : Cell ℝ → ℝ}
    (hy : Spec.ComparedValues R argsort d f i w c 0 items y) (b : Bool) (hb : (Spec.groupItems f i t b).card ≠ 0) :
    Spec.mean (Spec.groupedValues f i t items b y) = Spec.adjustedAverage d f i w t c b := by
  rcases hy with ⟨h0, -⟩ | ⟨-, hy⟩
  · omega
  have hy' : cuped R argsort (items.map (Spec.weeklyValue f i w c 0 d.runtime)) (items.map (Spec.weeklyValue f i w c (-d.pretest) 0)) 0 =
      .ok ((items.map y).map .fin) := by
    rw [hy, List.map_map]
    rfl
  obtain ⟨-, e⟩ := cuped_zero_triples hy'
  rw [items_slope hit, items_mean hit] at e
  have hyv := List.map_inj_left.mp e
  have e' : Spec.groupedValues f i t items b y = Spec.groupedValues f i t items b (fun x => Spec.weeklyValue f i w c 0 d.runtime x -
      Spec.pretestSlope d f i w c * (Spec.weeklyValue f i w c (-d.pretest) 0 x - Spec.itemAverage f i (Spec.weeklyValue f i w c (-d.pretest) 0))) := by
    unfold Spec.groupedValues Spec.valuesIn
    refine List.map_congr_left fun x hx => hyv x (List.mem_filter.mp hx).1
  rw [e']
  unfold Spec.adjustedAverage
  rw [← grouped_mean hf hit, ← grouped_mean hf hit]
  have lin : ∀ (L : List (Cell ℝ)) (u v : Cell ℝ → ℝ) (k m : ℝ), L ≠ [] →
      Spec.mean (L.map (fun x => u x - k * (v x - m))) = Spec.mean (L.map u) - k * (Spec.mean (L.map v) - m) := by
    intro L u v k m hL
    unfold Spec.mean
    simp only [List.length_map]
    have hn : (L.length : ℝ) ≠ 0 := by
      rw [Nat.cast_ne_zero, Ne, List.length_eq_zero_iff]
      exact hL
    have hs : (L.map (fun x => u x - k * (v x - m))).sum = (L.map u).sum - k * ((L.map v).sum - L.length * m) := by
      clear hL hn
      induction L with
      | nil => simp
      | cons a L ih => simp only [List.map_cons, List.sum_cons, ih, List.length_cons]; push_cast; ring
    rw [hs]
    field_simp
  refine lin _ _ _ _ _ fun h0 => hb ?_
  rw [← grouped_length hit b (fun _ => 0)]
  unfold Spec.groupedValues Spec.valuesIn
  rw [h0]
  rfl

/-- **C115, regular experiments with pretest weeks and without trimming.**  The analysis compares the averages of the groups, each adjusted by the regression
coefficient over all items of the runtime values on the pretest values; for metrics that are not constant in the pretest weeks (else see C124). -/
theorem C115_regular_pretest_totals (R : Rounding ℝ) (argsort : List ℝ → List ℕ) (D : TDist) (p : DesignParams ℝ) (d : Design ℝ) (hd : mkDesign R p = .ok d)
    (hx : d.isCrossover = false) (hpre : 0 < d.pretest) (itemCol weekCol treatCol : String) (columns : List String) (f : Frame ℝ)
    (hf : Spec.ExperimentData d itemCol weekCol treatCol columns f) (metrics : List Metric) (hm : Spec.MetricsFrom columns metrics)
    (rows : List (String × TestResult)) (h : (analyzeExperiment R argsort D d.toDesignParams metrics weekCol itemCol treatCol f).1 = .ok rows) :
    List.Forall₂ (fun m e => e.1 = m.name ∧ (m.override.getD d.postTrim.val = 0 →
      e.2.sampleSize = (Spec.groupItems f itemCol treatCol true).card + (Spec.groupItems f itemCol treatCol false).card ∧
      let Y := Spec.adjustedAverage d f itemCol weekCol treatCol
      (∀ c ∈ m.column :: m.denominator.toList, Spec.PretestDiffers d itemCol weekCol treatCol f c) →
      (m.denominator = none → e.2.absoluteDifference = fin (Y m.column true - Y m.column false) ∧ e.2.controlAverage = fin (Y m.column false)) ∧
      ∀ c, m.denominator = some c → Y c true ≠ 0 → Y c false ≠ 0 →
        e.2.absoluteDifference = fin (Y m.column true / Y c true - Y m.column false / Y c false) ∧
        e.2.controlAverage = fin (Y m.column false / Y c false)))
      metrics rows := by
  obtain ⟨items, hit, hrows⟩ := C115_regular R argsort D p d hd hx itemCol weekCol treatCol columns f hf metrics hm rows h
  refine forall₂_mem_imp hrows ?_
  rintro m ⟨nm, r⟩ hmem ⟨rfl, hno, hr⟩
  refine ⟨rfl, fun hq => ?_⟩
  by_cases hadj : ∃ c ∈ m.column :: m.denominator.toList, Spec.NothingToAdjust R d items (Spec.weeklyValue f itemCol weekCol c) (m.override.getD d.postTrim.val)
  · refine ⟨?_, fun hdiff => ?_⟩
    · rw [(hno hadj).size, grouped_total hf hit]
    · obtain ⟨c, hc, -, ⟨x, hx'⟩, -⟩ := hadj
      obtain ⟨r1, hr1, r2, hr2, hne⟩ := hdiff c hc
      have hcol : c ∈ columns := by
        simp only [List.mem_cons, Option.mem_toList, Option.mem_def] at hc
        rcases hc with rfl | hc
        · exact (hm.2 m hmem).1
        · exact (hm.2 m hmem).2.1 c hc
      rw [total_weekly hf hcol (by omega) hr1, total_weekly hf hcol (by omega) hr2, hx' _ ((hit.2 _).mpr ⟨r1, hr1, rfl⟩), hx' _ ((hit.2 _).mpr ⟨r2, hr2, rfl⟩)] at hne
      exact absurd rfl hne
  obtain ⟨y, hy, hr⟩ := hr (fun c hc hc' => hadj ⟨c, hc, hc'⟩)
  rw [hq] at hr hy
  cases hden : m.denominator with
  | none =>
    rw [hden] at hr
    obtain ⟨h1, h2, h3⟩ := ind_plain_untrimmed hr
    have hlen : ∀ b, (Spec.groupItems f itemCol treatCol b).card ≠ 0 := by
      rcases indTest_ok hr with ⟨x1, -, h0, -⟩ | ⟨-, -, T1, T2, h1, h2, l1, l2, -⟩
      · cases h0
      rw [mkTrimmed_zero] at h1 h2
      cases h1
      cases h2
      have k1 := length_asStack (Spec.valuesIn items (Spec.InGroup f itemCol treatCol true) y)
      have k2 := length_asStack (Spec.valuesIn items (Spec.InGroup f itemCol treatCol false) y)
      rw [grouped_length hit] at k1 k2
      simp only [TrimmedArray.len] at l1 l2
      intro b
      cases b <;> omega
    rw [adjusted_mean hf hit hpre hy _ (hlen _), adjusted_mean hf hit hpre hy _ (hlen _)] at h1
    rw [adjusted_mean hf hit hpre hy _ (hlen _)] at h2
    rw [grouped_length hit, grouped_length hit] at h3
    exact ⟨h3, fun _ => ⟨fun _ => ⟨h1, h2⟩, fun c e => absurd e (by simp)⟩⟩
  | some c =>
    rw [hden] at hr
    obtain ⟨z, hz, hr⟩ := hr
    obtain ⟨h1, h2, h3⟩ := ind_ratio_untrimmed hr
    have hlen : ∀ b, (Spec.groupItems f itemCol treatCol b).card ≠ 0 := by
      rcases indTest_ok hr with ⟨x1, x2, e1, e2, T1, T2, h1, h2, l1, l2, -⟩ | ⟨e, -⟩
      swap
      · cases e
      cases e1; cases e2
      rw [mkTrimmed_zero] at h1 h2
      cases h1
      cases h2
      unfold TrimmedArray.len stack2 at l1 l2
      simp only [List.length_zipWith, grouped_length hit, min_self] at l1 l2
      intro b
      cases b <;> omega
    simp only [adjusted_mean hf hit hpre hy _ (hlen _), adjusted_mean hf hit hpre hz _ (hlen _)] at h1 h2
    rw [grouped_length hit, grouped_length hit] at h3
    refine ⟨h3, fun _ => ⟨fun e => absurd e (by simp), fun c' e n1 n0 => ?_⟩⟩
    cases e
    rw [fin_div_ne n1, fin_div_ne n0, fin_sub] at h1
    rw [fin_div_ne n0] at h2
    exact ⟨h1, h2⟩

end Feedx
