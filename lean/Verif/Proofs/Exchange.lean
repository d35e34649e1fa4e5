import Verif.Proofs.Effect
import Verif.Props.PairedInterval
import Verif.Props.TTestSymmetry
import Verif.Props.Analysis

/-!
Lemmas for C109: the paired test with exchanged samples, and what the analysis prepares when the two groups are exchanged.
-/

set_option linter.unusedSectionVars false

namespace Feedx
open Fl

/-- The p-value, the significance and the statistic of two results whose differences are opposite and whose standard errors agree. -/
theorem results_mirror {D : TDist} {e e' : Estimates} {pf : Bool} {α : ℝ} {r r' : TestResult}
    (h : resultsFrom D e pf "two-sided" α = .ok r) (h' : resultsFrom D e' pf "two-sided" α = .ok r')
    (hd : e'.difference = -e.difference) (hs : e'.differenceSE = e.differenceSE) (hf : e'.df = e.df) (hn : e'.sampleSize = e.sampleSize) :
    r'.statistic = -r.statistic ∧ r'.absoluteDifference = -r.absoluteDifference ∧ r'.pValue = r.pValue ∧
      r'.isSignificant = r.isSignificant ∧ r'.standardError = r.standardError ∧ r'.degreesOfFreedom = r.degreesOfFreedom ∧
      r'.sampleSize = r.sampleSize := by
  obtain ⟨-, a1, a2, a3, a4, a5, a6, a7, a8, a9, a10⟩ := resultsFrom_ok h
  obtain ⟨-, b1, b2, b3, b4, b5, b6, b7, b8, b9, b10⟩ := resultsFrom_ok h'
  have hp : r'.pValue = r.pValue := by
    rw [a2, b2, hd, hs, hf, neg_div']
    simp [pOf, abs_neg']
  exact ⟨by rw [a1, b1, hd, hs, neg_div'], by rw [a5, b5, hd], hp, by rw [a3, b3, hp], by rw [a7, b7, hs], by rw [a9, b9, hf], by rw [a8, b8, hn]⟩

/-- Two paired tests of equally many pairs whose differences are opposite. -/
theorem paired_mirror {R : Rounding ℝ} {argsort : List ℝ → List ℕ} (ha : ArgsortOk argsort) {D : TDist} {v1 v2 u1 u2 : List ℝ} {q α : ℝ}
    {r r' : TestResult} (hrow : List.zipWith (· - ·) u1 u2 = (List.zipWith (· - ·) v1 v2).map (fun x => -x))
    (h : pairedTest R argsort D v1 v2 q none none "two-sided" α = .ok r)
    (h' : pairedTest R argsort D u1 u2 q none none "two-sided" α = .ok r') :
    r'.statistic = -r.statistic ∧ r'.absoluteDifference = -r.absoluteDifference ∧ r'.pValue = r.pValue ∧
      r'.isSignificant = r.isSignificant ∧ r'.standardError = r.standardError ∧ r'.degreesOfFreedom = r.degreesOfFreedom ∧
      r'.sampleSize = r.sampleSize := by
  rcases pairedTest_ok h with ⟨x1, -, h0, -⟩ | ⟨-, -, T, h1, l1, h⟩
  · cases h0
  rcases pairedTest_ok h' with ⟨x1, -, h0, -⟩ | ⟨-, -, T', h1', l1', h'⟩
  · cases h0
  have row : ∀ a b : List ℝ, rowOf (stack3 a b) 0 = List.zipWith (· - ·) a b := by
    intro a b
    unfold rowOf stack3
    rw [List.map_zipWith]
    simp
  have hlen : T'.len = T.len := by
    obtain ⟨T0, hT, hl⟩ := mkTrimmed_transfer (cols' := stack3 u1 u2) ha h1 (by
      have := congrArg List.length hrow
      simpa [stack3] using this.symm)
    rw [h1'] at hT
    cases hT
    exact hl
  have hc := C20_shift_and_scale R argsort argsort ha ha 2 2 (stack3 v1 v2) (stack3 u1 u2) (-1) 0
    (by rw [row, row, hrow]; exact List.map_congr_left (fun x _ => by ring)) q T T' h1 h1' (by
      intro h0
      unfold TrimmedArray.len at l1
      rw [h0] at l1
      simp at l1) 1
  have hv : T'.var 1 0 = T.var 1 0 := by rw [hc.2.2]; ring
  have hm : T'.mean 0 = -T.mean 0 := by rw [hc.1]; ring
  refine results_mirror h h' ?_ ?_ ?_ ?_ <;> unfold pairedPlain <;> simp only [hlen, hv, hm]
  rfl

/-- The intervals of the two tests, when they are numbers. -/
theorem paired_mirror_interval {R : Rounding ℝ} {argsort : List ℝ → List ℕ} (ha : ArgsortOk argsort) {D : TDist} {v1 v2 u1 u2 : List ℝ} {q α : ℝ}
    (h0 : 0 < α) (h1 : α < 1) {r r' : TestResult} (hrow : List.zipWith (· - ·) u1 u2 = (List.zipWith (· - ·) v1 v2).map (fun x => -x))
    (h : pairedTest R argsort D v1 v2 q none none "two-sided" α = .ok r)
    (h' : pairedTest R argsort D u1 u2 q none none "two-sided" α = .ok r')
    (hn : r.absoluteLower ≠ nan) (hn' : r'.absoluteLower ≠ nan) :
    r'.absoluteLower = -r.absoluteUpper ∧ r'.absoluteUpper = -r.absoluteLower := by
  obtain ⟨-, m1, -, -, m2, -, m3⟩ := paired_mirror ha hrow h h'
  obtain ⟨g, wins, d, s, -, -, a1, a2, -, a3, a4⟩ := C30_two_sided_interval R argsort ha D v1 v2 q α h0 h1 r h
  obtain ⟨g', wins', d', s', -, -, b1, b2, -, b3, b4⟩ := C30_two_sided_interval R argsort ha D u1 u2 q α h0 h1 r' h'
  obtain ⟨c1, c2⟩ := a3 (by by_contra hc; exact hn (a4 (by tauto)).1)
  obtain ⟨c3, c4⟩ := b3 (by by_contra hc; exact hn' (b4 (by tauto)).1)
  rw [a1, b1] at m1
  have hd : d' = -d := Fl.fin.inj m1
  rw [a2, b2] at m2
  have hs : s' = s := Fl.fin.inj m2
  rw [c1, c2, c3, c4, m3, hd, hs]
  refine ⟨?_, ?_⟩
  · show fin _ = fin _; congr 1; ring
  · show fin _ = fin _; congr 1; ring

namespace Spec

/-- The two pivoted tables list the same items in the same order, with the same values of metric `m` (of the same type), and the groups are exchanged: every
item is treated in one of them and control in the other. -/
def Exchanged (piv piv' : Pivoted ℝ) (m : String) : Prop :=
  piv'.periods = piv.periods ∧ piv'.whole m = piv.whole m ∧
  List.Forall₂ (fun k k' => k'[0]? = k[0]? ∧ (∀ p, piv'.value k' m p = piv.value k m p) ∧
    ((AssignedTo 1 k ∧ AssignedTo 0 k') ∨ (AssignedTo 0 k ∧ AssignedTo 1 k'))) piv.index piv'.index

end Spec

theorem exchanged_values {piv piv' : Pivoted ℝ} {m p : String} {v v' : List ℝ} (h : Spec.Exchanged piv piv' m)
    (hv : Spec.ValuesOf piv m p v) (hv' : Spec.ValuesOf piv' m p v') : v' = v := by
  have h := h.2.2
  unfold Spec.ValuesOf at hv hv'
  generalize piv.index = idx at h hv
  generalize piv'.index = idx' at h hv'
  induction h generalizing v v' with
  | nil => cases hv; cases hv'; rfl
  | cons hk hr ih =>
    rcases hv with _ | ⟨a, b⟩
    rcases hv' with _ | ⟨a', b'⟩
    rw [ih b b']
    rw [hk.2.1 p, a] at a'
    rw [Fl.fin.inj a']

theorem exchanged_adjusted {R : Rounding ℝ} {argsort : List ℝ → List ℕ} {piv piv' : Pivoted ℝ} {m : String} {q : ℝ} {y y' : List ℝ}
    (h : Spec.Exchanged piv piv' m) (hy : Spec.AdjustedValues R argsort piv m q y) (hy' : Spec.AdjustedValues R argsort piv' m q y') :
    y' = y := by
  obtain ⟨t, v, hy⟩ := hy
  obtain ⟨t', v', hy'⟩ := hy'
  rw [h.1, exchanged_values h v v'] at hy'
  rcases hy with ⟨a, rfl⟩ | ⟨a, pre, p, c⟩ <;> rcases hy' with ⟨a', rfl⟩ | ⟨a', pre', p', c'⟩
  · rfl
  · exact absurd a' a
  · exact absurd a a'
  · rw [exchanged_values h p p', c] at c'
    have := Except.ok.inj c'
    have hinj : Function.Injective (Fl.fin : ℝ → Fl ℝ) := fun a b hab => Fl.fin.inj hab
    exact ((List.map_injective_iff.mpr hinj) this).symm

open Classical in
theorem exchanged_group {piv piv' : Pivoted ℝ} {m : String} (h : Spec.Exchanged piv piv' m) (y : List ℝ) :
    Spec.groupOf piv' 1 y = Spec.groupOf piv 0 y ∧ Spec.groupOf piv' 0 y = Spec.groupOf piv 1 y := by
  have h := h.2.2
  unfold Spec.groupOf
  generalize piv.index = idx at h
  generalize piv'.index = idx' at h
  induction h generalizing y with
  | nil => simp
  | @cons k k' idx idx' hk hr ih =>
    cases y with
    | nil => simp
    | cons x y =>
      obtain ⟨i1, i2⟩ := ih y
      have h1 : Spec.AssignedTo 1 k' ↔ Spec.AssignedTo 0 k := by
        rcases hk.2.2 with ⟨a, b⟩ | ⟨a, b⟩
        · exact ⟨fun c => absurd (assigned_unique c b) (by norm_num), fun c => absurd (assigned_unique c a) (by norm_num)⟩
        · exact ⟨fun _ => a, fun _ => b⟩
      have h2 : Spec.AssignedTo 0 k' ↔ Spec.AssignedTo 1 k := by
        rcases hk.2.2 with ⟨a, b⟩ | ⟨a, b⟩
        · exact ⟨fun _ => a, fun _ => b⟩
        · exact ⟨fun c => absurd (assigned_unique c b) (by norm_num), fun c => absurd (assigned_unique c a) (by norm_num)⟩
      simp only [List.zip_cons_cons, List.filter_cons, h1, h2]
      constructor
      · split_ifs <;> simp [i1]
      · split_ifs <;> simp [i2]

/-- The item with the periods of its treatment exchanged. -/
def flipItem (i : Spec.CrossoverItem) : Spec.CrossoverItem := ⟨¬ i.treatedFirst, i.first, i.second⟩

theorem exchanged_items {piv piv' : Pivoted ℝ} {m : String} {items items' : List Spec.CrossoverItem} (h : Spec.Exchanged piv piv' m)
    (hi : Spec.CrossoverItems piv m items) (hi' : Spec.CrossoverItems piv' m items') : items' = items.map flipItem := by
  have h := h.2.2
  unfold Spec.CrossoverItems at hi hi'
  generalize piv.index = idx at h hi
  generalize piv'.index = idx' at h hi'
  induction h generalizing items items' with
  | nil => cases hi; cases hi'; rfl
  | @cons k k' idx idx' hk hr ih =>
    rcases hi with _ | ⟨a, b⟩
    rcases hi' with _ | ⟨a', b'⟩
    rename_i i items i' items'
    rw [List.map_cons, ih b b']
    congr 1
    obtain ⟨a1, a2, a3⟩ := a
    obtain ⟨b1, b2, b3⟩ := a'
    rcases i with ⟨t, f, s⟩
    rcases i' with ⟨t', f', s'⟩
    simp only at a1 a2 a3 b1 b2 b3
    unfold flipItem
    simp only [Spec.CrossoverItem.mk.injEq]
    refine ⟨?_, ?_, ?_⟩
    · apply propext
      rw [b1, a1]
      rcases hk.2.2 with ⟨c, d⟩ | ⟨c, d⟩
      · exact ⟨fun e => absurd (assigned_unique e d) (by norm_num), fun e => absurd c e⟩
      · exact ⟨fun _ e => absurd (assigned_unique e c) (by norm_num), fun _ => d⟩
    · rw [hk.2.1, a2] at b2
      exact (Fl.fin.inj b2).symm
    · rw [hk.2.1, a3] at b3
      exact (Fl.fin.inj b3).symm

theorem flip_treated (i : Spec.CrossoverItem) (a b : ℝ) : (flipItem i).treated a b = i.untreated a b ∧ (flipItem i).untreated a b = i.treated a b := by
  unfold flipItem Spec.CrossoverItem.treated Spec.CrossoverItem.untreated
  by_cases h : i.treatedFirst <;> simp [h]

theorem flip_stored (s : ℝ → ℝ) (i : Spec.CrossoverItem) : (flipItem i).stored s = flipItem (i.stored s) := rfl

theorem exchanged_all {piv piv' : Pivoted ℝ} {m : String} (h : Spec.Exchanged piv piv' m) (p : String) (P : Fl ℝ → Prop) :
    (∀ k ∈ piv'.index, P (piv'.value k m p)) ↔ ∀ k ∈ piv.index, P (piv.value k m p) := by
  have h := h.2.2
  generalize piv.index = idx at h
  generalize piv'.index = idx' at h
  induction h with
  | nil => simp
  | cons hk _ ih => exact List.forall_mem_cons.trans ((and_congr (by rw [hk.2.1]) ih).trans List.forall_mem_cons.symm)

theorem exchanged_store {piv piv' : Pivoted ℝ} {m : String} (h : Spec.Exchanged piv piv' m) : storeFirst piv' m = storeFirst piv m := by
  classical
  unfold storeFirst
  have e : (piv'.whole m = true ∧ ∀ k ∈ piv'.index, ∃ n : ℤ, piv'.value k m "test_1" = .fin (n : ℝ)) ↔
      (piv.whole m = true ∧ ∀ k ∈ piv.index, ∃ n : ℤ, piv.value k m "test_1" = .fin (n : ℝ)) := by
    rw [exchanged_all h "test_1" (fun x => ∃ n : ℤ, x = .fin (n : ℝ)), h.2.1]
  split_ifs <;> first | rfl | tauto

theorem exchanged_keeps {piv piv' : Pivoted ℝ} {m : String} (h : Spec.Exchanged piv piv' m) (hk : Spec.KeepsFractions piv m) : Spec.KeepsFractions piv' m := by
  unfold Spec.KeepsFractions
  rw [exchanged_all h "test_1" (fun x => ∃ n : ℤ, x = .fin (n : ℝ)), exchanged_all h "test_2" (fun x => ∃ n : ℤ, x = .fin (n : ℝ)), h.2.1]
  exact hk

/-- The arrays of the crossover analysis with the groups exchanged have the opposite differences. -/
theorem exchanged_arrays (s : ℝ → ℝ) {items : List Spec.CrossoverItem} {q : ℝ} {v1 v2 u1 u2 : List ℝ} (h : CrossoverArraysInto s items q v1 v2)
    (h' : CrossoverArraysInto s (items.map flipItem) q u1 u2) :
    List.zipWith (· - ·) u1 u2 = (List.zipWith (· - ·) v1 v2).map (fun x => -x) := by
  have zs : ∀ (f g : Spec.CrossoverItem → ℝ) (l : List Spec.CrossoverItem),
      List.zipWith (· - ·) (l.map f) (l.map g) = l.map (fun i => f i - g i) := by
    intro f g l
    rw [List.zipWith_map_left, List.zipWith_map_right, List.zipWith_self]
  by_cases hq : q = 0
  · obtain ⟨m1, m2, c, e1, e2, rfl, rfl, -⟩ := h.2 hq
    obtain ⟨n1, n2, c', f1, f2, rfl, rfl, -⟩ := h'.2 hq
    have hm1 : n1 = m1 := by rw [e1, f1, List.map_map]; rfl
    have hm2 : n2 = m2 := by rw [e2, f2, List.map_map]; rfl
    rw [zs, zs, List.map_map, List.map_map]
    refine List.map_congr_left (fun i _ => ?_)
    simp only [Function.comp_apply, (flip_treated i _ _).1, (flip_treated i _ _).2, hm1, hm2]
    ring
  · obtain ⟨rfl, rfl⟩ := h.1 hq
    obtain ⟨rfl, rfl⟩ := h'.1 hq
    rw [zs, zs, List.map_map, List.map_map]
    refine List.map_congr_left (fun i _ => ?_)
    simp only [Function.comp_apply, flip_stored, (flip_treated (i.stored s) _ _).1, (flip_treated (i.stored s) _ _).2]
    ring

end Feedx
