import Verif.Proofs.Ratio
import Mathlib.Data.Finset.Powerset
import Mathlib.Algebra.BigOperators.Ring.Finset

/-!
C105: the check of the group sizes.
-/

set_option linter.unusedSectionVars false

namespace Feedx

variable {K : Type} [Field K] [LinearOrder K] [IsStrictOrderedRing K]

/-- The verdict in terms of the group sizes. -/
theorem ratio_eval {f : Frame K} {itemCol treatCol : String} (hi : itemCol ∈ f.cols) (ht : treatCol ∈ f.cols) {a b : ℕ}
    (ha : (Spec.arm f itemCol treatCol 1).card = a) (hb : (Spec.arm f itemCol treatCol 0).card = b) (h0 : 0 < a + b) :
    checkRatio binomTest f itemCol treatCol = .ok (decide (splitP K (a + b) (min a b) < 1 / 1000)) := by
  have hp : binomTest (Spec.arm f itemCol treatCol 1).card
      ((Spec.arm f itemCol treatCol 1).card + (Spec.arm f itemCol treatCol 0).card) = .ok (splitP K (a + b) (min a b)) := by
    rw [ha, hb, binomTest_eq h0 (by omega), show a + b - a = b by omega]
  obtain ⟨v, h1, h2⟩ := checkRatio_verdict hi ht hp
  rw [h1]
  congr 1
  cases v
  · symm
    rw [decide_eq_false_iff_not, not_lt]
    exact h2.mp rfl
  · symm
    rw [decide_eq_true_eq]
    by_contra hc
    exact absurd (h2.mpr (not_lt.mp hc)) (by simp)

/-- **C105, balanced splits.**  A split whose groups differ by at most one item passes. -/
theorem C105_balanced_passes {f : Frame K} {itemCol treatCol : String} (hi : itemCol ∈ f.cols) (ht : treatCol ∈ f.cols)
    (h0 : 0 < (Spec.arm f itemCol treatCol 1).card + (Spec.arm f itemCol treatCol 0).card)
    (h1 : (Spec.arm f itemCol treatCol 1).card ≤ (Spec.arm f itemCol treatCol 0).card + 1)
    (h2 : (Spec.arm f itemCol treatCol 0).card ≤ (Spec.arm f itemCol treatCol 1).card + 1) :
    checkRatio binomTest f itemCol treatCol = .ok false := by
  rw [ratio_eval hi ht rfl rfl h0, splitP_even (by omega) (by omega)]
  congr 1
  rw [decide_eq_false_iff_not, not_lt]
  norm_num

/-- **C105, symmetry.**  Exchanging the two groups does not change the verdict. -/
theorem C105_groups_exchanged {f g : Frame K} {itemCol treatCol itemCol' treatCol' : String} (hi : itemCol ∈ f.cols) (ht : treatCol ∈ f.cols)
    (hi' : itemCol' ∈ g.cols) (ht' : treatCol' ∈ g.cols)
    (h0 : 0 < (Spec.arm f itemCol treatCol 1).card + (Spec.arm f itemCol treatCol 0).card)
    (h1 : (Spec.arm g itemCol' treatCol' 1).card = (Spec.arm f itemCol treatCol 0).card)
    (h2 : (Spec.arm g itemCol' treatCol' 0).card = (Spec.arm f itemCol treatCol 1).card) :
    checkRatio binomTest g itemCol' treatCol' = checkRatio binomTest f itemCol treatCol := by
  rw [ratio_eval hi ht rfl rfl h0, ratio_eval hi' ht' h1 h2 (by omega), min_comm, add_comm]

/-- **C105, monotonicity.**  If a split is refused, so is every split of as many items whose smaller group is not larger. -/
theorem C105_less_balanced_refused {f g : Frame K} {itemCol treatCol itemCol' treatCol' : String} (hi : itemCol ∈ f.cols)
    (ht : treatCol ∈ f.cols) (hi' : itemCol' ∈ g.cols) (ht' : treatCol' ∈ g.cols)
    (hn : (Spec.arm g itemCol' treatCol' 1).card + (Spec.arm g itemCol' treatCol' 0).card =
      (Spec.arm f itemCol treatCol 1).card + (Spec.arm f itemCol treatCol 0).card)
    (hm : min (Spec.arm g itemCol' treatCol' 1).card (Spec.arm g itemCol' treatCol' 0).card ≤
      min (Spec.arm f itemCol treatCol 1).card (Spec.arm f itemCol treatCol 0).card)
    (h : checkRatio binomTest f itemCol treatCol = .ok true) : checkRatio binomTest g itemCol' treatCol' = .ok true := by
  obtain ⟨a, ha⟩ : ∃ a, (Spec.arm f itemCol treatCol 1).card = a := ⟨_, rfl⟩
  obtain ⟨b, hb⟩ : ∃ b, (Spec.arm f itemCol treatCol 0).card = b := ⟨_, rfl⟩
  obtain ⟨a', ha'⟩ : ∃ a, (Spec.arm g itemCol' treatCol' 1).card = a := ⟨_, rfl⟩
  obtain ⟨b', hb'⟩ : ∃ b, (Spec.arm g itemCol' treatCol' 0).card = b := ⟨_, rfl⟩
  rw [ha, hb, ha', hb'] at hn hm
  by_cases h0 : 0 < a + b
  · rw [ratio_eval hi ht ha hb h0] at h
    rw [ratio_eval hi' ht' ha' hb' (by omega), hn]
    have h1 := of_decide_eq_true (Except.ok.inj h)
    congr 1
    rw [decide_eq_true_eq]
    exact lt_of_le_of_lt (splitP_mono hm (by omega)) h1
  · have : checkRatio binomTest f itemCol treatCol = .error .valueError := by
      have a1 := armSize_eq f itemCol treatCol 1
      have a0 := armSize_eq f itemCol treatCol 0
      push_cast at a1 a0
      unfold checkRatio
      rw [a1, a0, ha, hb]
      refine raiseIf_bind_err.mpr (Or.inr ⟨by push Not; exact ⟨ht, hi⟩, ?_⟩)
      unfold binomTest
      rw [if_pos (Or.inl (by omega))]
      rfl
    rw [this] at h
    cases h

/-- **C105, lopsided splits.**  Among more than fifty items, the least a design may have, a split with a group of at most a fifth is refused. -/
theorem C105_small_group_refused {f : Frame K} {itemCol treatCol : String} (hi : itemCol ∈ f.cols) (ht : treatCol ∈ f.cols)
    (hn : 50 < (Spec.arm f itemCol treatCol 1).card + (Spec.arm f itemCol treatCol 0).card)
    (hm : 5 * min (Spec.arm f itemCol treatCol 1).card (Spec.arm f itemCol treatCol 0).card ≤
      (Spec.arm f itemCol treatCol 1).card + (Spec.arm f itemCol treatCol 0).card) :
    checkRatio binomTest f itemCol treatCol = .ok true := by
  rw [ratio_eval hi ht rfl rfl (by omega)]
  congr 1
  rw [decide_eq_true_eq]
  exact splitP_small hn hm

theorem splitTable_arms {itemCol treatCol : String} (hne : itemCol ≠ treatCol) {items : List (Cell K)} (hnd : items.Nodup)
    (hnull : Cell.null ∉ items) {T : Finset (Cell K)} (hT : ∀ i ∈ T, i ∈ items) :
    (Spec.arm (Spec.splitTable itemCol treatCol items T) itemCol treatCol 1).card = T.card ∧
      (Spec.arm (Spec.splitTable itemCol treatCol items T) itemCol treatCol 0).card = items.length - T.card := by
  classical
  have key : ∀ (n : ℕ), Spec.arm (Spec.splitTable itemCol treatCol items T) itemCol treatCol n =
      items.toFinset.filter (fun i => (if i ∈ T then 1 else 0) = n) := by
    intro n
    unfold Spec.arm Spec.splitTable
    ext c
    simp only [Finset.mem_erase, List.mem_toFinset, List.mem_map, List.mem_filter, decide_eq_true_eq, Finset.mem_filter]
    constructor
    · rintro ⟨-, r, ⟨⟨i, hi, rfl⟩, hr⟩, rfl⟩
      simp only [if_neg hne, ↓reduceIte] at hr ⊢
      refine ⟨hi, ?_⟩
      rcases hr with hr | hr
      · have := Cell.int.inj hr
        split_ifs at this ⊢ <;> omega
      · cases hr
    · rintro ⟨hi, hn⟩
      refine ⟨fun e => hnull (e ▸ hi), _, ⟨⟨c, hi, rfl⟩, Or.inl ?_⟩, if_neg hne⟩
      simp only [↓reduceIte]
      rw [← hn]
      split_ifs <;> rfl
  have e1 : items.toFinset.filter (fun i => (if i ∈ T then 1 else 0) = 1) = T := by
    ext c
    simp only [Finset.mem_filter, List.mem_toFinset]
    constructor
    · rintro ⟨-, h⟩
      by_contra hc
      rw [if_neg hc] at h
      omega
    · intro h
      exact ⟨hT c h, if_pos h⟩
  have e0 : items.toFinset.filter (fun i => (if i ∈ T then 1 else 0) = 0) = items.toFinset \ T := by
    ext c
    simp only [Finset.mem_filter, List.mem_toFinset, Finset.mem_sdiff]
    refine and_congr_right fun _ => ?_
    constructor
    · intro h hc
      rw [if_pos hc] at h
      omega
    · intro h
      exact if_neg h
  have hsub : T ⊆ items.toFinset := fun i hi => List.mem_toFinset.mpr (hT i hi)
  rw [key, key, e1, e0, Finset.card_sdiff_of_subset hsub, List.toFinset_card_of_nodup hnd]
  exact ⟨rfl, rfl⟩

open Classical in
/-- **C105, false alarms.**  Of all ways to split the items into two groups, at most one in a thousand is refused. -/
theorem C105_false_alarms (itemCol treatCol : String) (hne : itemCol ≠ treatCol) (items : List (Cell K)) (hnd : items.Nodup)
    (hnull : Cell.null ∉ items) (hem : items ≠ []) :
    1000 * (items.toFinset.powerset.filter
      (fun T => checkRatio binomTest (Spec.splitTable itemCol treatCol items T) itemCol treatCol ≠ .ok false)).card ≤ 2 ^ items.length := by
  obtain ⟨n, hn⟩ : ∃ n, n = items.length := ⟨_, rfl⟩
  have hcard : items.toFinset.card = n := by rw [hn]; exact List.toFinset_card_of_nodup hnd
  have hpos : 0 < n := by
    rw [hn]
    exact List.length_pos_iff.mpr hem
  have hv : ∀ T ∈ items.toFinset.powerset, (checkRatio binomTest (Spec.splitTable itemCol treatCol items T) itemCol treatCol ≠ .ok false) ↔
      splitP K n (min T.card (n - T.card)) < 1 / 1000 := by
    intro T hT
    have hsub := Finset.mem_powerset.mp hT
    have hle : T.card ≤ n := by
      rw [← hcard]
      exact Finset.card_le_card hsub
    obtain ⟨h1, h0⟩ := splitTable_arms hne hnd hnull (T := T) (fun i hi => List.mem_toFinset.mp (hsub hi))
    rw [← hn] at h0
    rw [ratio_eval (by simp [Spec.splitTable]) (by simp [Spec.splitTable]) h1 h0 (by omega), show T.card + (n - T.card) = n by omega]
    simp
  rw [Finset.filter_congr hv, ← hn]
  have hsum : (items.toFinset.powerset.filter (fun T => splitP K n (min T.card (n - T.card)) < 1 / 1000)).card =
      ∑ k ∈ (Finset.range (n + 1)).filter (fun k => splitP K n (min k (n - k)) < 1 / 1000), n.choose k := by
    rw [Finset.card_filter, Finset.sum_powerset_apply_card (fun k => if splitP K n (min k (n - k)) < 1 / 1000 then 1 else 0), hcard, Finset.sum_filter]
    refine Finset.sum_congr rfl fun k _ => ?_
    split_ifs <;> simp
  rw [hsum]
  have := false_alarm_count (K := K) (n := n) (α := 1 / 1000) (by norm_num) (by norm_num)
  obtain ⟨s, hs⟩ : ∃ s, s = ∑ k ∈ (Finset.range (n + 1)).filter (fun k => splitP K n (min k (n - k)) < 1 / 1000), n.choose k := ⟨_, rfl⟩
  rw [← hs] at this ⊢
  have h2 : (1000 : K) * s ≤ 2 ^ n := by linarith
  exact_mod_cast h2

/-! ### Examples -/

/-- Items numbered from zero. -/
def numbered (K : Type) (n : ℕ) : List (Cell K) := (List.range n).map (fun i : ℕ => Cell.int (i : ℤ))

theorem numbered_nodup (n : ℕ) : (numbered K n).Nodup :=
  List.nodup_range.map (fun a b e => by
    have := Cell.int.inj e
    exact_mod_cast this)

theorem numbered_null (n : ℕ) : Cell.null ∉ numbered K n := by simp [numbered]

open Classical in
theorem numbered_arms {k n : ℕ} (h : k ≤ n) :
    (Spec.arm (Spec.splitTable "id" "t" (numbered K n) (numbered K k).toFinset) "id" "t" 1).card = k ∧
      (Spec.arm (Spec.splitTable "id" "t" (numbered K n) (numbered K k).toFinset) "id" "t" 0).card = n - k := by
  have hc : (numbered K k).toFinset.card = k := by
    rw [List.toFinset_card_of_nodup (numbered_nodup k)]
    simp [numbered]
  obtain ⟨h1, h0⟩ := splitTable_arms (K := K) (itemCol := "id") (treatCol := "t") (by decide) (numbered_nodup n) (numbered_null n)
    (T := (numbered K k).toFinset) (by
      intro i hi
      rw [List.mem_toFinset] at hi
      simp only [numbered, List.mem_map, List.mem_range] at hi ⊢
      obtain ⟨j, hj, rfl⟩ := hi
      exact ⟨j, by omega, rfl⟩)
  rw [hc] at h1 h0
  refine ⟨h1, h0.trans ?_⟩
  simp [numbered]

open Classical in
/-- 30 of 61 items treated: the hypotheses of the balanced case are met. -/
example : checkRatio binomTest (Spec.splitTable "id" "t" (numbered K 61) (numbered K 30).toFinset) "id" "t" = .ok false := by
  obtain ⟨h1, h0⟩ := numbered_arms (K := K) (k := 30) (n := 61) (by norm_num)
  exact C105_balanced_passes (by simp [Spec.splitTable]) (by simp [Spec.splitTable]) (by omega) (by omega) (by omega)

open Classical in
/-- 12 of 60 items treated: refused, and so are 3 of 60 and 57 of 60. -/
example : checkRatio binomTest (Spec.splitTable "id" "t" (numbered K 60) (numbered K 12).toFinset) "id" "t" = .ok true ∧
    checkRatio binomTest (Spec.splitTable "id" "t" (numbered K 60) (numbered K 3).toFinset) "id" "t" = .ok true ∧
    checkRatio binomTest (Spec.splitTable "id" "t" (numbered K 60) (numbered K 57).toFinset) "id" "t" = .ok true := by
  obtain ⟨h1, h0⟩ := numbered_arms (K := K) (k := 12) (n := 60) (by norm_num)
  obtain ⟨g1, g0⟩ := numbered_arms (K := K) (k := 3) (n := 60) (by norm_num)
  obtain ⟨e1, e0⟩ := numbered_arms (K := K) (k := 57) (n := 60) (by norm_num)
  have h := C105_small_group_refused (f := Spec.splitTable "id" "t" (numbered K 60) (numbered K 12).toFinset) (itemCol := "id") (treatCol := "t")
    (by simp [Spec.splitTable]) (by simp [Spec.splitTable]) (by omega) (by omega)
  have g := C105_less_balanced_refused (g := Spec.splitTable "id" "t" (numbered K 60) (numbered K 3).toFinset) (itemCol' := "id")
    (treatCol' := "t") (by simp [Spec.splitTable]) (by simp [Spec.splitTable]) (by simp [Spec.splitTable]) (by simp [Spec.splitTable])
    (by omega) (by omega) h
  refine ⟨h, g, ?_⟩
  rw [← g]
  exact C105_groups_exchanged (by simp [Spec.splitTable]) (by simp [Spec.splitTable]) (by simp [Spec.splitTable]) (by simp [Spec.splitTable])
    (by omega) (by omega) (by omega)

open Classical in
/-- Of the `2 ^ 60` ways to split sixty items, at most one in a thousand is refused. -/
example : 1000 * ((numbered K 60).toFinset.powerset.filter
    (fun T => checkRatio binomTest (Spec.splitTable "id" "t" (numbered K 60) T) "id" "t" ≠ .ok false)).card ≤ 2 ^ 60 :=
  C105_false_alarms "id" "t" (by decide) _ (numbered_nodup 60) (numbered_null 60) (by simp [numbered, List.range_succ])

end Feedx
