import Verif.Proofs.ItemOrder
import Verif.Props.TTestSymmetry
import Mathlib.Data.List.Permutation

/-!
Property C102: the order of the items in tests of ratio metrics and in paired tests.
-/

set_option linter.unusedSectionVars false
set_option linter.unusedSimpArgs false

namespace Feedx
open Fl

theorem stack2_items (items : List (ℝ × ℝ)) : stack2 (items.map Prod.fst) (items.map Prod.snd) = items.map (fun p => ![p.1, p.2]) := by
  unfold stack2
  rw [List.zipWith_map, List.zipWith_self]

theorem stack3_items (items : List (ℝ × ℝ)) :
    stack3 (items.map Prod.fst) (items.map Prod.snd) = items.map (fun p => ![p.1 - p.2, p.1, p.2]) := by
  unfold stack3
  rw [List.zipWith_map, List.zipWith_self]

theorem stack5_items (items : List ((ℝ × ℝ) × (ℝ × ℝ))) :
    stack5 (items.map (fun p => p.1.1)) (items.map (fun p => p.1.2)) (items.map (fun p => p.2.1)) (items.map (fun p => p.2.2)) =
      items.map (fun p => ![p.1.1 - p.2.1, p.1.1, p.1.2, p.2.1, p.2.2]) := by
  unfold stack5
  rw [List.zip_map', List.zip_map', List.zipWith_map, List.zipWith_self]

theorem ratioOf_congr {T T' : TrimmedArray ℝ 1} (h : (∀ i, T.mean i = T'.mean i) ∧ ∀ ddof i j, T.cov ddof i j = T'.cov ddof i j) :
    ratioOf T = ratioOf T' := by
  unfold ratioOf
  rw [h.1, h.1, h.2, h.2, h.2]

theorem nTrim_floor {R : Rounding ℝ} {argsort : List ℝ → List ℕ} (ha : ArgsortOk argsort) {m : ℕ} {cols : List (Fin (m + 1) → ℝ)} {q : ℝ}
    {T : TrimmedArray ℝ m} (h : mkTrimmed R argsort cols q = .ok T) : (T.nTrim : ℤ) = ⌊R.rnd (q * (cols.length : ℝ))⌋ :=
  (C16_trims_exactly_the_extremes R argsort ha m cols q T h).2.1

theorem trimmed_ne_nil {m : ℕ} {T : TrimmedArray ℝ m} (hl : 1 < T.len) : T.trimmed ≠ [] := by
  intro h0
  rw [TrimmedArray.len, h0] at hl
  simp at hl

/-- **C102 (part), ratio metrics of independent groups.**  Items are pairs (numerator, denominator).  Reordering the items of each group, or sorting
equal numerators in another way, changes nothing, provided that in each group nothing is trimmed or the cut is clean: items with the same
numerator at a cut also have the same denominator.  Missing: other ties at a cut, see `C102_ratio_false`. -/
theorem C102_ratio_partial (R : Rounding ℝ) (argsort argsort' : List ℝ → List ℕ) (ha : ArgsortOk argsort) (ha' : ArgsortOk argsort') (D : TDist)
    (items1 items2 items1' items2' : List (ℝ × ℝ)) (hp1 : items1.Perm items1') (hp2 : items2.Perm items2') (q : ℝ)
    (hc1 : ∀ g : ℕ, (g : ℤ) = ⌊R.rnd (q * (items1.length : ℝ))⌋ → Spec.CleanCut Prod.fst g items1)
    (hc2 : ∀ g : ℕ, (g : ℤ) = ⌊R.rnd (q * (items2.length : ℝ))⌋ → Spec.CleanCut Prod.fst g items2)
    (equalVar : Bool) (alternative : String) (alpha : ℝ) (r : TestResult)
    (h : indTest R argsort D (items1.map Prod.fst) (items2.map Prod.fst) q (some (items1.map Prod.snd)) (some (items2.map Prod.snd))
      equalVar alternative alpha = .ok r) :
    indTest R argsort' D (items1'.map Prod.fst) (items2'.map Prod.fst) q (some (items1'.map Prod.snd)) (some (items2'.map Prod.snd))
      equalVar alternative alpha = .ok r := by
  rcases indTest_ok h with ⟨x1, x2, e1, e2, T1, T2, t1, t2, hl1, hl2, hr⟩ | ⟨e1, -⟩
  swap
  · cases e1
  cases e1
  cases e2
  rw [stack2_items] at t1 t2
  obtain ⟨T1', t1', l1⟩ := mkTrimmed_transfer (cols' := items1'.map (fun p => ![p.1, p.2])) ha' t1 (by simp [hp1.length_eq])
  obtain ⟨T2', t2', l2⟩ := mkTrimmed_transfer (cols' := items2'.map (fun p => ![p.1, p.2])) ha' t2 (by simp [hp2.length_eq])
  have n1 := nTrim_floor ha t1
  have n2 := nTrim_floor ha t2
  rw [List.length_map] at n1 n2
  obtain ⟨-, s1⟩ := stats_perm ha ha' (hp1.map _) t1 t1' (trimmed_ne_nil hl1) (clean_map (fun _ => rfl) (hc1 _ n1))
  obtain ⟨-, s2⟩ := stats_perm ha ha' (hp2.map _) t2 t2' (trimmed_ne_nil hl2) (clean_map (fun _ => rfl) (hc2 _ n2))
  rw [ratioOf_congr s1, ratioOf_congr s2, ← l1, ← l2] at hr
  unfold indTest
  simp only [stack2_items, t1', t2', bind, Except.bind]
  have : ¬ (T1'.len ≤ 1 ∨ T2'.len ≤ 1) := by rw [l1, l2]; omega
  simp only [raiseIf, List.length_map, ne_eq, not_true_eq_false, or_self, if_false, if_neg this]
  exact hr

/-- **C102 (part), paired tests of plain metrics.**  Items are pairs (treated, untreated value).  Missing: different items with the same difference
at a cut, see `C102_paired_false`. -/
theorem C102_paired_partial (R : Rounding ℝ) (argsort argsort' : List ℝ → List ℕ) (ha : ArgsortOk argsort) (ha' : ArgsortOk argsort') (D : TDist)
    (items items' : List (ℝ × ℝ)) (hp : items.Perm items') (q : ℝ)
    (hc : ∀ g : ℕ, (g : ℤ) = ⌊R.rnd (q * (items.length : ℝ))⌋ → Spec.CleanCut (fun p => p.1 - p.2) g items)
    (alternative : String) (alpha : ℝ) (r : TestResult)
    (h : pairedTest R argsort D (items.map Prod.fst) (items.map Prod.snd) q none none alternative alpha = .ok r) :
    pairedTest R argsort' D (items'.map Prod.fst) (items'.map Prod.snd) q none none alternative alpha = .ok r := by
  rcases pairedTest_ok h with ⟨x1, x2, e1, -⟩ | ⟨-, -, T, t, hl, hr⟩
  · cases e1
  rw [stack3_items] at t
  obtain ⟨T', t', l⟩ := mkTrimmed_transfer (cols' := items'.map (fun p => ![p.1 - p.2, p.1, p.2])) ha' t (by simp [hp.length_eq])
  have n := nTrim_floor ha t
  rw [List.length_map] at n
  obtain ⟨-, s1, s2⟩ := stats_perm ha ha' (hp.map _) t t' (trimmed_ne_nil hl) (clean_map (fun _ => rfl) (hc _ n))
  have e : pairedPlain T = pairedPlain T' := by
    unfold pairedPlain TrimmedArray.var
    simp only [s1, s2, l]
  rw [e] at hr
  unfold pairedTest
  simp only [stack3_items, t', bind, Except.bind]
  have : ¬ T'.len ≤ 1 := by rw [l]; omega
  simp only [raiseIf, List.length_map, ne_eq, not_true_eq_false, if_false, if_neg this]
  exact hr

/-- **C102 (part), paired tests of ratio metrics.**  Items are pairs of (numerator, denominator), treated and untreated.  Missing: different items
with the same difference of the numerators at a cut. -/
theorem C102_paired_ratio_partial (R : Rounding ℝ) (argsort argsort' : List ℝ → List ℕ) (ha : ArgsortOk argsort) (ha' : ArgsortOk argsort')
    (D : TDist) (items items' : List ((ℝ × ℝ) × (ℝ × ℝ))) (hp : items.Perm items') (q : ℝ)
    (hc : ∀ g : ℕ, (g : ℤ) = ⌊R.rnd (q * (items.length : ℝ))⌋ → Spec.CleanCut (fun p => p.1.1 - p.2.1) g items)
    (alternative : String) (alpha : ℝ) (r : TestResult)
    (h : pairedTest R argsort D (items.map (fun p => p.1.1)) (items.map (fun p => p.2.1)) q (some (items.map (fun p => p.1.2)))
      (some (items.map (fun p => p.2.2))) alternative alpha = .ok r) :
    pairedTest R argsort' D (items'.map (fun p => p.1.1)) (items'.map (fun p => p.2.1)) q (some (items'.map (fun p => p.1.2)))
      (some (items'.map (fun p => p.2.2))) alternative alpha = .ok r := by
  rcases pairedTest_ok h with ⟨x1, x2, e1, e2, T, t, hl, hr⟩ | ⟨e1, -⟩
  swap
  · cases e1
  cases e1
  cases e2
  rw [stack5_items] at t
  obtain ⟨T', t', l⟩ := mkTrimmed_transfer (cols' := items'.map (fun p => ![p.1.1 - p.2.1, p.1.1, p.1.2, p.2.1, p.2.2])) ha' t
    (by simp [hp.length_eq])
  have n := nTrim_floor ha t
  rw [List.length_map] at n
  obtain ⟨-, s1, s2⟩ := stats_perm ha ha' (hp.map _) t t' (trimmed_ne_nil hl) (clean_map (fun _ => rfl) (hc _ n))
  have e : pairedRatio T = pairedRatio T' := by
    unfold pairedRatio
    simp only [s1, s2, l]
  rw [e] at hr
  unfold pairedTest
  simp only [stack5_items, t', bind, Except.bind]
  have : ¬ T'.len ≤ 1 := by rw [l]; omega
  simp only [raiseIf, List.length_map, ne_eq, not_true_eq_false, or_self, if_false, if_neg this]
  exact hr

/-- A clean cut with ties: of six items one is cut at each end, and the two different items with one click are neither cut nor at the edge. -/
example : Spec.CleanCut Prod.fst 1 ([(0, 1), (1/2, 1), (1, 1), (1, 3), (2, 1), (5, 1)] : List (ℚ × ℚ)) := by
  refine Or.inr ?_
  decide +kernel

/-- Of four samples with the same key two are kept; which ones is decided by their positions alone. -/
theorem four_ties {argsort : List ℝ → List ℕ} (ha : ArgsortOk argsort) (k : ℝ) :
    trimmedIndex argsort [k, k, k, k] 1 ∈ ([[0, 1], [0, 2], [0, 3], [1, 2], [1, 3], [2, 3]] : List (List ℕ)) := by
  obtain ⟨hperm, -⟩ := ha [k, k, k, k]
  obtain ⟨a, hadef⟩ : ∃ a, a = argsort [k, k, k, k] := ⟨_, rfl⟩
  have hidx : trimmedIndex argsort [k, k, k, k] 1 = (sliceInner a 1).insertionSort (· ≤ ·) := by
    unfold trimmedIndex
    rw [if_neg (by norm_num), hadef]
  rw [hidx]
  rw [← hadef] at hperm
  have : a ∈ (List.range 4).permutations' := List.mem_permutations'.mpr hperm
  have hall : ∀ b ∈ (List.range 4).permutations', (sliceInner b 1).insertionSort (· ≤ ·) ∈
      ([[0, 1], [0, 2], [0, 3], [1, 2], [1, 3], [2, 3]] : List (List ℕ)) := by decide +kernel
  exact hall a this

theorem quarter_of_four (R : Rounding ℝ) : ⌊R.rnd (1 / 4 * ((4 : ℕ) : ℝ))⌋ = 1 := by
  have := R.intFix 1 (by norm_num)
  rw [show (1 / 4 * ((4 : ℕ) : ℝ)) = ((1 : ℤ) : ℝ) by norm_num, this]
  simp

theorem quarter_nTrim (R : Rounding ℝ) : nTrimOf R (1 / 4) 4 = 1 := by
  unfold nTrimOf Rounding.floorMul
  have := quarter_of_four R
  push_cast at this ⊢
  rw [this]
  rfl

/-- **C102 is false for ratio metrics**: four treated items with one click each have one or two impressions.  A quarter of the items is trimmed at
each end.  However equal click numbers are sorted, there are two orders of the same four items (and one control group) for which
the test reports different differences of the click-through rates. -/
theorem C102_ratio_false (R : Rounding ℝ) (argsort : List ℝ → List ℕ) (ha : ArgsortOk argsort) (D : TDist) (equalVar : Bool)
    (alternative : String) (hk : alternative = "two-sided" ∨ alternative = "greater" ∨ alternative = "less") (alpha : ℝ) :
    ∃ (denoms denoms' : List ℝ) (r r' : TestResult), denoms.Perm denoms' ∧ denoms.length = 4 ∧
      indTest R argsort D [1, 1, 1, 1] [1, 1, 1, 1] (1 / 4) (some denoms) (some [1, 1, 1, 1]) equalVar alternative alpha = .ok r ∧
      indTest R argsort D [1, 1, 1, 1] [1, 1, 1, 1] (1 / 4) (some denoms') (some [1, 1, 1, 1]) equalVar alternative alpha = .ok r' ∧
      r.absoluteDifference = fin 0 ∧ r'.absoluteDifference = fin (-1 / 2) := by
  have returns : ∀ a b c d : ℝ, ∃ r, indTest R argsort D [1, 1, 1, 1] [1, 1, 1, 1] (1 / 4) (some [a, b, c, d]) (some [1, 1, 1, 1]) equalVar
      alternative alpha = .ok r := fun a b c d =>
    (C34_ratio_tests_return R argsort ha D [1, 1, 1, 1] [1, 1, 1, 1] [a, b, c, d] [1, 1, 1, 1] (1 / 4) (by norm_num) (by norm_num) equalVar
      alternative hk alpha rfl rfl (by norm_num) (by norm_num) (by
        show 2 * ⌊R.rnd (1 / 4 * ((4 : ℕ) : ℝ))⌋ + 1 < _
        rw [quarter_of_four]; simp) (by
        show 2 * ⌊R.rnd (1 / 4 * ((4 : ℕ) : ℝ))⌋ + 1 < _
        rw [quarter_of_four]; simp)).2
  have trimmedOf : ∀ {a b c d : ℝ} {T : TrimmedArray ℝ 1}, mkTrimmed R argsort (stack2 [1, 1, 1, 1] [a, b, c, d]) (1 / 4) = .ok T →
      T.trimmed = (trimmedIndex argsort [1, 1, 1, 1] 1).map (fun i => ([![1, a], ![1, b], ![1, c], ![1, d]] : List (Fin 2 → ℝ)).getD i 0) := by
    intro a b c d T hT
    obtain ⟨-, -, h2, -, h4⟩ := mkTrimmed_ok hT
    have h2 : T.nTrim = 1 := by rw [h2]; exact quarter_nTrim R
    rw [h4, h2]
    rfl
  have diff : ∀ {a b c d x : ℝ} {r : TestResult},
      indTest R argsort D [1, 1, 1, 1] [1, 1, 1, 1] (1 / 4) (some [a, b, c, d]) (some [1, 1, 1, 1]) equalVar alternative alpha = .ok r →
      x ≠ 0 → ((trimmedIndex argsort [1, 1, 1, 1] 1).map (fun i => ([![1, a], ![1, b], ![1, c], ![1, d]] : List (Fin 2 → ℝ)).getD i 0)) =
        [![1, x], ![1, x]] → r.absoluteDifference = fin (1 / x - 1) := by
    intro a b c d x r h hx hidx
    rcases indTest_ok h with ⟨x1, x2, e1, e2, T1, T2, t1, t2, hl1, hl2, hr⟩ | ⟨e1, -⟩
    swap
    · cases e1
    cases e1
    cases e2
    have k1 : T1.trimmed = [![1, x], ![1, x]] := by rw [trimmedOf t1, hidx]
    have k2 : T2.trimmed = [![1, 1], ![1, 1]] := by
      rw [trimmedOf t2]
      have := four_ties ha 1
      simp only [List.mem_cons, List.not_mem_nil, or_false] at this
      rcases this with h | h | h | h | h | h <;> rw [h] <;> simp
    have m : ∀ {T : TrimmedArray ℝ 1} {y : ℝ}, y ≠ 0 → T.trimmed = [![1, y], ![1, y]] → (ratioOf T).1 = fin (1 / y) := by
      intro T y hy hT
      have m0 : T.mean 0 = 1 := by simp [TrimmedArray.mean, rowOf, TrimmedArray.len, hT]
      have m1 : T.mean 1 = y := by simp [TrimmedArray.mean, rowOf, TrimmedArray.len, hT]
      show fin (T.mean 0) / fin (T.mean 1) = _
      rw [m0, m1, Fl.fin_div_ne hy]
    obtain ⟨-, -, -, -, -, a5, -⟩ := resultsFrom_ok hr
    rw [a5]
    show (ratioOf T1).1 - (ratioOf T2).1 = _
    rw [m hx k1, m one_ne_zero k2, fin_sub]
    norm_num
  have main : ∀ a b c d a' b' c' d' : ℝ, [a, b, c, d].Perm [a', b', c', d'] →
      ((trimmedIndex argsort [1, 1, 1, 1] 1).map (fun i => ([![1, a], ![1, b], ![1, c], ![1, d]] : List (Fin 2 → ℝ)).getD i 0)) =
        [![1, 1], ![1, 1]] →
      ((trimmedIndex argsort [1, 1, 1, 1] 1).map (fun i => ([![1, a'], ![1, b'], ![1, c'], ![1, d']] : List (Fin 2 → ℝ)).getD i 0)) =
        [![1, 2], ![1, 2]] →
      ∃ (denoms denoms' : List ℝ) (r r' : TestResult), denoms.Perm denoms' ∧ denoms.length = 4 ∧
        indTest R argsort D [1, 1, 1, 1] [1, 1, 1, 1] (1 / 4) (some denoms) (some [1, 1, 1, 1]) equalVar alternative alpha = .ok r ∧
        indTest R argsort D [1, 1, 1, 1] [1, 1, 1, 1] (1 / 4) (some denoms') (some [1, 1, 1, 1]) equalVar alternative alpha = .ok r' ∧
        r.absoluteDifference = fin 0 ∧ r'.absoluteDifference = fin (-1 / 2) := by
    intro a b c d a' b' c' d' hp h1 h2
    obtain ⟨r, hr⟩ := returns a b c d
    obtain ⟨r', hr'⟩ := returns a' b' c' d'
    refine ⟨_, _, r, r', hp, rfl, hr, hr', ?_, ?_⟩
    · rw [diff hr one_ne_zero h1]; norm_num
    · rw [diff hr' two_ne_zero h2]; norm_num
  have swap : ∀ a b c d a' b' c' d' : ℕ, [a, b, c, d].Perm [a', b', c', d'] →
      [(a : ℝ), b, c, d].Perm [(a' : ℝ), b', c', d'] := fun a b c d a' b' c' d' h => h.map (fun n : ℕ => (n : ℝ))
  have := four_ties ha 1
  simp only [List.mem_cons, List.not_mem_nil, or_false] at this
  rcases this with h | h | h | h | h | h
  · exact main 1 1 2 2 2 2 1 1 (by exact_mod_cast swap 1 1 2 2 2 2 1 1 (by decide)) (by rw [h]; simp) (by rw [h]; simp)
  · exact main 1 2 1 2 2 1 2 1 (by exact_mod_cast swap 1 2 1 2 2 1 2 1 (by decide)) (by rw [h]; simp) (by rw [h]; simp)
  · exact main 1 2 2 1 2 1 1 2 (by exact_mod_cast swap 1 2 2 1 2 1 1 2 (by decide)) (by rw [h]; simp) (by rw [h]; simp)
  · exact main 2 1 1 2 1 2 2 1 (by exact_mod_cast swap 2 1 1 2 1 2 2 1 (by decide)) (by rw [h]; simp) (by rw [h]; simp)
  · exact main 2 1 2 1 1 2 1 2 (by exact_mod_cast swap 2 1 2 1 1 2 1 2 (by decide)) (by rw [h]; simp) (by rw [h]; simp)
  · exact main 2 2 1 1 1 1 2 2 (by exact_mod_cast swap 2 2 1 1 1 1 2 2 (by decide)) (by rw [h]; simp) (by rw [h]; simp)

/-- **C102 is false for paired tests**: four items, each one larger when treated.  However equal differences are sorted, there are two orders of the
same four items for which the test reports different averages without treatment, hence different relative effects. -/
theorem C102_paired_false (R : Rounding ℝ) (argsort : List ℝ → List ℕ) (ha : ArgsortOk argsort) (D : TDist)
    (alternative : String) (hk : alternative = "two-sided" ∨ alternative = "greater" ∨ alternative = "less") (alpha : ℝ) :
    ∃ (items items' : List (ℝ × ℝ)) (r r' : TestResult), items.Perm items' ∧ (∀ p ∈ items, p.1 = p.2 + 1) ∧
      pairedTest R argsort D (items.map Prod.fst) (items.map Prod.snd) (1 / 4) none none alternative alpha = .ok r ∧
      pairedTest R argsort D (items'.map Prod.fst) (items'.map Prod.snd) (1 / 4) none none alternative alpha = .ok r' ∧
      r.absoluteDifference = fin 1 ∧ r'.absoluteDifference = fin 1 ∧ r.controlAverage = fin 1 ∧ r'.controlAverage = fin 2 := by
  have returns : ∀ a b c d : ℝ, ∃ r, pairedTest R argsort D [a + 1, b + 1, c + 1, d + 1] [a, b, c, d] (1 / 4) none none alternative alpha = .ok r :=
    fun a b c d => (C34_tests_return_partial R argsort ha D [a + 1, b + 1, c + 1, d + 1] [a, b, c, d] (1 / 4) (by norm_num) (by norm_num) true
      alternative hk alpha (by norm_num) (by norm_num) (by
        show 2 * ⌊R.rnd (1 / 4 * ((4 : ℕ) : ℝ))⌋ + 1 < _
        rw [quarter_of_four]; simp) (by
        show 2 * ⌊R.rnd (1 / 4 * ((4 : ℕ) : ℝ))⌋ + 1 < _
        rw [quarter_of_four]; simp)).1 rfl
  have vals : ∀ {a b c d x : ℝ} {r : TestResult},
      pairedTest R argsort D [a + 1, b + 1, c + 1, d + 1] [a, b, c, d] (1 / 4) none none alternative alpha = .ok r →
      ((trimmedIndex argsort [1, 1, 1, 1] 1).map (fun i => ([a, b, c, d] : List ℝ).getD i 0)) = [x, x] →
      r.absoluteDifference = fin 1 ∧ r.controlAverage = fin x := by
    intro a b c d x r h hidx
    rcases pairedTest_ok h with ⟨x1, x2, e1, -⟩ | ⟨-, -, T, t, hl, hr⟩
    · cases e1
    obtain ⟨-, -, h2, -, h4⟩ := mkTrimmed_ok t
    have h2 : T.nTrim = 1 := by rw [h2]; exact quarter_nTrim R
    have hrow : rowOf (stack3 [a + 1, b + 1, c + 1, d + 1] [a, b, c, d]) 0 = [1, 1, 1, 1] := by simp [rowOf, stack3]
    rw [h2, hrow] at h4
    have k0 : rowOf T.trimmed 0 = [1, 1] := by
      rw [h4]
      have := four_ties ha 1
      simp only [List.mem_cons, List.not_mem_nil, or_false] at this
      rcases this with h | h | h | h | h | h <;> rw [h] <;> simp [rowOf, stack3]
    have k2 : rowOf T.trimmed 2 = [x, x] := by
      rw [h4, ← hidx]
      have := four_ties ha 1
      simp only [List.mem_cons, List.not_mem_nil, or_false] at this
      rcases this with h | h | h | h | h | h <;> rw [h] <;> simp [rowOf, stack3]
    have kl : T.len = 2 := by
      have := congrArg List.length k0
      rw [length_rowOf] at this
      exact this
    obtain ⟨-, -, -, -, -, a5, -, -, -, -, a10⟩ := resultsFrom_ok hr
    rw [a5, a10]
    constructor
    · show fin (T.mean 0) = _
      unfold TrimmedArray.mean
      rw [k0, kl]; norm_num
    · show fin (T.mean 2) = _
      unfold TrimmedArray.mean
      rw [k2, kl]
      simp only [List.sum_cons, List.sum_nil]
      congr 1
      push_cast
      ring
  have main : ∀ a b c d a' b' c' d' : ℝ, [a, b, c, d].Perm [a', b', c', d'] →
      ((trimmedIndex argsort [1, 1, 1, 1] 1).map (fun i => ([a, b, c, d] : List ℝ).getD i 0)) = [1, 1] →
      ((trimmedIndex argsort [1, 1, 1, 1] 1).map (fun i => ([a', b', c', d'] : List ℝ).getD i 0)) = [2, 2] →
      ∃ (items items' : List (ℝ × ℝ)) (r r' : TestResult), items.Perm items' ∧ (∀ p ∈ items, p.1 = p.2 + 1) ∧
        pairedTest R argsort D (items.map Prod.fst) (items.map Prod.snd) (1 / 4) none none alternative alpha = .ok r ∧
        pairedTest R argsort D (items'.map Prod.fst) (items'.map Prod.snd) (1 / 4) none none alternative alpha = .ok r' ∧
        r.absoluteDifference = fin 1 ∧ r'.absoluteDifference = fin 1 ∧ r.controlAverage = fin 1 ∧ r'.controlAverage = fin 2 := by
    intro a b c d a' b' c' d' hp h1 h2
    obtain ⟨r, hr⟩ := returns a b c d
    obtain ⟨r', hr'⟩ := returns a' b' c' d'
    obtain ⟨v1, v2⟩ := vals hr h1
    obtain ⟨v1', v2'⟩ := vals hr' h2
    exact ⟨[a, b, c, d].map (fun x => (x + 1, x)), [a', b', c', d'].map (fun x => (x + 1, x)), r, r', hp.map _, by simp, hr, hr', v1, v1', v2, v2'⟩
  have swap : ∀ a b c d a' b' c' d' : ℕ, [a, b, c, d].Perm [a', b', c', d'] →
      [(a : ℝ), b, c, d].Perm [(a' : ℝ), b', c', d'] := fun a b c d a' b' c' d' h => h.map (fun n : ℕ => (n : ℝ))
  have := four_ties ha 1
  simp only [List.mem_cons, List.not_mem_nil, or_false] at this
  rcases this with h | h | h | h | h | h
  · exact main 1 1 2 2 2 2 1 1 (by exact_mod_cast swap 1 1 2 2 2 2 1 1 (by decide)) (by rw [h]; simp) (by rw [h]; simp)
  · exact main 1 2 1 2 2 1 2 1 (by exact_mod_cast swap 1 2 1 2 2 1 2 1 (by decide)) (by rw [h]; simp) (by rw [h]; simp)
  · exact main 1 2 2 1 2 1 1 2 (by exact_mod_cast swap 1 2 2 1 2 1 1 2 (by decide)) (by rw [h]; simp) (by rw [h]; simp)
  · exact main 2 1 1 2 1 2 2 1 (by exact_mod_cast swap 2 1 1 2 1 2 2 1 (by decide)) (by rw [h]; simp) (by rw [h]; simp)
  · exact main 2 1 2 1 1 2 1 2 (by exact_mod_cast swap 2 1 2 1 1 2 1 2 (by decide)) (by rw [h]; simp) (by rw [h]; simp)
  · exact main 2 2 1 1 1 1 2 2 (by exact_mod_cast swap 2 2 1 1 1 1 2 2 (by decide)) (by rw [h]; simp) (by rw [h]; simp)

end Feedx
