import Mathlib.Algebra.BigOperators.Fin
import Mathlib.Algebra.BigOperators.Field
import Verif.Proofs.Trimmed

/-!
Properties C16-C21: trimming, winsorized mean and covariance.
-/

set_option linter.unusedSectionVars false
set_option linter.unusedSimpArgs false

namespace Feedx

variable {K : Type} [Field K] [LinearOrder K] [IsStrictOrderedRing K] [FloorRing K]

/-! ### Example data -/

/-- A stable argsort; it satisfies the contract, so the theorems below are not vacuous. -/
def stableArgsort (l : List K) : List ℕ :=
  (List.range l.length).insertionSort (fun i j => l.getD i 0 ≤ l.getD j 0)

theorem stableArgsort_ok : ArgsortOk (stableArgsort (K := K)) := by
  intro l
  refine ⟨List.perm_insertionSort _ _, ?_⟩
  rw [List.pairwise_map]
  have : Std.Total (fun i j : ℕ => l.getD i 0 ≤ l.getD j 0) := ⟨fun _ _ => le_total _ _⟩
  have : IsTrans ℕ (fun i j : ℕ => l.getD i 0 ≤ l.getD j 0) := ⟨fun _ _ _ h1 h2 => le_trans h1 h2⟩
  exact List.pairwise_insertionSort _ _

/-- The example of the docstring at statistics.py:139-143 (with a tie added), samples in mixed order,
stacked with a second row. -/
def exampleStack : List (Fin 2 → ℚ) :=
  [![20, 1], ![4, 2], ![5, 3], ![7, 4], ![9, 5], ![12, 6], ![1, 7], ![5, 8]]

deriving instance DecidableEq for TrimmedArray

/-- The trimmed array of the example (quantile 0.25 trims two samples on each side). -/
def exampleTrimmed : TrimmedArray ℚ 1 := ⟨exampleStack, 2, [![5, 3], ![7, 4], ![9, 5], ![5, 8]]⟩

/-- The first row of the example multiplied by -2 and shifted by 3, as a one-dimensional array; a second
array holds the first row in another order. -/
def exampleTransformed : List ℚ := (rowOf exampleStack 0).map (fun x => -2 * x + 3)

/-- The hypotheses of the theorems below are met: the example array is created, the quantile trims
samples, something is left, 5 and 9 are the most extreme untrimmed values, and a transformed and a
reordered copy can be created too. -/
example : mkTrimmed (.exact ℚ) stableArgsort exampleStack (1 / 4) = .ok exampleTrimmed := by
  decide +kernel
example : Spec.Extremes (rowOf exampleTrimmed.trimmed 0) 5 9 := by
  unfold Spec.Extremes; decide +kernel
example : mkTrimmed (.exact ℚ) stableArgsort (asStack exampleTransformed) (1 / 4) =
    .ok ⟨asStack exampleTransformed, 2, asStack [-7, -11, -15, -7]⟩ := by decide +kernel
example : rowOf (asStack exampleTransformed) 0 = (rowOf exampleStack 0).map (fun x => -2 * x + 3) := by
  decide +kernel
example : mkTrimmed (.exact ℚ) stableArgsort exampleStack.reverse (1 / 4) =
    .ok ⟨exampleStack.reverse, 2, [![5, 8], ![9, 5], ![7, 4], ![5, 3]]⟩ := by decide +kernel
example : exampleTrimmed.mean 0 = 26 / 4 ∧ exampleTrimmed.winsorizedMean 0 = 54 / 8 ∧
    exampleTrimmed.var 1 0 = 55 / 6 := by decide +kernel
/-- ... and quantile 0.1 trims nothing. -/
example : ⌊(Rounding.exact ℚ).rnd (1 / 10 * ((exampleStack.length : ℕ) : ℚ))⌋ = 0 ∧
    mkTrimmed (.exact ℚ) stableArgsort exampleStack (1 / 10) = .ok ⟨exampleStack, 0, exampleStack⟩ := by
  decide +kernel

/-- **C16.**  A `TrimmedArray` can be created exactly for quantiles in `[0, 0.5)`; any other quantile
raises `ValueError`.  (Arrays have fewer than `2^53` samples.) -/
theorem C16_accepts_iff (R : Rounding K) (argsort : List K → List ℕ) (ha : ArgsortOk argsort) (m : ℕ)
    (cols : List (Fin (m + 1) → K)) (hn : cols.length ≤ 2 ^ 53) (q : K) :
    ((mkTrimmed R argsort cols q).Returns ↔ 0 ≤ q ∧ q < 1 / 2) ∧
      (¬ (0 ≤ q ∧ q < 1 / 2) → mkTrimmed R argsort cols q = .error .valueError) := by
  have hret : 0 ≤ q ∧ q < 1 / 2 → (mkTrimmed R argsort cols q).Returns := by
    rintro ⟨h0, h1⟩
    refine ⟨⟨cols, nTrimOf R q cols.length,
      (trimmedIndex argsort (rowOf cols 0) (nTrimOf R q cols.length)).map (fun i => cols.getD i 0)⟩, ?_⟩
    unfold mkTrimmed
    simp only [raiseIf_bind_ok]
    refine ⟨by push Not; exact ⟨h0, h1⟩, ?_, rfl⟩
    have hz : 0 ≤ R.floorMul q (cols.length : ℤ) := by
      unfold Rounding.floorMul
      rw [Int.floor_nonneg]
      have := R.mono (by positivity : (0 : K) ≤ q * ((cols.length : ℤ) : K))
      have h3 := R.intFix 0 (by norm_num)
      simp only [Int.cast_zero] at h3
      rwa [h3] at this
    have hle : 2 * R.floorMul q (cols.length : ℤ) ≤ cols.length := by
      have h2 : q * ((cols.length : ℤ) : K) ≤ ((cols.length : ℤ) : K) / 2 := by
        have : (0 : K) ≤ ((cols.length : ℤ) : K) := by positivity
        nlinarith
      have h3 := R.mono h2
      rw [R.halfFix _ (by rw [abs_of_nonneg (by positivity)]; exact_mod_cast hn)] at h3
      have h4 : (R.floorMul q (cols.length : ℤ) : K) ≤ ((cols.length : ℤ) : K) / 2 :=
        (Int.floor_le _).trans h3
      have h5 : (2 * R.floorMul q (cols.length : ℤ) : K) ≤ ((cols.length : ℤ) : K) := by linarith
      exact_mod_cast h5
    have hg : 2 * nTrimOf R q cols.length ≤ cols.length := by unfold nTrimOf; omega
    have htr := trimmedIndex_trims ha cols _ hg
    obtain ⟨-, low, high, hp, hl, hh, -⟩ := htr
    have := hp.length_eq
    simp only [List.length_append] at this
    push Not
    omega
  refine ⟨⟨?_, hret⟩, ?_⟩
  · rintro ⟨T, hT⟩
    exact (mkTrimmed_ok hT).1
  · intro h
    unfold mkTrimmed
    rw [raiseIf_bind_err]
    left
    refine ⟨?_, rfl⟩
    by_contra hc
    push Not at hc
    exact h hc

/-- **C16.**  With `g = floor(q * n)`, the kept samples are the original ones in their original order
after cutting `g` samples with the smallest and `g` with the largest first-row values (whatever the sort
does with ties), so `n - 2 g` are left. -/
theorem C16_trims_exactly_the_extremes (R : Rounding K) (argsort : List K → List ℕ)
    (ha : ArgsortOk argsort) (m : ℕ) (cols : List (Fin (m + 1) → K)) (q : K) (T : TrimmedArray K m)
    (h : mkTrimmed R argsort cols q = .ok T) :
    T.untrimmed = cols ∧ (T.nTrim : ℤ) = ⌊R.rnd (q * (cols.length : K))⌋ ∧
      Spec.Trimmed (fun c => c 0) T.nTrim cols T.trimmed ∧
      T.trimmed.length + 2 * T.nTrim = cols.length := by
  obtain ⟨⟨h0, -⟩, h1, h2, h3, -⟩ := mkTrimmed_ok h
  refine ⟨h1, ?_, mkTrimmed_trims ha h, h3⟩
  rw [h2, nTrimOf, Rounding.floorMul]
  rw [Int.toNat_of_nonneg]
  · simp
  · rw [Int.floor_nonneg]
    have := R.mono (by positivity : (0 : K) ≤ q * ((cols.length : ℤ) : K))
    have h3 := R.intFix 0 (by norm_num)
    simp only [Int.cast_zero] at h3
    rwa [h3] at this

/-- **C17.**  Mean, winsorized mean and variance of a trimmed array do not depend on the order of the
samples nor on how the sort orders equal values.  (Stated for the first row of any two stacks, hence in
particular for one-dimensional arrays.) -/
theorem C17_statistics_ignore_order_and_ties (R : Rounding K) (argsort argsort' : List K → List ℕ)
    (ha : ArgsortOk argsort) (ha' : ArgsortOk argsort') (m m' : ℕ) (cols : List (Fin (m + 1) → K))
    (cols' : List (Fin (m' + 1) → K)) (hperm : (rowOf cols 0).Perm (rowOf cols' 0)) (q : K)
    (T : TrimmedArray K m) (T' : TrimmedArray K m') (h : mkTrimmed R argsort cols q = .ok T)
    (h' : mkTrimmed R argsort' cols' q = .ok T') (hne : T.trimmed ≠ []) (ddof : ℕ) :
    T.mean 0 = T'.mean 0 ∧ T.winsorizedMean 0 = T'.winsorizedMean 0 ∧ T.var ddof 0 = T'.var ddof 0 := by
  obtain ⟨-, h1, h2, h3, -⟩ := mkTrimmed_ok h
  obtain ⟨-, h1', h2', h3', -⟩ := mkTrimmed_ok h'
  have hlen : cols.length = cols'.length := by simpa [length_rowOf] using hperm.length_eq
  have hg : T.nTrim = T'.nTrim := by rw [h2, h2', hlen]
  have ht := mkTrimmed_trims ha h
  have ht' := mkTrimmed_trims ha' h'
  rw [← h1] at ht h3 hperm
  rw [← h1'] at ht' h3' hperm
  obtain ⟨hk, hw⟩ := wins_map T T' ht ht' hg (f := id) (Or.inl monotone_id) (by simpa using hperm)
  rw [List.map_id] at hk
  have hw := hw hne
  rw [List.map_id] at hw
  have hl : T.len = T'.len := by simpa [length_rowOf, TrimmedArray.len] using hk.length_eq
  refine ⟨?_, ?_, ?_⟩
  · unfold TrimmedArray.mean; rw [hk.sum_eq, hl]
  · rw [T.winsorizedMean0_eq h3, T'.winsorizedMean0_eq h3', spec_mean_perm hw]
  · rw [T.var0_eq h3, T'.var0_eq h3', sumSqDev_perm hw, hl]

/-- **C18.**  With `lo` and `hi` the most extreme untrimmed values, the winsorized mean is the mean of all
original samples clipped to `[lo, hi]`, and the variance is the sum of squared deviations of the clipped
samples from their mean, divided by (samples after trimming - ddof). -/
theorem C18_winsorized_statistics (R : Rounding K) (argsort : List K → List ℕ)
    (ha : ArgsortOk argsort) (m : ℕ) (cols : List (Fin (m + 1) → K)) (q : K) (T : TrimmedArray K m)
    (h : mkTrimmed R argsort cols q = .ok T) (lo hi : K)
    (hext : Spec.Extremes (rowOf T.trimmed 0) lo hi) (ddof : ℕ) :
    T.winsorizedMean 0 = Spec.mean ((rowOf cols 0).map (Spec.clip lo hi)) ∧
    T.var ddof 0 = Spec.sumSqDev ((rowOf cols 0).map (Spec.clip lo hi)) /
      ((T.trimmed.length : K) - (ddof : K)) := by
  obtain ⟨-, h1, h2, h3, -⟩ := mkTrimmed_ok h
  have ht := mkTrimmed_trims ha h
  rw [← h1] at ht h3 ⊢
  have hne : T.trimmed ≠ [] := by
    intro hc
    have := hext.1
    rw [hc] at this
    simp [rowOf] at this
  have hw := T.wins_perm_clip ht hne hext
  exact ⟨by rw [T.winsorizedMean0_eq h3, spec_mean_perm hw],
    by rw [T.var0_eq h3, sumSqDev_perm hw]; rfl⟩

/-- **C19.**  If `floor(q * n) = 0` nothing is trimmed, and mean and covariance are the ordinary ones, for
all rows. -/
theorem C19_no_trimming_ordinary_statistics (R : Rounding K) (argsort : List K → List ℕ) (m : ℕ)
    (cols : List (Fin (m + 1) → K)) (q : K) (T : TrimmedArray K m)
    (h : mkTrimmed R argsort cols q = .ok T) (hg : ⌊R.rnd (q * (cols.length : K))⌋ = 0)
    (i j : Fin (m + 1)) (ddof : ℕ) :
    T.trimmed = cols ∧ T.mean i = Spec.mean (rowOf cols i) ∧
      T.winsorizedMean i = Spec.mean (rowOf cols i) ∧
      T.cov ddof i j = Spec.crossDev (rowOf cols i) (rowOf cols j) / ((cols.length : K) - (ddof : K)) ∧
      T.var ddof i = Spec.sumSqDev (rowOf cols i) / ((cols.length : K) - (ddof : K)) := by
  obtain ⟨-, h1, h2, h3, h4⟩ := mkTrimmed_ok h
  have h0 : T.nTrim = 0 := by
    rw [h2, nTrimOf, Rounding.floorMul]
    simp only [Int.cast_natCast]
    rw [hg]; rfl
  have htr : T.trimmed = cols := by
    rw [h4, h0, trimmedIndex, if_pos rfl, length_rowOf, map_getD_range]
  have hw : T.wins = cols := by
    unfold TrimmedArray.wins; rw [h0, htr]; simp
  have hwm : ∀ k, T.winsorizedMean k = Spec.mean (rowOf cols k) := by
    intro k
    rw [T.winsorizedMean_eq, hw, Spec.mean, length_rowOf, TrimmedArray.size, h1]
  refine ⟨htr, ?_, hwm i, ?_, ?_⟩
  · unfold TrimmedArray.mean Spec.mean TrimmedArray.len
    rw [htr, length_rowOf]
  · rw [T.cov_eq, hw, hwm, hwm, TrimmedArray.len, htr]
    congr 1
    unfold Spec.crossDev
    congr 1
    conv_rhs => rw [rowOf, rowOf, List.zipWith_map_left, List.zipWith_map_right, List.zipWith_self]
    rfl
  · unfold TrimmedArray.var
    rw [T.cov_eq, hw, hwm, TrimmedArray.len, htr]
    congr 1
    unfold Spec.sumSqDev
    congr 1
    conv_rhs => rw [rowOf, List.map_map]
    apply List.map_congr_left
    intro c _
    simp only [Function.comp_apply]
    rw [sq]
    rfl

/-- **C20.**  If all samples are replaced by `s * x + c`, the trimmed and the winsorized mean become
`s * mean + c` and the variance is multiplied by `s^2`, for every `s` (also negative) and `c`. -/
theorem C20_shift_and_scale (R : Rounding K) (argsort argsort' : List K → List ℕ)
    (ha : ArgsortOk argsort) (ha' : ArgsortOk argsort') (m m' : ℕ) (cols : List (Fin (m + 1) → K))
    (cols' : List (Fin (m' + 1) → K)) (s c : K)
    (haff : rowOf cols' 0 = (rowOf cols 0).map (fun x => s * x + c)) (q : K)
    (T : TrimmedArray K m) (T' : TrimmedArray K m') (h : mkTrimmed R argsort cols q = .ok T)
    (h' : mkTrimmed R argsort' cols' q = .ok T') (hne : T.trimmed ≠ []) (ddof : ℕ) :
    T'.mean 0 = s * T.mean 0 + c ∧ T'.winsorizedMean 0 = s * T.winsorizedMean 0 + c ∧
      T'.var ddof 0 = s ^ 2 * T.var ddof 0 := by
  obtain ⟨-, h1, h2, h3, -⟩ := mkTrimmed_ok h
  obtain ⟨-, h1', h2', h3', -⟩ := mkTrimmed_ok h'
  have hlen : cols.length = cols'.length := by
    have := congrArg List.length haff
    simpa [length_rowOf] using this.symm
  have hg : T.nTrim = T'.nTrim := by rw [h2, h2', hlen]
  have ht := mkTrimmed_trims ha h
  have ht' := mkTrimmed_trims ha' h'
  rw [← h1] at ht h3 haff
  rw [← h1'] at ht' h3' haff
  have hf : Monotone (fun x : K => s * x + c) ∨ Antitone (fun x : K => s * x + c) := by
    rcases le_total 0 s with hs | hs
    · left; intro a b hab; simp only; nlinarith
    · right; intro a b hab; simp only; nlinarith
  obtain ⟨hk, hw⟩ := wins_map T T' ht ht' hg hf (by rw [haff])
  have hw := hw hne
  have hl : T.len = T'.len := by simpa [length_rowOf, TrimmedArray.len] using hk.length_eq
  have hne1 : rowOf T.trimmed 0 ≠ [] := by simpa [rowOf] using hne
  have hne2 : rowOf T.wins 0 ≠ [] := by
    unfold TrimmedArray.wins
    simp only [rowOf, List.map_append, ne_eq, List.append_eq_nil_iff, not_and, List.map_eq_nil_iff]
    intro hc; exact absurd hc.1 hne
  have hm : ∀ {n : ℕ} (S : TrimmedArray K n), S.mean 0 = Spec.mean (rowOf S.trimmed 0) := by
    intro n S; unfold TrimmedArray.mean Spec.mean TrimmedArray.len; rw [length_rowOf]
  refine ⟨?_, ?_, ?_⟩
  · rw [hm, hm, ← spec_mean_perm hk, mean_affine hne1]
  · rw [T.winsorizedMean0_eq h3, T'.winsorizedMean0_eq h3', ← spec_mean_perm hw, mean_affine hne2]
  · rw [T.var0_eq h3, T'.var0_eq h3', ← sumSqDev_perm hw, sumSqDev_affine hne2, hl]
    ring

/-- **C21.**  The covariance matrix of any trimmed stack is symmetric, has the variances on its diagonal,
gives every linear combination of the rows a non-negative variance (is positive semi-definite), and
correlations lie in `[-1, 1]`. -/
theorem C21_cov_is_a_covariance (m : ℕ) (T : TrimmedArray K m) (ddof : ℕ)
    (hd : ddof < T.len) (i j : Fin (m + 1)) (a : Fin (m + 1) → K) :
    T.cov ddof i j = T.cov ddof j i ∧ T.cov ddof i i = T.var ddof i ∧
      0 ≤ ∑ k, ∑ l, a k * a l * T.cov ddof k l ∧
      T.cov ddof i j ^ 2 ≤ T.var ddof i * T.var ddof j := by
  have hpos : (0 : K) < (T.len : K) - (ddof : K) := by
    rw [sub_pos]; exact_mod_cast hd
  refine ⟨?_, rfl, ?_, ?_⟩
  · rw [T.cov_eq, T.cov_eq]
    congr 3
    funext c
    ring
  · have key : ∀ W : List (Fin (m + 1) → K), ∑ k, ∑ l, a k * a l * (W.map (fun c =>
        (c k - T.winsorizedMean k) * (c l - T.winsorizedMean l))).sum =
        (W.map (fun c => (∑ k, a k * (c k - T.winsorizedMean k)) ^ 2)).sum := by
      intro W
      induction W with
      | nil => simp
      | cons c W ih =>
        simp only [List.map_cons, List.sum_cons, mul_add, Finset.sum_add_distrib, ih]
        congr 1
        rw [sq, Finset.sum_mul_sum]
        refine Finset.sum_congr rfl fun k _ => Finset.sum_congr rfl fun l _ => ?_
        ring
    have e : ∑ k, ∑ l, a k * a l * T.cov ddof k l =
        (T.wins.map (fun c => (∑ k, a k * (c k - T.winsorizedMean k)) ^ 2)).sum /
          ((T.len : K) - (ddof : K)) := by
      rw [← key, Finset.sum_div]
      refine Finset.sum_congr rfl fun k _ => ?_
      rw [Finset.sum_div]
      refine Finset.sum_congr rfl fun l _ => ?_
      rw [T.cov_eq, mul_div_assoc]
    rw [e]
    apply div_nonneg _ hpos.le
    apply List.sum_nonneg
    intro x hx
    obtain ⟨c, _, rfl⟩ := List.mem_map.mp hx
    positivity
  · unfold TrimmedArray.var
    rw [T.cov_eq, T.cov_eq, T.cov_eq, div_pow, div_mul_div_comm, ← sq]
    apply div_le_div_of_nonneg_right _ (by positivity)
    have := sum_mul_sq_le T.wins (fun c => c i - T.winsorizedMean i) (fun c => c j - T.winsorizedMean j)
    simpa only [sq] using this

/-- **C21.**  The covariance is linear in each row: if row `r` of the stack is `a * row i + b * row j + c`,
then `cov(r, k) = a * cov(i, k) + b * cov(j, k)`. -/
theorem C21_cov_is_bilinear (R : Rounding K) (argsort : List K → List ℕ) (ha : ArgsortOk argsort)
    (m : ℕ) (cols : List (Fin (m + 1) → K)) (q : K) (T : TrimmedArray K m)
    (h : mkTrimmed R argsort cols q = .ok T) (hne : T.trimmed ≠ []) (r i j : Fin (m + 1)) (a b c : K)
    (hrow : ∀ x ∈ cols, x r = a * x i + b * x j + c) (k : Fin (m + 1)) (ddof : ℕ) :
    T.cov ddof r k = a * T.cov ddof i k + b * T.cov ddof j k := by
  obtain ⟨-, h1, h2, h3, -⟩ := mkTrimmed_ok h
  have ht := (mkTrimmed_trims ha h).1
  have hW : ∀ x ∈ T.wins, x r = a * x i + b * x j + c := by
    intro x hx
    unfold TrimmedArray.wins at hx
    rcases List.mem_append.mp hx with hx | hx
    · rcases List.mem_append.mp hx with hx | hx
      · exact hrow x (ht.subset hx)
      · rw [List.eq_of_mem_replicate hx]
        exact hrow _ (ht.subset (argminCol_spec hne).1)
    · rw [List.eq_of_mem_replicate hx]
      exact hrow _ (ht.subset (argmaxCol_spec hne).1)
  rw [← h1] at h3
  have hlen := T.length_wins h3
  have hne2 : (T.size : K) ≠ 0 := by
    rw [Nat.cast_ne_zero, ← hlen]
    unfold TrimmedArray.wins
    simp only [List.length_append]
    have := List.length_pos_iff.mpr hne
    omega
  have hsum : ∀ W : List (Fin (m + 1) → K), (∀ x ∈ W, x r = a * x i + b * x j + c) →
      (rowOf W r).sum = a * (rowOf W i).sum + b * (rowOf W j).sum + W.length * c := by
    intro W
    induction W with
    | nil => intro _; simp [rowOf]
    | cons x W ih =>
      intro hx
      have := ih (fun y hy => hx y (List.mem_cons_of_mem _ hy))
      simp only [rowOf, List.map_cons, List.sum_cons, List.length_cons] at this ⊢
      rw [this, hx x List.mem_cons_self]
      push_cast; ring
  have hmean : T.winsorizedMean r = a * T.winsorizedMean i + b * T.winsorizedMean j + c := by
    rw [T.winsorizedMean_eq, T.winsorizedMean_eq, T.winsorizedMean_eq, hsum _ hW, hlen]
    field_simp
  rw [T.cov_eq, T.cov_eq, T.cov_eq, ← mul_div_assoc, ← mul_div_assoc, ← add_div]
  congr 1
  rw [← List.sum_map_mul_left, ← List.sum_map_mul_left, ← List.sum_map_add]
  congr 1
  apply List.map_congr_left
  intro x hx
  rw [hW x hx, hmean]
  ring

end Feedx
