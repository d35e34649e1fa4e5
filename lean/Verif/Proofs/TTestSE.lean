import Mathlib.Tactic.LinearCombination
import Mathlib.Tactic.Positivity
import Mathlib.Tactic.FieldSimp
import Verif.Proofs.TTest
import Verif.Props.Trimmed

/-!
Standard errors and degrees of freedom of the tests are finite, and the standard error rebuilt for the
interval is the reported one.
-/

set_option linter.unusedSectionVars false
set_option linter.unusedSimpArgs false

namespace Feedx

open Fl

/-- Significance is the same as excluding zero, when p-value and interval use the same estimate and
standard error. -/
theorem sig_iff_excludes (D : TDist) {d s df α : ℝ} (hs : 0 < s) (hdf : 0 < df) (h0 : 0 < α) (h1 : α < 1)
    {alt : String} (hk : KnownAlt alt) :
    Fl.lt (pOf D (fin df) (fin d / fin s) alt) (fin α) = true ↔
      Spec.ExcludesZero (boundsOf D (fin d) (fin s) (fin df) alt α).1
        (boundsOf D (fin d) (fin s) (fin df) alt α).2 := by
  have hst : (fin d / fin s : Fl ℝ) = fin (d / s) := fin_div_ne hs.ne'
  have e1 : ∀ c : ℝ, c < d / s ↔ 0 < d - c * s := fun c => by rw [lt_div_iff₀ hs, sub_pos]
  have e2 : ∀ c : ℝ, d / s < -c ↔ d + c * s < 0 := fun c => by
    rw [div_lt_iff₀ hs]; constructor <;> intro h <;> linarith
  rcases hk with h | h | h
  · have hc := D.ppf_one_sub hdf (q := α / 2) (by linarith) (by linarith)
    have hp : Fl.lt (pOf D (fin df) (fin d / fin s) alt) (fin α) = true ↔
        D.ppf df (1 - α / 2) < |d / s| := by
      rw [hst]
      simp only [pOf, h, if_true, abs_fin, fin_neg]
      rw [D.cdfFl_fin hdf, fin_mul, lt_fin, decide_eq_true_eq, hc, neg_lt,
        ← D.cdf_lt_iff hdf (q := α / 2) (by linarith) (by linarith)]
      constructor <;> intro h <;> linarith
    rw [hp]
    simp only [boundsOf, h, if_true, D.ppfFl_fin hdf (q := 1 - α / 2) (by linarith) (by linarith),
      fin_mul, fin_sub, fin_add, Spec.ExcludesZero, lt_fin, decide_eq_true_eq]
    rw [lt_abs, e1, lt_neg, e2]
  · have hc := D.ppf_one_sub hdf h0 h1
    have hp : Fl.lt (pOf D (fin df) (fin d / fin s) alt) (fin α) = true ↔
        D.ppf df (1 - α) < d / s := by
      rw [hst]
      simp only [pOf, h, if_true, abs_fin, fin_neg]
      simp only [String.reduceEq, if_false, if_true]
      rw [D.cdfFl_fin hdf, lt_fin, decide_eq_true_eq, hc, neg_lt, ← D.cdf_lt_iff hdf h0 h1]
    rw [hp]
    simp only [boundsOf, h, D.ppfFl_fin hdf (q := 1 - α) (by linarith) (by linarith)]
    simp only [String.reduceEq, if_false, if_true]
    simp only [fin_mul, fin_sub, fin_add, Spec.ExcludesZero, lt_fin, decide_eq_true_eq]
    rw [e1]; simp
  · have hc := D.ppf_one_sub hdf h0 h1
    have hp : Fl.lt (pOf D (fin df) (fin d / fin s) alt) (fin α) = true ↔
        d / s < - D.ppf df (1 - α) := by
      rw [hst]
      simp only [pOf, h, if_true, abs_fin, fin_neg]
      simp only [String.reduceEq, if_false, if_true]
      rw [D.cdfFl_fin hdf, lt_fin, decide_eq_true_eq, hc, neg_neg, ← D.cdf_lt_iff hdf h0 h1]
    rw [hp]
    simp only [boundsOf, h, D.ppfFl_fin hdf (q := 1 - α) (by linarith) (by linarith)]
    simp only [String.reduceEq, if_false, if_true]
    simp only [fin_mul, fin_sub, fin_add, Spec.ExcludesZero, lt_fin, decide_eq_true_eq]
    rw [e2]; simp

/-! ### Finite results come from finite inputs -/

namespace Fl

theorem add_eq_fin {a b : Fl ℝ} {x : ℝ} (h : a + b = fin x) : ∃ y z, a = fin y ∧ b = fin z ∧ x = y + z := by
  cases a <;> cases b <;> first | exact ⟨_, _, rfl, rfl, by cases h; rfl⟩ | cases h

theorem infSign_ne_fin (x y : ℝ) : infSign x ≠ fin y := by
  unfold infSign; split_ifs <;> simp

theorem mul_eq_fin {a b : Fl ℝ} {x : ℝ} (h : a * b = fin x) : ∃ y z, a = fin y ∧ b = fin z ∧ x = y * z := by
  cases a <;> cases b <;> first
    | exact ⟨_, _, rfl, rfl, by cases h; rfl⟩
    | exact absurd h (infSign_ne_fin _ _)
    | cases h

theorem sqrt_eq_fin {a : Fl ℝ} {x : ℝ} (h : a.sqrt = fin x) : ∃ y, a = fin y ∧ 0 ≤ y ∧ x = Real.sqrt y := by
  cases a with
  | fin y =>
    by_cases hy : 0 ≤ y
    · rw [sqrt_fin hy] at h; cases h; exact ⟨y, rfl, hy, rfl⟩
    · have : (fin y).sqrt = nan := by
        show (if y < 0 then nan else fin (Real.sqrt y)) = _
        rw [if_pos (not_le.mp hy)]
      rw [this] at h; cases h
  | _ => cases h

theorem div_fin_eq_fin {a : Fl ℝ} {n x : ℝ} (hn : 0 < n) (h : a / fin n = fin x) :
    ∃ y, a = fin y ∧ x = y / n := by
  cases a with
  | fin y => rw [fin_div_ne hn.ne'] at h; cases h; exact ⟨y, rfl, rfl⟩
  | nan => cases h
  | pinf =>
    exfalso
    revert h
    show (if n < 0 then ninf else pinf) = fin x → _
    rw [if_neg (by linarith)]; simp
  | ninf =>
    exfalso
    revert h
    show (if n < 0 then pinf else ninf) = fin x → _
    rw [if_neg (by linarith)]; simp

end Fl

/-- Estimates of the independent test with a positive finite standard error. -/
theorem ind_finite {m1 m2 v1 v2 : Fl ℝ} {n1 n2 : ℕ} {ev : Bool} {s : ℝ} (hn1 : 1 < n1) (hn2 : 1 < n2)
    (h : (indEstimates m1 m2 v1 v2 n1 n2 ev).differenceSE = fin s) (hs : 0 < s) :
    ciSE (indEstimates m1 m2 v1 v2 n1 n2 ev).se1 (indEstimates m1 m2 v1 v2 n1 n2 ev).se2 (fin 0) = fin s ∧
      (∃ df, 0 < df ∧ (indEstimates m1 m2 v1 v2 n1 n2 ev).df = fin df) ∧
      (∃ x y, v1 = fin x ∧ v2 = fin y ∧ 0 ≤ x ∧ 0 ≤ y) := by
  have r1 : (1 : ℝ) < n1 := by exact_mod_cast hn1
  have r2 : (1 : ℝ) < n2 := by exact_mod_cast hn2
  have p1 : (0 : ℝ) < n1 := by linarith
  have p2 : (0 : ℝ) < n2 := by linarith
  have key : ∀ A B : Fl ℝ, (A + B).sqrt = fin s → (∀ a, A = fin a → 0 ≤ a) → (∀ b, B = fin b → 0 ≤ b) →
      ciSE A.sqrt B.sqrt (fin 0) = fin s ∧ ∃ a b, A = fin a ∧ B = fin b ∧ 0 ≤ a ∧ 0 ≤ b ∧ 0 < a + b := by
    intro A B hAB hA hB
    obtain ⟨y, hy, hy0, hsy⟩ := sqrt_eq_fin hAB
    obtain ⟨a, b, rfl, rfl, rfl⟩ := add_eq_fin hy
    have ha := hA a rfl
    have hb := hB b rfl
    refine ⟨?_, a, b, rfl, rfl, ha, hb, ?_⟩
    · rw [sqrt_fin ha, sqrt_fin hb]
      unfold ciSE
      simp only [sq_fin, fin_mul, fin_add, fin_sub]
      rw [Real.mul_self_sqrt ha, Real.mul_self_sqrt hb]
      rw [sqrt_fin (by linarith), hsy]
      congr 2; ring
    · rcases hy0.lt_or_eq with h' | h'
      · exact h'
      · rw [← h', Real.sqrt_zero] at hsy; linarith
  unfold indEstimates twoSampleSE at h ⊢
  cases ev with
  | true =>
    simp only [if_true] at h ⊢
    set P := ((fin (n1 : ℝ) - fin 1) * v1.sqrt.sq + (fin (n2 : ℝ) - fin 1) * v2.sqrt.sq) /
      (fin (n1 : ℝ) + fin (n2 : ℝ) - fin 2) with hP
    have hden : (fin (n1 : ℝ) + fin (n2 : ℝ) - fin 2 : Fl ℝ) = fin ((n1 : ℝ) + n2 - 2) := by simp
    have hPc : ∀ p, P = fin p → 0 ≤ p ∧ (∃ x y, v1 = fin x ∧ v2 = fin y ∧ 0 ≤ x ∧ 0 ≤ y) := by
      intro p hp
      rw [hP, hden] at hp
      obtain ⟨z, hz, rfl⟩ := div_fin_eq_fin (by linarith) hp
      obtain ⟨a, b, ha, hb, rfl⟩ := add_eq_fin hz
      obtain ⟨w1, a', hw1, ha', rfl⟩ := mul_eq_fin ha
      obtain ⟨w2, b', hw2, hb', rfl⟩ := mul_eq_fin hb
      rw [fin_sub] at hw1 hw2
      cases hw1; cases hw2
      obtain ⟨c, c', hc, hc2, rfl⟩ := mul_eq_fin ha'
      obtain ⟨e, e', he, he2, rfl⟩ := mul_eq_fin hb'
      rw [hc] at hc2; cases hc2
      rw [he] at he2; cases he2
      obtain ⟨x, hx, hx0, -⟩ := sqrt_eq_fin hc
      obtain ⟨y, hy, hy0, -⟩ := sqrt_eq_fin he
      refine ⟨?_, x, y, hx, hy, hx0, hy0⟩
      have : 0 < (n1 : ℝ) + n2 - 2 := by linarith
      have : 0 ≤ (n1 : ℝ) - 1 := by linarith
      have : 0 ≤ (n2 : ℝ) - 1 := by linarith
      have := mul_self_nonneg c
      have := mul_self_nonneg e
      positivity
    obtain ⟨k1, a, b, ha, hb, ha0, hb0, -⟩ := key _ _ h
      (by intro a ha; obtain ⟨p, hp, rfl⟩ := div_fin_eq_fin p1 ha
          exact div_nonneg (hPc p hp).1 p1.le)
      (by intro a ha; obtain ⟨p, hp, rfl⟩ := div_fin_eq_fin p2 ha
          exact div_nonneg (hPc p hp).1 p2.le)
    refine ⟨k1, ⟨(n1 : ℝ) + n2 - 2, by linarith, ?_⟩, ?_⟩
    · simp [twoSampleDf]
    · obtain ⟨p, hp, -⟩ := div_fin_eq_fin p1 ha
      exact (hPc p hp).2
  | false =>
    simp only [Bool.false_eq_true, if_false] at h ⊢
    have hvc : ∀ (v : Fl ℝ) (n a : ℝ), 0 < n → v.sqrt.sq / fin n = fin a → 0 ≤ a ∧ ∃ x, v = fin x ∧ 0 ≤ x := by
      intro v n a hn hv
      obtain ⟨z, hz, rfl⟩ := div_fin_eq_fin hn hv
      obtain ⟨c, c', hc, hc2, rfl⟩ := mul_eq_fin hz
      rw [hc] at hc2; cases hc2
      obtain ⟨x, hx, hx0, -⟩ := sqrt_eq_fin hc
      exact ⟨div_nonneg (mul_self_nonneg _) hn.le, x, hx, hx0⟩
    obtain ⟨k1, a, b, ha, hb, ha0, hb0, hab⟩ := key _ _ h
      (fun a ha => (hvc _ _ _ p1 ha).1) (fun a ha => (hvc _ _ _ p2 ha).1)
    obtain ⟨x, hx, hx0⟩ := (hvc _ _ _ p1 ha).2
    obtain ⟨y, hy, hy0⟩ := (hvc _ _ _ p2 hb).2
    refine ⟨k1, ?_, x, y, hx, hy, hx0, hy0⟩
    simp only [twoSampleDf, ha, hb, Bool.false_eq_true, if_false, fin_add, sq_fin, fin_sub]
    have q1 : (0 : ℝ) < n1 - 1 := by linarith
    have q2 : (0 : ℝ) < n2 - 1 := by linarith
    rw [fin_div_ne q1.ne', fin_div_ne q2.ne', fin_add]
    have hD : 0 < a * a / ((n1 : ℝ) - 1) + b * b / ((n2 : ℝ) - 1) := by
      rcases ha0.lt_or_eq with h' | h'
      · have := mul_pos h' h'; positivity
      · have hb' : 0 < b := by linarith
        have := mul_pos hb' hb'; positivity
    rw [fin_div_ne hD.ne']
    exact ⟨_, by have := mul_pos hab hab; positivity, rfl⟩

/-- Without trimming every value is kept. -/
theorem mkTrimmed_zero (R : Rounding ℝ) (argsort : List ℝ → List ℕ) {m : ℕ} (cols : List (Fin (m + 1) → ℝ)) :
    mkTrimmed R argsort cols 0 = .ok ⟨cols, 0, cols⟩ := by
  have hz : nTrimOf R (0 : ℝ) cols.length = 0 := by
    have := R.intFix 0 (by norm_num)
    unfold nTrimOf Rounding.floorMul
    simp only [zero_mul]
    rw [show (0 : ℝ) = ((0 : ℤ) : ℝ) by simp, this]; simp
  unfold mkTrimmed
  simp only [hz, trimmedIndex, if_true, length_rowOf, map_getD_range]
  rw [raiseIf_bind_ok]
  refine ⟨by norm_num, ?_⟩
  rw [raiseIf_bind_ok]
  exact ⟨by simp, rfl⟩

/-! ### The paired test -/

theorem stack3_row {a b : List ℝ} : ∀ x ∈ stack3 a b, x 0 = x 1 - x 2 := by
  intro x hx
  obtain ⟨p, -, rfl⟩ := List.mem_map.mp (by rw [stack3, ← List.map_uncurry_zip_eq_zipWith] at hx; exact hx)
  rfl

theorem trimmed_sub {R : Rounding ℝ} {argsort : List ℝ → List ℕ} (ha : ArgsortOk argsort)
    {m : ℕ} {cols : List (Fin (m + 1) → ℝ)} {q : ℝ} {T : TrimmedArray ℝ m}
    (h : mkTrimmed R argsort cols q = .ok T) : ∀ x ∈ T.trimmed, x ∈ cols :=
  fun _ hx => (mkTrimmed_trims ha h).1.subset hx

/-- Trimmed means are linear in the rows. -/
theorem mean_sub {m : ℕ} (T : TrimmedArray ℝ m) (r i j : Fin (m + 1))
    (h : ∀ x ∈ T.trimmed, x r = x i - x j) : T.mean r = T.mean i - T.mean j := by
  unfold TrimmedArray.mean rowOf
  rw [← sub_div]
  congr 1
  generalize T.trimmed = l at h
  induction l with
  | nil => simp
  | cons c l ih =>
    simp only [List.map_cons, List.sum_cons]
    rw [ih (fun x hx => h x (List.mem_cons_of_mem _ hx)), h c (by simp)]
    ring

theorem var_nonneg {m : ℕ} (T : TrimmedArray ℝ m) (h : 1 < T.len) (i : Fin (m + 1)) : 0 ≤ T.cov 1 i i := by
  have h3 := (C21_cov_is_a_covariance m T 1 h i i (Pi.single i 1)).2.2.1
  simpa [Pi.single_apply, Finset.sum_ite_eq, ite_mul, mul_ite] using h3

theorem nan_mul (a : Fl ℝ) : nan * a = nan := by cases a <;> rfl
theorem mul_nan (a : Fl ℝ) : a * nan = nan := by cases a <;> rfl
theorem add_nan (a : Fl ℝ) : a + nan = nan := by cases a <;> rfl
theorem nan_add (a : Fl ℝ) : nan + a = nan := by cases a <;> rfl
theorem sub_nan (a : Fl ℝ) : a - nan = nan := by cases a <;> rfl
theorem nan_sub (a : Fl ℝ) : nan - a = nan := by cases a <;> rfl
theorem nan_div (a : Fl ℝ) : nan / a = nan := by cases a <;> rfl
theorem div_nan (a : Fl ℝ) : a / nan = nan := by cases a <;> rfl

theorem ciSE_nan_corr (a b : Fl ℝ) : ciSE a b nan = nan := by
  unfold ciSE; rw [mul_nan, mul_nan, sub_nan]; rfl

theorem ciSE_nan_left (b c : Fl ℝ) : ciSE nan b c = nan := by
  unfold ciSE Fl.sq; rw [nan_mul, nan_add, nan_sub]; rfl

theorem ciSE_nan_right (a c : Fl ℝ) : ciSE a nan c = nan := by
  unfold ciSE Fl.sq; rw [nan_mul, add_nan, nan_sub]; rfl

/-- Variance of a difference. -/
theorem paired_var {R : Rounding ℝ} {argsort : List ℝ → List ℕ} (ha : ArgsortOk argsort)
    {m : ℕ} {cols : List (Fin (m + 1) → ℝ)} {q : ℝ} {T : TrimmedArray ℝ m}
    (h : mkTrimmed R argsort cols q = .ok T) (hl : 1 < T.len) (r i j : Fin (m + 1))
    (hrow : ∀ x ∈ cols, x r = x i - x j) :
    T.cov 1 r r = T.cov 1 i i + T.cov 1 j j - 2 * T.cov 1 i j := by
  have hne : T.trimmed ≠ [] := by
    intro h0; rw [TrimmedArray.len, h0] at hl; simp at hl
  have hb := fun k => C21_cov_is_bilinear R argsort ha m cols q T h hne r i j 1 (-1) 0
    (by intro x hx; rw [hrow x hx]; ring) k 1
  have hsym := fun k l => (C21_cov_is_a_covariance m T 1 hl k l 0).1
  rw [hb r, hsym i r, hsym j r, hb i, hb j, hsym j i]
  ring

/-- Estimates of the paired test, plain metric: either one sample is constant and the interval's
standard error is nan, or it is the reported standard error. -/
theorem pairedPlain_se {R : Rounding ℝ} {argsort : List ℝ → List ℕ} (ha : ArgsortOk argsort)
    {v1 v2 : List ℝ} {q : ℝ} {T : TrimmedArray ℝ 2} (h : mkTrimmed R argsort (stack3 v1 v2) q = .ok T)
    (hl : 1 < T.len) :
    (pairedPlain T).differenceSE = fin (Real.sqrt (T.cov 1 0 0) / Real.sqrt T.len) ∧
      (pairedPlain T).df = fin ((T.len : ℝ) - 1) ∧
      T.mean 0 = T.mean 1 - T.mean 2 ∧
      (T.cov 1 1 1 * T.cov 1 2 2 = 0 →
        ciSE (pairedPlain T).se1 (pairedPlain T).se2 (pairedPlain T).corr = nan) ∧
      (T.cov 1 1 1 * T.cov 1 2 2 ≠ 0 →
        ciSE (pairedPlain T).se1 (pairedPlain T).se2 (pairedPlain T).corr = (pairedPlain T).differenceSE) := by
  have hn : (0 : ℝ) < T.len := by exact_mod_cast (by omega : 0 < T.len)
  have hsn : Real.sqrt T.len ≠ 0 := (Real.sqrt_pos.mpr hn).ne'
  have hv := var_nonneg T hl
  have hse : ∀ i, oneSampleSE (fin (T.var 1 i)).sqrt (fin T.len) =
      fin (Real.sqrt (T.cov 1 i i) / Real.sqrt T.len) := by
    intro i
    unfold oneSampleSE
    rw [show T.var 1 i = T.cov 1 i i from rfl, sqrt_fin (hv i), sqrt_fin hn.le, fin_div_ne hsn]
  have hcs := (C21_cov_is_a_covariance 2 T 1 hl 1 2 0).2.2.2
  simp only [TrimmedArray.var] at hcs
  refine ⟨hse 0, by simp [pairedPlain, oneSampleDf], mean_sub T 0 1 2
    (fun x hx => stack3_row x (trimmed_sub ha h x hx)), ?_, ?_⟩
  · intro h0
    have hc0 : T.cov 1 1 2 = 0 := by
      rw [h0] at hcs
      exact pow_eq_zero_iff two_ne_zero |>.mp (le_antisymm hcs (sq_nonneg _))
    have : (pairedPlain T).corr = nan := by
      simp only [pairedPlain, fin_mul, h0, hc0]
      rw [sqrt_fin le_rfl, Real.sqrt_zero, fin_div, if_pos rfl]
      simp [infSign]
    rw [this, ciSE_nan_corr]
  · intro h0
    have hp : 0 < T.cov 1 1 1 * T.cov 1 2 2 := lt_of_le_of_ne (mul_nonneg (hv 1) (hv 2)) (Ne.symm h0)
    simp only [pairedPlain, hse, fin_mul]
    rw [sqrt_fin hp.le, fin_div_ne (Real.sqrt_pos.mpr hp).ne']
    unfold ciSE
    simp only [sq_fin, fin_mul, fin_add, fin_sub]
    have e : Real.sqrt (T.cov 1 1 1) / Real.sqrt T.len * (Real.sqrt (T.cov 1 1 1) / Real.sqrt T.len) +
        Real.sqrt (T.cov 1 2 2) / Real.sqrt T.len * (Real.sqrt (T.cov 1 2 2) / Real.sqrt T.len) -
        2 * (Real.sqrt (T.cov 1 1 1) / Real.sqrt T.len * (Real.sqrt (T.cov 1 2 2) / Real.sqrt T.len) *
          (T.cov 1 1 2 / Real.sqrt (T.cov 1 1 1 * T.cov 1 2 2))) = T.cov 1 0 0 / T.len := by
      rw [paired_var ha h hl 0 1 2 stack3_row, Real.sqrt_mul (hv 1)]
      have a1 := Real.mul_self_sqrt (hv 1)
      have a2 := Real.mul_self_sqrt (hv 2)
      have a3 := Real.mul_self_sqrt hn.le
      have b1 : Real.sqrt (T.cov 1 1 1) ≠ 0 := by
        intro h'; rw [h'] at a1; rw [← a1] at hp; simp at hp
      have b2 : Real.sqrt (T.cov 1 2 2) ≠ 0 := by
        intro h'; rw [h'] at a2; rw [← a2] at hp; simp at hp
      set x := Real.sqrt (T.cov 1 1 1)
      set y := Real.sqrt (T.cov 1 2 2)
      set z := Real.sqrt (T.len : ℝ)
      rw [← a1, ← a2, ← a3]
      field_simp
    rw [e, sqrt_fin (div_nonneg (hv 0) hn.le), Real.sqrt_div (hv 0)]

/-! ### Ratio metrics -/

theorem Fl.sq_eq_fin {a : Fl ℝ} {x : ℝ} (h : a.sq = fin x) : ∃ y, a = fin y ∧ x = y * y := by
  obtain ⟨y, z, hy, hz, hx⟩ := mul_eq_fin h
  rw [hy] at hz; cases hz
  exact ⟨y, hy, hx⟩

/-- Mean and variance of a ratio of non-zero means. -/
theorem ratioMeanVar_fin {m1 m2 v1 v2 c : ℝ} (h1 : m1 ≠ 0) (h2 : m2 ≠ 0) :
    ratioMeanVar (fin m1) (fin m2) (fin v1) (fin v2) (fin c) =
      (fin (m1 / m2), fin ((1 / m2) ^ 2 * v1 + 2 * (1 / m2) * (-m1 / m2 ^ 2) * c + (-m1 / m2 ^ 2) ^ 2 * v2)) := by
  unfold ratioMeanVar
  simp only [fin_div_ne h2, sq_fin, fin_mul, fin_div_ne (mul_ne_zero h1 h1), fin_div_ne (mul_ne_zero h2 h2),
    fin_div_ne (mul_ne_zero h1 h2), fin_add, fin_sub]
  congr 2
  field_simp
  ring

/-- The variance of a ratio is finite only for non-zero means. -/
theorem ratioMeanVar_eq_fin {m1 m2 v1 v2 c x : ℝ}
    (h : (ratioMeanVar (fin m1) (fin m2) (fin v1) (fin v2) (fin c)).2 = fin x) : m1 ≠ 0 ∧ m2 ≠ 0 := by
  unfold ratioMeanVar at h
  obtain ⟨y, z, hy, hz, -⟩ := mul_eq_fin h
  obtain ⟨w, hw, -⟩ := Fl.sq_eq_fin hy
  obtain ⟨p, q', hp, -, -⟩ := add_eq_fin hz
  obtain ⟨p1, p2, hp1, hp2, -⟩ := add_eq_fin hp
  constructor
  · rintro rfl
    rw [sq_fin, mul_zero, fin_div, if_pos rfl] at hp1
    exact infSign_ne_fin _ _ hp1
  · rintro rfl
    rw [fin_div, if_pos rfl] at hw
    exact infSign_ne_fin _ _ hw

/-- If a quadratic form in two variables is non-negative, its mixed coefficient is bounded. -/
theorem sq_le_of_form {a b c : ℝ} (h : ∀ x y : ℝ, 0 ≤ x ^ 2 * a + 2 * x * y * c + y ^ 2 * b) : c ^ 2 ≤ a * b := by
  have hb : 0 ≤ b := by have := h 0 1; linarith
  rcases hb.lt_or_eq with hb | hb
  · have := h b (-c)
    have h2 : 0 ≤ b * (a * b - c ^ 2) := by nlinarith
    have := nonneg_of_mul_nonneg_right h2 hb
    linarith
  · rw [← hb]
    have h1 := h c (-(a + 1))
    have h2 := h c (-(-(a + 1)))
    have ha : 0 ≤ a := by have := h 1 0; linarith
    rw [← hb] at h1 h2
    nlinarith [sq_nonneg c]

/-- `sum4` of finite values. -/
theorem sum4_fin (f : Fin 4 → ℝ) : sum4 (fun i => fin (f i)) = fin (f 0 + f 1 + f 2 + f 3) := rfl

theorem sum4_eq_fin {f : Fin 4 → Fl ℝ} {x : ℝ} (h : sum4 f = fin x) : ∀ i, ∃ y, f i = fin y := by
  unfold sum4 at h
  obtain ⟨a, b, ha, hb, -⟩ := add_eq_fin h
  obtain ⟨c, d, hc, hd, -⟩ := add_eq_fin ha
  obtain ⟨e, k, he, hk, -⟩ := add_eq_fin hc
  intro i
  fin_cases i
  · exact ⟨_, he⟩
  · exact ⟨_, hk⟩
  · exact ⟨_, hd⟩
  · exact ⟨_, hb⟩

/-- A finite variance of the difference needs non-zero denominators. -/
theorem diffOfRatios_den {m : Fin 4 → ℝ} {cov : Fin 4 → Fin 4 → ℝ} {x : ℝ}
    (h : (diffOfRatios m cov).differenceVar = fin x) : m 1 ≠ 0 ∧ m 3 ≠ 0 := by
  unfold diffOfRatios at h
  dsimp only at h
  have h4 := sum4_eq_fin h
  have g : ∀ i, ∃ y, (![fin 1 / fin (m 1), -fin (m 0) / (fin (m 1)).sq, fin (-1) / fin (m 3),
      fin (m 2) / (fin (m 3)).sq] : Fin 4 → Fl ℝ) i = fin y := by
    intro i
    obtain ⟨y, hy⟩ := h4 i
    obtain ⟨a, b, -, hb, -⟩ := mul_eq_fin hy
    exact ⟨b, hb⟩
  constructor
  · intro h0
    obtain ⟨y, hy⟩ := g 0
    simp only [Matrix.cons_val_zero, h0] at hy
    rw [fin_div, if_pos rfl] at hy
    exact infSign_ne_fin _ _ hy
  · intro h0
    obtain ⟨y, hy⟩ := g 2
    simp only [Matrix.cons_val, h0] at hy
    rw [fin_div, if_pos rfl] at hy
    exact infSign_ne_fin _ _ hy

/-- The gradient of a difference of ratios. -/
noncomputable def gradOf (m : Fin 4 → ℝ) : Fin 4 → ℝ :=
  ![1 / m 1, -m 0 / m 1 ^ 2, -1 / m 3, m 2 / m 3 ^ 2]

/-- Quadratic form of a covariance matrix. -/
noncomputable def form4 (cov : Fin 4 → Fin 4 → ℝ) (a : Fin 4 → ℝ) : ℝ := ∑ k, ∑ l, a k * a l * cov k l

theorem diffOfRatios_var {m : Fin 4 → ℝ} {cov : Fin 4 → Fin 4 → ℝ} (h1 : m 1 ≠ 0) (h3 : m 3 ≠ 0) :
    (diffOfRatios m cov).differenceVar = fin (form4 cov (gradOf m)) := by
  have e1 : (fin 1 / fin (m 1) : Fl ℝ) = fin (1 / m 1) := fin_div_ne h1
  have e2 : (-fin (m 0) / (fin (m 1)).sq : Fl ℝ) = fin (-m 0 / m 1 ^ 2) := by
    rw [sq_fin, fin_neg, fin_div_ne (mul_ne_zero h1 h1), _root_.sq]
  have e3 : (fin (-1) / fin (m 3) : Fl ℝ) = fin (-1 / m 3) := fin_div_ne h3
  have e4 : (fin (m 2) / (fin (m 3)).sq : Fl ℝ) = fin (m 2 / m 3 ^ 2) := by
    rw [sq_fin, fin_div_ne (mul_ne_zero h3 h3), _root_.sq]
  unfold diffOfRatios
  simp only [e1, e2, e3, e4]
  have hg : (![fin (1 / m 1), fin (-m 0 / m 1 ^ 2), fin (-1 / m 3), fin (m 2 / m 3 ^ 2)] : Fin 4 → Fl ℝ) =
      fun i => fin (gradOf m i) := by
    funext i; fin_cases i <;> rfl
  rw [hg]
  simp only [fin_mul, sum4_fin]
  congr 1
  unfold form4
  simp only [Fin.sum_univ_four]
  ring

/-- Parts of the covariance of a difference of two ratios: variances of both, their covariance. -/
theorem diffOfRatios_parts {m : Fin 4 → ℝ} {cov : Fin 4 → Fin 4 → ℝ} (h0 : m 0 ≠ 0) (h1 : m 1 ≠ 0)
    (h2 : m 2 ≠ 0) (h3 : m 3 ≠ 0) (hsym : ∀ i j, cov i j = cov j i) (hpsd : ∀ a, 0 ≤ form4 cov a) :
    ∃ a b c : ℝ, (diffOfRatios m cov).var1 = fin a ∧ (diffOfRatios m cov).var2 = fin b ∧
      0 ≤ a ∧ 0 ≤ b ∧ c ^ 2 ≤ a * b ∧ form4 cov (gradOf m) = a + b - 2 * c ∧
      (diffOfRatios m cov).mean1 = fin (m 0 / m 1) ∧ (diffOfRatios m cov).mean2 = fin (m 2 / m 3) ∧
      (diffOfRatios m cov).corr12 = fin (2 * c) / fin (2 * Real.sqrt (a * b)) := by
  have key : ∀ x y : ℝ, form4 cov ![x * gradOf m 0, x * gradOf m 1, y * gradOf m 2, y * gradOf m 3] =
      x ^ 2 * ((1 / m 1) ^ 2 * cov 0 0 + 2 * (1 / m 1) * (-m 0 / m 1 ^ 2) * cov 0 1 +
        (-m 0 / m 1 ^ 2) ^ 2 * cov 1 1) +
      2 * x * y * (gradOf m 0 * gradOf m 2 * cov 0 2 + gradOf m 0 * gradOf m 3 * cov 0 3 +
        gradOf m 1 * gradOf m 2 * cov 1 2 + gradOf m 1 * gradOf m 3 * cov 1 3) +
      y ^ 2 * ((1 / m 3) ^ 2 * cov 2 2 + 2 * (1 / m 3) * (-m 2 / m 3 ^ 2) * cov 2 3 +
        (-m 2 / m 3 ^ 2) ^ 2 * cov 3 3) := by
    intro x y
    unfold form4
    simp only [Fin.sum_univ_four, gradOf, Matrix.cons_val_zero, Matrix.cons_val_one, Matrix.cons_val]
    rw [hsym 1 0, hsym 2 0, hsym 3 0, hsym 2 1, hsym 3 1, hsym 3 2]
    ring
  set a := (1 / m 1) ^ 2 * cov 0 0 + 2 * (1 / m 1) * (-m 0 / m 1 ^ 2) * cov 0 1 +
        (-m 0 / m 1 ^ 2) ^ 2 * cov 1 1 with ha
  set b := (1 / m 3) ^ 2 * cov 2 2 + 2 * (1 / m 3) * (-m 2 / m 3 ^ 2) * cov 2 3 +
        (-m 2 / m 3 ^ 2) ^ 2 * cov 3 3 with hb
  set c := gradOf m 0 * gradOf m 2 * cov 0 2 + gradOf m 0 * gradOf m 3 * cov 0 3 +
        gradOf m 1 * gradOf m 2 * cov 1 2 + gradOf m 1 * gradOf m 3 * cov 1 3 with hc
  have hform : ∀ x y : ℝ, 0 ≤ x ^ 2 * a + 2 * x * y * c + y ^ 2 * b := by
    intro x y; rw [← key]; exact hpsd _
  have hab := sq_le_of_form hform
  have ha0 : 0 ≤ a := by have := hform 1 0; linarith
  have hb0 : 0 ≤ b := by have := hform 0 1; linarith
  have hv1 : (diffOfRatios m cov).var1 = fin a := by
    show (ratioMeanVar _ _ _ _ _).2 = _
    rw [ratioMeanVar_fin h0 h1]
  have hv2 : (diffOfRatios m cov).var2 = fin b := by
    show (ratioMeanVar _ _ _ _ _).2 = _
    rw [ratioMeanVar_fin h2 h3]
  have hd : form4 cov (gradOf m) = a + b - 2 * (-c) := by
    have := key 1 1
    rw [show (![1 * gradOf m 0, 1 * gradOf m 1, 1 * gradOf m 2, 1 * gradOf m 3] : Fin 4 → ℝ) = gradOf m by
      funext i; fin_cases i <;> simp] at this
    rw [this]; ring
  refine ⟨a, b, -c, hv1, hv2, ha0, hb0, by rw [neg_sq]; exact hab, hd, ?_, ?_, ?_⟩
  · show (ratioMeanVar (fin (m 0)) (fin (m 1)) (fin (cov 0 0)) (fin (cov 1 1)) (fin (cov 0 1))).1 = _
    rw [ratioMeanVar_fin h0 h1]
  · show (ratioMeanVar (fin (m 2)) (fin (m 3)) (fin (cov 2 2)) (fin (cov 3 3)) (fin (cov 2 3))).1 = _
    rw [ratioMeanVar_fin h2 h3]
  · show ((diffOfRatios m cov).var1 + (diffOfRatios m cov).var2 - (diffOfRatios m cov).differenceVar) /
      (fin 2 * ((diffOfRatios m cov).var1 * (diffOfRatios m cov).var2).sqrt) = _
    rw [hv1, hv2, diffOfRatios_var h1 h3, fin_mul, sqrt_fin (mul_nonneg ha0 hb0), hd]
    simp only [fin_mul, fin_add, fin_sub]
    congr 2
    ring

/-- The covariance matrix of the four ratio rows. -/
theorem ratio_cov {T : TrimmedArray ℝ 4} (hl : 1 < T.len) :
    (∀ i j : Fin 4, T.cov 1 i.succ j.succ = T.cov 1 j.succ i.succ) ∧
      ∀ a, 0 ≤ form4 (fun i j => T.cov 1 i.succ j.succ) a := by
  refine ⟨fun i j => (C21_cov_is_a_covariance 4 T 1 hl i.succ j.succ 0).1, ?_⟩
  intro a
  have h := (C21_cov_is_a_covariance 4 T 1 hl 0 0 (Fin.cons 0 a)).2.2.1
  rw [Fin.sum_univ_succ] at h
  simp only [Fin.cons_zero, zero_mul, Finset.sum_const_zero, zero_add, Fin.cons_succ] at h
  unfold form4
  refine le_of_le_of_eq h ?_
  apply Finset.sum_congr rfl
  intro x _
  rw [Fin.sum_univ_succ]
  simp

/-- Estimates of the paired test, ratio metric: if the reported standard error is finite, then either the
interval's standard error is nan or it is the reported one. -/
theorem pairedRatio_se {T : TrimmedArray ℝ 4} (hl : 1 < T.len) {s : ℝ}
    (hs : (pairedRatio T).differenceSE = fin s) :
    (pairedRatio T).df = fin ((T.len : ℝ) - 1) ∧
      ciSE (pairedRatio T).se1 (pairedRatio T).se2 (pairedRatio T).corr = nan ∨
    ((pairedRatio T).df = fin ((T.len : ℝ) - 1) ∧
      ciSE (pairedRatio T).se1 (pairedRatio T).se2 (pairedRatio T).corr = fin s ∧
      ∃ x y : ℝ, (pairedRatio T).mean1 = fin x ∧ (pairedRatio T).mean2 = fin y) := by
  have hdf : (pairedRatio T).df = fin ((T.len : ℝ) - 1) := by simp [pairedRatio, oneSampleDf]
  have hn : (0 : ℝ) < T.len := by exact_mod_cast (by omega : 0 < T.len)
  have hsn : 0 < Real.sqrt T.len := Real.sqrt_pos.mpr hn
  obtain ⟨hsym, hpsd⟩ := ratio_cov hl
  set m : Fin 4 → ℝ := fun i => T.mean i.succ with hm
  set C : Fin 4 → Fin 4 → ℝ := fun i j => T.cov 1 i.succ j.succ with hC
  have hs' : (diffOfRatios m C).differenceVar.sqrt / fin (Real.sqrt T.len) = fin s := by
    rw [← sqrt_fin hn.le]; exact hs
  obtain ⟨s', hs1, hs2⟩ := div_fin_eq_fin hsn hs'
  obtain ⟨v, hv, hv0, hv1⟩ := sqrt_eq_fin hs1
  obtain ⟨h1, h3⟩ := diffOfRatios_den hv
  have hse1 : (pairedRatio T).se1 = (diffOfRatios m C).var1.sqrt / (fin (T.len : ℝ)).sqrt := rfl
  have hse2 : (pairedRatio T).se2 = (diffOfRatios m C).var2.sqrt / (fin (T.len : ℝ)).sqrt := rfl
  have hcorr : (pairedRatio T).corr = (diffOfRatios m C).corr12 := rfl
  by_cases h0 : m 0 = 0
  · left
    have : (diffOfRatios m C).var1 = nan := by
      show (ratioMeanVar _ _ _ _ _).2 = _
      unfold ratioMeanVar
      simp only [h0, sq_fin, fin_div_ne h1, mul_zero, zero_div, zero_mul, fin_mul]
      rw [fin_div (2 * C 0 1), if_pos rfl, fin_div (C 0 0), if_pos rfl]
      rw [fin_div_ne (mul_ne_zero h1 h1)]
      unfold infSign
      split_ifs <;> first | rfl | (show infSign _ = _; simp [infSign])
    refine ⟨hdf, ?_⟩
    rw [hse1, this]
    rw [show (nan : Fl ℝ).sqrt = nan from rfl, nan_div, ciSE_nan_left]
  by_cases h2 : m 2 = 0
  · left
    have : (diffOfRatios m C).var2 = nan := by
      show (ratioMeanVar _ _ _ _ _).2 = _
      unfold ratioMeanVar
      simp only [h2, sq_fin, fin_div_ne h3, mul_zero, zero_div, zero_mul, fin_mul]
      rw [fin_div (2 * C 2 3), if_pos rfl, fin_div (C 2 2), if_pos rfl]
      rw [fin_div_ne (mul_ne_zero h3 h3)]
      unfold infSign
      split_ifs <;> first | rfl | (show infSign _ = _; simp [infSign])
    refine ⟨hdf, ?_⟩
    rw [hse2, this]
    rw [show (nan : Fl ℝ).sqrt = nan from rfl, nan_div, ciSE_nan_right]
  obtain ⟨a, b, c, e1, e2, ha, hb, hab, hd, em1, em2, ec⟩ := diffOfRatios_parts h0 h1 h2 h3 hsym hpsd
  have hvd : v = a + b - 2 * c := by
    have := diffOfRatios_var (cov := C) h1 h3
    rw [hv, hd] at this
    cases this; rfl
  by_cases hp : a * b = 0
  · left
    refine ⟨hdf, ?_⟩
    have hc0 : c = 0 := by
      rw [hp] at hab
      exact pow_eq_zero_iff two_ne_zero |>.mp (le_antisymm hab (sq_nonneg _))
    rw [hcorr, ec, hp, hc0, Real.sqrt_zero, mul_zero, fin_div, if_pos rfl]
    simp only [infSign, lt_self_iff_false, if_false]
    exact ciSE_nan_corr _ _
  · right
    refine ⟨hdf, ?_, m 0 / m 1, m 2 / m 3, em1, em2⟩
    have hpp : 0 < a * b := lt_of_le_of_ne (mul_nonneg ha hb) (Ne.symm hp)
    have hsq := Real.sqrt_pos.mpr hpp
    rw [hse1, hse2, hcorr, e1, e2, ec, sqrt_fin ha, sqrt_fin hb, sqrt_fin hn.le, fin_div_ne hsn.ne',
      fin_div_ne hsn.ne', fin_div_ne (by positivity)]
    unfold ciSE
    simp only [sq_fin, fin_mul, fin_add, fin_sub]
    have e : Real.sqrt a / Real.sqrt T.len * (Real.sqrt a / Real.sqrt T.len) +
        Real.sqrt b / Real.sqrt T.len * (Real.sqrt b / Real.sqrt T.len) -
        2 * (Real.sqrt a / Real.sqrt T.len * (Real.sqrt b / Real.sqrt T.len) *
          (2 * c / (2 * Real.sqrt (a * b)))) = v / T.len := by
      rw [Real.sqrt_mul ha, hvd]
      have a1 := Real.mul_self_sqrt ha
      have a2 := Real.mul_self_sqrt hb
      have a3 := Real.mul_self_sqrt hn.le
      have b1 : Real.sqrt a ≠ 0 := by
        intro h'; rw [h'] at a1; rw [← a1] at hpp; simp at hpp
      have b2 : Real.sqrt b ≠ 0 := by
        intro h'; rw [h'] at a2; rw [← a2] at hpp; simp at hpp
      set x := Real.sqrt a
      set y := Real.sqrt b
      set z := Real.sqrt (T.len : ℝ)
      rw [← a1, ← a2, ← a3]
      field_simp
    rw [e, sqrt_fin (div_nonneg hv0 hn.le), Real.sqrt_div hv0, hs2, hv1]

end Feedx
