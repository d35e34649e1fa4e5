import Verif.Proofs.Fieller
import Verif.Props.TTestSymmetry

/-!
Properties C31, C32 and C33: confidence intervals of relative differences.
-/

set_option linter.unusedSectionVars false
set_option linter.unusedSimpArgs false

namespace Feedx

open Fl

/-! ### C31 -/

/-- **C31, lower limit.** The lower bound of a relative interval is at least -100% whenever it is a number, for all inputs
whatsoever (including infinite and nan ones). -/
theorem C31_never_below_minus_100_percent (D : TDist) (mean1 mean2 se1 se2 corr df : Fl ℝ) (alternative : String)
    (alpha : ℝ) (lower upper : Fl ℝ)
    (h : relativeCI D mean1 mean2 se1 se2 corr df alternative alpha = .ok (lower, upper)) :
    lower = nan ∨ Fl.le (fin (-1)) lower = true := by
  have key : ∀ t, (ratioBounds mean1 mean2 se1 se2 corr t).1 - fin 1 = nan ∨
      Fl.le (fin (-1)) ((ratioBounds mean1 mean2 se1 se2 corr t).1 - fin 1) = true := by
    intro t
    rcases ratioBounds_cases mean1 mean2 se1 se2 corr t with h | ⟨h, -⟩
    · right; rw [h]; simp
    · rw [h]
      generalize (_ / _ : Fl ℝ) = x
      cases x
      · left; rfl
      · right; simp [clip0]
      · right; simp [clip0]
      · right; simp [clip0]
  unfold relativeCI at h
  obtain ⟨-, h⟩ := raiseIf_bind_ok.mp h
  obtain ⟨t, -, h⟩ := Py.bind_eq_ok.mp h
  dsimp only at h
  split_ifs at h
  · cases h; exact key t
  · cases h; right; simp
  · cases h; exact key t

/-- The estimate lies in the interval when the control mean is significantly away from zero. -/
theorem contains_sig (D : TDist) {m1 m2 s1 s2 rho df α : ℝ} {alt : String} (hk : KnownAlt alt)
    (hm1 : 0 ≤ m1) (hm2 : 0 ≤ m2) (hr : |rho| ≤ 1) (hdf : 0 < df) (h0 : 0 < α) (h1 : α < 1)
    (hs : (Spec.critical (D.ppf df) alt α * s2) ^ 2 < m2 ^ 2) :
    ∃ lower upper, relativeCI D (fin m1) (fin m2) (fin s1) (fin s2) (fin rho) (fin df) alt α =
      .ok (lower, upper) ∧ Spec.Contains lower upper (m1 / m2 - 1) := by
  set t := Spec.critical (D.ppf df) alt α with htdef
  have hs' : |t| * |t| * (s2 * s2) < m2 * m2 := by rw [abs_mul_abs_self]; nlinarith
  have hs'' : t * t * (s2 * s2) < m2 * m2 := by nlinarith
  obtain ⟨-, -, -, c1, c2⟩ := fieller_core (m1 := m1) (s1 := s1) (abs_nonneg t) hm2 hr hs' 0
  rw [abs_mul_abs_self] at c1 c2
  refine ⟨_, _, relativeCI_known hk hm1 hm2, ?_⟩
  rw [crit_eq D hdf h0 h1, ← htdef, ratioBounds_sig hr hs'']
  have hq : 0 ≤ m1 / m2 := div_nonneg hm1 hm2
  rcases hk with h | h | h <;> subst h <;>
    simp only [String.reduceEq, if_false, if_true, Spec.Contains, fin_sub, le_fin, le_fin_pinf, decide_eq_true_eq]
  · exact ⟨by linarith [max_le hq c1], by linarith⟩
  · exact ⟨by linarith [max_le hq c1], trivial⟩
  · exact ⟨by linarith, by linarith⟩

/-- **C31 (part): the interval contains the estimate.** For means that are not negative, correlation between -1 and 1 and
a positive control mean: if the control mean is significantly away from zero, or its variance exceeds the
tolerance `1e-8` and the samples are not too strongly correlated (in particular if they are independent), then the relative
difference lies between the two bounds, unless the lower bound is nan.  Missing: strongly correlated samples with an uncertain control mean, and
variances below the tolerance, where the claim is false (`C31_contains_estimate_false`, `C33_false`). -/
theorem C31_contains_estimate_partial (D : TDist) (m1 m2 s1 s2 rho df : ℝ) (alternative : String) (alpha : ℝ)
    (hk : alternative = "two-sided" ∨ alternative = "greater" ∨ alternative = "less")
    (hm1 : 0 ≤ m1) (hm2 : 0 < m2) (hr : |rho| ≤ 1) (hdf : 0 < df) (h0 : 0 < alpha) (h1 : alpha < 1)
    (hs : (Spec.critical (D.ppf df) alternative alpha * s2) ^ 2 < m2 ^ 2 ∨
      1 / 10 ^ 8 < s2 ^ 2 ∧ m2 * (s1 * s2 * rho) ≤ m1 * s2 ^ 2) :
    ∃ lower upper, relativeCI D (fin m1) (fin m2) (fin s1) (fin s2) (fin rho) (fin df) alternative alpha =
      .ok (lower, upper) ∧ (lower ≠ nan → Spec.Contains lower upper (m1 / m2 - 1)) := by
  by_cases hsig : (Spec.critical (D.ppf df) alternative alpha * s2) ^ 2 < m2 ^ 2
  · obtain ⟨l, u, e, hc⟩ := contains_sig D (s1 := s1) hk hm1 hm2.le hr hdf h0 h1 hsig
    exact ⟨l, u, e, fun _ => hc⟩
  obtain ⟨hv2, h12⟩ := hs.resolve_left hsig
  set t := Spec.critical (D.ppf df) alternative alpha with htdef
  refine ⟨_, _, relativeCI_known hk hm1 hm2.le, ?_⟩
  rw [crit_eq D hdf h0 h1, ← htdef]
  have p2 : 0 < s2 * s2 := by nlinarith [show (0 : ℝ) < 1 / 10 ^ 8 by norm_num]
  have hq : 0 ≤ m1 / m2 := div_nonneg hm1 hm2.le
  have ha2 : m2 * m2 - t * t * (s2 * s2) ≤ 0 := by nlinarith
  -- the upper bound of the ratio is infinite
  have hup : (ratioBounds (fin m1) (fin m2) (fin s1) (fin s2) (fin rho) (fin t)).2 = pinf := by
    have hexcl : Fl.le (if (fin s2).sq.closeToZero then pinf else (fin m2).sq / (fin s2).sq) (fin t).sq = true := by
      have hcl : (fin s2).sq.closeToZero = false := by
        rw [sq_fin, closeToZero_fin, decide_eq_false_iff_not, not_le, abs_of_pos p2]; nlinarith
      rw [hcl]
      simp only [Bool.false_eq_true, if_false, sq_fin]
      rw [fin_div_ne p2.ne', le_fin, decide_eq_true_eq, div_le_iff₀ p2]
      linarith
    rcases ratioBounds_cases (fin m1) (fin m2) (fin s1) (fin s2) (fin rho) (fin t) with h | ⟨-, h⟩
    · rw [h]
    · rw [h, hexcl, if_pos rfl]
  have hlow : (ratioBounds (fin m1) (fin m2) (fin s1) (fin s2) (fin rho) (fin t)).1 = nan ∨
      Fl.le (ratioBounds (fin m1) (fin m2) (fin s1) (fin s2) (fin rho) (fin t)).1 (fin (m1 / m2)) = true := by
    rcases ratioBounds_cases (fin m1) (fin m2) (fin s1) (fin s2) (fin rho) (fin t) with h | ⟨h, -⟩
    · right; rw [h]; simpa using hq
    · rw [h]
      simp only [sq_fin, fin_mul, fin_sub, fin_add]
      have hroot := larger_root_le (t := t) hm2 hr h12
      dsimp only at hroot
      generalize m1 * m2 - t * t * (s1 * s2 * rho) = a12 at hroot ⊢
      generalize m1 * m1 - t * t * (s1 * s1) = a1 at hroot ⊢
      generalize m2 * m2 - t * t * (s2 * s2) = a2 at ha2 hroot ⊢
      by_cases hD : a12 * a12 - a1 * a2 < 0
      · left
        have : (fin (a12 * a12 - a1 * a2) : Fl ℝ).sqrt = nan := by simp [Fl.sqrt, hD]
        rw [this]; rfl
      · rw [not_lt] at hD
        rw [sqrt_fin hD, fin_sub, fin_div]
        split_ifs with hz
        · have : a12 - Real.sqrt (a12 * a12 - a1 * a2) ≤ 0 := by
            rw [hz, mul_zero, sub_zero, Real.sqrt_mul_self_eq_abs]
            linarith [le_abs_self a12]
          unfold infSign
          rw [if_neg this.not_gt]
          split_ifs
          · right; simpa [clip0] using hq
          · left; rfl
        · right
          rw [clip0_fin, le_fin, decide_eq_true_eq]
          exact max_le hq (hroot (lt_of_le_of_ne ha2 hz))
  have hfin : ∀ b : Fl ℝ, (b = nan ∨ Fl.le b (fin (m1 / m2)) = true) → b - fin 1 ≠ nan →
      Fl.le (b - fin 1) (fin (m1 / m2 - 1)) = true := by
    intro b hb hn
    cases b with
    | nan => exact absurd rfl hn
    | ninf => rfl
    | pinf => rcases hb with hb | hb <;> cases hb
    | fin x =>
      rcases hb with hb | hb
      · cases hb
      · simp only [le_fin, decide_eq_true_eq, fin_sub] at hb ⊢; linarith
  rcases hk with h | h | h <;> subst h <;>
    simp only [String.reduceEq, if_false, if_true, Spec.Contains, hup, pinf_sub_fin, le_fin_pinf]
  · exact fun hn => ⟨hfin _ hlow hn, trivial⟩
  · exact fun hn => ⟨hfin _ hlow hn, trivial⟩
  · exact fun _ => ⟨by simpa using hq, trivial⟩

/-- A level at which the two-sided critical value is a given positive number. -/
theorem exists_level (D : TDist) {df t : ℝ} (hdf : 0 < df) (ht : 0 < t) :
    ∃ alpha, 0 < alpha ∧ alpha < 1 ∧ D.ppf df (1 - alpha / 2) = t := by
  have h1 := D.lt_one hdf t
  have h2 : 1 / 2 < D.cdf df t := by rw [← D.cdf_zero hdf]; exact D.strictMono df hdf ht
  refine ⟨2 * (1 - D.cdf df t), by linarith, by linarith, ?_⟩
  have : 1 - 2 * (1 - D.cdf df t) / 2 = D.cdf df t := by ring
  rw [this]
  apply (D.strictMono df hdf).injective
  rw [D.cdf_ppf df hdf _ (by linarith) h1]

/-- **C31: the code violates it.** For means 1 and 2 with standard errors 1 and correlation 0.9 the relative difference is
-50%, but at the level with critical value √6 the interval is `[l, inf)` with `l > 1`. -/
theorem C31_contains_estimate_false (D : TDist) (df : ℝ) (hdf : 0 < df) :
    ∃ alpha, 0 < alpha ∧ alpha < 1 ∧ ∃ l : ℝ, 1 < l ∧
      relativeCI D (fin 1) (fin 2) (fin 1) (fin 1) (fin (9 / 10)) (fin df) "two-sided" alpha =
        .ok (fin l, pinf) ∧
      ¬ Spec.Contains (fin l) pinf (1 / 2 - 1) := by
  obtain ⟨α, h0, h1, hα⟩ := exists_level D hdf (t := Real.sqrt 6) (by positivity)
  have h6 : Real.sqrt 6 * Real.sqrt 6 = 6 := Real.mul_self_sqrt (by norm_num)
  have hD : (0 : ℝ) ≤ 39 / 25 := by norm_num
  have hroot : (1 : ℝ) ≤ Real.sqrt (39 / 25) := by
    rw [← Real.sqrt_one]; exact Real.sqrt_le_sqrt (by norm_num)
  refine ⟨α, h0, h1, (17 / 5 + Real.sqrt (39 / 25)) / 2 - 1, by linarith, ?_, ?_⟩
  · have e1 : ((1 : ℝ) * 2 - 6 * (1 * 1 * (9 / 10))) * (1 * 2 - 6 * (1 * 1 * (9 / 10))) -
        (1 * 1 - 6 * (1 * 1)) * (2 * 2 - 6 * (1 * 1)) = 39 / 25 := by norm_num
    rw [show (fin 1 : Fl ℝ) = fin 1 from rfl, relativeCI_known (Or.inl rfl) (by norm_num) (by norm_num)]
    simp only [if_true, String.reduceEq, if_false]
    rw [D.ppfFl_fin hdf (by linarith) (by linarith), hα]
    have hb : ratioBounds (fin 1) (fin 2) (fin 1) (fin 1) (fin (9 / 10)) (fin (Real.sqrt 6)) =
        (fin ((17 / 5 + Real.sqrt (39 / 25)) / 2), pinf) := by
      have hcl : (fin (1 * 1) : Fl ℝ).closeToZero = false := by
        rw [closeToZero_fin, decide_eq_false_iff_not]; norm_num
      have a12 : ((1 : ℝ) * 2 - 6 * (1 * 1 * (9 / 10))) = -(17 / 5) := by norm_num
      have a2 : ((2 : ℝ) * 2 - 6 * (1 * 1)) = -2 := by norm_num
      have hc : Fl.le (fin (140 / 19)) (fin 6 : Fl ℝ) = false := by
        rw [le_fin, decide_eq_false_iff_not]; norm_num
      have he : Fl.le (fin 4) (fin 6 : Fl ℝ) = true := by rw [le_fin, decide_eq_true_eq]; norm_num
      have hn : (fin (1 * 1 * (1 * 1) - 2 * 2 * 1 * (1 * 1 * (9 / 10)) + 2 * 2 * (1 * 1)) /
          fin (1 * 1 * (1 * 1) - 1 * 1 * (9 / 10) * (1 * 1 * (9 / 10))) : Fl ℝ) = fin (140 / 19) := by
        rw [fin_div_ne (by norm_num)]; norm_num
      have hx : (fin (2 * 2) / fin (1 * 1) : Fl ℝ) = fin 4 := by rw [fin_div_ne (by norm_num)]; norm_num
      have hlo : max 0 ((-(17 / 5) - Real.sqrt (39 / 25)) / -2) = (17 / 5 + Real.sqrt (39 / 25)) / 2 := by
        rw [show (-(17 / 5) - Real.sqrt (39 / 25)) / -2 = (17 / 5 + Real.sqrt (39 / 25)) / 2 by ring]
        exact max_eq_right (by positivity)
      unfold ratioBounds
      dsimp only
      simp only [sq_fin, fin_mul, fin_sub, fin_add, h6, e1, hcl, Bool.or_self, Bool.false_eq_true, if_false, hn, hc,
        hx, he, if_true]
      rw [sqrt_fin hD, a12, a2, fin_sub, fin_div_ne (by norm_num), clip0_fin, hlo]
    rw [hb]
    simp
  · unfold Spec.Contains
    rw [le_fin, decide_eq_true_eq]
    intro h
    linarith [h.1]

/-! ### C32 -/

/-- **C32.** When the control mean is significantly away from zero (more than the critical value times its standard
error), the relative interval is, within the possible relative differences `x ≥ -1`, exactly the set of those `x` for which
`mean1 = (1 + x) * mean2` is not rejected.  For the one-sided alternatives the level must not exceed 1/2. -/
theorem C32_relative_interval_is_fieller_set (D : TDist) (m1 m2 s1 s2 rho df : ℝ) (alternative : String) (alpha : ℝ)
    (hk : alternative = "two-sided" ∨ alternative = "greater" ∨ alternative = "less")
    (hm1 : 0 ≤ m1) (hm2 : 0 ≤ m2) (hr : |rho| ≤ 1) (hdf : 0 < df) (h0 : 0 < alpha) (h1 : alpha < 1)
    (hone : alternative ≠ "two-sided" → alpha ≤ 1 / 2)
    (hs : (Spec.critical (D.ppf df) alternative alpha * s2) ^ 2 < m2 ^ 2) :
    ∃ lower upper, relativeCI D (fin m1) (fin m2) (fin s1) (fin s2) (fin rho) (fin df) alternative alpha =
      .ok (lower, upper) ∧
      ∀ x, -1 ≤ x → (Spec.Contains lower upper x ↔
        Spec.NotRejected alternative (Spec.critical (D.ppf df) alternative alpha) m1 m2 s1 s2 rho (1 + x)) := by
  have ht := crit_nonneg D hdf h0 h1 hone
  set t := Spec.critical (D.ppf df) alternative alpha with htdef
  have hs' : t * t * (s2 * s2) < m2 * m2 := by nlinarith
  refine ⟨_, _, relativeCI_known hk hm1 hm2, ?_⟩
  intro x hx
  rw [crit_eq D hdf h0 h1, ← htdef, ratioBounds_sig hr hs']
  obtain ⟨c1, c2, c3, -, -⟩ := fieller_core (m1 := m1) (s1 := s1) ht hm2 hr hs' (1 + x)
  rcases hk with h | h | h <;> subst h <;>
    simp only [String.reduceEq, if_false, if_true, Spec.Contains, Spec.NotRejected, fin_sub, le_fin, le_fin_pinf,
      decide_eq_true_eq, and_true]
  · rw [← c1]
    constructor
    · rintro ⟨k1, k2⟩
      have := (max_le_iff.mp (sub_le_iff_le_add.mp k1)).2
      exact ⟨by linarith, by linarith⟩
    · rintro ⟨k1, k2⟩
      exact ⟨by linarith [max_le (by linarith : (0 : ℝ) ≤ 1 + x) k1], by linarith⟩
  · rw [← c2]
    constructor
    · intro k1
      have := (max_le_iff.mp (sub_le_iff_le_add.mp k1)).2
      linarith
    · intro k1
      linarith [max_le (by linarith : (0 : ℝ) ≤ 1 + x) k1]
  · rw [← c3]
    constructor
    · rintro ⟨-, k2⟩; linarith
    · intro k2; exact ⟨hx, by linarith⟩

/-- `Spec.NotRejected` is what the t-test says. -/
theorem notRejected_iff (D : TDist) {m1 m2 s1 s2 rho df α : ℝ} {alt : String} (hk : KnownAlt alt)
    (hdf : 0 < df) (h0 : 0 < α) (h1 : α < 1) {ratio : ℝ} (hV : 0 < Spec.combinedVar s1 s2 rho ratio)
    {statistic p : Fl ℝ}
    (hp : ttestFromStats D (fin (m1 - ratio * m2)) (fin (Real.sqrt (Spec.combinedVar s1 s2 rho ratio))) (fin df) alt
      = .ok (statistic, p)) :
    Spec.NotRejected alt (Spec.critical (D.ppf df) alt α) m1 m2 s1 s2 rho ratio ↔ Fl.lt p (fin α) = false := by
  have hsd : 0 < Real.sqrt (Spec.combinedVar s1 s2 rho ratio) := Real.sqrt_pos.mpr hV
  rw [ttestFromStats_known hk] at hp
  have hp' : p = pOf D (fin df) (fin (m1 - ratio * m2) / fin (Real.sqrt (Spec.combinedVar s1 s2 rho ratio))) alt := by
    cases hp; rfl
  have := sig_iff_excludes D (d := m1 - ratio * m2) hsd hdf h0 h1 hk
  rw [← hp'] at this
  rw [← Bool.not_eq_true, this]
  rcases hk with h | h | h <;> subst h <;>
    simp only [String.reduceEq, if_false, if_true, Spec.NotRejected, Spec.ExcludesZero, boundsOf, Spec.critical]
  · rw [D.ppfFl_fin hdf (by linarith) (by linarith)]
    simp only [fin_mul, fin_sub, fin_add, lt_fin, decide_eq_true_eq, not_or, not_lt, abs_le]
    constructor
    · rintro ⟨k1, k2⟩; exact ⟨by linarith, by linarith⟩
    · rintro ⟨k1, k2⟩; exact ⟨by linarith, by linarith⟩
  · rw [D.ppfFl_fin hdf (by linarith) (by linarith)]
    simp only [fin_mul, fin_sub, fin_add, lt_fin, lt_pinf_fin, decide_eq_true_eq, not_or, not_lt, or_false,
      Bool.false_eq_true]
    constructor <;> intro k <;> linarith
  · rw [D.ppfFl_fin hdf (by linarith) (by linarith)]
    simp only [fin_mul, fin_sub, fin_add, lt_fin, lt_fin_ninf, decide_eq_true_eq, not_or, not_lt, false_or,
      Bool.false_eq_true]
    constructor <;> intro k <;> linarith

/-- **C32, in terms of the t-test.** A relative difference `x ≥ -1` lies in the interval exactly when the t-test of
`mean1 - (1 + x) * mean2` is not significant; in particular zero lies outside it exactly when the absolute
difference is significant. -/
theorem C32_agrees_with_t_test (D : TDist) (m1 m2 s1 s2 rho df : ℝ) (alternative : String) (alpha : ℝ)
    (hk : alternative = "two-sided" ∨ alternative = "greater" ∨ alternative = "less")
    (hm1 : 0 ≤ m1) (hm2 : 0 ≤ m2) (hr : |rho| ≤ 1) (hdf : 0 < df) (h0 : 0 < alpha) (h1 : alpha < 1)
    (hone : alternative ≠ "two-sided" → alpha ≤ 1 / 2)
    (hs : (Spec.critical (D.ppf df) alternative alpha * s2) ^ 2 < m2 ^ 2) (lower upper : Fl ℝ)
    (h : relativeCI D (fin m1) (fin m2) (fin s1) (fin s2) (fin rho) (fin df) alternative alpha =
      .ok (lower, upper)) :
    (∀ x, -1 ≤ x → 0 < Spec.combinedVar s1 s2 rho (1 + x) → ∀ statistic p,
      ttestFromStats D (fin (m1 - (1 + x) * m2)) (fin (Real.sqrt (Spec.combinedVar s1 s2 rho (1 + x)))) (fin df)
        alternative = .ok (statistic, p) →
      (Spec.Contains lower upper x ↔ Fl.lt p (fin alpha) = false)) ∧
    (0 < s1 ^ 2 + s2 ^ 2 - 2 * (s1 * s2 * rho) → ∀ statistic p,
      ttestFromStats D (fin (m1 - m2)) (fin (Real.sqrt (s1 ^ 2 + s2 ^ 2 - 2 * (s1 * s2 * rho)))) (fin df)
        alternative = .ok (statistic, p) →
      (Spec.ExcludesZero lower upper ↔ Fl.lt p (fin alpha) = true)) := by
  obtain ⟨l, u, e, hset⟩ := C32_relative_interval_is_fieller_set D m1 m2 s1 s2 rho df alternative alpha hk hm1 hm2
    hr hdf h0 h1 hone hs
  rw [e] at h
  have hlu : l = lower ∧ u = upper := by cases h; exact ⟨rfl, rfl⟩
  rw [hlu.1, hlu.2] at hset e
  have hall : ∀ x, -1 ≤ x → 0 < Spec.combinedVar s1 s2 rho (1 + x) → ∀ statistic p,
      ttestFromStats D (fin (m1 - (1 + x) * m2)) (fin (Real.sqrt (Spec.combinedVar s1 s2 rho (1 + x)))) (fin df)
        alternative = .ok (statistic, p) →
      (Spec.Contains lower upper x ↔ Fl.lt p (fin alpha) = false) := by
    intro x hx hV statistic p hp
    rw [hset x hx, notRejected_iff D hk hdf h0 h1 hV hp]
  refine ⟨hall, ?_⟩
  intro hV statistic p hp
  have hV' : Spec.combinedVar s1 s2 rho (1 + 0) = s1 ^ 2 + s2 ^ 2 - 2 * (s1 * s2 * rho) := by
    unfold Spec.combinedVar; ring
  have h00 := hall 0 (by norm_num) (by rw [hV']; exact hV) statistic p (by
    rw [hV', show m1 - (1 + 0) * m2 = m1 - m2 by ring]; exact hp)
  rw [← not_iff_not, Bool.not_eq_true, ← h00]
  obtain ⟨l', u', e', hc⟩ := contains_sig D (s1 := s1) hk hm1 hm2 hr hdf h0 h1 hs
  rw [e'] at e
  have hlu' : l' = lower ∧ u' = upper := by cases e; exact ⟨rfl, rfl⟩
  rw [hlu'.1, hlu'.2] at hc
  unfold Spec.ExcludesZero Spec.Contains
  unfold Spec.Contains at hc
  cases lower <;> cases upper <;> simp_all [Fl.le, Fl.lt]

/-! ### C33 -/

/-- The ratio bounds do not depend on the units as long as the tolerance does not matter. -/
theorem ratioBounds_scale {m1 m2 s1 s2 rho t k : ℝ} (hk : 0 < k)
    (c1 : (fin (k * s1)).sq.closeToZero = (fin s1).sq.closeToZero)
    (c2 : (fin (k * s2)).sq.closeToZero = (fin s2).sq.closeToZero) :
    ratioBounds (fin (k * m1)) (fin (k * m2)) (fin (k * s1)) (fin (k * s2)) (fin rho) (fin t) =
      ratioBounds (fin m1) (fin m2) (fin s1) (fin s2) (fin rho) (fin t) := by
  have hk2 : 0 < k ^ 2 := by positivity
  have hk4 : 0 < k ^ 4 := by positivity
  have e1 : (fin (k * m2)).sq / (fin (k * s2)).sq = (fin m2).sq / (fin s2).sq := by
    simp only [sq_fin]
    rw [show k * m2 * (k * m2) = k ^ 2 * (m2 * m2) by ring, show k * s2 * (k * s2) = k ^ 2 * (s2 * s2) by ring,
      fin_div_scale hk2]
  have e2 : ((fin (k * m1)).sq * (fin (k * s2)).sq - fin 2 * fin (k * m2) * fin (k * m1) *
        (fin (k * s1) * fin (k * s2) * fin rho) + (fin (k * m2)).sq * (fin (k * s1)).sq) /
        ((fin (k * s1)).sq * (fin (k * s2)).sq - (fin (k * s1) * fin (k * s2) * fin rho).sq) =
      ((fin m1).sq * (fin s2).sq - fin 2 * fin m2 * fin m1 * (fin s1 * fin s2 * fin rho) +
        (fin m2).sq * (fin s1).sq) / ((fin s1).sq * (fin s2).sq - (fin s1 * fin s2 * fin rho).sq) := by
    simp only [sq_fin, fin_mul, fin_sub, fin_add]
    refine Eq.trans ?_ (fin_div_scale hk4)
    congr 2 <;> ring
  have e3 : fin (k * m1) * fin (k * m2) - (fin t).sq * (fin (k * s1) * fin (k * s2) * fin rho) =
      fin (k ^ 2 * (m1 * m2 - t * t * (s1 * s2 * rho))) := by
    simp only [sq_fin, fin_mul, fin_sub, fin_add]; congr 1; ring
  have e4 : ∀ m s : ℝ, (fin (k * m)).sq - (fin t).sq * (fin (k * s)).sq = fin (k ^ 2 * (m * m - t * t * (s * s))) := by
    intro m s
    simp only [sq_fin, fin_mul, fin_sub, fin_add]; congr 1; ring
  have f3 : fin m1 * fin m2 - (fin t).sq * (fin s1 * fin s2 * fin rho) = fin (m1 * m2 - t * t * (s1 * s2 * rho)) := by
    simp only [sq_fin, fin_mul, fin_sub, fin_add]
  have f4 : ∀ m s : ℝ, (fin m).sq - (fin t).sq * (fin s).sq = fin (m * m - t * t * (s * s)) := by
    intro m s
    simp only [sq_fin, fin_mul, fin_sub, fin_add]
  unfold ratioBounds
  dsimp only
  rw [e1, e2, c1, c2, e3, e4, e4, f3, f4, f4]
  generalize m1 * m2 - t * t * (s1 * s2 * rho) = a12
  generalize m1 * m1 - t * t * (s1 * s1) = a1
  generalize m2 * m2 - t * t * (s2 * s2) = a2
  have er : ((fin (k ^ 2 * a12)).sq - fin (k ^ 2 * a1) * fin (k ^ 2 * a2)).sqrt =
      fin (k ^ 2) * ((fin a12).sq - fin a1 * fin a2).sqrt := by
    simp only [sq_fin, fin_mul, fin_sub]
    rw [show k ^ 2 * a12 * (k ^ 2 * a12) - k ^ 2 * a1 * (k ^ 2 * a2) = (k ^ 2) ^ 2 * (a12 * a12 - a1 * a2) by ring]
    by_cases hD : a12 * a12 - a1 * a2 < 0
    · have : (k ^ 2) ^ 2 * (a12 * a12 - a1 * a2) < 0 := mul_neg_of_pos_of_neg (by positivity) hD
      simp [Fl.sqrt, hD, this]; rfl
    · rw [not_lt] at hD
      rw [sqrt_fin hD, sqrt_fin (mul_nonneg (by positivity) hD), fin_mul, Real.sqrt_mul (by positivity),
        Real.sqrt_sq hk2.le]
  rw [er]
  have hdiv : ∀ r : Fl ℝ, (r = nan ∨ ∃ x, r = fin x) →
      (fin (k ^ 2 * a12) - fin (k ^ 2) * r) / fin (k ^ 2 * a2) = (fin a12 - r) / fin a2 ∧
      (fin (k ^ 2 * a12) + fin (k ^ 2) * r) / fin (k ^ 2 * a2) = (fin a12 + r) / fin a2 := by
    rintro r (rfl | ⟨x, rfl⟩)
    · exact ⟨rfl, rfl⟩
    · simp only [fin_mul, fin_sub, fin_add]
      rw [← mul_sub, ← mul_add]
      exact ⟨fin_div_scale hk2, fin_div_scale hk2⟩
  have hr : ((fin a12).sq - fin a1 * fin a2).sqrt = nan ∨ ∃ x, ((fin a12).sq - fin a1 * fin a2).sqrt = fin x := by
    simp only [sq_fin, fin_mul, fin_sub, Fl.sqrt]
    split_ifs
    · left; rfl
    · right; exact ⟨_, rfl⟩
  rw [(hdiv _ hr).1, (hdiv _ hr).2]

/-- **C33 (part).** Multiplying both means and both standard errors by the same positive number leaves the relative
interval unchanged if the control mean is significantly away from zero, or if the change of units does not move a variance
across the tolerance `1e-8`.  Missing: changes of units that do (`C33_false`). -/
theorem C33_units_irrelevant_partial (D : TDist) (m1 m2 s1 s2 rho df k : ℝ) (alternative : String) (alpha : ℝ)
    (hk : 0 < k) (hm1 : 0 ≤ m1) (hm2 : 0 ≤ m2) (hr : |rho| ≤ 1) (hdf : 0 < df) (h0 : 0 < alpha) (h1 : alpha < 1)
    (hs : (Spec.critical (D.ppf df) alternative alpha * s2) ^ 2 < m2 ^ 2 ∨
      ((k * s1) ^ 2 ≤ 1 / 10 ^ 8 ↔ s1 ^ 2 ≤ 1 / 10 ^ 8) ∧ ((k * s2) ^ 2 ≤ 1 / 10 ^ 8 ↔ s2 ^ 2 ≤ 1 / 10 ^ 8)) :
    relativeCI D (fin (k * m1)) (fin (k * m2)) (fin (k * s1)) (fin (k * s2)) (fin rho) (fin df) alternative alpha =
      relativeCI D (fin m1) (fin m2) (fin s1) (fin s2) (fin rho) (fin df) alternative alpha := by
  by_cases hkn : KnownAlt alternative
  · rw [relativeCI_known hkn (mul_nonneg hk.le hm1) (mul_nonneg hk.le hm2), relativeCI_known hkn hm1 hm2,
      crit_eq D hdf h0 h1]
    have : ratioBounds (fin (k * m1)) (fin (k * m2)) (fin (k * s1)) (fin (k * s2)) (fin rho)
          (fin (Spec.critical (D.ppf df) alternative alpha)) =
        ratioBounds (fin m1) (fin m2) (fin s1) (fin s2) (fin rho)
          (fin (Spec.critical (D.ppf df) alternative alpha)) := by
      rcases hs with hs | ⟨c1, c2⟩
      · set t := Spec.critical (D.ppf df) alternative alpha
        have hk2 : 0 < k ^ 2 := by positivity
        have hs1 : t * t * (s2 * s2) < m2 * m2 := by nlinarith
        have hs2 : t * t * (k * s2 * (k * s2)) < k * m2 * (k * m2) := by
          have := mul_lt_mul_of_pos_left hs1 hk2
          nlinarith
        have ha2 : 0 < m2 * m2 - t * t * (s2 * s2) := by linarith
        rw [ratioBounds_sig hr hs1, ratioBounds_sig hr hs2]
        have d1 : k * m1 * (k * m2) - t * t * (k * s1 * (k * s2) * rho) =
            k ^ 2 * (m1 * m2 - t * t * (s1 * s2 * rho)) := by ring
        have d2 : ∀ m s : ℝ, k * m * (k * m) - t * t * (k * s * (k * s)) = k ^ 2 * (m * m - t * t * (s * s)) := by
          intro m s; ring
        simp only [d1, d2]
        generalize m1 * m2 - t * t * (s1 * s2 * rho) = a12
        generalize m1 * m1 - t * t * (s1 * s1) = a1
        generalize m2 * m2 - t * t * (s2 * s2) = a2
        have : k ^ 2 * a12 * (k ^ 2 * a12) - k ^ 2 * a1 * (k ^ 2 * a2) = (k ^ 2) ^ 2 * (a12 * a12 - a1 * a2) := by
          ring
        rw [this, Real.sqrt_mul (by positivity), Real.sqrt_sq hk2.le, ← mul_sub, ← mul_add,
          mul_div_mul_left _ _ hk2.ne', mul_div_mul_left _ _ hk2.ne']
      · refine ratioBounds_scale hk ?_ ?_
        · rw [sq_fin, sq_fin, closeToZero_fin, closeToZero_fin, abs_mul_self, abs_mul_self, decide_eq_decide,
            ← _root_.sq, ← _root_.sq]
          exact c1
        · rw [sq_fin, sq_fin, closeToZero_fin, closeToZero_fin, abs_mul_self, abs_mul_self, decide_eq_decide,
            ← _root_.sq, ← _root_.sq]
          exact c2
    rw [this]
  · have herr : ∀ a b : ℝ, 0 ≤ a → 0 ≤ b → ∀ x y z : Fl ℝ,
        relativeCI D (fin a) (fin b) x y z (fin df) alternative alpha = .error .valueError := by
      intro a b ha hb x y z
      obtain ⟨n1, n2, n3⟩ := not_known hkn
      unfold relativeCI criticalT
      have : ¬ (Fl.lt (fin a) (fin 0) = true ∨ Fl.lt (fin b) (fin 0) = true) := by
        simp only [lt_fin, decide_eq_true_eq, not_or, not_lt]; exact ⟨ha, hb⟩
      simp only [raiseIf, if_neg this, n1, n2, n3, if_false]
      rfl
    rw [herr _ _ (mul_nonneg hk.le hm1) (mul_nonneg hk.le hm2), herr _ _ hm1 hm2]

/-- **C33: the code violates it.** Means 10 and 1 with standard errors 1 (independent samples, critical value 2) give an
upper bound of infinity; the same data in units of 100000 give an upper bound below -100%, which is even below the
lower bound. -/
theorem C33_false (D : TDist) (df : ℝ) (hdf : 0 < df) :
    ∃ alpha, 0 < alpha ∧ alpha < 1 ∧ ∃ l l' u' : ℝ, u' < -1 ∧ u' < l' ∧
      relativeCI D (fin 10) (fin 1) (fin 1) (fin 1) (fin 0) (fin df) "two-sided" alpha = .ok (fin l, pinf) ∧
      relativeCI D (fin (1 / 10 ^ 5 * 10)) (fin (1 / 10 ^ 5 * 1)) (fin (1 / 10 ^ 5 * 1)) (fin (1 / 10 ^ 5 * 1))
        (fin 0) (fin df) "two-sided" alpha = .ok (fin l', fin u') := by
  obtain ⟨α, h0, h1, hα⟩ := exists_level D hdf (t := 2) (by norm_num)
  have h388 : (0 : ℝ) ≤ 388 := by norm_num
  have hb1 : ratioBounds (fin 10) (fin 1) (fin 1) (fin 1) (fin 0) (fin 2) =
      (fin (max 0 ((10 - Real.sqrt 388) / (-3))), pinf) := by
    unfold ratioBounds
    simp only [sq_fin, fin_mul, fin_sub, fin_add, closeToZero_fin]
    norm_num
    rw [fin_div_ne (by norm_num), fin_div_ne (by norm_num), fin_div_ne (by norm_num)]
    norm_num
  have hb2 : ∃ l u : ℝ, u < 0 ∧ u < l ∧ ratioBounds (fin (1 / 10 ^ 5 * 10)) (fin (1 / 10 ^ 5 * 1))
      (fin (1 / 10 ^ 5 * 1)) (fin (1 / 10 ^ 5 * 1)) (fin 0) (fin 2) = (fin l, fin u) := by
    have hD : (0 : ℝ) ≤ 388 / 10 ^ 20 := by norm_num
    refine ⟨max 0 ((1 / 10 ^ 9 - Real.sqrt (388 / 10 ^ 20)) / (-3 / 10 ^ 10)),
      (1 / 10 ^ 9 + Real.sqrt (388 / 10 ^ 20)) / (-3 / 10 ^ 10), ?_, ?_, ?_⟩
    · apply div_neg_of_pos_of_neg
      · positivity
      · norm_num
    · refine lt_of_lt_of_le ?_ (le_max_left _ _)
      apply div_neg_of_pos_of_neg
      · positivity
      · norm_num
    · have e2 : (1 / 10 ^ 5 * 1 * (1 / 10 ^ 5 * 1) : ℝ) = 1 / 10 ^ 10 := by norm_num
      have e1 : (1 / 10 ^ 5 * 10 * (1 / 10 ^ 5 * 10) : ℝ) = 1 / 10 ^ 8 := by norm_num
      have e3 : (1 / 10 ^ 5 * 10 * (1 / 10 ^ 5 * 1) : ℝ) = 1 / 10 ^ 9 := by norm_num
      have hcl : (fin (1 / 10 ^ 10) : Fl ℝ).closeToZero = true := by
        rw [closeToZero_fin, decide_eq_true_eq, abs_of_pos (by norm_num)]; norm_num
      have a12 : (1 / 10 ^ 9 - 2 * 2 * (1 / 10 ^ 10 * 0) : ℝ) = 1 / 10 ^ 9 := by norm_num
      have a2 : (1 / 10 ^ 10 - 2 * 2 * (1 / 10 ^ 10) : ℝ) = -3 / 10 ^ 10 := by norm_num
      have aD : (1 / 10 ^ 9 * (1 / 10 ^ 9) - (1 / 10 ^ 8 - 2 * 2 * (1 / 10 ^ 10)) * (-3 / 10 ^ 10) : ℝ) =
          388 / 10 ^ 20 := by norm_num
      have hle : ∀ x : ℝ, Fl.le (pinf : Fl ℝ) (fin x) = false := fun _ => rfl
      unfold ratioBounds
      dsimp only
      simp only [sq_fin, fin_mul, fin_sub, fin_add, e1, e2, e3, hcl, Bool.or_self, if_true, hle, Bool.false_eq_true,
        if_false, a12, a2, aD]
      rw [sqrt_fin hD, fin_sub, fin_add, fin_div_ne (by norm_num), fin_div_ne (by norm_num), clip0_fin]
  obtain ⟨l, u, hu, hlu, hb2⟩ := hb2
  refine ⟨α, h0, h1, max 0 ((10 - Real.sqrt 388) / (-3)) - 1, l - 1, u - 1, by linarith, by linarith, ?_, ?_⟩
  · rw [relativeCI_known (Or.inl rfl) (by norm_num) (by norm_num)]
    simp only [if_true, String.reduceEq, if_false]
    rw [D.ppfFl_fin hdf (by linarith) (by linarith), hα, hb1]
    simp
  · rw [relativeCI_known (Or.inl rfl) (by norm_num) (by norm_num)]
    simp only [if_true, String.reduceEq, if_false]
    rw [D.ppfFl_fin hdf (by linarith) (by linarith), hα, hb2]
    simp

/-- Hypotheses of C31–C33 on a concrete case: mean 12 against mean 10 with standard errors 1 and 2 and correlation 1/2, at
the level with critical value 2. -/
example (D : TDist) : ∃ alpha, 0 < alpha ∧ alpha < 1 ∧ (Spec.critical (D.ppf 20) "two-sided" alpha * 2) ^ 2 < 10 ^ 2 ∧
    |(1 / 2 : ℝ)| ≤ 1 ∧ 0 < Spec.combinedVar 1 2 (1 / 2) (1 + 0) := by
  obtain ⟨α, h0, h1, hα⟩ := exists_level D (df := 20) (t := 2) (by norm_num) (by norm_num)
  refine ⟨α, h0, h1, ?_, by norm_num, by norm_num [Spec.combinedVar]⟩
  simp only [Spec.critical, if_true, hα]
  norm_num

end Feedx
