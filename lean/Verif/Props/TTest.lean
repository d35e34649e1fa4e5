import Verif.Proofs.TTestSE

/-!
Properties C25, C27, C35-C37: p-values, absolute intervals, minimum detectable effects, degrees of
freedom and ratio variances.
-/

set_option linter.unusedSectionVars false
set_option linter.unusedSimpArgs false

namespace Feedx

open Fl

/-! ### C25 -/

/-- **C25.** For every estimate, positive standard error and positive degrees of freedom: the three p-values
are numbers in `[0, 1]`, `greater` and `less` add up to one, the two-sided one is twice the smaller of
them, negating the estimate exchanges the one-sided p-values and keeps the two-sided one; the `greater`
p-value is below one half exactly for positive estimates, and falls when the estimate grows. -/
theorem C25_p_values_are_coherent (D : TDist) (pe se df : ℝ) (hse : 0 < se) (hdf : 0 < df) :
    ∃ two greater less : ℝ,
      ttestFromStats D (fin pe) (fin se) (fin df) "two-sided" = .ok (fin (pe / se), fin two) ∧
      ttestFromStats D (fin pe) (fin se) (fin df) "greater" = .ok (fin (pe / se), fin greater) ∧
      ttestFromStats D (fin pe) (fin se) (fin df) "less" = .ok (fin (pe / se), fin less) ∧
      (0 ≤ two ∧ two ≤ 1) ∧ (0 ≤ greater ∧ greater ≤ 1) ∧ (0 ≤ less ∧ less ≤ 1) ∧
      greater + less = 1 ∧ two = 2 * min greater less ∧
      ttestFromStats D (fin (-pe)) (fin se) (fin df) "two-sided" = .ok (fin (-(pe / se)), fin two) ∧
      ttestFromStats D (fin (-pe)) (fin se) (fin df) "greater" = .ok (fin (-(pe / se)), fin less) ∧
      ttestFromStats D (fin (-pe)) (fin se) (fin df) "less" = .ok (fin (-(pe / se)), fin greater) ∧
      (greater < 1 / 2 ↔ 0 < pe) ∧
      ∀ pe', pe < pe' → ∃ greater' < greater,
        ttestFromStats D (fin pe') (fin se) (fin df) "greater" = .ok (fin (pe' / se), fin greater') := by
  have hq : ∀ x : ℝ, (fin x / fin se : Fl ℝ) = fin (x / se) := fun x => fin_div_ne hse.ne'
  have k2 : KnownAlt "two-sided" := Or.inl rfl
  have kg : KnownAlt "greater" := Or.inr (Or.inl rfl)
  have kl : KnownAlt "less" := Or.inr (Or.inr rfl)
  have p2 : ∀ x : ℝ, pOf D (fin df) (fin x) "two-sided" = fin (2 * D.cdf df (-|x|)) := by
    intro x; simp only [pOf, if_true, abs_fin, fin_neg, D.cdfFl_fin hdf, fin_mul]
  have pg : ∀ x : ℝ, pOf D (fin df) (fin x) "greater" = fin (D.cdf df (-x)) := by
    intro x; simp [pOf, D.cdfFl_fin hdf]
  have pl : ∀ x : ℝ, pOf D (fin df) (fin x) "less" = fin (D.cdf df x) := by
    intro x; simp [pOf, D.cdfFl_fin hdf]
  have hmin : ∀ x : ℝ, D.cdf df (-|x|) = min (D.cdf df (-x)) (D.cdf df x) := by
    intro x
    rw [← (D.strictMono df hdf).monotone.map_min]
    congr 1
    rw [← neg_neg (min (-x) x), ← max_neg_neg, neg_neg, max_comm]
    rw [max_comm]; rfl
  refine ⟨2 * D.cdf df (-|pe / se|), D.cdf df (-(pe / se)), D.cdf df (pe / se), ?_, ?_, ?_, ?_, ?_, ?_,
    ?_, ?_, ?_, ?_, ?_, ?_, ?_⟩
  · rw [ttestFromStats_known k2, hq, p2]
  · rw [ttestFromStats_known kg, hq, pg]
  · rw [ttestFromStats_known kl, hq, pl]
  · have := D.pos df hdf (-|pe / se|)
    have h2 : D.cdf df (-|pe / se|) ≤ D.cdf df 0 :=
      (D.strictMono df hdf).monotone (by linarith [abs_nonneg (pe / se)])
    rw [D.cdf_zero hdf] at h2
    constructor <;> linarith
  · exact ⟨(D.pos df hdf _).le, (D.lt_one hdf _).le⟩
  · exact ⟨(D.pos df hdf _).le, (D.lt_one hdf _).le⟩
  · rw [D.symm df hdf]; ring
  · rw [hmin]
  · rw [ttestFromStats_known k2, hq, p2, neg_div, abs_neg]
  · rw [ttestFromStats_known kg, hq, pg, neg_div, neg_neg]
  · rw [ttestFromStats_known kl, hq, pl, neg_div]
  · rw [← D.cdf_zero hdf, (D.strictMono df hdf).lt_iff_lt, neg_lt_zero]
    exact ⟨fun h => by
      by_contra h'
      exact absurd (div_nonpos_of_nonpos_of_nonneg (not_lt.mp h') hse.le) (not_le.mpr h),
      fun h => div_pos h hse⟩
  · intro pe' h
    refine ⟨D.cdf df (-(pe' / se)), ?_, ?_⟩
    · rw [(D.strictMono df hdf).lt_iff_lt, neg_lt_neg_iff]
      exact div_lt_div_of_pos_right h hse
    · rw [ttestFromStats_known kg, hq, pg]

example : (0 : ℝ) < 2 ∧ (0 : ℝ) < 7 ∧ Nonempty TDist := ⟨by norm_num, by norm_num, ⟨TDist.logistic⟩⟩

/-- **C25**, a difference without any variation: when the standard error is zero and the degrees of freedom
are positive, the statistic is infinite with the sign of the difference, and the p-values are those of certainty: zero
two-sided and on the side of the difference, one on the other side; with no difference either, all are
undefined. -/
theorem C25_no_variation (D : TDist) (df : ℝ) (hdf : 0 < df) :
    (∀ pe : ℝ, 0 < pe →
      ttestFromStats D (fin pe) (fin 0) (fin df) "two-sided" = .ok (pinf, fin 0) ∧
      ttestFromStats D (fin pe) (fin 0) (fin df) "greater" = .ok (pinf, fin 0) ∧
      ttestFromStats D (fin pe) (fin 0) (fin df) "less" = .ok (pinf, fin 1)) ∧
    (∀ pe : ℝ, pe < 0 →
      ttestFromStats D (fin pe) (fin 0) (fin df) "two-sided" = .ok (ninf, fin 0) ∧
      ttestFromStats D (fin pe) (fin 0) (fin df) "greater" = .ok (ninf, fin 1) ∧
      ttestFromStats D (fin pe) (fin 0) (fin df) "less" = .ok (ninf, fin 0)) ∧
    ∀ alternative, alternative = "two-sided" ∨ alternative = "greater" ∨ alternative = "less" →
      ttestFromStats D (fin 0) (fin 0) (fin df) alternative = .ok (nan, nan) := by
  have n1 : (fin (-1) * pinf : Fl ℝ) = ninf := by show Fl.mul _ _ = _; simp [Fl.mul, Fl.infSign]
  have n2 : (fin (-1) * ninf : Fl ℝ) = pinf := by show Fl.mul _ _ = _; simp [Fl.mul, Fl.infSign]
  have z : (fin 2 * fin 0 : Fl ℝ) = fin 0 := by rw [fin_mul, mul_zero]
  refine ⟨fun pe h => ?_, fun pe h => ?_, ?_⟩
  · have e : (fin pe / fin 0 : Fl ℝ) = pinf := by
      show Fl.div _ _ = _
      simp [Fl.div, Fl.infSign, h, h.ne', not_lt.2 h.le]
    simp [ttestFromStats, e, Fl.abs, n1, TDist.cdfFl, hdf, z]
  · have e : (fin pe / fin 0 : Fl ℝ) = ninf := by
      show Fl.div _ _ = _
      simp [Fl.div, Fl.infSign, h, h.ne, not_lt.2 h.le]
    simp [ttestFromStats, e, Fl.abs, n1, n2, TDist.cdfFl, hdf, z]
  · have e : (fin 0 / fin 0 : Fl ℝ) = nan := by
      show Fl.div _ _ = _
      simp [Fl.div, Fl.infSign]
    have m : ∀ x : ℝ, (fin x * nan : Fl ℝ) = nan := fun x => rfl
    rintro alternative (rfl | rfl | rfl) <;> simp [ttestFromStats, e, Fl.abs, m, TDist.cdfFl]

/-- **C25.** Any other alternative raises `ValueError`. -/
theorem C25_unknown_alternative (D : TDist) (pe se df : Fl ℝ) (alternative : String)
    (h : alternative ≠ "two-sided" ∧ alternative ≠ "greater" ∧ alternative ≠ "less") :
    ttestFromStats D pe se df alternative = .error .valueError := by
  unfold ttestFromStats
  rw [if_neg h.1, if_neg h.2.1, if_neg h.2.2]

example : "Two-sided" ≠ "two-sided" ∧ "Two-sided" ≠ "greater" ∧ "Two-sided" ≠ "less" := by decide

/-! ### C27 -/

/-- Levels at which the interval of an alternative is meant to be used: below one half one-sided, below or
equal to one two-sided. -/
def SensibleAlpha (alternative : String) (alpha : ℝ) : Prop :=
  0 < alpha ∧ (alternative = "two-sided" ∧ alpha ≤ 1 ∨
    (alternative = "greater" ∨ alternative = "less") ∧ alpha ≤ 1 / 2)

/-- **C27.** For finite inputs with a defined standard error (the variance `se1² + se2² - 2 se1 se2 corr`
is not negative) the interval contains the difference of the means (hence lower <= upper); `greater` has no upper bound
and `less` no lower bound, all other bounds are finite, two-sided intervals are symmetric about the
difference; a smaller alpha gives an interval containing the other. -/
theorem C27_absolute_interval (D : TDist) (m1 m2 se1 se2 corr df : ℝ) (hdf : 0 < df)
    (hv : 0 ≤ se1 ^ 2 + se2 ^ 2 - 2 * (se1 * se2 * corr)) (alternative : String) (alpha : ℝ)
    (ha : SensibleAlpha alternative alpha) :
    ∃ lo hi : Fl ℝ,
      absoluteCI D (fin m1) (fin m2) (fin se1) (fin se2) (fin corr) (fin df) alternative alpha
        = .ok (lo, hi) ∧
      Spec.Contains lo hi (m1 - m2) ∧ Fl.le lo hi = true ∧
      (alternative = "two-sided" → ∃ w, 0 ≤ w ∧ lo = fin (m1 - m2 - w) ∧ hi = fin (m1 - m2 + w)) ∧
      (alternative = "greater" → hi = pinf ∧ ∃ x, lo = fin x) ∧
      (alternative = "less" → lo = ninf ∧ ∃ x, hi = fin x) ∧
      ∀ alpha', 0 < alpha' → alpha' ≤ alpha → ∃ lo' hi' : Fl ℝ,
        absoluteCI D (fin m1) (fin m2) (fin se1) (fin se2) (fin corr) (fin df) alternative alpha'
          = .ok (lo', hi') ∧ Fl.le lo' lo = true ∧ Fl.le hi hi' = true := by
  set s := Real.sqrt (se1 * se1 + se2 * se2 - 2 * (se1 * se2 * corr)) with hs
  have hci : ciSE (fin se1) (fin se2) (fin corr) = fin s := by
    unfold ciSE
    simp only [sq_fin, fin_mul, fin_add, fin_sub]
    rw [sqrt_fin (by nlinarith)]
  have hs0 : 0 ≤ s := Real.sqrt_nonneg _
  obtain ⟨h0, ha⟩ := ha
  rcases ha with ⟨halt, h1⟩ | ⟨halt, h1⟩
  · have hk : KnownAlt alternative := Or.inl halt
    have hc : ∀ a, 0 < a → a ≤ 1 → D.ppfFl (fin df) (1 - a / 2) = fin (D.ppf df (1 - a / 2)) :=
      fun a h h' => D.ppfFl_fin hdf (by linarith) (by linarith)
    have hc0 := D.ppf_nonneg hdf (q := 1 - alpha / 2) (by linarith) (by linarith)
    have hw := mul_nonneg hc0 hs0
    refine ⟨fin (m1 - m2 - D.ppf df (1 - alpha / 2) * s), fin (m1 - m2 + D.ppf df (1 - alpha / 2) * s),
      ?_, ?_, ?_, ?_, ?_, ?_, ?_⟩
    · rw [absoluteCI_known hk, hci]; simp [boundsOf, halt, hc alpha h0 h1]
    · simp [Spec.Contains, hw]
    · simp only [le_fin, decide_eq_true_eq]; linarith
    · exact fun _ => ⟨_, hw, rfl, rfl⟩
    · intro h; rw [halt] at h; exact absurd h (by decide)
    · intro h; rw [halt] at h; exact absurd h (by decide)
    · intro a' h0' h1'
      refine ⟨fin (m1 - m2 - D.ppf df (1 - a' / 2) * s), fin (m1 - m2 + D.ppf df (1 - a' / 2) * s), ?_, ?_, ?_⟩
      · rw [absoluteCI_known hk, hci]; simp [boundsOf, halt, hc a' h0' (by linarith)]
      all_goals
        have := (D.ppf_le_iff hdf (q := 1 - alpha / 2) (q' := 1 - a' / 2) (by linarith) (by linarith)
          (by linarith) (by linarith)).mpr (by linarith)
        have := mul_le_mul_of_nonneg_right this hs0
        simp only [le_fin, decide_eq_true_eq]; linarith
  · have hc : ∀ a, 0 < a → a ≤ 1 / 2 → D.ppfFl (fin df) (1 - a) = fin (D.ppf df (1 - a)) :=
      fun a h h' => D.ppfFl_fin hdf (by linarith) (by linarith)
    have hc0 := D.ppf_nonneg hdf (q := 1 - alpha) (by linarith) (by linarith)
    have hw := mul_nonneg hc0 hs0
    rcases halt with halt | halt
    · have hk : KnownAlt alternative := Or.inr (Or.inl halt)
      refine ⟨fin (m1 - m2 - D.ppf df (1 - alpha) * s), pinf, ?_, ?_, ?_, ?_, ?_, ?_, ?_⟩
      · rw [absoluteCI_known hk, hci]; simp [boundsOf, halt, hc alpha h0 h1]
      · simp [Spec.Contains, hw]
      · rfl
      · intro h; rw [halt] at h; exact absurd h (by decide)
      · exact fun _ => ⟨rfl, _, rfl⟩
      · intro h; rw [halt] at h; exact absurd h (by decide)
      · intro a' h0' h1'
        refine ⟨fin (m1 - m2 - D.ppf df (1 - a') * s), pinf, ?_, ?_, rfl⟩
        · rw [absoluteCI_known hk, hci]; simp [boundsOf, halt, hc a' h0' (by linarith)]
        · have := (D.ppf_le_iff hdf (q := 1 - alpha) (q' := 1 - a') (by linarith) (by linarith)
            (by linarith) (by linarith)).mpr (by linarith)
          have := mul_le_mul_of_nonneg_right this hs0
          simp only [le_fin, decide_eq_true_eq]; linarith
    · have hk : KnownAlt alternative := Or.inr (Or.inr halt)
      refine ⟨ninf, fin (m1 - m2 + D.ppf df (1 - alpha) * s), ?_, ?_, ?_, ?_, ?_, ?_, ?_⟩
      · rw [absoluteCI_known hk, hci]; simp [boundsOf, halt, hc alpha h0 h1]
      · simp [Spec.Contains, hw]
      · rfl
      · intro h; rw [halt] at h; exact absurd h (by decide)
      · intro h; rw [halt] at h; exact absurd h (by decide)
      · exact fun _ => ⟨rfl, _, rfl⟩
      · intro a' h0' h1'
        refine ⟨ninf, fin (m1 - m2 + D.ppf df (1 - a') * s), ?_, rfl, ?_⟩
        · rw [absoluteCI_known hk, hci]; simp [boundsOf, halt, hc a' h0' (by linarith)]
        · have := (D.ppf_le_iff hdf (q := 1 - alpha) (q' := 1 - a') (by linarith) (by linarith)
            (by linarith) (by linarith)).mpr (by linarith)
          have := mul_le_mul_of_nonneg_right this hs0
          simp only [le_fin, decide_eq_true_eq]; linarith

example : (0 : ℝ) ≤ 2 ^ 2 + 1 ^ 2 - 2 * (2 * 1 * (1 / 2)) ∧ SensibleAlpha "greater" (1 / 20) ∧
    SensibleAlpha "two-sided" (1 / 20) := by
  refine ⟨by norm_num, ⟨by norm_num, Or.inr ⟨Or.inl rfl, by norm_num⟩⟩,
    ⟨by norm_num, Or.inl ⟨rfl, by norm_num⟩⟩⟩

/-! ### C35 -/

/-- The tail probability that the critical value of an alternative cuts off. -/
noncomputable def tailOf (alternative : String) (alpha : ℝ) : ℝ := if alternative = "two-sided" then alpha / 2 else alpha

theorem mdeFromStats_value (D : TDist) (se df power alpha : ℝ) (hdf : 0 < df) (hp0 : 0 < power)
    (hp1 : power < 1) (ha0 : 0 < alpha) (ha1 : alpha < 1) {alternative : String}
    (hk : KnownAlt alternative) :
    mdeFromStats D (fin se) (fin df) alternative power alpha =
      .ok (fin (se * (D.ppf df (1 - tailOf alternative alpha) + D.ppf df power))) := by
  unfold mdeFromStats
  rw [criticalT_known hk]
  have : 0 < tailOf alternative alpha ∧ tailOf alternative alpha < 1 := by
    unfold tailOf; split_ifs <;> constructor <;> linarith
  show Except.ok _ = _
  rw [show (1 - if alternative = "two-sided" then alpha / 2 else alpha) = 1 - tailOf alternative alpha from rfl,
    D.ppfFl_fin hdf (by linarith) (by linarith), D.ppfFl_fin hdf hp0 hp1, fin_add, fin_mul]

/-- **C35.** For a positive standard error and degrees of freedom and levels in (0, 1), the minimum
detectable effect is a number; it is positive exactly when the power exceeds the tail probability
(`alpha / 2` two-sided, `alpha` one-sided); it increases strictly with power, decreases strictly with alpha and is
proportional to the standard error. -/
theorem C35_mde_positive_and_monotone (D : TDist) (se df power alpha : ℝ) (hse : 0 < se) (hdf : 0 < df)
    (hp0 : 0 < power) (hp1 : power < 1) (ha0 : 0 < alpha) (ha1 : alpha < 1) (alternative : String)
    (hk : alternative = "two-sided" ∨ alternative = "greater" ∨ alternative = "less") :
    ∃ x : ℝ, mdeFromStats D (fin se) (fin df) alternative power alpha = .ok (fin x) ∧
      (0 < x ↔ (if alternative = "two-sided" then alpha / 2 else alpha) < power) ∧
      (∀ power', power < power' → power' < 1 →
        ∃ y, x < y ∧ mdeFromStats D (fin se) (fin df) alternative power' alpha = .ok (fin y)) ∧
      (∀ alpha', alpha < alpha' → alpha' < 1 →
        ∃ y, y < x ∧ mdeFromStats D (fin se) (fin df) alternative power alpha' = .ok (fin y)) ∧
      (∀ c : ℝ, mdeFromStats D (fin (c * se)) (fin df) alternative power alpha = .ok (fin (c * x))) := by
  have ht : ∀ a, 0 < a → a < 1 → 0 < tailOf alternative a ∧ tailOf alternative a < 1 := by
    intro a h h'; unfold tailOf; split_ifs <;> constructor <;> linarith
  have htm : ∀ a b, a < b → tailOf alternative a < tailOf alternative b := by
    intro a b h; unfold tailOf; split_ifs <;> linarith
  obtain ⟨t0, t1⟩ := ht alpha ha0 ha1
  refine ⟨se * (D.ppf df (1 - tailOf alternative alpha) + D.ppf df power),
    mdeFromStats_value D se df power alpha hdf hp0 hp1 ha0 ha1 hk, ?_, ?_, ?_, ?_⟩
  · rw [mul_pos_iff_of_pos_left hse, D.ppf_one_sub hdf t0 t1, neg_add_eq_sub, sub_pos,
      D.ppf_lt_iff hdf t0 t1 hp0 hp1]
    rfl
  · intro p' h h'
    refine ⟨_, ?_, mdeFromStats_value D se df p' alpha hdf (by linarith) h' ha0 ha1 hk⟩
    have := (D.ppf_lt_iff hdf hp0 hp1 (by linarith) h').mpr h
    exact mul_lt_mul_of_pos_left (by linarith) hse
  · intro a' h h'
    refine ⟨_, ?_, mdeFromStats_value D se df power a' hdf hp0 hp1 (by linarith) h' hk⟩
    obtain ⟨t0', t1'⟩ := ht a' (by linarith) h'
    have := (D.ppf_lt_iff hdf (q := 1 - tailOf alternative a') (q' := 1 - tailOf alternative alpha)
      (by linarith) (by linarith) (by linarith) (by linarith)).mpr (by linarith [htm _ _ h])
    exact mul_lt_mul_of_pos_left (by linarith) hse
  · intro c
    rw [mdeFromStats_value D (c * se) df power alpha hdf hp0 hp1 ha0 ha1 hk, mul_assoc]

/-- **C35.** The two power calculations use the textbook standard errors: `2 sd / sqrt(n)` with `n - 2` degrees
of freedom for an even split of `n` samples, and `sd / sqrt(n)` with `n - 1` for the paired test.  In particular
both are proportional to the standard deviation. -/
theorem C35_power_calculations (D : TDist) (sd n power alpha : ℝ) (hsd : 0 ≤ sd) (hp0 : 0 < power)
    (hp1 : power < 1) (ha0 : 0 < alpha) (ha1 : alpha < 1) (alternative : String)
    (hk : alternative = "two-sided" ∨ alternative = "greater" ∨ alternative = "less") :
    (2 < n → indMde D (fin sd) n alternative power alpha =
      .ok (fin (2 * sd / Real.sqrt n *
        (D.ppf (n - 2) (1 - if alternative = "two-sided" then alpha / 2 else alpha) + D.ppf (n - 2) power)))) ∧
    (1 < n → pairedMde D (fin sd) n alternative power alpha =
      .ok (fin (sd / Real.sqrt n *
        (D.ppf (n - 1) (1 - if alternative = "two-sided" then alpha / 2 else alpha) + D.ppf (n - 1) power)))) := by
  constructor
  · intro hn
    have hn0 : 0 < n := by linarith
    have hse : (twoSampleSE (fin sd) (fin sd) (fin (1 / 2) * fin n) (fin (1 / 2) * fin n) true).1 =
        fin (2 * sd / Real.sqrt n) := by
      have h1 : (1 / 2 * n + 1 / 2 * n - 2 : ℝ) ≠ 0 := by linarith
      have h2 : (1 / 2 * n : ℝ) ≠ 0 := by linarith
      simp only [twoSampleSE, if_true, fin_mul, sq_fin, fin_sub, fin_add, fin_div_ne h1, fin_div_ne h2]
      have e : (((1 / 2 * n - 1) * (sd * sd) + (1 / 2 * n - 1) * (sd * sd)) / (1 / 2 * n + 1 / 2 * n - 2) /
          (1 / 2 * n) + ((1 / 2 * n - 1) * (sd * sd) + (1 / 2 * n - 1) * (sd * sd)) /
          (1 / 2 * n + 1 / 2 * n - 2) / (1 / 2 * n)) = (2 * sd) ^ 2 / n := by
        have h3 : (1 / 2 * n - 1) * (sd * sd) + (1 / 2 * n - 1) * (sd * sd) =
          (sd * sd) * (1 / 2 * n + 1 / 2 * n - 2) := by ring
        rw [h3, mul_div_cancel_right₀ _ h1]
        field_simp
        ring
      rw [e, sqrt_fin (by positivity), Real.sqrt_div (by positivity), Real.sqrt_sq (by positivity)]
    have hdf : twoSampleDf (fin sd) (fin sd) (fin (1 / 2) * fin n) (fin (1 / 2) * fin n) true =
        fin (n - 2) := by
      simp only [twoSampleDf, if_true, fin_mul, fin_add, fin_sub]
      congr 1; ring
    unfold indMde
    simp only [hse, hdf]
    exact mdeFromStats_value D _ _ power alpha (by linarith) hp0 hp1 ha0 ha1 hk
  · intro hn
    have hn0 : 0 < n := by linarith
    unfold pairedMde oneSampleSE oneSampleDf
    rw [sqrt_fin hn0.le, fin_div_ne (Real.sqrt_pos.mpr hn0).ne', fin_sub]
    exact mdeFromStats_value D _ _ power alpha (by linarith) hp0 hp1 ha0 ha1 hk

/-- **C35.** An unknown alternative raises `ValueError` in all three functions. -/
theorem C35_unknown_alternative (D : TDist) (se df sd : Fl ℝ) (n power alpha : ℝ) (alternative : String)
    (h : alternative ≠ "two-sided" ∧ alternative ≠ "greater" ∧ alternative ≠ "less") :
    mdeFromStats D se df alternative power alpha = .error .valueError ∧
      indMde D sd n alternative power alpha = .error .valueError ∧
      pairedMde D sd n alternative power alpha = .error .valueError := by
  have : ∀ se df, mdeFromStats D se df alternative power alpha = .error .valueError := by
    intro se df
    unfold mdeFromStats criticalT
    rw [if_neg h.1, if_neg h.2.1, if_neg h.2.2]
    rfl
  exact ⟨this _ _, this _ _, this _ _⟩

example : (0 : ℝ) < 3 ∧ (0 : ℝ) < 0.8 ∧ (0.8 : ℝ) < 1 ∧ (0 : ℝ) < 0.05 ∧ (0.05 : ℝ) < 1 ∧ (2 : ℝ) < 100 := by
  norm_num

/-! ### C36 -/

/-- **C36.** With equal group sizes and equal standard deviations both variance assumptions give the same
standard errors and degrees of freedom. -/
theorem C36_equal_groups_agree (sd n : ℝ) (hsd : 0 < sd) (hn : 1 < n) :
    twoSampleSE (fin sd) (fin sd) (fin n) (fin n) true = twoSampleSE (fin sd) (fin sd) (fin n) (fin n) false ∧
      twoSampleDf (fin sd) (fin sd) (fin n) (fin n) true = fin (2 * (n - 1)) ∧
      twoSampleDf (fin sd) (fin sd) (fin n) (fin n) false = fin (2 * (n - 1)) := by
  have h1 : (n + n - 2 : ℝ) ≠ 0 := by linarith
  have h2 : (n : ℝ) ≠ 0 := by linarith
  have h3 : (n - 1 : ℝ) ≠ 0 := by linarith
  refine ⟨?_, ?_, ?_⟩
  · simp only [twoSampleSE, if_true, Bool.false_eq_true, if_false, fin_mul, sq_fin, fin_sub, fin_add,
      fin_div_ne h1, fin_div_ne h2]
    have e : ((n - 1) * (sd * sd) + (n - 1) * (sd * sd)) / (n + n - 2) = sd * sd := by
      rw [div_eq_iff h1]; ring
    rw [e]
  · simp only [twoSampleDf, if_true, fin_sub, fin_add]
    congr 1; ring
  · simp only [twoSampleDf, Bool.false_eq_true, if_false, sq_fin, fin_sub, fin_add, fin_div_ne h2,
      fin_div_ne h3]
    rw [fin_div_ne]
    · congr 1
      have := hsd.ne'
      field_simp
      ring
    · have : 0 < sd * sd / n := by positivity
      have : 0 < n - 1 := by linarith
      positivity

/-- **C36.** Welch's degrees of freedom lie between `min(n1, n2) - 1` and `n1 + n2 - 2`, the value for equal
variances. -/
theorem C36_welch_bounds (sd1 sd2 n1 n2 : ℝ) (h1 : 1 < n1) (h2 : 1 < n2) (hsd : sd1 ≠ 0 ∨ sd2 ≠ 0) :
    ∃ df, twoSampleDf (fin sd1) (fin sd2) (fin n1) (fin n2) false = fin df ∧
      min n1 n2 - 1 ≤ df ∧ df ≤ n1 + n2 - 2 ∧
      twoSampleDf (fin sd1) (fin sd2) (fin n1) (fin n2) true = fin (n1 + n2 - 2) := by
  have p1 : 0 < n1 - 1 := by linarith
  have p2 : 0 < n2 - 1 := by linarith
  have hn1 : n1 ≠ 0 := by linarith
  have hn2 : n2 ≠ 0 := by linarith
  simp only [twoSampleDf, Bool.false_eq_true, if_false, if_true, sq_fin, fin_sub, fin_add, fin_div_ne hn1,
    fin_div_ne hn2, fin_div_ne p1.ne', fin_div_ne p2.ne']
  set a := sd1 * sd1 / n1 with ha
  set b := sd2 * sd2 / n2 with hb
  have ha0 : 0 ≤ a := div_nonneg (mul_self_nonneg _) (by linarith)
  have hb0 : 0 ≤ b := div_nonneg (mul_self_nonneg _) (by linarith)
  have hD : 0 < a * a / (n1 - 1) + b * b / (n2 - 1) := by
    rcases hsd with h | h
    · have h' : 0 < a := div_pos (mul_self_pos.mpr h) (by linarith)
      have := mul_pos h' h'; positivity
    · have h' : 0 < b := div_pos (mul_self_pos.mpr h) (by linarith)
      have := mul_pos h' h'; positivity
  refine ⟨_, fin_div_ne hD.ne', ?_, ?_, trivial⟩
  · rw [le_div_iff₀ hD]
    have q1 : min n1 n2 - 1 ≤ n1 - 1 := by linarith [min_le_left n1 n2]
    have q2 : min n1 n2 - 1 ≤ n2 - 1 := by linarith [min_le_right n1 n2]
    have e1 : (min n1 n2 - 1) * (a * a / (n1 - 1)) ≤ a * a := by
      rw [mul_div_assoc', div_le_iff₀ p1, mul_comm]
      exact mul_le_mul_of_nonneg_left q1 (mul_self_nonneg _)
    have e2 : (min n1 n2 - 1) * (b * b / (n2 - 1)) ≤ b * b := by
      rw [mul_div_assoc', div_le_iff₀ p2, mul_comm]
      exact mul_le_mul_of_nonneg_left q2 (mul_self_nonneg _)
    nlinarith [mul_nonneg ha0 hb0]
  · rw [div_le_iff₀ hD]
    have e : (n1 + n2 - 2) * (a * a / (n1 - 1) + b * b / (n2 - 1)) - (a + b) * (a + b) =
        (a * (n2 - 1) - b * (n1 - 1)) ^ 2 / ((n1 - 1) * (n2 - 1)) := by
      field_simp
      ring
    have : 0 ≤ (a * (n2 - 1) - b * (n1 - 1)) ^ 2 / ((n1 - 1) * (n2 - 1)) := by positivity
    linarith

example : (1 : ℝ) < 5 ∧ (1 : ℝ) < 9 ∧ ((0 : ℝ) ≠ 0 ∨ (2 : ℝ) ≠ 0) := by norm_num

/-! ### C37 -/

/-- **C37.** The variance of the ratio of rows `i` and `j` of a trimmed stack, as computed by the code, is the winsorized
variance of the linearised metric `(x_i - ratio * x_j) / mean_j`: if a row `r` of the stack holds the
linearised values, its variance is the one reported; in particular it is not negative. -/
theorem C37_ratio_variance (R : Rounding ℝ) (argsort : List ℝ → List ℕ) (ha : ArgsortOk argsort) (m : ℕ)
    (cols : List (Fin (m + 1) → ℝ)) (q : ℝ) (T : TrimmedArray ℝ m)
    (h : mkTrimmed R argsort cols q = .ok T) (hl : 1 < T.len) (i j r : Fin (m + 1))
    (hi : T.mean i ≠ 0) (hj : T.mean j ≠ 0)
    (hrow : ∀ x ∈ cols, x r = (x i - T.mean i / T.mean j * x j) / T.mean j) :
    ratioMeanVar (fin (T.mean i)) (fin (T.mean j)) (fin (T.cov 1 i i)) (fin (T.cov 1 j j)) (fin (T.cov 1 i j)) =
      (fin (T.mean i / T.mean j), fin (T.var 1 r)) ∧ 0 ≤ T.var 1 r := by
  refine ⟨?_, var_nonneg T hl r⟩
  rw [ratioMeanVar_fin hi hj]
  congr 2
  have hne : T.trimmed ≠ [] := by
    intro h0; rw [TrimmedArray.len, h0] at hl; simp at hl
  have hb := fun k => C21_cov_is_bilinear R argsort ha m cols q T h hne r i j (1 / T.mean j)
    (-T.mean i / T.mean j ^ 2) 0 (by intro x hx; rw [hrow x hx]; field_simp; ring) k 1
  have hsym := fun k l => (C21_cov_is_a_covariance m T 1 hl k l 0).1
  unfold TrimmedArray.var
  rw [hb r, hsym i r, hsym j r, hb i, hb j, hsym j i]
  ring

/-- **C37.** For paired ratios with non-zero means, the variance of the difference is
`var1 + var2 - 2 corr sd1 sd2` with non-negative variances, and the correlation is at most one in size whenever
both variances are positive. -/
theorem C37_paired_ratio_variance (T : TrimmedArray ℝ 4) (hl : 1 < T.len)
    (h1 : T.mean 1 ≠ 0) (h2 : T.mean 2 ≠ 0) (h3 : T.mean 3 ≠ 0) (h4 : T.mean 4 ≠ 0) :
    ∃ var1 var2 varDiff : ℝ,
      (diffOfRatios (fun i => T.mean i.succ) (fun i j => T.cov 1 i.succ j.succ)).var1 = fin var1 ∧
      (diffOfRatios (fun i => T.mean i.succ) (fun i j => T.cov 1 i.succ j.succ)).var2 = fin var2 ∧
      (diffOfRatios (fun i => T.mean i.succ) (fun i j => T.cov 1 i.succ j.succ)).differenceVar = fin varDiff ∧
      (diffOfRatios (fun i => T.mean i.succ) (fun i j => T.cov 1 i.succ j.succ)).differenceMean =
        fin (T.mean 1 / T.mean 2 - T.mean 3 / T.mean 4) ∧
      0 ≤ var1 ∧ 0 ≤ var2 ∧ 0 ≤ varDiff ∧
      (0 < var1 → 0 < var2 → ∃ corr,
        (diffOfRatios (fun i => T.mean i.succ) (fun i j => T.cov 1 i.succ j.succ)).corr12 = fin corr ∧
        |corr| ≤ 1 ∧ varDiff = var1 + var2 - 2 * corr * Real.sqrt var1 * Real.sqrt var2) := by
  obtain ⟨hsym, hpsd⟩ := ratio_cov hl
  set m : Fin 4 → ℝ := fun i => T.mean i.succ with hm
  set C : Fin 4 → Fin 4 → ℝ := fun i j => T.cov 1 i.succ j.succ with hC
  obtain ⟨a, b, c, e1, e2, ha, hb, hab, hd, em1, em2, ec⟩ :=
    diffOfRatios_parts (m := m) (cov := C) h1 h2 h3 h4 hsym hpsd
  refine ⟨a, b, form4 C (gradOf m), e1, e2, diffOfRatios_var h2 h4, ?_, ha, hb, hpsd _, ?_⟩
  · show (diffOfRatios m C).mean1 - (diffOfRatios m C).mean2 = _
    rw [em1, em2, fin_sub]; rfl
  · intro pa pb
    have hpp := mul_pos pa pb
    have hs := Real.sqrt_pos.mpr hpp
    refine ⟨c / Real.sqrt (a * b), ?_, ?_, ?_⟩
    · rw [ec, fin_div_ne (by positivity)]
      congr 1
      field_simp
    · rw [abs_div, abs_of_pos hs, div_le_one hs]
      exact Real.abs_le_sqrt hab
    · rw [hd, Real.sqrt_mul ha]
      have := (Real.sqrt_pos.mpr pa).ne'
      have := (Real.sqrt_pos.mpr pb).ne'
      field_simp

/-- Three pairs with means 2 and 5/3, and the linearised metric in a third row. -/
noncomputable def exampleRatioStack : List (Fin 3 → ℝ) :=
  [![1, 1, (1 - 6 / 5 * 1) / (5 / 3)], ![2, 3, (2 - 6 / 5 * 3) / (5 / 3)], ![3, 1, (3 - 6 / 5 * 1) / (5 / 3)]]

/-- The hypotheses of C37 are met (no trimming). -/
example (R : Rounding ℝ) :
    ∃ T : TrimmedArray ℝ 2, mkTrimmed R stableArgsort exampleRatioStack 0 = .ok T ∧
      1 < T.len ∧ T.mean 0 = 2 ∧ T.mean 1 = 5 / 3 := by
  refine ⟨_, mkTrimmed_zero _ _ _, ?_, ?_, ?_⟩
  · simp [TrimmedArray.len, exampleRatioStack]
  · simp [TrimmedArray.mean, rowOf, TrimmedArray.len, exampleRatioStack]; norm_num
  · simp [TrimmedArray.mean, rowOf, TrimmedArray.len, exampleRatioStack]; norm_num

end Feedx
