import Verif.Props.TTest

/-!
Properties C27 and C35 at the ends of the range of the levels: intervals with alpha 0 and 1, minimum detectable effects with power 0 and 1.
-/

set_option linter.unusedSimpArgs false

namespace Feedx

open Fl

theorem ppfFl_zero (D : TDist) {df : ℝ} (hdf : 0 < df) : D.ppfFl (fin df) 0 = ninf := by simp [TDist.ppfFl, hdf]

theorem ppfFl_one (D : TDist) {df : ℝ} (hdf : 0 < df) : D.ppfFl (fin df) 1 = pinf := by simp [TDist.ppfFl, hdf]

theorem ppfFl_outside (D : TDist) {df q : ℝ} (h : q < 0 ∨ 1 < q) : D.ppfFl (fin df) q = nan := by
  unfold TDist.ppfFl
  rcases h with h | h
  · simp [h]
  · have h1 : ¬ q < 0 := by linarith
    have h2 : q ≠ 0 := by linarith
    have h3 : ¬ q < 1 := by linarith
    have h4 : q ≠ 1 := by linarith
    simp [h1, h2, h3, h4]

theorem pinf_times {s : ℝ} (hs : 0 < s) : (pinf : Fl ℝ) * fin s = pinf := by
  show Fl.mul _ _ = _
  simp [Fl.mul, infSign, hs]

theorem ninf_times {s : ℝ} (hs : 0 < s) : (ninf : Fl ℝ) * fin s = ninf := by
  show Fl.mul _ _ = _
  simp [Fl.mul, infSign, hs, hs.le, not_lt.mpr hs.le]

theorem times_pinf {s : ℝ} (hs : 0 < s) : fin s * (pinf : Fl ℝ) = pinf := by
  show Fl.mul _ _ = _
  simp [Fl.mul, infSign, hs, hs.le, not_lt.mpr hs.le]

theorem times_ninf {s : ℝ} (hs : 0 < s) : fin s * (ninf : Fl ℝ) = ninf := by
  show Fl.mul _ _ = _
  simp [Fl.mul, infSign, hs, hs.le, not_lt.mpr hs.le]

theorem nan_all (x : Fl ℝ) : nan * x = nan ∧ x + nan = nan ∧ x - nan = nan ∧ x * nan = nan := by
  cases x <;> exact ⟨rfl, rfl, rfl, rfl⟩

/-- **C27, the ends.**  With a positive standard error: at alpha 0 the interval is the whole line, whatever the alternative; at alpha 1 a one-sided interval has
both bounds at the same infinity, so it contains no number; and a level outside of [0, 1] (of [0, 2] two-sided) makes the bounds that depend on it nan. -/
theorem C27_extreme_levels (D : TDist) (m1 m2 se1 se2 corr df : ℝ) (hdf : 0 < df) (hv : 0 < se1 ^ 2 + se2 ^ 2 - 2 * (se1 * se2 * corr)) :
    (∀ alternative, alternative = "two-sided" ∨ alternative = "greater" ∨ alternative = "less" →
      absoluteCI D (fin m1) (fin m2) (fin se1) (fin se2) (fin corr) (fin df) alternative 0 = .ok (ninf, pinf)) ∧
    absoluteCI D (fin m1) (fin m2) (fin se1) (fin se2) (fin corr) (fin df) "greater" 1 = .ok (pinf, pinf) ∧
    absoluteCI D (fin m1) (fin m2) (fin se1) (fin se2) (fin corr) (fin df) "less" 1 = .ok (ninf, ninf) ∧
    (∀ alpha : ℝ, alpha < 0 ∨ 2 < alpha →
      absoluteCI D (fin m1) (fin m2) (fin se1) (fin se2) (fin corr) (fin df) "two-sided" alpha = .ok (nan, nan)) ∧
    (∀ alpha : ℝ, alpha < 0 ∨ 1 < alpha →
      absoluteCI D (fin m1) (fin m2) (fin se1) (fin se2) (fin corr) (fin df) "greater" alpha = .ok (nan, pinf) ∧
      absoluteCI D (fin m1) (fin m2) (fin se1) (fin se2) (fin corr) (fin df) "less" alpha = .ok (ninf, nan)) := by
  have hs : 0 < Real.sqrt (se1 * se1 + se2 * se2 - 2 * (se1 * se2 * corr)) := Real.sqrt_pos.mpr (by nlinarith)
  have hci : ciSE (fin se1) (fin se2) (fin corr) = fin (Real.sqrt (se1 * se1 + se2 * se2 - 2 * (se1 * se2 * corr))) := by
    unfold ciSE
    simp only [sq_fin, fin_mul, fin_add, fin_sub]
    rw [sqrt_fin (by nlinarith)]
  have k1 : KnownAlt "two-sided" := Or.inl rfl
  have k2 : KnownAlt "greater" := Or.inr (Or.inl rfl)
  have k3 : KnownAlt "less" := Or.inr (Or.inr rfl)
  generalize Real.sqrt (se1 * se1 + se2 * se2 - 2 * (se1 * se2 * corr)) = s at hs hci
  have p1 := pinf_times hs
  have p2 := ninf_times hs
  have p3 : ∀ x : ℝ, fin x - pinf = ninf ∧ fin x + pinf = pinf ∧ fin x - ninf = pinf ∧ fin x + ninf = ninf := fun x => ⟨rfl, rfl, rfl, rfl⟩
  refine ⟨?_, ?_, ?_, ?_, ?_⟩
  · rintro alternative (rfl | rfl | rfl)
    · rw [absoluteCI_known k1, hci]; simp [boundsOf, ppfFl_one D hdf, p1, p3]
    · rw [absoluteCI_known k2, hci]; simp [boundsOf, ppfFl_one D hdf, p1, p3]
    · rw [absoluteCI_known k3, hci]; simp [boundsOf, ppfFl_one D hdf, p1, p3]
  · rw [absoluteCI_known k2, hci]; simp [boundsOf, ppfFl_zero D hdf, p2, p3]
  · rw [absoluteCI_known k3, hci]; simp [boundsOf, ppfFl_zero D hdf, p2, p3]
  · intro alpha ha
    rw [absoluteCI_known k1, hci]
    have : D.ppfFl (fin df) (1 - alpha / 2) = nan := ppfFl_outside D (by rcases ha with h | h; · right; linarith
                                                                         · left; linarith)
    simp [boundsOf, this, nan_all]
  · intro alpha ha
    have : D.ppfFl (fin df) (1 - alpha) = nan := ppfFl_outside D (by rcases ha with h | h; · right; linarith
                                                                     · left; linarith)
    rw [absoluteCI_known k2, absoluteCI_known k3, hci]
    simp [boundsOf, this, nan_all]

example : (0 : ℝ) < 2 ^ 2 + 1 ^ 2 - 2 * (2 * 1 * (1 / 2)) := by norm_num

/-- **C35, the ends.**  No effect is detected with certainty: at power 1 the minimum detectable effect is infinite; at power 0 it is minus infinity, so every effect
is detected that often; and a power outside of [0, 1] gives nan. -/
theorem C35_extreme_powers (D : TDist) (se df alpha : ℝ) (hse : 0 < se) (hdf : 0 < df) (ha0 : 0 < alpha) (ha1 : alpha < 1) (alternative : String)
    (hk : alternative = "two-sided" ∨ alternative = "greater" ∨ alternative = "less") :
    mdeFromStats D (fin se) (fin df) alternative 1 alpha = .ok pinf ∧
    mdeFromStats D (fin se) (fin df) alternative 0 alpha = .ok ninf ∧
    ∀ power : ℝ, power < 0 ∨ 1 < power → mdeFromStats D (fin se) (fin df) alternative power alpha = .ok nan := by
  have ht : 0 < tailOf alternative alpha ∧ tailOf alternative alpha < 1 := by
    unfold tailOf; split_ifs <;> constructor <;> linarith
  have hc : criticalT D (fin df) alternative alpha = .ok (fin (D.ppf df (1 - tailOf alternative alpha))) := by
    rw [criticalT_known hk, show (1 - if alternative = "two-sided" then alpha / 2 else alpha) = 1 - tailOf alternative alpha from rfl,
      D.ppfFl_fin hdf (by linarith) (by linarith)]
  unfold mdeFromStats
  rw [hc]
  refine ⟨?_, ?_, fun power hp => ?_⟩
  · simp [bind, Except.bind, pure, Except.pure, ppfFl_one D hdf, times_pinf hse, show ∀ x : ℝ, fin x + pinf = pinf from fun _ => rfl]
  · simp [bind, Except.bind, pure, Except.pure, ppfFl_zero D hdf, times_ninf hse, show ∀ x : ℝ, fin x + ninf = ninf from fun _ => rfl]
  · simp [bind, Except.bind, pure, Except.pure, ppfFl_outside D hp, nan_all]

end Feedx
