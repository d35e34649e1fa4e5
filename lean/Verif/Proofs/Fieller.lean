import Verif.Proofs.TTestSE
import Verif.Spec.Fieller

/-!
Helper lemmas about Fieller's confidence set.
-/

set_option linter.unusedSectionVars false
set_option linter.unusedSimpArgs false

namespace Feedx

open Fl

/-! ### The quadratic -/

section Quadratic
variable {m1 m2 v1 v2 v12 c : ℝ}

/-- The discriminant. -/
theorem fieller_disc (m1 m2 v1 v2 v12 c : ℝ) :
    (m1 * m2 - c * v12) * (m1 * m2 - c * v12) - (m1 * m1 - c * v1) * (m2 * m2 - c * v2) =
      c * ((m1 * m1 * v2 - 2 * m2 * m1 * v12 + m2 * m2 * v1) - c * (v1 * v2 - v12 * v12)) := by ring

theorem form_nonneg (h1 : 0 ≤ v1) (h2 : 0 ≤ v2) (h12 : v12 * v12 ≤ v1 * v2) (a b : ℝ) :
    0 ≤ a * a * v2 - 2 * b * a * v12 + b * b * v1 := by
  rcases h2.eq_or_lt with h | h
  · subst h
    have : v12 = 0 := by nlinarith [mul_self_nonneg v12]
    subst this
    nlinarith [mul_nonneg (mul_self_nonneg b) h1]
  · have : 0 ≤ v2 * (a * a * v2 - 2 * b * a * v12 + b * b * v1) := by
      nlinarith [mul_self_nonneg (a * v2 - b * v12), mul_nonneg (mul_self_nonneg b) (sub_nonneg.mpr h12)]
    exact nonneg_of_mul_nonneg_right this h

theorem disc_nonneg (h1 : 0 ≤ v1) (h2 : 0 ≤ v2) (h12 : v12 * v12 ≤ v1 * v2)
    (hs : c * v2 < m2 * m2) :
    c * (v1 * v2 - v12 * v12) ≤ m1 * m1 * v2 - 2 * m2 * m1 * v12 + m2 * m2 * v1 := by
  rcases h2.eq_or_lt with h | h
  · subst h
    have : v12 = 0 := by nlinarith [mul_self_nonneg v12]
    subst this
    nlinarith [mul_nonneg (mul_self_nonneg m2) h1]
  · have : 0 ≤ v2 * (m1 * m1 * v2 - 2 * m2 * m1 * v12 + m2 * m2 * v1 - c * (v1 * v2 - v12 * v12)) := by
      nlinarith [mul_self_nonneg (m1 * v2 - m2 * v12), mul_nonneg (sub_nonneg.mpr hs.le) (sub_nonneg.mpr h12)]
    linarith [nonneg_of_mul_nonneg_right this h]

theorem disc_pos (h2 : 0 < v2) (hd : v12 * v12 < v1 * v2) (hs : c * v2 < m2 * m2) :
    c * (v1 * v2 - v12 * v12) < m1 * m1 * v2 - 2 * m2 * m1 * v12 + m2 * m2 * v1 := by
  have : 0 < v2 * (m1 * m1 * v2 - 2 * m2 * m1 * v12 + m2 * m2 * v1 - c * (v1 * v2 - v12 * v12)) := by
    nlinarith [mul_self_nonneg (m1 * v2 - m2 * v12), mul_pos (sub_pos.mpr hs) (sub_pos.mpr hd)]
  linarith [pos_of_mul_pos_right this h2.le]

/-- Square of the distance from the centre of the interval. -/
theorem centre_sq (m1 m2 v1 v2 v12 c l : ℝ) :
    (l * (m2 * m2 - c * v2) - (m1 * m2 - c * v12)) ^ 2 =
      (m2 * m2 - c * v2) * ((m1 - l * m2) ^ 2 - c * (v1 - 2 * l * v12 + l ^ 2 * v2)) +
      ((m1 * m2 - c * v12) * (m1 * m2 - c * v12) - (m1 * m1 - c * v1) * (m2 * m2 - c * v2)) := by ring

end Quadratic

theorem corr_sq {s1 s2 rho : ℝ} (hr : |rho| ≤ 1) :
    s1 * s2 * rho * (s1 * s2 * rho) ≤ s1 * s1 * (s2 * s2) := by
  have h1 : rho * rho ≤ 1 := by
    have := abs_le.mp hr
    nlinarith
  nlinarith [mul_nonneg (mul_self_nonneg s1) (mul_self_nonneg s2)]

theorem combinedVar_nonneg {s1 s2 rho : ℝ} (hr : |rho| ≤ 1) (l : ℝ) : 0 ≤ Spec.combinedVar s1 s2 rho l := by
  have := form_nonneg (mul_self_nonneg s1) (mul_self_nonneg s2) (corr_sq (s1 := s1) (s2 := s2) hr) l 1
  unfold Spec.combinedVar
  nlinarith [this]

/-- The bounds of the ratio when the control mean is significantly away from zero. -/
theorem ratioBounds_sig {m1 m2 s1 s2 rho t : ℝ} (hr : |rho| ≤ 1) (hs : t * t * (s2 * s2) < m2 * m2) :
    let a12 := m1 * m2 - t * t * (s1 * s2 * rho)
    let a1 := m1 * m1 - t * t * (s1 * s1)
    let a2 := m2 * m2 - t * t * (s2 * s2)
    ratioBounds (fin m1) (fin m2) (fin s1) (fin s2) (fin rho) (fin t) =
      (fin (max 0 ((a12 - Real.sqrt (a12 * a12 - a1 * a2)) / a2)),
        fin ((a12 + Real.sqrt (a12 * a12 - a1 * a2)) / a2)) := by
  intro a12 a1 a2
  have ha2 : 0 < a2 := sub_pos.mpr hs
  have h12 := corr_sq (s1 := s1) (s2 := s2) hr
  have hv1 := mul_self_nonneg s1
  have hv2 := mul_self_nonneg s2
  have hD : 0 ≤ a12 * a12 - a1 * a2 := by
    rw [fieller_disc]
    exact mul_nonneg (mul_self_nonneg t) (sub_nonneg.mpr (disc_nonneg hv1 hv2 h12 hs))
  have hcomp : Fl.le (if (fin (s1 * s1)).closeToZero || (fin (s2 * s2)).closeToZero then pinf
      else fin (m1 * m1 * (s2 * s2) - 2 * m2 * m1 * (s1 * s2 * rho) + m2 * m2 * (s1 * s1)) /
        fin (s1 * s1 * (s2 * s2) - s1 * s2 * rho * (s1 * s2 * rho))) (fin (t * t)) = false := by
    split_ifs with hc
    · rfl
    · simp only [closeToZero_fin, Bool.or_eq_true, decide_eq_true_eq, not_or, not_le] at hc
      have p2 : 0 < s2 * s2 := by
        rcases hv2.eq_or_lt with h | h
        · rw [← h] at hc; norm_num at hc
        · exact h
      rw [fin_div]
      split_ifs with hd
      · have hn := form_nonneg hv1 hv2 h12 m1 m2
        unfold infSign
        split_ifs with k1 k2
        · rfl
        · linarith
        · rfl
      · have hd' : 0 < s1 * s1 * (s2 * s2) - s1 * s2 * rho * (s1 * s2 * rho) :=
          lt_of_le_of_ne (sub_nonneg.mpr h12) (Ne.symm hd)
        rw [le_fin, decide_eq_false_iff_not, not_le, lt_div_iff₀ hd']
        exact disc_pos p2 (by linarith) hs
  have hexcl : Fl.le (if (fin (s2 * s2)).closeToZero then pinf else fin (m2 * m2) / fin (s2 * s2)) (fin (t * t))
      = false := by
    split_ifs with hc
    · rfl
    · simp only [closeToZero_fin, decide_eq_true_eq, not_le] at hc
      have p2 : 0 < s2 * s2 := by
        rcases hv2.eq_or_lt with h | h
        · rw [← h] at hc; norm_num at hc
        · exact h
      rw [fin_div_ne p2.ne', le_fin, decide_eq_false_iff_not, not_le, lt_div_iff₀ p2]
      exact hs
  have hexcl' : Fl.le (if (fin s2).sq.closeToZero then pinf else (fin m2).sq / (fin s2).sq) (fin t).sq = false := hexcl
  have hcomp' : Fl.le (if (fin s1).sq.closeToZero || (fin s2).sq.closeToZero then pinf
      else ((fin m1).sq * (fin s2).sq - fin 2 * fin m2 * fin m1 * (fin s1 * fin s2 * fin rho) +
        (fin m2).sq * (fin s1).sq) / ((fin s1).sq * (fin s2).sq - (fin s1 * fin s2 * fin rho).sq)) (fin t).sq
      = false := by
    rw [show (fin m1).sq * (fin s2).sq - fin 2 * fin m2 * fin m1 * (fin s1 * fin s2 * fin rho) +
        (fin m2).sq * (fin s1).sq =
        fin (m1 * m1 * (s2 * s2) - 2 * m2 * m1 * (s1 * s2 * rho) + m2 * m2 * (s1 * s1)) by
      simp only [sq_fin, fin_mul, fin_sub, fin_add],
      show (fin s1).sq * (fin s2).sq - (fin s1 * fin s2 * fin rho).sq =
        fin (s1 * s1 * (s2 * s2) - s1 * s2 * rho * (s1 * s2 * rho)) by
      simp only [sq_fin, fin_mul, fin_sub, fin_add]]
    exact hcomp
  unfold ratioBounds
  dsimp only
  rw [hcomp', hexcl']
  simp only [Bool.false_eq_true, if_false, sq_fin, fin_mul, fin_sub, fin_add]
  rw [sqrt_fin hD, fin_sub, fin_add, fin_div_ne ha2.ne', fin_div_ne ha2.ne', clip0_fin]

/-- Either the ratio is unbounded or its bounds come from the quadratic. -/
theorem ratioBounds_cases (m1 m2 s1 s2 corr t : Fl ℝ) :
    let a12 := m1 * m2 - t.sq * (s1 * s2 * corr)
    let a1 := m1.sq - t.sq * s1.sq
    let a2 := m2.sq - t.sq * s2.sq
    ratioBounds m1 m2 s1 s2 corr t = (fin 0, pinf) ∨
      (ratioBounds m1 m2 s1 s2 corr t).1 = ((a12 - (a12.sq - a1 * a2).sqrt) / a2).clip0 ∧
      (ratioBounds m1 m2 s1 s2 corr t).2 =
        if Fl.le (if s2.sq.closeToZero then pinf else m2.sq / s2.sq) t.sq then pinf
        else (a12 + (a12.sq - a1 * a2).sqrt) / a2 := by
  intro a12 a1 a2
  unfold ratioBounds
  dsimp only
  generalize (if (s1.sq.closeToZero || s2.sq.closeToZero) = true then (pinf : Fl ℝ) else _) = tc
  by_cases h : Fl.le tc t.sq = true
  · left; rw [if_pos h]
  · right; rw [if_neg h]; exact ⟨rfl, rfl⟩

/-- With an uncertain control mean and not too strongly correlated samples the larger root is at most the ratio. -/
theorem larger_root_le {m1 m2 s1 s2 rho t : ℝ} (hm2 : 0 < m2) (hr : |rho| ≤ 1)
    (h12 : m2 * (s1 * s2 * rho) ≤ m1 * s2 ^ 2)
    (hneg : m2 * m2 - t * t * (s2 * s2) < 0) :
    let a12 := m1 * m2 - t * t * (s1 * s2 * rho)
    let a1 := m1 * m1 - t * t * (s1 * s1)
    let a2 := m2 * m2 - t * t * (s2 * s2)
    (a12 - Real.sqrt (a12 * a12 - a1 * a2)) / a2 ≤ m1 / m2 := by
  intro a12 a1 a2
  rw [div_le_iff_of_neg hneg]
  have hcs := centre_sq m1 m2 (s1 * s1) (s2 * s2) (s1 * s2 * rho) (t * t) (m1 / m2)
  rw [div_mul_cancel₀ _ hm2.ne', sub_self] at hcs
  have hV := combinedVar_nonneg (s1 := s1) (s2 := s2) hr (m1 / m2)
  have hVe : s1 * s1 - 2 * (m1 / m2) * (s1 * s2 * rho) + (m1 / m2) ^ 2 * (s2 * s2) =
      Spec.combinedVar s1 s2 rho (m1 / m2) := by unfold Spec.combinedVar; ring
  rw [hVe] at hcs
  have hge : Real.sqrt (a12 * a12 - a1 * a2) ≤ |m1 / m2 * a2 - a12| := by
    rw [← Real.sqrt_sq_eq_abs]
    apply Real.sqrt_le_sqrt
    have h0 : 0 ≤ a2 * ((0 : ℝ) ^ 2 - t * t * Spec.combinedVar s1 s2 rho (m1 / m2)) := by
      apply mul_nonneg_of_nonpos_of_nonpos hneg.le
      have := mul_nonneg (mul_self_nonneg t) hV
      linarith [zero_pow (M₀ := ℝ) two_ne_zero]
    exact le_of_le_of_eq (le_add_of_nonneg_left h0) hcs.symm
  have hvert : m1 / m2 * a2 - a12 ≤ 0 := by
    have : m1 / m2 * a2 - a12 = -(t * t * (m1 * s2 ^ 2 - m2 * (s1 * s2 * rho)) / m2) := by
      simp only [a2, a12]; field_simp; ring
    rw [this]
    exact neg_nonpos.mpr (div_nonneg (mul_nonneg (mul_self_nonneg t) (sub_nonneg.mpr h12)) hm2.le)
  rw [abs_of_nonpos hvert] at hge
  linarith

/-- The relative interval from the bounds of the ratio. -/
theorem relativeCI_known {D : TDist} {m1 m2 : ℝ} {s1 s2 rho df : Fl ℝ} {alt : String} {α : ℝ} (hk : KnownAlt alt)
    (h1 : 0 ≤ m1) (h2 : 0 ≤ m2) :
    relativeCI D (fin m1) (fin m2) s1 s2 rho df alt α =
      .ok (let b := ratioBounds (fin m1) (fin m2) s1 s2 rho
            (D.ppfFl df (1 - if alt = "two-sided" then α / 2 else α))
        (if alt = "less" then fin (-1) else b.1 - fin 1, if alt = "greater" then pinf else b.2 - fin 1)) := by
  unfold relativeCI
  rw [criticalT_known hk]
  have : ¬ (Fl.lt (fin m1) (fin 0) = true ∨ Fl.lt (fin m2) (fin 0) = true) := by
    simp only [lt_fin, decide_eq_true_eq, not_or, not_lt]; exact ⟨h1, h2⟩
  simp only [raiseIf, if_neg this]
  rcases hk with h | h | h <;> subst h <;> rfl

theorem crit_eq (D : TDist) {df α : ℝ} (hdf : 0 < df) (h0 : 0 < α) (h1 : α < 1) (alt : String) :
    D.ppfFl (fin df) (1 - if alt = "two-sided" then α / 2 else α) = fin (Spec.critical (D.ppf df) alt α) := by
  unfold Spec.critical
  split_ifs
  · rw [D.ppfFl_fin hdf (by linarith) (by linarith)]
  · rw [D.ppfFl_fin hdf (by linarith) (by linarith)]

theorem crit_nonneg (D : TDist) {df α : ℝ} (hdf : 0 < df) (h0 : 0 < α) (h1 : α < 1) {alt : String}
    (ht : alt ≠ "two-sided" → α ≤ 1 / 2) : 0 ≤ Spec.critical (D.ppf df) alt α := by
  unfold Spec.critical
  split_ifs with h
  · exact D.ppf_nonneg hdf (by linarith) (by linarith)
  · exact D.ppf_nonneg hdf (by linarith [ht h]) (by linarith)

/-- The three forms of the interval against the three forms of the test. -/
theorem fieller_core {m1 m2 s1 s2 rho t : ℝ} (ht : 0 ≤ t) (hm : 0 ≤ m2) (hr : |rho| ≤ 1)
    (hs : t * t * (s2 * s2) < m2 * m2) (l : ℝ) :
    let a12 := m1 * m2 - t * t * (s1 * s2 * rho)
    let a1 := m1 * m1 - t * t * (s1 * s1)
    let a2 := m2 * m2 - t * t * (s2 * s2)
    let lo := (a12 - Real.sqrt (a12 * a12 - a1 * a2)) / a2
    let hi := (a12 + Real.sqrt (a12 * a12 - a1 * a2)) / a2
    (lo ≤ l ∧ l ≤ hi ↔ |m1 - l * m2| ≤ t * Real.sqrt (Spec.combinedVar s1 s2 rho l)) ∧
    (lo ≤ l ↔ m1 - l * m2 ≤ t * Real.sqrt (Spec.combinedVar s1 s2 rho l)) ∧
    (l ≤ hi ↔ -(t * Real.sqrt (Spec.combinedVar s1 s2 rho l)) ≤ m1 - l * m2) ∧
    lo ≤ m1 / m2 ∧ m1 / m2 ≤ hi := by
  intro a12 a1 a2 lo hi
  have ha2 : 0 < a2 := sub_pos.mpr hs
  have h12 := corr_sq (s1 := s1) (s2 := s2) hr
  have hD : 0 ≤ a12 * a12 - a1 * a2 := by
    rw [fieller_disc]
    exact mul_nonneg (mul_self_nonneg t) (sub_nonneg.mpr (disc_nonneg (mul_self_nonneg s1)
      (mul_self_nonneg s2) h12 hs))
  have hm2 : 0 < m2 := by
    rcases hm.eq_or_lt with h | h
    · rw [← h] at hs; nlinarith [mul_nonneg (mul_self_nonneg t) (mul_self_nonneg s2)]
    · exact h
  have elo : ∀ l, lo ≤ l ↔ -(l * a2 - a12) ≤ Real.sqrt (a12 * a12 - a1 * a2) := by
    intro l
    rw [div_le_iff₀ ha2]; constructor <;> intro h <;> linarith
  have ehi : ∀ l, l ≤ hi ↔ l * a2 - a12 ≤ Real.sqrt (a12 * a12 - a1 * a2) := by
    intro l
    rw [le_div_iff₀ ha2]; constructor <;> intro h <;> linarith
  have two : ∀ l, (lo ≤ l ∧ l ≤ hi) ↔ |m1 - l * m2| ≤ t * Real.sqrt (Spec.combinedVar s1 s2 rho l) := by
    intro l
    have hV := combinedVar_nonneg (s1 := s1) (s2 := s2) hr l
    have hmarg : 0 ≤ t * Real.sqrt (Spec.combinedVar s1 s2 rho l) := mul_nonneg ht (Real.sqrt_nonneg _)
    rw [elo, ehi, and_comm, ← max_le_iff, ← abs_eq_max_neg, ← Real.sqrt_sq_eq_abs, Real.sqrt_le_sqrt_iff hD]
    rw [← abs_of_nonneg hmarg, ← sq_le_sq, mul_pow, Real.sq_sqrt hV, centre_sq (v1 := s1 * s1)]
    have : s1 * s1 - 2 * l * (s1 * s2 * rho) + l ^ 2 * (s2 * s2) = Spec.combinedVar s1 s2 rho l := by
      unfold Spec.combinedVar; ring
    rw [this]
    constructor
    · intro h
      have : a2 * ((m1 - l * m2) ^ 2 - t * t * Spec.combinedVar s1 s2 rho l) ≤ 0 := by linarith
      have := nonpos_of_mul_nonpos_right this ha2
      nlinarith
    · intro h
      have : a2 * ((m1 - l * m2) ^ 2 - t * t * Spec.combinedVar s1 s2 rho l) ≤ 0 :=
        mul_nonpos_of_nonneg_of_nonpos ha2.le (by nlinarith)
      linarith
  have hest : lo ≤ m1 / m2 ∧ m1 / m2 ≤ hi := by
    rw [two, div_mul_cancel₀ _ hm2.ne', sub_self, abs_zero]
    exact mul_nonneg ht (Real.sqrt_nonneg _)
  have hmarg : 0 ≤ t * Real.sqrt (Spec.combinedVar s1 s2 rho l) := mul_nonneg ht (Real.sqrt_nonneg _)
  have hsign : ∀ {a b : ℝ}, a < b → a * m2 < b * m2 := fun h => mul_lt_mul_of_pos_right h hm2
  have hcan : m1 / m2 * m2 = m1 := div_mul_cancel₀ _ hm2.ne'
  refine ⟨two l, ⟨?_, ?_⟩, ⟨?_, ?_⟩, hest⟩
  · intro h
    rcases le_or_gt l hi with h' | h'
    · exact (abs_le.mp ((two l).mp ⟨h, h'⟩)).2
    · have := hsign (lt_of_le_of_lt hest.2 h')
      linarith
  · intro h
    by_contra hc
    have := hsign (lt_of_lt_of_le (not_le.mp hc) hest.1)
    have habs : |m1 - l * m2| ≤ t * Real.sqrt (Spec.combinedVar s1 s2 rho l) := by
      rw [abs_of_nonneg (by linarith)]; exact h
    exact hc ((two l).mpr habs).1
  · intro h
    rcases le_or_gt lo l with h' | h'
    · exact (abs_le.mp ((two l).mp ⟨h', h⟩)).1
    · have := hsign (lt_of_lt_of_le h' hest.1)
      linarith
  · intro h
    by_contra hc
    have := hsign (lt_of_le_of_lt hest.2 (not_le.mp hc))
    have habs : |m1 - l * m2| ≤ t * Real.sqrt (Spec.combinedVar s1 s2 rho l) := by
      rw [abs_of_nonpos (by linarith)]; linarith
    exact hc ((two l).mpr habs).2

end Feedx
