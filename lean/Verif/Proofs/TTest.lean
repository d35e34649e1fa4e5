import Mathlib.Analysis.SpecialFunctions.Log.Basic
import Verif.Model.TTest
import Verif.Proofs.Trimmed
import Verif.Spec.TTest

/-!
Helper lemmas about the t distribution contract and float arithmetic on reals.
-/

set_option linter.unusedSectionVars false
set_option linter.unusedSimpArgs false

namespace Feedx

open Fl

/-! ### The t distribution -/

namespace TDist
variable (D : TDist) {d : ℝ} (hd : 0 < d)
include hd

theorem lt_one (x : ℝ) : D.cdf d x < 1 := by
  have h := D.pos d hd (-x)
  rw [D.symm d hd] at h
  linarith

theorem cdf_zero : D.cdf d 0 = 1 / 2 := by
  have h := D.symm d hd 0
  rw [neg_zero] at h
  linarith

theorem cdf_lt_iff {q : ℝ} (h0 : 0 < q) (h1 : q < 1) (x : ℝ) : D.cdf d x < q ↔ x < D.ppf d q := by
  conv_lhs => rw [← D.cdf_ppf d hd q h0 h1]
  exact (D.strictMono d hd).lt_iff_lt

theorem lt_cdf_iff {q : ℝ} (h0 : 0 < q) (h1 : q < 1) (x : ℝ) : q < D.cdf d x ↔ D.ppf d q < x := by
  conv_lhs => rw [← D.cdf_ppf d hd q h0 h1]
  exact (D.strictMono d hd).lt_iff_lt

theorem ppf_lt_iff {q q' : ℝ} (h0 : 0 < q) (h1 : q < 1) (h0' : 0 < q') (h1' : q' < 1) :
    D.ppf d q < D.ppf d q' ↔ q < q' := by
  rw [← D.cdf_lt_iff hd h0' h1', D.cdf_ppf d hd q h0 h1]

theorem ppf_le_iff {q q' : ℝ} (h0 : 0 < q) (h1 : q < 1) (h0' : 0 < q') (h1' : q' < 1) :
    D.ppf d q ≤ D.ppf d q' ↔ q ≤ q' := by
  rw [← not_lt, ← not_lt, D.ppf_lt_iff hd h0' h1' h0 h1]

theorem ppf_one_sub {q : ℝ} (h0 : 0 < q) (h1 : q < 1) : D.ppf d (1 - q) = - D.ppf d q := by
  apply (D.strictMono d hd).injective
  rw [D.cdf_ppf d hd (1 - q) (by linarith) (by linarith), D.symm d hd, D.cdf_ppf d hd q h0 h1]

theorem ppf_half : D.ppf d (1 / 2) = 0 := by
  apply (D.strictMono d hd).injective
  rw [D.cdf_ppf d hd _ (by norm_num) (by norm_num), D.cdf_zero hd]

theorem ppf_nonneg {q : ℝ} (h0 : 1 / 2 ≤ q) (h1 : q < 1) : 0 ≤ D.ppf d q := by
  rw [← D.ppf_half hd]
  exact (D.ppf_le_iff hd (by norm_num) (by norm_num) (by linarith) h1).mpr h0

theorem ppf_pos_iff {q : ℝ} (h0 : 0 < q) (h1 : q < 1) : 0 < D.ppf d q ↔ 1 / 2 < q := by
  rw [← D.ppf_half hd]
  exact D.ppf_lt_iff hd (by norm_num) (by norm_num) h0 h1

theorem ppfFl_fin {q : ℝ} (h0 : 0 < q) (h1 : q < 1) : D.ppfFl (fin d) q = fin (D.ppf d q) := by
  unfold ppfFl
  simp only [hd, if_true]
  rw [if_neg (by linarith), if_neg (by linarith), if_pos h1]

theorem cdfFl_fin (x : ℝ) : D.cdfFl (fin d) (fin x) = fin (D.cdf d x) := by
  simp [cdfFl, hd]

end TDist

/-- A distribution meeting the contract (the logistic one, for every number of degrees of freedom), so
that theorems quantifying over `TDist` are not vacuous. -/
noncomputable def TDist.logistic : TDist where
  cdf _ x := 1 / (1 + Real.exp (-x))
  ppf _ q := Real.log (q / (1 - q))
  strictMono := by
    intro _ _ x y h
    apply one_div_lt_one_div_of_lt
    · have := Real.exp_pos (-y); linarith
    · have := Real.exp_lt_exp.mpr (neg_lt_neg h); linarith
  symm := by
    intro _ _ x
    rw [neg_neg, Real.exp_neg]
    have := Real.exp_pos x
    field_simp
    ring
  pos := by
    intro _ _ x
    have := Real.exp_pos (-x)
    positivity
  cdf_ppf := by
    intro _ _ q h0 h1
    have h2 : 0 < 1 - q := by linarith
    rw [Real.exp_neg, Real.exp_log (by positivity)]
    field_simp
    ring

/-! ### Floats -/

namespace Fl

@[simp] theorem sqrt_fin {x : ℝ} (h : 0 ≤ x) : sqrt (fin x) = fin (Real.sqrt x) := by
  show (if x < 0 then nan else fin (Real.sqrt x)) = _
  rw [if_neg (not_lt.mpr h)]
@[simp] theorem abs_fin (x : ℝ) : abs (fin x) = fin |x| := rfl
@[simp] theorem sq_fin (x : ℝ) : sq (fin x) = fin (x * x) := rfl
@[simp] theorem clip0_fin (x : ℝ) : clip0 (fin x) = fin (max 0 x) := rfl
@[simp] theorem closeToZero_fin (x : ℝ) : closeToZero (fin x) = decide (|x| ≤ 1 / 10 ^ 8) := rfl
@[simp] theorem pinf_sub_fin (x : ℝ) : (pinf - fin x : Fl ℝ) = pinf := rfl
@[simp] theorem le_pinf_fin (x : ℝ) : le (pinf : Fl ℝ) (fin x) = false := rfl
@[simp] theorem le_fin_pinf (x : ℝ) : le (fin x) (pinf : Fl ℝ) = true := rfl
@[simp] theorem le_ninf_fin (x : ℝ) : le (ninf : Fl ℝ) (fin x) = true := rfl
@[simp] theorem lt_ninf_fin (x : ℝ) : lt (ninf : Fl ℝ) (fin x) = true := rfl
@[simp] theorem lt_fin_pinf (x : ℝ) : lt (fin x) (pinf : Fl ℝ) = true := rfl
@[simp] theorem lt_pinf_fin (x : ℝ) : lt (pinf : Fl ℝ) (fin x) = false := rfl
@[simp] theorem lt_fin_ninf (x : ℝ) : lt (fin x) (ninf : Fl ℝ) = false := rfl

theorem mul_comm' (a b : Fl ℝ) : a * b = b * a := by
  cases a <;> cases b <;> first | rfl | (show fin _ = fin _; rw [mul_comm])

theorem neg_neg' (a : Fl ℝ) : - -a = a := by
  cases a <;> first | rfl | (show fin _ = fin _; rw [neg_neg])

theorem neg_add' (a b : Fl ℝ) : -(a + b) = -a + -b := by
  cases a <;> cases b <;> first | rfl | (show fin _ = fin _; rw [neg_add])

theorem sub_eq (a b : Fl ℝ) : a - b = a + -b := rfl

theorem neg_sub' (a b : Fl ℝ) : -(a - b) = b - a := by
  rw [sub_eq, neg_add', neg_neg', add_comm', sub_eq]

theorem infSign_neg (x : ℝ) : infSign (-x) = -infSign x := by
  unfold infSign
  rcases lt_trichotomy x 0 with h | h | h
  · rw [if_pos (by linarith), if_neg (by linarith), if_pos h]; rfl
  · subst h; simp; rfl
  · rw [if_neg (by linarith), if_pos (by linarith), if_pos h]; rfl

theorem neg_div' (a b : Fl ℝ) : -a / b = -(a / b) := by
  cases a <;> cases b
  case fin.fin x y =>
    show (fin (-x) / fin y : Fl ℝ) = _
    rw [fin_div, fin_div]
    split_ifs
    · exact infSign_neg x
    · show fin _ = fin _; rw [neg_div]
  all_goals first
    | rfl
    | (show fin _ = fin _; simp)
    | (rename_i y; show (if y < 0 then _ else _) = neg (if y < 0 then _ else _)
       split_ifs <;> rfl)

theorem abs_neg' (a : Fl ℝ) : abs (-a) = abs a := by
  cases a <;> first | rfl | (show fin _ = fin _; rw [abs_neg])

theorem neg_one_mul' (a : Fl ℝ) : fin (-1) * a = -a := by
  cases a
  · rfl
  · show infSign (- (-1) : ℝ) = pinf
    unfold infSign; norm_num
  · show infSign (-1 : ℝ) = ninf
    unfold infSign; norm_num
  · show fin _ = fin _
    rw [neg_one_mul]

end Fl

/-! ### The tests -/

/-- p-value for a known alternative. -/
noncomputable def pOf (D : TDist) (df stat : Fl ℝ) (alt : String) : Fl ℝ :=
  if alt = "two-sided" then fin 2 * D.cdfFl df (-stat.abs)
  else if alt = "greater" then D.cdfFl df (-stat)
  else D.cdfFl df stat

/-- Confidence bounds for a known alternative. -/
noncomputable def boundsOf (D : TDist) (diff se df : Fl ℝ) (alt : String) (α : ℝ) : Fl ℝ × Fl ℝ :=
  if alt = "two-sided" then
    (diff - D.ppfFl df (1 - α / 2) * se, diff + D.ppfFl df (1 - α / 2) * se)
  else if alt = "greater" then (diff - D.ppfFl df (1 - α) * se, pinf)
  else (ninf, diff + D.ppfFl df (1 - α) * se)

/-- The known alternatives. -/
def KnownAlt (alt : String) : Prop := alt = "two-sided" ∨ alt = "greater" ∨ alt = "less"

theorem ttestFromStats_ok {D : TDist} {pe se df : Fl ℝ} {alt : String} {r : Fl ℝ × Fl ℝ} :
    ttestFromStats D pe se df alt = .ok r ↔ KnownAlt alt ∧ r = (pe / se, pOf D df (pe / se) alt) := by
  unfold ttestFromStats pOf KnownAlt
  simp only [neg_one_mul']
  split_ifs with h1 h2 h3 <;> simp [*, eq_comm]

theorem ttestFromStats_known {D : TDist} {pe se df : Fl ℝ} {alt : String} (h : KnownAlt alt) :
    ttestFromStats D pe se df alt = .ok (pe / se, pOf D df (pe / se) alt) :=
  ttestFromStats_ok.mpr ⟨h, rfl⟩

/-- The standard error rebuilt inside the interval computations. -/
noncomputable def ciSE (se1 se2 corr : Fl ℝ) : Fl ℝ :=
  (se1.sq + se2.sq - fin 2 * (se1 * se2 * corr)).sqrt

theorem absoluteCI_known {D : TDist} {m1 m2 se1 se2 corr df : Fl ℝ} {alt : String} {α : ℝ}
    (h : KnownAlt alt) : absoluteCI D m1 m2 se1 se2 corr df alt α =
      .ok (boundsOf D (m1 - m2) (ciSE se1 se2 corr) df alt α) := by
  unfold absoluteCI boundsOf ciSE
  rcases h with h | h | h <;> simp [h]

theorem criticalT_known {D : TDist} {df : Fl ℝ} {alt : String} {α : ℝ} (h : KnownAlt alt) :
    criticalT D df alt α = .ok (D.ppfFl df (1 - if alt = "two-sided" then α / 2 else α)) := by
  unfold criticalT
  rcases h with h | h | h <;> simp [h]

theorem not_known {alt : String} (h : ¬ KnownAlt alt) :
    alt ≠ "two-sided" ∧ alt ≠ "greater" ∧ alt ≠ "less" := by
  unfold KnownAlt at h
  push Not at h
  exact h

/-- Everything but the relative difference of a returned result. -/
theorem resultsFrom_ok {D : TDist} {e : Estimates} {pf : Bool} {alt : String} {α : ℝ} {r : TestResult}
    (h : resultsFrom D e pf alt α = .ok r) :
    KnownAlt alt ∧ r.statistic = e.difference / e.differenceSE ∧
      r.pValue = pOf D e.df (e.difference / e.differenceSE) alt ∧
      r.isSignificant = Fl.lt r.pValue (fin α) ∧ r.alpha = α ∧ r.absoluteDifference = e.difference ∧
      (r.absoluteLower, r.absoluteUpper) =
        boundsOf D (e.mean1 - e.mean2) (ciSE e.se1 e.se2 e.corr) e.df alt α ∧
      r.standardError = e.differenceSE ∧ r.sampleSize = e.sampleSize ∧ r.degreesOfFreedom = e.df ∧
      r.controlAverage = e.mean2 := by
  unfold resultsFrom at h
  obtain ⟨sp, h1, h⟩ := Py.bind_eq_ok.mp h
  obtain ⟨hk, rfl⟩ := ttestFromStats_ok.mp h1
  rw [absoluteCI_known hk] at h
  obtain ⟨ci, h2, h⟩ := Py.bind_eq_ok.mp h
  cases h2
  refine ⟨hk, ?_⟩
  split_ifs at h
  · obtain ⟨-, h⟩ := raiseIf_bind_ok.mp h
    obtain ⟨rel, -, h⟩ := Py.bind_eq_ok.mp h
    cases h
    exact ⟨rfl, rfl, rfl, rfl, rfl, rfl, rfl, rfl, rfl, rfl⟩
  · cases h
    exact ⟨rfl, rfl, rfl, rfl, rfl, rfl, rfl, rfl, rfl, rfl⟩

end Feedx
