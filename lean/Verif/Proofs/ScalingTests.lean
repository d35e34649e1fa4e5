import Verif.Proofs.Scaling

/-!
Lemmas for C128: the t-tests and the adjustment of values in other units.
-/

set_option linter.unusedSectionVars false
set_option maxHeartbeats 1000000

namespace Feedx

open Fl

theorem indEstimates_inUnits {k : ℝ} (hk : 0 < k) (m1 m2 v1 v2 : Fl ℝ) (n1 n2 : ℕ) :
    indEstimates (fin k * m1) (fin k * m2) (fin (k * k) * v1) (fin (k * k) * v2) n1 n2 false =
      (indEstimates m1 m2 v1 v2 n1 n2 false).inUnits k := by
  have hkk := mul_pos hk hk
  unfold indEstimates Estimates.inUnits twoSampleSE twoSampleDf
  simp only [Bool.false_eq_true, if_false, sc_sqrt hk, sc_sq hk, sc_div_right hkk, sc_add hkk, sc_sub hk, sc_sq hkk, sc_div_right (mul_pos hkk hkk),
    sc_add (mul_pos hkk hkk)]
  rw [← sc_div_right (mul_pos hkk hkk), sc_div_same (mul_pos hkk hkk)]

theorem infSign_not_fin (x y : ℝ) : infSign x ≠ fin y := by
  unfold infSign; split_ifs <;> exact fun h => by cases h

theorem mul_fin {x y : Fl ℝ} {z : ℝ} (h : x * y = fin z) : ∃ a b, x = fin a ∧ y = fin b := by
  cases x with
  | nan => cases h
  | ninf =>
    cases y with
    | fin b => exact absurd h (infSign_not_fin _ _)
    | _ => cases h
  | pinf =>
    cases y with
    | fin b => exact absurd h (infSign_not_fin _ _)
    | _ => cases h
  | fin a =>
    cases y with
    | fin b => exact ⟨a, b, rfl, rfl⟩
    | nan => cases h
    | _ => exact absurd h (infSign_not_fin _ _)

theorem add_fin {x y : Fl ℝ} {z : ℝ} (h : x + y = fin z) : ∃ a b, x = fin a ∧ y = fin b := by
  cases x <;> cases y <;> first | exact ⟨_, _, rfl, rfl⟩ | cases h

theorem neg_fin {x : Fl ℝ} {z : ℝ} (h : -x = fin z) : ∃ a, x = fin a := by
  cases x <;> first | exact ⟨_, rfl⟩ | cases h

theorem sqrt_is_fin {x : Fl ℝ} {z : ℝ} (h : x.sqrt = fin z) : ∃ a, x = fin a := by
  cases x <;> first | exact ⟨_, rfl⟩ | cases h

theorem relativeBounds_scale {k : ℝ} (hk : 0 < k) (D : TDist) (m1 m2 s1 s2 df : Fl ℝ) (α : ℝ) (h0 : 0 < α) (h1 : α < 1)
    (hle : (Fl.le (fin 0) m1 && Fl.le (fin 0) m2) = true) (x h : ℝ) (hx : m2 = fin x)
    (hh : (m1 - m2 + D.ppfFl df (1 - α / 2) * ciSE s1 s2 (fin 0)) - (m1 - m2) = fin h) (hlt : h < x) :
    relativeCI D (fin k * m1) (fin k * m2) (fin k * s1) (fin k * s2) (fin 0) df "two-sided" α =
      relativeCI D m1 m2 s1 s2 (fin 0) df "two-sided" α := by
  subst hx
  have hm1 : ∃ y, m1 = fin y := by
    cases m1 with
    | nan => exact absurd hh (by simp [Fl.sub_eq]; intro h; cases h)
    | ninf => simp [Fl.le] at hle
    | pinf =>
      exfalso
      generalize D.ppfFl df (1 - α / 2) * ciSE s1 s2 (fin 0) = z at hh
      have e : (pinf - fin x : Fl ℝ) = pinf := rfl
      rw [e] at hh
      cases z <;> cases hh
    | fin y => exact ⟨y, rfl⟩
  obtain ⟨y, rfl⟩ := hm1
  have hz : D.ppfFl df (1 - α / 2) * ciSE s1 s2 (fin 0) = fin h := by
    rw [fin_sub] at hh
    generalize D.ppfFl df (1 - α / 2) * ciSE s1 s2 (fin 0) = z at hh ⊢
    cases z with
    | nan => cases hh
    | ninf => cases hh
    | pinf => cases hh
    | fin z =>
      rw [fin_add, fin_sub] at hh
      have : y - x + z - (y - x) = h := by injection hh
      rw [← this]; congr 1; ring
  have hdf : ∃ d, df = fin d ∧ 0 < d := by
    unfold TDist.ppfFl at hz
    cases df with
    | fin d =>
      by_cases hd : 0 < d
      · exact ⟨d, rfl, hd⟩
      · simp only [if_neg hd] at hz; cases hz
    | nan => cases hz
    | ninf => cases hz
    | pinf => cases hz
  obtain ⟨d, rfl, hd⟩ := hdf
  have ht : D.ppfFl (fin d) (1 - α / 2) = fin (D.ppf d (1 - α / 2)) := by
    unfold TDist.ppfFl
    simp only [if_pos hd]
    rw [if_neg (by linarith), if_neg (by linarith), if_pos (by linarith)]
  rw [ht] at hz
  have hs : ∃ a b, s1 = fin a ∧ s2 = fin b := by
    obtain ⟨-, S, -, hS⟩ := mul_fin hz
    obtain ⟨V, hV⟩ := sqrt_is_fin hS
    rw [Fl.sub_eq] at hV
    obtain ⟨-, W, -, hW⟩ := add_fin hV
    obtain ⟨U, hU⟩ := neg_fin hW
    obtain ⟨-, Q, -, hQ⟩ := mul_fin hU
    obtain ⟨P, -, hP, -⟩ := mul_fin hQ
    exact mul_fin hP
  obtain ⟨a, b, rfl, rfl⟩ := hs
  simp only [fin_mul]
  simp only [Bool.and_eq_true, le_fin, decide_eq_true_eq] at hle
  refine C33_units_irrelevant_partial D y x a b 0 d k "two-sided" α hk hle.1 hle.2 (by simp) hd h0 h1 (Or.inl ?_)
  have hcr : Spec.critical (D.ppf d) "two-sided" α = D.ppf d (1 - α / 2) := by simp [Spec.critical]
  rw [hcr]
  have hS : ciSE (fin a) (fin b) (fin 0) = fin (Real.sqrt (a * a + b * b)) := by
    unfold ciSE
    simp only [sq_fin, fin_mul, fin_add, fin_sub, mul_zero, sub_zero]
    exact sqrt_fin (by nlinarith [mul_self_nonneg a, mul_self_nonneg b])
  rw [hS, fin_mul] at hz
  have hz' : D.ppf d (1 - α / 2) * Real.sqrt (a * a + b * b) = h := by injection hz
  have ht0 : 0 ≤ D.ppf d (1 - α / 2) := D.ppf_nonneg hd (by linarith) (by linarith)
  have hsq : Real.sqrt (a * a + b * b) ^ 2 = a * a + b * b := Real.sq_sqrt (by nlinarith [mul_self_nonneg a, mul_self_nonneg b])
  have hh0 : 0 ≤ h := by rw [← hz']; exact mul_nonneg ht0 (Real.sqrt_nonneg _)
  have h2 : h ^ 2 < x ^ 2 := by nlinarith
  have h3 : h ^ 2 = D.ppf d (1 - α / 2) ^ 2 * (a * a + b * b) := by rw [← hz', mul_pow, hsq]
  have h4 : 0 ≤ D.ppf d (1 - α / 2) ^ 2 * (a * a) := mul_nonneg (sq_nonneg _) (mul_self_nonneg a)
  nlinarith

/-- What is compared of two results in units that differ by the factor `k`. -/
def SameReport (k : ℝ) (r r' : TestResult) : Prop := Spec.ReportTimes k r r' ∧ (k = 1 → r' = r)

/-- The independent test on estimates in other units. -/
theorem ind_scale {k : ℝ} (hk : 0 < k) (D : TDist) (m1 m2 v1 v2 : Fl ℝ) (n1 n2 : ℕ) (pf : Bool) :
    Spec.SameOutcome (fun r r' => SameReport k r r' ∧ (Spec.Precise r → Spec.SameRelativeBounds r r'))
      (resultsFrom D (indEstimates m1 m2 v1 v2 n1 n2 false) pf "two-sided" defaultAlpha)
      (resultsFrom D (indEstimates (fin k * m1) (fin k * m2) (fin (k * k) * v1) (fin (k * k) * v2) n1 n2 false) pf "two-sided" defaultAlpha) := by
  rw [indEstimates_inUnits hk]
  refine (resultsFrom_scale hk D _ pf defaultAlpha).imp fun r r' hr _ ⟨h1, h2, h3, h4⟩ => ⟨⟨h1, h2⟩, ?_⟩
  rintro ⟨x, h, hx, hh, hlt⟩
  by_cases hle : (Fl.le (fin 0) m1 && Fl.le (fin 0) m2) = true
  · refine h3 hle ?_
    obtain ⟨-, a1, a2, a3, a4, a5, a6, a7, a8, a9, a10⟩ := resultsFrom_ok hr
    have a6' : r.absoluteUpper = _ := congrArg Prod.snd a6
    rw [a10] at hx
    rw [a6', a5] at hh
    refine relativeBounds_scale hk D m1 m2 _ _ _ defaultAlpha (by norm_num [defaultAlpha]) (by norm_num [defaultAlpha]) hle x h hx ?_ hlt
    unfold boundsOf at hh
    simp only [if_true] at hh
    exact hh
  · exact h4 ((Bool.not_eq_true _).mp hle)

section lists
variable {s0 s1 : ℝ}

theorem asStack_scale (l : List ℝ) : asStack (l.map (fun x => s0 * x)) = (asStack l).map (scaleCol (fun _ => s0)) := by
  unfold asStack; rw [List.map_map, List.map_map]; rfl

theorem stack2_scale (l d : List ℝ) :
    stack2 (l.map (fun x => s0 * x)) (d.map (fun x => s1 * x)) = (stack2 l d).map (scaleCol ![s0, s1]) := by
  unfold stack2
  rw [List.zipWith_map, List.map_zipWith]
  congr 1
  funext x y i
  fin_cases i <;> rfl

theorem stack3_scale (l d : List ℝ) :
    stack3 (l.map (fun x => s0 * x)) (d.map (fun x => s0 * x)) = (stack3 l d).map (scaleCol (fun _ => s0)) := by
  unfold stack3
  rw [List.zipWith_map, List.map_zipWith]
  congr 1
  funext x y i
  fin_cases i
  · show s0 * x - s0 * y = s0 * (x - y); ring
  · rfl
  · rfl

theorem stack5_scale (a da b db : List ℝ) :
    stack5 (a.map (fun x => s0 * x)) (da.map (fun x => s1 * x)) (b.map (fun x => s0 * x)) (db.map (fun x => s1 * x)) =
      (stack5 a da b db).map (scaleCol ![s0, s0, s1, s0, s1]) := by
  unfold stack5
  rw [List.zip_map, List.zip_map, List.zipWith_map, List.map_zipWith]
  congr 1
  funext x y i
  fin_cases i
  · show s0 * x.1 - s0 * y.1 = s0 * (x.1 - y.1); ring
  · rfl
  · rfl
  · rfl
  · rfl

end lists

theorem ratioMeanVar_scale {a b : ℝ} (ha : 0 < a) (hb : 0 < b) (m1 m2 v1 v2 c : Fl ℝ) :
    ratioMeanVar (fin a * m1) (fin b * m2) (fin (a * a) * v1) (fin (b * b) * v2) (fin (a * b) * c) =
      (fin (a / b) * (ratioMeanVar m1 m2 v1 v2 c).1, fin (a / b * (a / b)) * (ratioMeanVar m1 m2 v1 v2 c).2) := by
  have hab := mul_pos ha hb
  unfold ratioMeanVar
  simp only [sc_div ha hb, sc_sq ha, sc_sq hb, sc_div_same (mul_pos ha ha), sc_div_same (mul_pos hb hb), sc_mul ha hb, sc_left hab, sc_div_same hab,
    sc_sq (div_pos ha hb)]
  refine Prod.ext rfl ?_
  have := sc_mul (mul_pos (div_pos ha hb) (div_pos ha hb)) one_pos (m1 / m2).sq (v1 / m1.sq + v2 / m2.sq - fin 2 * c / (m1 * m2))
  rw [sc_one, mul_one] at this
  exact this

theorem ratioOf_scale {a b : ℝ} (ha : 0 < a) (hb : 0 < b) (T : TrimmedArray ℝ 1) :
    ratioOf (T.inUnits ![a, b]) = (fin (a / b) * (ratioOf T).1, fin (a / b * (a / b)) * (ratioOf T).2) := by
  have h0 : 0 < (![a, b] : Fin 2 → ℝ) 0 := ha
  unfold ratioOf
  rw [← ratioMeanVar_scale ha hb]
  simp only [T.mean_inUnits, T.cov_inUnits _ h0, fin_mul]
  rfl

/-- The independent test of values in other units. -/
theorem indTest_scale {s0 : ℝ} (h0 : 0 < s0) (R : Rounding ℝ) (argsort : List ℝ → List ℕ) (hc : Spec.SortsInUnits argsort s0) (D : TDist)
    (v1 v2 : List ℝ) (q : ℝ) :
    Spec.SameOutcome (fun r r' => SameReport s0 r r' ∧ (Spec.Precise r → Spec.SameRelativeBounds r r'))
      (indTest R argsort D v1 v2 q none none false "two-sided" defaultAlpha)
      (indTest R argsort D (v1.map (fun x => s0 * x)) (v2.map (fun x => s0 * x)) q none none false "two-sided" defaultAlpha) := by
  unfold indTest
  simp only [asStack_scale]
  rw [mkTrimmed_scale _ (asStack v1) q (hc _), mkTrimmed_scale _ (asStack v2) q (hc _)]
  refine Spec.SameOutcome.map.bind fun T1 _ hT1 => Spec.SameOutcome.map.bind fun T2 _ hT2 => ?_
  subst hT1 hT2
  simp only [TrimmedArray.len_inUnits]
  refine (Spec.SameOutcome.raiseIf Iff.rfl).bind fun _ _ _ => ?_
  simp only [TrimmedArray.mean_inUnits, TrimmedArray.var_inUnits (fun _ : Fin 1 => s0) _ h0]
  have := ind_scale h0 D (fin (T1.mean 0)) (fin (T2.mean 0)) (fin (T1.var 1 0)) (fin (T2.var 1 0)) T1.len T2.len true
  simpa only [fin_mul] using this

/-- The independent test of ratios in other units. -/
theorem indTest_ratio_scale {s0 s1 : ℝ} (h0 : 0 < s0) (h1 : 0 < s1) (R : Rounding ℝ) (argsort : List ℝ → List ℕ) (hc : Spec.SortsInUnits argsort s0)
    (D : TDist) (v1 v2 d1 d2 : List ℝ) (q : ℝ) :
    Spec.SameOutcome (fun r r' => SameReport (s0 / s1) r r' ∧ (Spec.Precise r → Spec.SameRelativeBounds r r'))
      (indTest R argsort D v1 v2 q (some d1) (some d2) false "two-sided" defaultAlpha)
      (indTest R argsort D (v1.map (fun x => s0 * x)) (v2.map (fun x => s0 * x)) q (some (d1.map (fun x => s1 * x))) (some (d2.map (fun x => s1 * x)))
        false "two-sided" defaultAlpha) := by
  unfold indTest
  simp only [stack2_scale, List.length_map]
  refine (Spec.SameOutcome.raiseIf Iff.rfl).bind fun _ _ _ => ?_
  rw [mkTrimmed_scale _ (stack2 v1 d1) q (hc _), mkTrimmed_scale _ (stack2 v2 d2) q (hc _)]
  refine Spec.SameOutcome.map.bind fun T1 _ hT1 => Spec.SameOutcome.map.bind fun T2 _ hT2 => ?_
  subst hT1 hT2
  simp only [TrimmedArray.len_inUnits]
  refine (Spec.SameOutcome.raiseIf Iff.rfl).bind fun _ _ _ => ?_
  simp only [ratioOf_scale h0 h1]
  exact ind_scale (div_pos h0 h1) D _ _ _ _ _ _ _

theorem pairedPlain_scale {s0 : ℝ} (h0 : 0 < s0) (T : TrimmedArray ℝ 2) : pairedPlain (T.inUnits (fun _ => s0)) = (pairedPlain T).inUnits s0 := by
  have e : ∀ x : ℝ, (fin (s0 * s0 * x) : Fl ℝ) = fin (s0 * s0) * fin x := fun x => (fin_mul _ _).symm
  have e' : ∀ i, (fin (s0 * T.mean i) : Fl ℝ) = fin s0 * fin (T.mean i) := fun i => (fin_mul _ _).symm
  unfold pairedPlain Estimates.inUnits oneSampleSE
  simp only [TrimmedArray.mean_inUnits, TrimmedArray.var_inUnits (fun _ : Fin 3 => s0) _ h0, TrimmedArray.cov_inUnits (fun _ : Fin 3 => s0) _ h0,
    TrimmedArray.len_inUnits, e, e', sc_sqrt h0, sc_div_right h0, sc_mul (mul_pos h0 h0) (mul_pos h0 h0)]
  have e2 : (fin (s0 * s0) * fin (s0 * s0) : Fl ℝ) = fin (s0 * s0 * (s0 * s0)) := fin_mul _ _
  simp only [e2, sc_sqrt (mul_pos h0 h0), sc_div_same (mul_pos h0 h0)]

theorem diffOfRatios_scale {a b : ℝ} (ha : 0 < a) (hb : 0 < b) (m : Fin 4 → ℝ) (cov : Fin 4 → Fin 4 → ℝ) (s : Fin 4 → ℝ) (hs : s = ![a, b, a, b]) :
    let r := diffOfRatios m cov
    let r' := diffOfRatios (fun i => s i * m i) (fun i j => s i * s j * cov i j)
    r'.differenceMean = fin (a / b) * r.differenceMean ∧ r'.differenceVar = fin (a / b * (a / b)) * r.differenceVar ∧
      r'.mean1 = fin (a / b) * r.mean1 ∧ r'.mean2 = fin (a / b) * r.mean2 ∧ r'.var1 = fin (a / b * (a / b)) * r.var1 ∧
      r'.var2 = fin (a / b * (a / b)) * r.var2 ∧ r'.corr12 = r.corr12 := by
  have hk := div_pos ha hb
  have hkk := mul_pos hk hk
  have r1 := ratioMeanVar_scale ha hb (fin (m 0)) (fin (m 1)) (fin (cov 0 0)) (fin (cov 1 1)) (fin (cov 0 1))
  have r2 := ratioMeanVar_scale ha hb (fin (m 2)) (fin (m 3)) (fin (cov 2 2)) (fin (cov 3 3)) (fin (cov 2 3))
  simp only [fin_mul] at r1 r2
  have hs0 : s 0 = a := by rw [hs]; rfl
  have hs1 : s 1 = b := by rw [hs]; rfl
  have hs2 : s 2 = a := by rw [hs]; rfl
  have hs3 : s 3 = b := by rw [hs]; rfl
  have hsp : ∀ i, 0 < s i := by intro i; fin_cases i <;> simp only [Fin.zero_eta, Fin.mk_one, Fin.reduceFinMk] <;> first | (rw [hs0]; exact ha) | (rw [hs1]; exact hb) | (rw [hs2]; exact ha) | (rw [hs3]; exact hb)
  have hv : (diffOfRatios (fun i => s i * m i) (fun i j => s i * s j * cov i j)).differenceVar =
      fin (a / b * (a / b)) * (diffOfRatios m cov).differenceVar := by
    let g : Fin 4 → ℝ := ![1 / b, a / (b * b), 1 / b, a / (b * b)]
    let grad : Fin 4 → Fl ℝ := ![fin 1 / fin (m 1), -fin (m 0) / (fin (m 1)).sq, fin (-1) / fin (m 3), fin (m 2) / (fin (m 3)).sq]
    let grad' : Fin 4 → Fl ℝ := ![fin 1 / fin (s 1 * m 1), -fin (s 0 * m 0) / (fin (s 1 * m 1)).sq, fin (-1) / fin (s 3 * m 3),
      fin (s 2 * m 2) / (fin (s 3 * m 3)).sq]
    have hg : ∀ i, 0 < g i := by
      intro i; fin_cases i
      · exact one_div_pos.mpr hb
      · exact div_pos ha (mul_pos hb hb)
      · exact one_div_pos.mpr hb
      · exact div_pos ha (mul_pos hb hb)
    have hgs : ∀ i, g i * s i = a / b := by
      intro i; fin_cases i
      · show 1 / b * s 0 = _; rw [hs0]; field_simp
      · show a / (b * b) * s 1 = _; rw [hs1]; field_simp
      · show 1 / b * s 2 = _; rw [hs2]; field_simp
      · show a / (b * b) * s 3 = _; rw [hs3]; field_simp
    have hone : ∀ z : ℝ, ∀ y : Fl ℝ, fin z / (fin b * y) = fin (1 / b) * (fin z / y) := fun z y => by
      have := sc_div one_pos hb (fin z) y
      rwa [sc_one] at this
    have hgrad : ∀ i, grad' i = fin (g i) * grad i := by
      intro i; fin_cases i
      · show fin 1 / fin (s 1 * m 1) = fin (1 / b) * (fin 1 / fin (m 1))
        rw [hs1, ← fin_mul, hone]
      · show -fin (s 0 * m 0) / (fin (s 1 * m 1)).sq = fin (a / (b * b)) * (-fin (m 0) / (fin (m 1)).sq)
        rw [hs0, hs1, ← fin_mul, ← fin_mul, sc_sq hb, ← scale_neg, sc_div ha (mul_pos hb hb)]
      · show fin (-1) / fin (s 3 * m 3) = fin (1 / b) * (fin (-1) / fin (m 3))
        rw [hs3, ← fin_mul, hone]
      · show fin (s 2 * m 2) / (fin (s 3 * m 3)).sq = fin (a / (b * b)) * (fin (m 2) / (fin (m 3)).sq)
        rw [hs2, hs3, ← fin_mul, ← fin_mul, sc_sq hb, sc_div ha (mul_pos hb hb)]
    have hterm : ∀ i j, grad' j * fin (s j * s i * cov j i) = fin (a / b * s i) * (grad j * fin (cov j i)) := by
      intro i j
      rw [hgrad, ← fin_mul, sc_mul (hg j) (mul_pos (hsp j) (hsp i)), ← mul_assoc, hgs]
    have hsum : ∀ k : ℝ, 0 < k → ∀ x : Fin 4 → Fl ℝ, sum4 (fun i => fin k * x i) = fin k * sum4 x := by
      intro k hk x; unfold sum4; rw [sc_add hk, sc_add hk, sc_add hk]
    show sum4 (fun i => sum4 (fun j => grad' j * fin (s j * s i * cov j i)) * grad' i) =
      fin (a / b * (a / b)) * sum4 (fun i => sum4 (fun j => grad j * fin (cov j i)) * grad i)
    rw [← hsum _ hkk]
    congr 1
    funext i
    simp only [hterm]
    rw [hsum _ (mul_pos hk (hsp i)), hgrad, sc_mul (mul_pos hk (hsp i)) (hg i)]
    congr 2
    rw [mul_assoc, mul_comm (s i), hgs]
  refine ⟨?_, hv, ?_⟩
  · show (ratioMeanVar (fin (s 0 * m 0)) (fin (s 1 * m 1)) (fin (s 0 * s 0 * cov 0 0)) (fin (s 1 * s 1 * cov 1 1)) (fin (s 0 * s 1 * cov 0 1))).1 -
      (ratioMeanVar (fin (s 2 * m 2)) (fin (s 3 * m 3)) (fin (s 2 * s 2 * cov 2 2)) (fin (s 3 * s 3 * cov 3 3)) (fin (s 2 * s 3 * cov 2 3))).1 = _
    rw [hs0, hs1, hs2, hs3, r1, r2]
    exact sc_sub hk _ _
  have e1 : (diffOfRatios (fun i => s i * m i) (fun i j => s i * s j * cov i j)).var1 = fin (a / b * (a / b)) * (diffOfRatios m cov).var1 := by
    show (ratioMeanVar (fin (s 0 * m 0)) (fin (s 1 * m 1)) (fin (s 0 * s 0 * cov 0 0)) (fin (s 1 * s 1 * cov 1 1)) (fin (s 0 * s 1 * cov 0 1))).2 = _
    rw [hs0, hs1, r1]; rfl
  have e2 : (diffOfRatios (fun i => s i * m i) (fun i j => s i * s j * cov i j)).var2 = fin (a / b * (a / b)) * (diffOfRatios m cov).var2 := by
    show (ratioMeanVar (fin (s 2 * m 2)) (fin (s 3 * m 3)) (fin (s 2 * s 2 * cov 2 2)) (fin (s 3 * s 3 * cov 3 3)) (fin (s 2 * s 3 * cov 2 3))).2 = _
    rw [hs2, hs3, r2]; rfl
  refine ⟨?_, ?_, e1, e2, ?_⟩
  · show (ratioMeanVar (fin (s 0 * m 0)) (fin (s 1 * m 1)) (fin (s 0 * s 0 * cov 0 0)) (fin (s 1 * s 1 * cov 1 1)) (fin (s 0 * s 1 * cov 0 1))).1 = _
    rw [hs0, hs1, r1]; rfl
  · show (ratioMeanVar (fin (s 2 * m 2)) (fin (s 3 * m 3)) (fin (s 2 * s 2 * cov 2 2)) (fin (s 3 * s 3 * cov 3 3)) (fin (s 2 * s 3 * cov 2 3))).1 = _
    rw [hs2, hs3, r2]; rfl
  · show ((diffOfRatios (fun i => s i * m i) (fun i j => s i * s j * cov i j)).var1 + (diffOfRatios (fun i => s i * m i) (fun i j => s i * s j * cov i j)).var2 -
        (diffOfRatios (fun i => s i * m i) (fun i j => s i * s j * cov i j)).differenceVar) /
      (fin 2 * ((diffOfRatios (fun i => s i * m i) (fun i j => s i * s j * cov i j)).var1 *
        (diffOfRatios (fun i => s i * m i) (fun i j => s i * s j * cov i j)).var2).sqrt) = _
    rw [e1, e2, hv, sc_add hkk, sc_sub hkk, sc_mul hkk hkk, sc_sqrt hkk, sc_left hkk, sc_div_same hkk]
    rfl

theorem pairedRatio_scale {s0 s1 : ℝ} (h0 : 0 < s0) (h1 : 0 < s1) (T : TrimmedArray ℝ 4) :
    pairedRatio (T.inUnits ![s0, s0, s1, s0, s1]) = (pairedRatio T).inUnits (s0 / s1) := by
  have hk := div_pos h0 h1
  have hz : 0 < (![s0, s0, s1, s0, s1] : Fin 5 → ℝ) 0 := h0
  have hm : (fun i : Fin 4 => (T.inUnits ![s0, s0, s1, s0, s1]).mean i.succ) = fun i => (![s0, s1, s0, s1] : Fin 4 → ℝ) i * T.mean i.succ := by
    funext i; rw [T.mean_inUnits]; rfl
  have hc : (fun i j : Fin 4 => (T.inUnits ![s0, s0, s1, s0, s1]).cov 1 i.succ j.succ) =
      fun i j => (![s0, s1, s0, s1] : Fin 4 → ℝ) i * (![s0, s1, s0, s1] : Fin 4 → ℝ) j * T.cov 1 i.succ j.succ := by
    funext i j; rw [T.cov_inUnits _ hz]; rfl
  obtain ⟨d1, d2, d3, d4, d5, d6, d7⟩ := diffOfRatios_scale h0 h1 (fun i => T.mean i.succ) (fun i j => T.cov 1 i.succ j.succ) _ rfl
  unfold pairedRatio Estimates.inUnits oneSampleSE
  simp only [hm, hc, TrimmedArray.len_inUnits]
  rw [d1, d2, d3, d4, d5, d6, d7]
  simp only [sc_sqrt hk, sc_div_right hk]

/-- The paired test of values in other units. -/
theorem pairedTest_scale {s0 : ℝ} (h0 : 0 < s0) (R : Rounding ℝ) (argsort : List ℝ → List ℕ) (hc : Spec.SortsInUnits argsort s0) (D : TDist)
    (v1 v2 : List ℝ) (q : ℝ) :
    Spec.SameOutcome (SameReport s0) (pairedTest R argsort D v1 v2 q none none "two-sided" defaultAlpha)
      (pairedTest R argsort D (v1.map (fun x => s0 * x)) (v2.map (fun x => s0 * x)) q none none "two-sided" defaultAlpha) := by
  unfold pairedTest
  simp only [stack3_scale, List.length_map]
  refine (Spec.SameOutcome.raiseIf Iff.rfl).bind fun _ _ _ => ?_
  rw [mkTrimmed_scale _ (stack3 v1 v2) q (hc _)]
  refine Spec.SameOutcome.map.bind fun T _ hT => ?_
  subst hT
  simp only [TrimmedArray.len_inUnits]
  refine (Spec.SameOutcome.raiseIf Iff.rfl).bind fun _ _ _ => ?_
  rw [pairedPlain_scale h0]
  exact (resultsFrom_scale h0 D _ _ _).imp fun r r' _ _ h => ⟨h.1, h.2.1⟩

/-- The paired test of ratios in other units. -/
theorem pairedTest_ratio_scale {s0 s1 : ℝ} (h0 : 0 < s0) (h1 : 0 < s1) (R : Rounding ℝ) (argsort : List ℝ → List ℕ) (hc : Spec.SortsInUnits argsort s0)
    (D : TDist) (v1 v2 d1 d2 : List ℝ) (q : ℝ) :
    Spec.SameOutcome (SameReport (s0 / s1)) (pairedTest R argsort D v1 v2 q (some d1) (some d2) "two-sided" defaultAlpha)
      (pairedTest R argsort D (v1.map (fun x => s0 * x)) (v2.map (fun x => s0 * x)) q (some (d1.map (fun x => s1 * x))) (some (d2.map (fun x => s1 * x)))
        "two-sided" defaultAlpha) := by
  unfold pairedTest
  simp only [stack5_scale, List.length_map]
  refine (Spec.SameOutcome.raiseIf Iff.rfl).bind fun _ _ _ => ?_
  refine (Spec.SameOutcome.raiseIf Iff.rfl).bind fun _ _ _ => ?_
  rw [mkTrimmed_scale _ (stack5 v1 d1 v2 d2) q (hc _)]
  refine Spec.SameOutcome.map.bind fun T _ hT => ?_
  subst hT
  simp only [TrimmedArray.len_inUnits]
  refine (Spec.SameOutcome.raiseIf Iff.rfl).bind fun _ _ _ => ?_
  rw [pairedRatio_scale h0 h1]
  exact (resultsFrom_scale (div_pos h0 h1) D _ _ _).imp fun r r' _ _ h => ⟨h.1, h.2.1⟩

theorem sampleCov_scale (c : ℝ) (x y : List ℝ) : sampleCov (x.map (fun v => c * v)) (y.map (fun v => c * v)) = c * c * sampleCov x y := by
  have hm : ∀ l : List ℝ, meanOf (l.map (fun v => c * v)) = c * meanOf l := fun l => by
    unfold meanOf; rw [TrimmedArray.sum_scale, List.length_map, mul_div_assoc]
  unfold sampleCov
  rw [hm, hm, List.length_map, ← mul_div_assoc, ← TrimmedArray.sum_scale, List.zipWith_map, List.map_zipWith]
  congr 3
  funext a b
  ring

/-- The adjustment of values in other units. -/
theorem cuped_scale {c : ℝ} (h0 : 0 < c) (R : Rounding ℝ) (argsort : List ℝ → List ℕ) (hc : Spec.SortsInUnits argsort c) (metric covariate : List ℝ) (q : ℝ) :
    cuped R argsort (metric.map (fun x => c * x)) (covariate.map (fun x => c * x)) q =
      (cuped R argsort metric covariate q).map (List.map (fun x => fin c * x)) := by
  have hcc := mul_pos h0 h0
  have hm : meanOf (covariate.map (fun v => c * v)) = c * meanOf covariate := by
    unfold meanOf; rw [TrimmedArray.sum_scale, List.length_map, mul_div_assoc]
  have hfin : (metric.map (fun x => c * x)).map (Fl.fin) = (metric.map Fl.fin).map (fun x => fin c * x) := by
    rw [List.map_map, List.map_map]; rfl
  by_cases hlen : metric.length ≠ covariate.length
  · unfold cuped
    simp only [List.length_map, raiseIf, if_pos hlen]; rfl
  by_cases h1 : metric.length ≤ 1
  · unfold cuped
    simp only [List.length_map, raiseIf, if_neg hlen, if_pos h1]; rfl
  by_cases h2 : q < 0 ∨ 1 / 2 ≤ q
  · unfold cuped
    simp only [List.length_map, raiseIf, if_neg hlen, if_neg h1, if_pos h2]; rfl
  by_cases h3 : sampleCov covariate covariate = 0
  · have h3' : c * c * sampleCov covariate covariate = 0 := by rw [h3, mul_zero]
    unfold cuped
    simp only [List.length_map, raiseIf, if_neg hlen, if_neg h1, if_neg h2, sampleCov_scale, if_pos h3, if_pos h3']
    by_cases h4 : nTrimOf R q metric.length = 0
    · simp only [if_pos h4]
      show Except.ok _ = Except.ok _
      rw [List.map_map, List.map_map]; rfl
    · simp only [if_neg h4]
      by_cases h5 : metric.length ≤ 2 * nTrimOf R q metric.length
      · simp only [if_pos h5]; rfl
      · simp only [if_neg h5]
        show Except.ok _ = Except.ok _
        rw [hfin]
  have h3' : c * c * sampleCov covariate covariate ≠ 0 := mul_ne_zero hcc.ne' h3
  unfold cuped
  simp only [List.length_map, raiseIf, if_neg hlen, if_neg h1, if_neg h2, sampleCov_scale, if_neg h3, if_neg h3', mul_div_mul_left _ _ hcc.ne', hm]
  have hadj : ∀ θ μ : ℝ, List.zipWith (fun a b => a - θ * (b - c * μ)) (metric.map (fun x => c * x)) (covariate.map (fun x => c * x)) =
      (List.zipWith (fun a b => a - θ * (b - μ)) metric covariate).map (fun x => c * x) := fun θ μ => by
    rw [List.zipWith_map, List.map_zipWith]
    congr 1
    funext a b
    ring
  have hno : ∀ θ : ℝ, List.zipWith (fun a b => a - θ * b) (metric.map (fun x => c * x)) (covariate.map (fun x => c * x)) =
      (List.zipWith (fun a b => a - θ * b) metric covariate).map (fun x => c * x) := fun θ => by
    rw [List.zipWith_map, List.map_zipWith]
    congr 1
    funext a b
    ring
  have hst : ∀ l : List ℝ, List.zipWith (fun a (bc : ℝ × ℝ) => (![a, bc.1, bc.2] : Fin 3 → ℝ)) (l.map (fun x => c * x))
      ((metric.map (fun x => c * x)).zip (covariate.map (fun x => c * x))) =
      (List.zipWith (fun a (bc : ℝ × ℝ) => (![a, bc.1, bc.2] : Fin 3 → ℝ)) l (metric.zip covariate)).map (scaleCol (fun _ => c)) := fun l => by
    rw [List.zip_map, List.zipWith_map, List.map_zipWith]
    congr 1
    funext a b i
    fin_cases i <;> rfl
  rw [hadj, hst, mkTrimmed_scale _ _ q (hc _)]
  generalize List.zipWith (fun a b => a - sampleCov metric covariate / sampleCov covariate covariate * (b - meanOf covariate)) metric covariate = adj
  cases hT : mkTrimmed R argsort (List.zipWith (fun a (bc : ℝ × ℝ) => (![a, bc.1, bc.2] : Fin 3 → ℝ)) adj (metric.zip covariate)) q with
  | error e => rfl
  | ok T =>
    show (if T.nTrim = 0 then _ else _) = Except.map _ (if T.nTrim = 0 then _ else _)
    by_cases h4 : T.nTrim = 0
    · rw [if_pos h4, if_pos h4]
      show Except.ok _ = Except.ok _
      rw [List.map_map, List.map_map]; rfl
    · rw [if_neg h4, if_neg h4]
      have htr : ((T.inUnits (fun _ => c)).trimmed = []) ↔ T.trimmed = [] := by simp [TrimmedArray.inUnits]
      by_cases h5 : T.trimmed = []
      · simp only [if_pos h5, if_pos (htr.mpr h5)]; rfl
      · simp only [if_neg h5, if_neg (fun h => h5 (htr.mp h))]
        simp only [T.cov_inUnits (fun _ => c) h0, mul_div_mul_left _ _ hcc.ne']
        show (if c * c * T.cov 0 2 2 = 0 then _ else _) = Except.map _ (if T.cov 0 2 2 = 0 then _ else _)
        by_cases h6 : T.cov 0 2 2 = 0
        · rw [if_pos h6, if_pos (by rw [h6, mul_zero])]
          show Except.ok _ = Except.ok _
          rw [hfin]
        · rw [if_neg h6, if_neg (mul_ne_zero hcc.ne' h6), hno]
          generalize List.zipWith (fun a b => a - T.cov 0 1 2 / T.cov 0 2 2 * b) metric covariate = no
          rw [asStack_scale, asStack_scale, mkTrimmed_scale _ _ q (hc _), mkTrimmed_scale _ _ q (hc _)]
          cases htm : mkTrimmed R argsort (asStack metric) q with
          | error e => rfl
          | ok tm =>
            cases htc : mkTrimmed R argsort (asStack no) q with
            | error e => rfl
            | ok tc =>
              show (if (tc.inUnits (fun _ => c)).var 0 0 < (tm.inUnits (fun _ => c)).var 0 0 then _ else _) =
                Except.map _ (if tc.var 0 0 < tm.var 0 0 then _ else _)
              rw [tc.var_inUnits _ h0, tm.var_inUnits _ h0]
              by_cases h7 : tc.var 0 0 < tm.var 0 0
              · rw [if_pos h7, if_pos (mul_lt_mul_of_pos_left h7 hcc)]
                show Except.ok _ = Except.ok _
                rw [List.map_map, List.map_map, tc.mean_inUnits, tm.mean_inUnits]
                congr 1
                refine List.map_congr_left fun x _ => ?_
                show fin _ = fin _
                congr 1
                ring
              · rw [if_neg h7, if_neg (fun h => h7 (lt_of_mul_lt_mul_left h hcc.le))]
                show Except.ok _ = Except.ok _
                rw [hfin]

end Feedx
