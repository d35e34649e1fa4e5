import Verif.Spec.ReportUnits
import Verif.Props.Fieller
import Verif.Props.TTestSymmetry

/-!
Lemmas for C128: the statistics of values in other units.
-/

set_option linter.unusedSectionVars false
set_option maxHeartbeats 1000000

namespace Feedx

open Fl

section fl
variable {a b : ℝ}

theorem sc_pinf (ha : 0 < a) : (fin a * pinf : Fl ℝ) = pinf := by show infSign a = _; simp [infSign, ha]
theorem sc_ninf (ha : 0 < a) : (fin a * ninf : Fl ℝ) = ninf := by show infSign (-a) = _; simp [infSign, ha, ha.le.not_gt]
theorem sc_nan : (fin a * nan : Fl ℝ) = nan := rfl

theorem infSign_scale (ha : 0 < a) (x : ℝ) : infSign (a * x) = infSign x := by
  unfold infSign
  simp only [mul_pos_iff_of_pos_left ha, mul_neg_iff, ha, true_and, ha.le.not_gt, false_and, or_false]

theorem sc_one (x : Fl ℝ) : fin 1 * x = x := by
  cases x
  · rfl
  · exact sc_ninf one_pos
  · exact sc_pinf one_pos
  · rw [fin_mul, one_mul]

theorem sc_mul (ha : 0 < a) (hb : 0 < b) (x y : Fl ℝ) : (fin a * x) * (fin b * y) = fin (a * b) * (x * y) := by
  have hab := mul_pos ha hb
  have e1 : (pinf * pinf : Fl ℝ) = pinf := rfl
  have e2 : (pinf * ninf : Fl ℝ) = ninf := rfl
  have e3 : (ninf * pinf : Fl ℝ) = ninf := rfl
  have e4 : (ninf * ninf : Fl ℝ) = pinf := rfl
  have e5 : ∀ z : ℝ, (pinf * fin z : Fl ℝ) = infSign z := fun _ => rfl
  have e6 : ∀ z : ℝ, (ninf * fin z : Fl ℝ) = infSign (-z) := fun _ => rfl
  have e7 : ∀ z : ℝ, (fin z * pinf : Fl ℝ) = infSign z := fun _ => rfl
  have e8 : ∀ z : ℝ, (fin z * ninf : Fl ℝ) = infSign (-z) := fun _ => rfl
  have n1 : ∀ z : Fl ℝ, nan * z = nan := fun _ => rfl
  have n2 : ∀ z : Fl ℝ, z * nan = nan := fun z => by cases z <;> rfl
  cases x with
  | nan => simp only [n1, n2]
  | ninf =>
    rw [sc_ninf ha]
    cases y with
    | nan => simp only [n2]
    | ninf => rw [sc_ninf hb, e4, sc_pinf hab]
    | pinf => rw [sc_pinf hb, e3, sc_ninf hab]
    | fin y => rw [fin_mul, e6, e6, scale_infSign hab, ← mul_neg, infSign_scale hb]
  | pinf =>
    rw [sc_pinf ha]
    cases y with
    | nan => simp only [n2]
    | ninf => rw [sc_ninf hb, e2, sc_ninf hab]
    | pinf => rw [sc_pinf hb, e1, sc_pinf hab]
    | fin y => rw [fin_mul, e5, e5, scale_infSign hab, infSign_scale hb]
  | fin x =>
    rw [fin_mul]
    cases y with
    | nan => simp only [n2]
    | ninf => rw [sc_ninf hb, e8, e8, scale_infSign hab, ← mul_neg, infSign_scale ha]
    | pinf => rw [sc_pinf hb, e7, e7, scale_infSign hab, infSign_scale ha]
    | fin y => simp only [fin_mul]; congr 1; ring

theorem sc_div (ha : 0 < a) (hb : 0 < b) (x y : Fl ℝ) : (fin a * x) / (fin b * y) = fin (a / b) * (x / y) := by
  have hab := div_pos ha hb
  have n1 : ∀ z : Fl ℝ, nan / z = nan := fun _ => rfl
  have n2 : ∀ z : Fl ℝ, z / nan = nan := fun z => by cases z <;> rfl
  have hneg : ∀ z : ℝ, b * z < 0 ↔ z < 0 := fun z => by
    constructor
    · intro h; by_contra hz; exact absurd h (not_lt.mpr (mul_nonneg hb.le (not_lt.mp hz)))
    · intro h; exact mul_neg_of_pos_of_neg hb h
  cases x with
  | nan => show (nan : Fl ℝ) / _ = fin _ * (nan / y); simp only [n1, sc_nan]
  | ninf =>
    rw [sc_ninf ha]
    cases y with
    | nan => rw [sc_nan, n2, sc_nan]
    | ninf => rw [sc_ninf hb]; rfl
    | pinf => rw [sc_pinf hb]; rfl
    | fin y =>
      rw [fin_mul]
      show (if b * y < 0 then pinf else ninf) = fin (a / b) * (if y < 0 then pinf else ninf)
      by_cases hy : y < 0
      · rw [if_pos hy, if_pos ((hneg y).mpr hy), sc_pinf hab]
      · rw [if_neg hy, if_neg (fun h => hy ((hneg y).mp h)), sc_ninf hab]
  | pinf =>
    rw [sc_pinf ha]
    cases y with
    | nan => rw [sc_nan, n2, sc_nan]
    | ninf => rw [sc_ninf hb]; rfl
    | pinf => rw [sc_pinf hb]; rfl
    | fin y =>
      rw [fin_mul]
      show (if b * y < 0 then ninf else pinf) = fin (a / b) * (if y < 0 then ninf else pinf)
      by_cases hy : y < 0
      · rw [if_pos hy, if_pos ((hneg y).mpr hy), sc_ninf hab]
      · rw [if_neg hy, if_neg (fun h => hy ((hneg y).mp h)), sc_pinf hab]
  | fin x =>
    rw [fin_mul]
    cases y with
    | nan => rw [sc_nan, n2, n2, sc_nan]
    | ninf => rw [sc_ninf hb]; show fin 0 = fin (a / b * 0); rw [mul_zero]
    | pinf => rw [sc_pinf hb]; show fin 0 = fin (a / b * 0); rw [mul_zero]
    | fin y =>
      rw [fin_mul, fin_div, fin_div]
      by_cases hy : y = 0
      · rw [if_pos hy, if_pos (by rw [hy, mul_zero]), scale_infSign hab, infSign_scale ha]
      · rw [if_neg hy, if_neg (mul_ne_zero hb.ne' hy), fin_mul]
        congr 1
        field_simp

theorem sc_assoc (ha : 0 < a) (hb : 0 < b) (x : Fl ℝ) : fin a * (fin b * x) = fin (a * b) * x := by
  have := sc_mul ha hb (fin 1) x
  rwa [fin_mul, mul_one, sc_one] at this

theorem sc_left (ha : 0 < a) (k : ℝ) (x : Fl ℝ) : fin k * (fin a * x) = fin a * (fin k * x) := by
  have := sc_mul one_pos ha (fin k) x
  rwa [sc_one, one_mul] at this

theorem sc_mul_right (ha : 0 < a) (t x : Fl ℝ) : t * (fin a * x) = fin a * (t * x) := by
  have := sc_mul one_pos ha t x
  rwa [sc_one, one_mul] at this

theorem sc_sub (ha : 0 < a) (x y : Fl ℝ) : fin a * x - fin a * y = fin a * (x - y) := by
  rw [Fl.sub_eq, Fl.sub_eq, scale_add ha, scale_neg]

theorem sc_add (ha : 0 < a) (x y : Fl ℝ) : fin a * x + fin a * y = fin a * (x + y) := (scale_add ha x y).symm

theorem sc_sq (ha : 0 < a) (x : Fl ℝ) : (fin a * x).sq = fin (a * a) * x.sq := sc_mul ha ha x x

theorem sc_sqrt (ha : 0 < a) (x : Fl ℝ) : (fin (a * a) * x).sqrt = fin a * x.sqrt := by
  have haa := mul_pos ha ha
  cases x with
  | nan => rfl
  | ninf => rw [sc_ninf haa]; rfl
  | pinf => rw [sc_pinf haa]; show (pinf : Fl ℝ) = fin a * pinf; rw [sc_pinf ha]
  | fin x =>
    rw [fin_mul]
    show (if a * a * x < 0 then nan else fin (Real.sqrt (a * a * x))) = fin a * (if x < 0 then nan else fin (Real.sqrt x))
    by_cases hx : x < 0
    · rw [if_pos hx, if_pos (mul_neg_of_pos_of_neg haa hx)]; rfl
    · rw [if_neg hx, if_neg (not_lt.mpr (mul_nonneg haa.le (not_lt.mp hx))), fin_mul, Real.sqrt_mul haa.le, Real.sqrt_mul_self ha.le]

theorem sc_le (ha : 0 < a) (x : Fl ℝ) : Fl.le (fin 0) (fin a * x) = Fl.le (fin 0) x := by
  cases x with
  | nan => rfl
  | ninf => rw [sc_ninf ha]
  | pinf => rw [sc_pinf ha]
  | fin x => rw [fin_mul]; simp only [le_fin]; simp only [mul_nonneg_iff_of_pos_left ha]

theorem sc_lt (ha : 0 < a) (x : Fl ℝ) : Fl.lt (fin a * x) (fin 0) = Fl.lt x (fin 0) := by
  cases x with
  | nan => rfl
  | ninf => rw [sc_ninf ha]
  | pinf => rw [sc_pinf ha]
  | fin x =>
    rw [fin_mul]; simp only [lt_fin]
    congr 1
    exact propext ⟨fun h => by by_contra hx; exact absurd h (not_lt.mpr (mul_nonneg ha.le (not_lt.mp hx))),
      fun h => mul_neg_of_pos_of_neg ha h⟩

theorem sc_zero (ha : 0 < a) (x : Fl ℝ) : fin a * x = fin 0 ↔ x = fin 0 := by
  cases x with
  | nan => exact ⟨fun h => (by cases h), fun h => (by cases h)⟩
  | ninf => rw [sc_ninf ha]
  | pinf => rw [sc_pinf ha]
  | fin x => rw [fin_mul]; simp [ha.ne']

end fl

/-- The values of a stack in other units: row `i` times `s i`. -/
def scaleCol {m : ℕ} (s : Fin (m + 1) → ℝ) (c : Fin (m + 1) → ℝ) : Fin (m + 1) → ℝ := fun i => s i * c i

/-- A trimmed array in other units. -/
def TrimmedArray.inUnits {m : ℕ} (s : Fin (m + 1) → ℝ) (T : TrimmedArray ℝ m) : TrimmedArray ℝ m :=
  ⟨T.untrimmed.map (scaleCol s), T.nTrim, T.trimmed.map (scaleCol s)⟩

theorem scaleCol_zero {m : ℕ} (s : Fin (m + 1) → ℝ) : scaleCol s 0 = 0 := by funext i; simp [scaleCol]

theorem rowOf_scale {m : ℕ} (s : Fin (m + 1) → ℝ) (cols : List (Fin (m + 1) → ℝ)) (i : Fin (m + 1)) :
    rowOf (cols.map (scaleCol s)) i = (rowOf cols i).map (fun x => s i * x) := by
  unfold rowOf; rw [List.map_map, List.map_map]; rfl

theorem mkTrimmed_scale {R : Rounding ℝ} {argsort : List ℝ → List ℕ} {m : ℕ} (s : Fin (m + 1) → ℝ) (cols : List (Fin (m + 1) → ℝ)) (q : ℝ)
    (hc : argsort ((rowOf cols 0).map (fun x => s 0 * x)) = argsort (rowOf cols 0)) :
    mkTrimmed R argsort (cols.map (scaleCol s)) q = (mkTrimmed R argsort cols q).map (TrimmedArray.inUnits s) := by
  unfold mkTrimmed
  have hk : (trimmedIndex argsort (rowOf (cols.map (scaleCol s)) 0) (nTrimOf R q cols.length)).map (fun i => (cols.map (scaleCol s)).getD i 0) =
      ((trimmedIndex argsort (rowOf cols 0) (nTrimOf R q cols.length)).map (fun i => cols.getD i 0)).map (scaleCol s) := by
    rw [rowOf_scale, List.map_map]
    have h1 : trimmedIndex argsort ((rowOf cols 0).map (fun x => s 0 * x)) (nTrimOf R q cols.length) =
        trimmedIndex argsort (rowOf cols 0) (nTrimOf R q cols.length) := by
      unfold trimmedIndex; rw [hc, List.length_map]
    rw [h1]
    refine List.map_congr_left fun i _ => ?_
    simp only [Function.comp]
    rw [List.getD_eq_getElem?_getD, List.getD_eq_getElem?_getD, List.getElem?_map]
    cases cols[i]? with
    | none => exact (scaleCol_zero s).symm
    | some x => rfl
  have hl : (cols.map (scaleCol s)).length = cols.length := List.length_map _
  simp only [hl, hk]
  generalize (trimmedIndex argsort (rowOf cols 0) (nTrimOf R q cols.length)).map (fun i => cols.getD i 0) = K
  have hl2 : (K.map (scaleCol s)).length = K.length := List.length_map _
  rw [hl2]
  by_cases h1 : q < 0 ∨ 1 / 2 ≤ q
  · simp only [raiseIf, if_pos h1]; rfl
  · simp only [raiseIf, if_neg h1]
    by_cases h2 : (K.length : ℤ) ≠ (cols.length : ℤ) - 2 * (nTrimOf R q cols.length : ℤ)
    · simp only [if_pos h2]; rfl
    · simp only [if_neg h2]; rfl

namespace TrimmedArray
variable {m : ℕ} (s : Fin (m + 1) → ℝ) (T : TrimmedArray ℝ m)

theorem len_inUnits : (T.inUnits s).len = T.len := by simp [len, inUnits]

theorem sum_scale (k : ℝ) (l : List ℝ) : (l.map (fun x => k * x)).sum = k * l.sum := by
  have := List.sum_map_mul_left l id k
  simpa using this

theorem mean_inUnits (i : Fin (m + 1)) : (T.inUnits s).mean i = s i * T.mean i := by
  unfold mean
  rw [len_inUnits]
  show (rowOf (T.trimmed.map (scaleCol s)) i).sum / _ = _
  rw [rowOf_scale, sum_scale, mul_div_assoc]

theorem min_inUnits (h0 : 0 < s 0) : (T.inUnits s).minValues = scaleCol s T.minValues := by
  show argminCol (T.trimmed.map (scaleCol s)) = scaleCol s (argminCol T.trimmed)
  cases T.trimmed with
  | nil => exact (scaleCol_zero s).symm
  | cons c l =>
    show (l.map (scaleCol s)).foldl _ (scaleCol s c) = scaleCol s (l.foldl _ c)
    induction l generalizing c with
    | nil => rfl
    | cons x l ih =>
      simp only [List.map_cons, List.foldl_cons]
      rw [← ih]
      congr 1
      have : (scaleCol s x 0 < scaleCol s c 0) ↔ x 0 < c 0 := by
        show s 0 * x 0 < s 0 * c 0 ↔ _; exact mul_lt_mul_iff_right₀ h0
      by_cases hx : x 0 < c 0
      · rw [if_pos hx, if_pos (this.mpr hx)]
      · rw [if_neg hx, if_neg (fun h => hx (this.mp h))]

theorem max_inUnits (h0 : 0 < s 0) : (T.inUnits s).maxValues = scaleCol s T.maxValues := by
  show argmaxCol (T.trimmed.map (scaleCol s)) = scaleCol s (argmaxCol T.trimmed)
  cases T.trimmed with
  | nil => exact (scaleCol_zero s).symm
  | cons c l =>
    show (l.map (scaleCol s)).foldl _ (scaleCol s c) = scaleCol s (l.foldl _ c)
    induction l generalizing c with
    | nil => rfl
    | cons x l ih =>
      simp only [List.map_cons, List.foldl_cons]
      rw [← ih]
      congr 1
      have : (scaleCol s c 0 < scaleCol s x 0) ↔ c 0 < x 0 := by
        show s 0 * c 0 < s 0 * x 0 ↔ _; exact mul_lt_mul_iff_right₀ h0
      by_cases hx : c 0 < x 0
      · rw [if_pos hx, if_pos (this.mpr hx)]
      · rw [if_neg hx, if_neg (fun h => hx (this.mp h))]

theorem winsorizedMean_inUnits (h0 : 0 < s 0) (i : Fin (m + 1)) : (T.inUnits s).winsorizedMean i = s i * T.winsorizedMean i := by
  unfold winsorizedMean
  rw [min_inUnits s T h0, max_inUnits s T h0]
  have hsz : (T.inUnits s).size = T.size := by simp [size, inUnits]
  have hn : (T.inUnits s).nTrim = T.nTrim := rfl
  rw [hsz, hn]
  show ((rowOf (T.trimmed.map (scaleCol s)) i).sum + _) / _ = _
  rw [rowOf_scale, sum_scale, ← mul_div_assoc]
  congr 1
  unfold scaleCol
  ring

theorem cov_inUnits (h0 : 0 < s 0) (d : ℕ) (i j : Fin (m + 1)) : (T.inUnits s).cov d i j = s i * s j * T.cov d i j := by
  unfold cov
  simp only [len_inUnits, winsorizedMean_inUnits s T h0, min_inUnits s T h0, max_inUnits s T h0]
  have hn : (T.inUnits s).nTrim = T.nTrim := rfl
  rw [hn, ← mul_div_assoc]
  congr 1
  show ((T.trimmed.map (scaleCol s)).map _).sum + _ = _
  rw [List.map_map, mul_add (s i * s j), ← sum_scale, List.map_map]
  congr 1
  · congr 1
    refine List.map_congr_left fun c _ => ?_
    simp only [Function.comp, scaleCol]
    ring
  · simp only [scaleCol]
    ring

theorem var_inUnits (h0 : 0 < s 0) (d : ℕ) (i : Fin (m + 1)) : (T.inUnits s).var d i = s i * s i * T.var d i := cov_inUnits s T h0 d i i

end TrimmedArray

/-- Estimates in other units. -/
noncomputable def Estimates.inUnits (k : ℝ) (e : Estimates) : Estimates :=
  { difference := fin k * e.difference
    differenceSE := fin k * e.differenceSE
    mean1 := fin k * e.mean1
    mean2 := fin k * e.mean2
    se1 := fin k * e.se1
    se2 := fin k * e.se2
    corr := e.corr
    df := e.df
    sampleSize := e.sampleSize }

section outcome
open Spec
variable {α β γ δ : Type}

theorem Spec.SameOutcome.bind {P : α → β → Prop} {Q : γ → δ → Prop} {x : Py α} {y : Py β} {g : α → Py γ} {g' : β → Py δ} (h : SameOutcome P x y)
    (hg : ∀ a b, P a b → SameOutcome Q (g a) (g' b)) : SameOutcome Q (x >>= g) (y >>= g') := by
  cases x <;> cases y
  · exact h
  · exact h.elim
  · exact h.elim
  · exact hg _ _ h

theorem Spec.SameOutcome.refl {P : α → α → Prop} (h : ∀ a, P a a) (x : Py α) : SameOutcome P x x := by
  cases x
  · rfl
  · exact h _

theorem Spec.SameOutcome.raiseIf {e : PyErr} {c c' : Prop} [Decidable c] [Decidable c'] (h : c ↔ c') :
    SameOutcome (fun _ _ => True) (raiseIf e c) (raiseIf e c') := by
  unfold Feedx.raiseIf
  by_cases hc : c
  · rw [if_pos hc, if_pos (h.mp hc)]; rfl
  · rw [if_neg hc, if_neg (fun h' => hc (h.mpr h'))]; trivial

theorem Spec.SameOutcome.map {x : Py α} {g : α → β} : SameOutcome (fun a b => b = g a) x (x.map g) := by
  cases x <;> rfl

theorem Spec.SameOutcome.imp {P Q : α → β → Prop} {x : Py α} {y : Py β} (h : SameOutcome P x y) (hq : ∀ a b, x = .ok a → y = .ok b → P a b → Q a b) :
    SameOutcome Q x y := by
  cases x <;> cases y
  · exact h
  · exact h.elim
  · exact h.elim
  · exact hq _ _ rfl rfl h

end outcome

/-- Dividing by a number that does not change. -/
theorem sc_div_right {a : ℝ} (ha : 0 < a) (x y : Fl ℝ) : fin a * x / y = fin a * (x / y) := by
  have := sc_div ha one_pos x y
  rwa [sc_one, div_one] at this

theorem sc_div_same {a : ℝ} (ha : 0 < a) (x y : Fl ℝ) : (fin a * x) / (fin a * y) = x / y := by
  rw [sc_div ha ha, div_self ha.ne', sc_one]

theorem ciSE_scale {k : ℝ} (hk : 0 < k) (s1 s2 corr : Fl ℝ) : ciSE (fin k * s1) (fin k * s2) corr = fin k * ciSE s1 s2 corr := by
  unfold ciSE
  have h2 : fin k * s1 * (fin k * s2) * corr = fin (k * k) * (s1 * s2 * corr) := by
    rw [sc_mul hk hk]
    have := sc_mul (mul_pos hk hk) one_pos (s1 * s2) corr
    rwa [sc_one, mul_one] at this
  rw [h2, sc_sq hk, sc_sq hk, sc_left (mul_pos hk hk), sc_add (mul_pos hk hk), sc_sub (mul_pos hk hk), sc_sqrt hk]

/-- What both tests report for estimates in other units. -/
theorem resultsFrom_scale {k : ℝ} (hk : 0 < k) (D : TDist) (e : Estimates) (pf : Bool) (α : ℝ) :
    Spec.SameOutcome (fun r r' => Spec.ReportTimes k r r' ∧ (k = 1 → r' = r) ∧
        ((Fl.le (fin 0) e.mean1 && Fl.le (fin 0) e.mean2) = true →
          relativeCI D (fin k * e.mean1) (fin k * e.mean2) (fin k * e.se1) (fin k * e.se2) e.corr e.df "two-sided" α =
            relativeCI D e.mean1 e.mean2 e.se1 e.se2 e.corr e.df "two-sided" α → Spec.SameRelativeBounds r r') ∧
        ((Fl.le (fin 0) e.mean1 && Fl.le (fin 0) e.mean2) = false → Spec.SameRelativeBounds r r'))
      (resultsFrom D e pf "two-sided" α) (resultsFrom D (e.inUnits k) pf "two-sided" α) := by
  have hka : KnownAlt "two-sided" := Or.inl rfl
  by_cases h1 : k = 1
  · subst h1
    have he : e.inUnits 1 = e := by
      cases e; simp only [Estimates.inUnits, sc_one]
    rw [he]
    refine Spec.SameOutcome.refl (fun r => ⟨?_, fun _ => rfl, fun _ _ => ⟨rfl, rfl⟩, fun _ => ⟨rfl, rfl⟩⟩) _
    constructor <;> first | rfl | exact (sc_one _).symm
  unfold resultsFrom
  rw [ttestFromStats_known hka, ttestFromStats_known hka, absoluteCI_known hka, absoluteCI_known hka]
  simp only [Estimates.inUnits, ciSE_scale hk, sc_div_same hk, sc_sub hk, sc_le hk, sc_zero hk]
  have hb : boundsOf D (fin k * (e.mean1 - e.mean2)) (fin k * ciSE e.se1 e.se2 e.corr) e.df "two-sided" α =
      (fin k * (boundsOf D (e.mean1 - e.mean2) (ciSE e.se1 e.se2 e.corr) e.df "two-sided" α).1,
        fin k * (boundsOf D (e.mean1 - e.mean2) (ciSE e.se1 e.se2 e.corr) e.df "two-sided" α).2) := by
    unfold boundsOf
    simp only [if_true]
    rw [sc_mul_right hk, sc_sub hk, sc_add hk]
  rw [hb]
  refine Spec.SameOutcome.bind (P := fun a b => b = a) rfl ?_
  rintro sp _ rfl
  refine Spec.SameOutcome.bind (P := fun (a b : Fl ℝ × Fl ℝ) => b = (fin k * a.1, fin k * a.2)) rfl ?_
  rintro ci _ rfl
  by_cases hle : (Fl.le (fin 0) e.mean1 && Fl.le (fin 0) e.mean2) = true
  · simp only [hle, if_true]
    refine Spec.SameOutcome.bind (Spec.SameOutcome.refl (P := fun _ _ => True) (fun _ => trivial) _) ?_
    rintro _ _ -
    have hrel : Spec.SameOutcome (fun a b => relativeCI D (fin k * e.mean1) (fin k * e.mean2) (fin k * e.se1) (fin k * e.se2) e.corr e.df "two-sided" α =
            relativeCI D e.mean1 e.mean2 e.se1 e.se2 e.corr e.df "two-sided" α → b = a)
        (relativeCI D e.mean1 e.mean2 e.se1 e.se2 e.corr e.df "two-sided" α)
        (relativeCI D (fin k * e.mean1) (fin k * e.mean2) (fin k * e.se1) (fin k * e.se2) e.corr e.df "two-sided" α) := by
      have ho : Spec.SameOutcome (fun _ _ => True) (relativeCI D e.mean1 e.mean2 e.se1 e.se2 e.corr e.df "two-sided" α)
          (relativeCI D (fin k * e.mean1) (fin k * e.mean2) (fin k * e.se1) (fin k * e.se2) e.corr e.df "two-sided" α) := by
        unfold relativeCI
        refine Spec.SameOutcome.bind (Spec.SameOutcome.raiseIf (by rw [sc_lt hk, sc_lt hk])) ?_
        rintro _ _ -
        rw [criticalT_known hka]
        refine Spec.SameOutcome.bind (P := fun _ _ => True) trivial ?_
        rintro _ _ -
        trivial
      refine ho.imp fun a b ha hb _ heq => ?_
      rw [heq, ha] at hb
      cases hb; rfl
    refine hrel.bind fun a b hab => ?_
    refine ⟨?_, fun h => absurd h h1, fun _ heq => ?_, fun h => by cases h⟩
    · constructor <;> rfl
    · rw [hab heq]; exact ⟨rfl, rfl⟩
  · simp only [hle]
    refine ⟨?_, fun h => absurd h h1, fun h => (by cases h), fun _ => ⟨rfl, rfl⟩⟩
    constructor <;> rfl

end Feedx
