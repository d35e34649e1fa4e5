import Verif.Proofs.Synthetic
import Verif.Props.Generate
import Std.Data.String.ToNat
import Mathlib.NumberTheory.Real.GoldenRatio

/-!
Synthetic data: complete funnel panels (C74), requested moments (C75), effects for the demo (C76).
-/

set_option linter.unusedSectionVars false
set_option linter.unusedSimpArgs false

open MeasureTheory ProbabilityTheory

namespace Feedx

/-! ### C75 -/

/-- **C75, lognormal.**  For every positive mean and standard deviation the generator is asked for a lognormal distribution with exactly this
mean and this standard deviation; other values are refused with `ValueError`. -/
theorem C75_lognormal_moments (mean sd : ℝ) :
    (0 < mean ∧ 0 < sd → ∃ mu sigma, lognormalParams mean sd = .ok (mu, sigma) ∧ 0 < sigma ∧ Spec.HasMoments (Spec.lognormal mu sigma) mean sd) ∧
    (¬ (0 < mean ∧ 0 < sd) → lognormalParams mean sd = .error .valueError) := by
  constructor
  · rintro ⟨h1, h2⟩
    have hq : 0 < sd ^ 2 / mean ^ 2 := by positivity
    have hv : 0 < Real.log (sd ^ 2 / mean ^ 2 + 1) := Real.log_pos (by linarith)
    refine ⟨_, _, raiseIf_bind_ok.mpr ⟨not_not.mpr h1, raiseIf_bind_ok.mpr ⟨not_not.mpr h2, rfl⟩⟩, Real.sqrt_pos.mpr hv, ?_⟩
    obtain ⟨m1, m2⟩ := lognormal_moments (Real.log mean - 1 / 2 * Real.log (sd ^ 2 / mean ^ 2 + 1)) (Real.sqrt (Real.log (sd ^ 2 / mean ^ 2 + 1)))
    rw [Real.sq_sqrt hv.le] at m1 m2
    have e1 : Real.exp (Real.log mean - 1 / 2 * Real.log (sd ^ 2 / mean ^ 2 + 1) + Real.log (sd ^ 2 / mean ^ 2 + 1) / 2) = mean := by
      rw [show Real.log mean - 1 / 2 * Real.log (sd ^ 2 / mean ^ 2 + 1) + Real.log (sd ^ 2 / mean ^ 2 + 1) / 2 = Real.log mean by ring,
        Real.exp_log h1]
    refine ⟨by rw [m1, e1], ?_⟩
    rw [m2, e1, show 2 * (Real.log mean - 1 / 2 * Real.log (sd ^ 2 / mean ^ 2 + 1)) + 2 * Real.log (sd ^ 2 / mean ^ 2 + 1) =
      Real.log mean + Real.log mean + Real.log (sd ^ 2 / mean ^ 2 + 1) by ring, Real.exp_add, Real.exp_add, Real.exp_log h1,
      Real.exp_log (by linarith)]
    field_simp
    ring
  · intro h
    unfold lognormalParams
    by_cases h1 : 0 < mean
    · exact raiseIf_bind_err.mpr (Or.inr ⟨not_not.mpr h1, raiseIf_bind_err.mpr (Or.inl ⟨fun h2 => h ⟨h1, h2⟩, rfl⟩)⟩)
    · exact raiseIf_bind_err.mpr (Or.inl ⟨h1, rfl⟩)

/-- What is asked of the beta distribution. -/
theorem betaParams_moments (mean sd : ℝ) (h : 0 < mean ∧ mean < 1 ∧ 0 < sd ∧ sd < 1) :
    ∃ a b, betaParams mean sd = .ok (a, b) ∧ 0 < a ∧ 0 < b ∧ ∫ x, x ∂(betaMeasure a b) = mean ∧
      Var[fun x => x; betaMeasure a b] = mean * (1 - mean) / (Real.sqrt (mean * (1 - mean)) / sd + 1) := by
  obtain ⟨h1, h2, h3, h4⟩ := h
  have hs : 0 < Real.sqrt (mean * (1 - mean)) := Real.sqrt_pos.mpr (mul_pos h1 (by linarith))
  have hn : 0 < Real.sqrt (mean * (1 - mean)) / sd := div_pos hs h3
  set n := Real.sqrt (mean * (1 - mean)) / sd with hndef
  have ha : 0 < mean * n := mul_pos h1 hn
  have hb : 0 < (1 - mean) * n := mul_pos (by linarith) hn
  refine ⟨mean * n, (1 - mean) * n, raiseIf_bind_ok.mpr ⟨not_not.mpr ⟨h1, h2⟩, raiseIf_bind_ok.mpr ⟨not_not.mpr ⟨h3, h4⟩, rfl⟩⟩, ha, hb, ?_⟩
  obtain ⟨m1, m2⟩ := beta_moments ha hb
  have e : mean * n + (1 - mean) * n = n := by ring
  rw [e] at m1 m2
  refine ⟨by rw [m1]; field_simp, ?_⟩
  rw [m2]
  field_simp

/-- **C75, beta.**  For every mean and standard deviation between 0 and 1 the generator is asked for a beta distribution with this mean; other
values are refused with `ValueError`.  Its standard deviation is the requested one only in the exceptional case that the square root of
`mean * (1 - mean)` is the requested standard deviation times the golden ratio.  Missing: the standard deviation, see `C75_beta_false`. -/
theorem C75_beta_mean_partial (mean sd : ℝ) :
    (0 < mean ∧ mean < 1 ∧ 0 < sd ∧ sd < 1 → ∃ a b, betaParams mean sd = .ok (a, b) ∧ 0 < a ∧ 0 < b ∧ ∫ x, x ∂(betaMeasure a b) = mean ∧
      (Spec.HasMoments (betaMeasure a b) mean sd ↔ Real.sqrt (mean * (1 - mean)) = sd * Real.goldenRatio)) ∧
    (¬ (0 < mean ∧ mean < 1 ∧ 0 < sd ∧ sd < 1) → betaParams mean sd = .error .valueError) := by
  constructor
  · intro h
    obtain ⟨a, b, hp, ha, hb, hm, hv⟩ := betaParams_moments mean sd h
    obtain ⟨h1, h2, h3, h4⟩ := h
    refine ⟨a, b, hp, ha, hb, hm, ?_⟩
    unfold Spec.HasMoments
    rw [hv]
    set s := Real.sqrt (mean * (1 - mean)) with hs
    have hs0 : 0 < s := Real.sqrt_pos.mpr (mul_pos h1 (by linarith))
    have hss : mean * (1 - mean) = s ^ 2 := by rw [hs, Real.sq_sqrt (mul_nonneg h1.le (by linarith))]
    rw [hss]
    have hphi := Real.goldenRatio_sq
    have hpos := Real.goldenRatio_pos
    constructor
    · rintro ⟨-, h⟩
      have h' : s ^ 2 = sd * s + sd ^ 2 := by
        rw [div_eq_iff (by positivity)] at h
        rw [h]; field_simp
      have : (s - sd * Real.goldenRatio) * (s + sd * Real.goldenRatio - sd) = 0 := by
        have : (s - sd * Real.goldenRatio) * (s + sd * Real.goldenRatio - sd) = s ^ 2 - sd * s - sd ^ 2 * (Real.goldenRatio ^ 2 - Real.goldenRatio) := by ring
        rw [this, hphi, h']; ring
      rcases mul_eq_zero.mp this with h | h
      · linarith
      · have : 0 < sd * (Real.goldenRatio - 1) := mul_pos h3 (by linarith [Real.one_lt_goldenRatio])
        nlinarith
    · intro h
      refine ⟨hm, ?_⟩
      rw [h, div_eq_iff (by positivity)]
      have : sd * Real.goldenRatio / sd = Real.goldenRatio := by field_simp
      rw [this, ← hphi]; ring
  · intro h
    unfold betaParams
    by_cases h1 : 0 < mean ∧ mean < 1
    · exact raiseIf_bind_err.mpr (Or.inr ⟨not_not.mpr h1, raiseIf_bind_err.mpr (Or.inl ⟨fun h2 => h ⟨h1.1, h1.2, h2⟩, rfl⟩)⟩)
    · exact raiseIf_bind_err.mpr (Or.inl ⟨h1, rfl⟩)

/-- The full property for the beta sampler. -/
def C75_beta_full : Prop := ∀ mean sd a b, betaParams mean sd = .ok (a, b) → Spec.HasMoments (betaMeasure a b) mean sd

/-- **C75 fails for the beta sampler**: with the default click-through rate (average 0.02, standard deviation 0.015) the distribution asked for
has a standard deviation above 0.04. -/
theorem C75_beta_false : ¬ C75_beta_full ∧
    ∃ a b, betaParams 0.02 0.015 = .ok (a, b) ∧ (0.04 : ℝ) ^ 2 < Var[fun x => x; betaMeasure a b] := by
  obtain ⟨a, b, hp, -, -, -, hv⟩ := betaParams_moments 0.02 0.015 (by norm_num)
  have hs : Real.sqrt ((0.02 : ℝ) * (1 - 0.02)) = 0.14 := by
    rw [show (0.02 : ℝ) * (1 - 0.02) = 0.14 ^ 2 by norm_num]
    exact Real.sqrt_sq (by norm_num)
  rw [hs] at hv
  have hlt : (0.04 : ℝ) ^ 2 < Var[fun x => x; betaMeasure a b] := by rw [hv]; norm_num
  refine ⟨fun h => ?_, a, b, hp, hlt⟩
  have := (h _ _ _ _ hp).2
  rw [this] at hlt
  norm_num at hlt

/-- C75 is not vacuous: the default impressions and the default click-through rate are accepted. -/
example : (∃ mu sigma, lognormalParams 5 5 = .ok (mu, sigma) ∧ 0 < sigma ∧ Spec.HasMoments (Spec.lognormal mu sigma) 5 5) ∧
    ∃ a b, betaParams 0.02 0.015 = .ok (a, b) :=
  ⟨(C75_lognormal_moments 5 5).1 (by norm_num), by
    obtain ⟨a, b, h, -⟩ := betaParams_moments 0.02 0.015 (by norm_num)
    exact ⟨a, b, h⟩⟩

/-! ### C74 -/

theorem mem_days {start b a d : ℤ} : d ∈ syntheticDays start b a ↔
    ∃ k : ℤ, d = start + k ∧ (0 ≤ k ∧ k < 7 * a ∨ -(7 * b) ≤ k ∧ k < 0) := by
  unfold syntheticDays
  rw [List.mem_append, List.mem_map, List.mem_map]
  constructor
  · rintro (⟨i, hi, rfl⟩ | ⟨i, hi, rfl⟩)
    · have := List.mem_range.mp hi
      exact ⟨i, rfl, Or.inl ⟨by omega, by omega⟩⟩
    · have := List.mem_range.mp hi
      exact ⟨-((i : ℤ) + 1), by ring, Or.inr ⟨by omega, by omega⟩⟩
  · rintro ⟨k, rfl, ⟨h1, h2⟩ | ⟨h1, h2⟩⟩
    · exact Or.inl ⟨k.toNat, List.mem_range.mpr (by omega), by omega⟩
    · exact Or.inr ⟨(-k - 1).toNat, List.mem_range.mpr (by omega), by omega⟩

theorem nodup_days (start b a : ℤ) : (syntheticDays start b a).Nodup := by
  unfold syntheticDays
  refine List.Nodup.append (List.nodup_range.map ?_) (List.nodup_range.map ?_) ?_
  · intro x y h
    simp only at h
    omega
  · intro x y h
    simp only at h
    omega
  · intro d h1 h2
    obtain ⟨i, -, rfl⟩ := List.mem_map.mp h1
    obtain ⟨j, -, h⟩ := List.mem_map.mp h2
    omega

theorem item_name_inj {i j : ℕ} (h : "item_" ++ toString i = "item_" ++ toString j) : i = j := by
  have h' : (toString i : String) = toString j := by
    have := congrArg String.toList h
    simp only [String.toList_append] at this
    exact String.toList_inj.mp (List.append_cancel_left this)
  exact Nat.repr_injective h'

theorem itemRows_ok {G : SynthRng} {X : Calendar} {p : SynthParams} {days : List ℤ} {rate ctr cpc conv value : ℝ} {i : ℕ} {rows : List (Row ℝ)}
    (h : itemRows G X p days rate ctr cpc conv value i = .ok rows) :
    ∃ a b : ℝ × ℝ, rows = days.zipIdx.map (fun d => drawRow G (X.format d.1) ("item_" ++ toString i) rate ctr a.1 a.2 conv b.1 b.2 i d.2) := by
  unfold itemRows at h
  obtain ⟨-, h⟩ := raiseIf_bind_ok.mp h
  obtain ⟨a, -, h⟩ := Py.bind_eq_ok.mp h
  obtain ⟨b, -, h⟩ := Py.bind_eq_ok.mp h
  cases h
  exact ⟨a, b, rfl⟩

theorem generateSynthetic_ok {G : SynthRng} {X : Calendar} {p : SynthParams} {f : Frame ℝ} (h : generateSynthetic G X p = .ok f) :
    ∃ start rows, X.parse p.startDate = some start ∧
      (∀ d ∈ syntheticDays start p.weeksBefore p.weeksAfter, d ∈ Set.Icc X.first X.last) ∧ 0 ≤ p.nItems ∧ f = ⟨syntheticColumns, rows.flatten⟩ ∧ ∃ a b c d e : ℝ × ℝ,
      (List.range p.nItems.toNat).mapM (fun i =>
        itemRows G X p (syntheticDays start p.weeksBefore p.weeksAfter) (G.lognormal 0 a.1 a.2 i 0) (G.beta 0 b.1 b.2 i)
          (G.lognormal 1 c.1 c.2 i 0) (G.beta 1 d.1 d.2 i) (G.lognormal 2 e.1 e.2 i 0) i) = .ok rows := by
  unfold generateSynthetic at h
  cases hp : X.parse p.startDate with
  | none => rw [hp] at h; cases h
  | some start =>
    rw [hp] at h
    obtain ⟨hd, h⟩ := raiseIf_bind_ok.mp h
    obtain ⟨hn, h⟩ := raiseIf_bind_ok.mp h
    obtain ⟨a, -, h⟩ := Py.bind_eq_ok.mp h
    obtain ⟨b, -, h⟩ := Py.bind_eq_ok.mp h
    obtain ⟨c, -, h⟩ := Py.bind_eq_ok.mp h
    obtain ⟨d, -, h⟩ := Py.bind_eq_ok.mp h
    obtain ⟨e, -, h⟩ := Py.bind_eq_ok.mp h
    obtain ⟨-, h⟩ := raiseIf_bind_ok.mp h
    obtain ⟨-, h⟩ := raiseIf_bind_ok.mp h
    obtain ⟨rows, hr, h⟩ := Py.bind_eq_ok.mp h
    cases h
    refine ⟨start, rows, rfl, fun x hx => ?_, by omega, rfl, a, b, c, d, e, hr⟩
    by_contra hc
    refine hd (List.any_eq_true.mpr ⟨x, hx, ?_⟩)
    simp only [Set.mem_Icc] at hc
    simp
    omega

/-- **C74.**  For all parameters and random values: the result has exactly one row for every item `item_0, item_1, ...` and every day from
the requested weeks before to the requested weeks after the start date (and no other row), and every row is a funnel: conversions <= clicks <=
impressions, costs exactly with clicks and value exactly with conversions. -/
theorem C74_complete_funnel_panel (G : SynthRng) (hG : G.Ok) (X : Calendar) (hX : X.Ok) (p : SynthParams) (f : Frame ℝ)
    (h : generateSynthetic G X p = .ok f) :
    ∃ start, X.parse p.startDate = some start ∧
      f.cols = ["date", "item_id", "impressions", "clicks", "conversions", "total_cost", "total_conversion_value"] ∧
      (f.rows.map (fun r => (r "item_id", r "date"))).Nodup ∧
      (∀ x d, (∃ r ∈ f.rows, r "item_id" = x ∧ r "date" = d) ↔ ∃ (i : ℕ) (k : ℤ), (i : ℤ) < p.nItems ∧
        (0 ≤ k ∧ k < 7 * p.weeksAfter ∨ -(7 * p.weeksBefore) ≤ k ∧ k < 0) ∧ x = .str ("item_" ++ toString i) ∧ d = .str (X.format (start + k))) ∧
      ∀ r ∈ f.rows, Spec.FunnelRow r := by
  obtain ⟨start, rows, hp, hrange, hn, rfl, a, b, c, d, e, hr⟩ := generateSynthetic_ok h
  set days := syntheticDays start p.weeksBefore p.weeksAfter with hdays
  have hkeys : rows.flatten.map (fun r => (r "item_id", r "date")) =
      (List.range p.nItems.toNat).flatMap (fun i => days.map (fun d => ((.str ("item_" ++ toString i), .str (X.format d)) : Cell ℝ × Cell ℝ))) := by
    refine mapM_flatten (fun i _ bs hbs => ?_) hr
    obtain ⟨a', b', rfl⟩ := itemRows_ok hbs
    rw [List.map_map]
    show days.zipIdx.map ((fun d : ℤ => ((.str ("item_" ++ toString i), .str (X.format d)) : Cell ℝ × Cell ℝ)) ∘ Prod.fst) = _
    rw [← List.map_map, List.zipIdx_map_fst]
  refine ⟨start, hp, rfl, ?_, ?_, ?_⟩
  · show (rows.flatten.map _).Nodup
    rw [hkeys, List.nodup_flatMap]
    refine ⟨fun i _ => (nodup_days _ _ _).map_on fun x hx y hy hxy => ?_, List.nodup_range.imp fun {i j} hij => ?_⟩
    · simp only [Prod.mk.injEq, true_and, Cell.str.injEq] at hxy
      exact hX (hrange x hx) (hrange y hy) hxy
    · intro x h1 h2
      obtain ⟨d1, -, rfl⟩ := List.mem_map.mp h1
      obtain ⟨d2, -, h⟩ := List.mem_map.mp h2
      simp only [Prod.mk.injEq, Cell.str.injEq] at h
      exact hij (item_name_inj h.1).symm
  · intro x d
    have : (∃ r ∈ rows.flatten, r "item_id" = x ∧ r "date" = d) ↔ (x, d) ∈ rows.flatten.map (fun r => (r "item_id", r "date")) := by
      rw [List.mem_map]
      simp only [Prod.mk.injEq]
    show (∃ r ∈ rows.flatten, _) ↔ _
    rw [this, hkeys, List.mem_flatMap]
    constructor
    · rintro ⟨i, hi, hm⟩
      obtain ⟨d', hd', h⟩ := List.mem_map.mp hm
      obtain ⟨k, rfl, hk⟩ := mem_days.mp hd'
      simp only [Prod.mk.injEq] at h
      have := List.mem_range.mp hi
      exact ⟨i, k, by omega, hk, h.1.symm, h.2.symm⟩
    · rintro ⟨i, k, hi, hk, rfl, rfl⟩
      exact ⟨i, List.mem_range.mpr (by omega), List.mem_map.mpr ⟨start + k, mem_days.mpr ⟨k, rfl, hk⟩, rfl⟩⟩
  · intro r hr'
    obtain ⟨bs, hbs, hrb⟩ := List.mem_flatten.mp hr'
    obtain ⟨i, -, hi⟩ := mapM_mem hr hbs
    obtain ⟨a', b', rfl⟩ := itemRows_ok hi
    obtain ⟨q, -, rfl⟩ := List.mem_map.mp hrb
    refine ⟨_, _, _, _, _, rfl, rfl, rfl, rfl, rfl, hG.binomial_le _ _ _ _ _, hG.binomial_le _ _ _ _ _, ?_, ?_, ?_, ?_⟩
    · intro h0; rw [h0]; simp
    · intro h0; exact mul_pos (hG.lognormal_pos _ _ _ _ _) (by exact_mod_cast h0)
    · intro h0; rw [h0]; simp
    · intro h0; exact mul_pos (hG.lognormal_pos _ _ _ _ _) (by exact_mod_cast h0)

/-- Legal parameters: positive averages and standard deviations, rates strictly between 0 and 1. -/
structure Spec.LegalSynthParams (p : SynthParams) : Prop where
  items : 0 ≤ p.nItems
  impressions : 0 < p.impressions.1 ∧ 0 < p.impressions.2
  ctr : 0 < p.ctr.1 ∧ p.ctr.1 < 1 ∧ 0 < p.ctr.2 ∧ p.ctr.2 < 1
  cpc : 0 < p.cpc.1 ∧ 0 < p.cpc.2 ∧ 0 < p.cpcDaily
  conversionRate : 0 < p.conversionRate.1 ∧ p.conversionRate.1 < 1 ∧ 0 < p.conversionRate.2 ∧ p.conversionRate.2 < 1
  conversionValue : 0 < p.conversionValue.1 ∧ 0 < p.conversionValue.2 ∧ 0 < p.conversionValueDaily

/-- **C74.**  With a valid start date, days within the calendar and random rates that are not too large, data is returned exactly if the
parameters are legal; otherwise `ValueError` is raised. -/
theorem C74_returns_iff_legal (G : SynthRng) (hG : G.Ok) (X : Calendar) (p : SynthParams) (start : ℤ)
    (hs : X.parse p.startDate = some start)
    (hdays : ∀ k, (0 ≤ k ∧ k < 7 * p.weeksAfter ∨ -(7 * p.weeksBefore) ≤ k ∧ k < 0) → X.first ≤ start + k ∧ start + k ≤ X.last)
    (hrate : ∀ mu sigma i, G.lognormal 0 mu sigma i 0 ≤ G.maxRate) :
    (Spec.LegalSynthParams p → ∃ f, generateSynthetic G X p = .ok f) ∧
    (¬ Spec.LegalSynthParams p → generateSynthetic G X p = .error .valueError) := by
  have hd : ¬ ((syntheticDays start p.weeksBefore p.weeksAfter).any (fun d => decide (d < X.first ∨ X.last < d)) = true) := by
    intro h
    obtain ⟨d, hd, h⟩ := List.any_eq_true.mp h
    obtain ⟨k, rfl, hk⟩ := mem_days.mp hd
    have := hdays k hk
    simp at h
    omega
  have rows : 0 < p.cpcDaily → 0 < p.conversionValueDaily → ∀ a b c d e : ℝ × ℝ, ∃ rows, (List.range p.nItems.toNat).mapM (fun i =>
        itemRows G X p (syntheticDays start p.weeksBefore p.weeksAfter) (G.lognormal 0 a.1 a.2 i 0) (G.beta 0 b.1 b.2 i)
          (G.lognormal 1 c.1 c.2 i 0) (G.beta 1 d.1 d.2 i) (G.lognormal 2 e.1 e.2 i 0) i) = .ok rows := by
    intro h1 h2 a b c d e
    refine mapM_total fun i _ => ?_
    obtain ⟨m1, s1, e1, -⟩ := (C75_lognormal_moments (G.lognormal 1 c.1 c.2 i 0) p.cpcDaily).1 ⟨hG.lognormal_pos _ _ _ _ _, h1⟩
    obtain ⟨m2, s2, e2, -⟩ := (C75_lognormal_moments (G.lognormal 2 e.1 e.2 i 0) p.conversionValueDaily).1 ⟨hG.lognormal_pos _ _ _ _ _, h2⟩
    exact ⟨_, raiseIf_bind_ok.mpr ⟨not_lt.mpr (hrate _ _ _), Py.bind_eq_ok.mpr ⟨_, e1, Py.bind_eq_ok.mpr ⟨_, e2, rfl⟩⟩⟩⟩
  unfold generateSynthetic
  rw [hs]
  constructor
  · intro hl
    obtain ⟨_, _, h1, -⟩ := (C75_lognormal_moments _ _).1 hl.impressions
    obtain ⟨_, _, h2, -⟩ := (C75_beta_mean_partial _ _).1 hl.ctr
    obtain ⟨_, _, h3, -⟩ := (C75_lognormal_moments _ _).1 ⟨hl.cpc.1, hl.cpc.2.1⟩
    obtain ⟨_, _, h4, -⟩ := (C75_beta_mean_partial _ _).1 hl.conversionRate
    obtain ⟨_, _, h5, -⟩ := (C75_lognormal_moments _ _).1 ⟨hl.conversionValue.1, hl.conversionValue.2.1⟩
    obtain ⟨rs, h6⟩ := rows hl.cpc.2.2 hl.conversionValue.2.2 _ _ _ _ _
    exact ⟨_, raiseIf_bind_ok.mpr ⟨hd, raiseIf_bind_ok.mpr ⟨by have := hl.items; omega, Py.bind_eq_ok.mpr ⟨_, h1, Py.bind_eq_ok.mpr ⟨_, h2,
      Py.bind_eq_ok.mpr ⟨_, h3, Py.bind_eq_ok.mpr ⟨_, h4, Py.bind_eq_ok.mpr ⟨_, h5, raiseIf_bind_ok.mpr ⟨not_not.mpr hl.cpc.2.2,
      raiseIf_bind_ok.mpr ⟨not_not.mpr hl.conversionValue.2.2, Py.bind_eq_ok.mpr ⟨_, h6, rfl⟩⟩⟩⟩⟩⟩⟩⟩⟩⟩⟩
  · intro hl
    refine raiseIf_bind_err.mpr (Or.inr ⟨hd, ?_⟩)
    by_cases h0 : 0 ≤ p.nItems
    swap
    · exact raiseIf_bind_err.mpr (Or.inl ⟨by omega, rfl⟩)
    refine raiseIf_bind_err.mpr (Or.inr ⟨by omega, ?_⟩)
    by_cases h1 : 0 < p.impressions.1 ∧ 0 < p.impressions.2
    swap
    · exact Py.bind_eq_error.mpr (Or.inl ((C75_lognormal_moments _ _).2 h1))
    obtain ⟨_, _, e1, -⟩ := (C75_lognormal_moments _ _).1 h1
    refine Py.bind_eq_error.mpr (Or.inr ⟨_, e1, ?_⟩)
    by_cases h2 : 0 < p.ctr.1 ∧ p.ctr.1 < 1 ∧ 0 < p.ctr.2 ∧ p.ctr.2 < 1
    swap
    · exact Py.bind_eq_error.mpr (Or.inl ((C75_beta_mean_partial _ _).2 h2))
    obtain ⟨_, _, e2, -⟩ := (C75_beta_mean_partial _ _).1 h2
    refine Py.bind_eq_error.mpr (Or.inr ⟨_, e2, ?_⟩)
    by_cases h3 : 0 < p.cpc.1 ∧ 0 < p.cpc.2
    swap
    · exact Py.bind_eq_error.mpr (Or.inl ((C75_lognormal_moments _ _).2 h3))
    obtain ⟨_, _, e3, -⟩ := (C75_lognormal_moments _ _).1 h3
    refine Py.bind_eq_error.mpr (Or.inr ⟨_, e3, ?_⟩)
    by_cases h4 : 0 < p.conversionRate.1 ∧ p.conversionRate.1 < 1 ∧ 0 < p.conversionRate.2 ∧ p.conversionRate.2 < 1
    swap
    · exact Py.bind_eq_error.mpr (Or.inl ((C75_beta_mean_partial _ _).2 h4))
    obtain ⟨_, _, e4, -⟩ := (C75_beta_mean_partial _ _).1 h4
    refine Py.bind_eq_error.mpr (Or.inr ⟨_, e4, ?_⟩)
    by_cases h5 : 0 < p.conversionValue.1 ∧ 0 < p.conversionValue.2
    swap
    · exact Py.bind_eq_error.mpr (Or.inl ((C75_lognormal_moments _ _).2 h5))
    obtain ⟨_, _, e5, -⟩ := (C75_lognormal_moments _ _).1 h5
    refine Py.bind_eq_error.mpr (Or.inr ⟨_, e5, ?_⟩)
    by_cases h6 : 0 < p.cpcDaily
    swap
    · exact raiseIf_bind_err.mpr (Or.inl ⟨h6, rfl⟩)
    refine raiseIf_bind_err.mpr (Or.inr ⟨not_not.mpr h6, ?_⟩)
    by_cases h7 : 0 < p.conversionValueDaily
    swap
    · exact raiseIf_bind_err.mpr (Or.inl ⟨h7, rfl⟩)
    exact absurd ⟨h0, h1, h2, ⟨h3.1, h3.2, h6⟩, h4, ⟨h5.1, h5.2, h7⟩⟩ hl

/-- A generator for examples. -/
noncomputable def plainRng : SynthRng := ⟨fun _ _ _ _ _ => 1, fun _ _ _ _ => 1 / 2, fun _ i j => i + j, fun _ n _ _ _ => n / 2, 100⟩

/-- A calendar for examples: days numbered from 0. -/
def plainCalendar : Calendar := ⟨fun _ => some 7, fun d => toString d.toNat, 0, 100⟩

theorem plainRng_ok : plainRng.Ok := ⟨fun _ _ _ _ _ => by norm_num [plainRng], fun _ _ _ _ => by norm_num [plainRng],
  fun _ n _ _ _ => Nat.div_le_self n 2⟩

theorem plainCalendar_ok : plainCalendar.Ok := by
  intro x hx y hy h
  have := Nat.repr_injective h
  have h1 : 0 ≤ x := hx.1
  have h2 : 0 ≤ y := hy.1
  omega

/-- The default parameters with two items, one week before and one week after. -/
noncomputable def plainSynthParams : SynthParams := ⟨2, (5, 5), (0.02, 0.015), (1, 0.5), 0.1, (0.1, 0.05), (30, 15), 1, 1, 1, "2024-01-08"⟩

/-- C74 is not vacuous: these data exist and cover 14 days of two items. -/
example : ∃ f, generateSynthetic plainRng plainCalendar plainSynthParams = .ok f ∧
    (∃ r ∈ f.rows, r "item_id" = .str "item_1" ∧ r "date" = .str "0") ∧ (∃ r ∈ f.rows, r "item_id" = .str "item_0" ∧ r "date" = .str "13") ∧
    ¬ ∃ r ∈ f.rows, r "item_id" = .str "item_0" ∧ r "date" = .str "14" := by
  have hl : Spec.LegalSynthParams plainSynthParams := by
    constructor <;> norm_num [plainSynthParams]
  obtain ⟨f, hf⟩ := (C74_returns_iff_legal plainRng plainRng_ok plainCalendar plainSynthParams 7 rfl
    (fun k hk => by simp only [plainSynthParams, plainCalendar] at hk ⊢; omega) (fun _ _ _ => by norm_num [plainRng])).1 hl
  obtain ⟨start, hs, -, -, hm, -⟩ := C74_complete_funnel_panel _ plainRng_ok _ plainCalendar_ok _ _ hf
  cases hs
  refine ⟨f, hf, (hm _ _).mpr ⟨1, -7, by decide, Or.inr (by decide), rfl, rfl⟩, (hm _ _).mpr ⟨0, 6, by decide, Or.inl (by decide), rfl, rfl⟩, ?_⟩
  rw [hm]
  rintro ⟨i, k, -, hk, -, h⟩
  have h' := Nat.repr_injective (Cell.str.inj h : Nat.repr 14 = Nat.repr (7 + k).toNat)
  simp only [plainSynthParams] at hk
  omega

/-! ### C76 -/

/-- All columns of one treated row. -/
noncomputable def scaleRow (cs : List (String × ℝ)) (r : Row ℝ) : Row ℝ :=
  cs.foldl (fun r c => Function.update r c.1 (scaleCell (1 + c.2) (r c.1))) r

theorem scaleRow_other {cs : List (String × ℝ)} {k : String} (h : k ∉ cs.map Prod.fst) (r : Row ℝ) : scaleRow cs r k = r k := by
  induction cs generalizing r with
  | nil => rfl
  | cons c cs ih =>
    rw [List.map_cons, List.mem_cons, not_or] at h
    show scaleRow cs (Function.update r c.1 (scaleCell (1 + c.2) (r c.1))) k = _
    rw [ih h.2, Function.update_of_ne h.1]

theorem scaleRow_mem {cs : List (String × ℝ)} (hn : (cs.map Prod.fst).Nodup) {c : String × ℝ} (h : c ∈ cs) (r : Row ℝ) :
    scaleRow cs r c.1 = scaleCell (1 + c.2) (r c.1) := by
  induction cs generalizing r with
  | nil => cases h
  | cons d cs ih =>
    rw [List.map_cons, List.nodup_cons] at hn
    show scaleRow cs (Function.update r d.1 (scaleCell (1 + d.2) (r d.1))) c.1 = _
    rcases List.mem_cons.mp h with rfl | h
    · rw [scaleRow_other hn.1, Function.update_self]
    · rw [ih hn.2 h, Function.update_of_ne]
      intro he
      exact hn.1 (he ▸ List.mem_map_of_mem h)

theorem zipWith_zipWith_left {α β : Type} (F G : α → β → α) : ∀ (l : List α) (m : List β),
    List.zipWith F (List.zipWith G l m) m = List.zipWith (fun a b => F (G a b) b) l m
  | [], _ => by simp
  | _ :: _, [] => by simp
  | a :: l, b :: m => by simp [zipWith_zipWith_left F G l m]

theorem scaleColumns_ok {mask : List Bool} : ∀ {cs : List (String × ℝ)} {f out : Frame ℝ}, mask.length = f.rows.length →
    cs.foldlM (fun g c => scaleColumn mask c g) f = .ok out →
    out.cols = f.cols ∧ out.rows = List.zipWith (fun r b => if b then scaleRow cs r else r) f.rows mask
  | [], f, out, hl, h => by
    cases h
    refine ⟨rfl, ?_⟩
    have : (fun (r : Row ℝ) (b : Bool) => if b then scaleRow [] r else r) = fun r _ => r := by funext r b; simp [scaleRow]
    rw [this]
    refine List.ext_getElem (by simp [hl]) fun i h1 h2 => by simp
  | c :: cs, f, out, hl, h => by
    rw [List.foldlM_cons] at h
    obtain ⟨g, hg, h⟩ := Py.bind_eq_ok.mp h
    obtain ⟨-, hg⟩ := raiseIf_bind_ok.mp hg
    obtain ⟨-, hg⟩ := raiseIf_bind_ok.mp hg
    cases hg
    obtain ⟨h1, h2⟩ := scaleColumns_ok (by simp [hl]) h
    refine ⟨h1, ?_⟩
    rw [h2]
    show List.zipWith _ (List.zipWith _ f.rows mask) mask = _
    rw [zipWith_zipWith_left]
    congr 1
    funext r b
    cases b <;> simp [scaleRow]

theorem demoTreated_iff (f : Frame ℝ) (periodCol treatCol : String) (r : Row ℝ) :
    demoTreated ((f.col periodCol).any (fun x => decide (x = .str "test_1"))) periodCol treatCol r = true ↔
      Spec.TreatedRow (∃ r ∈ f.rows, r periodCol = .str "test_1") periodCol treatCol r := by
  have hx : ((f.col periodCol).any (fun x => decide (x = .str "test_1"))) = true ↔ ∃ r ∈ f.rows, r periodCol = .str "test_1" := by
    simp [Frame.col]
  unfold demoTreated Spec.TreatedRow
  by_cases hc : ∃ r ∈ f.rows, r periodCol = .str "test_1"
  · rw [if_pos (hx.mpr hc)]
    simp only [hc, Bool.or_eq_true, Bool.and_eq_true, decide_eq_true_eq, not_true, false_and, true_and, false_or]
    unfold cellIs
    tauto
  · rw [if_neg (fun h => hc (hx.mp h))]
    simp only [hc, Bool.and_eq_true, decide_eq_true_eq, not_false_iff, true_and, false_and, and_false, or_false]
    unfold cellIs
    tauto

theorem forall₂_zipWith_map {α β γ : Type} {R : α → γ → Prop} (F : α → β → γ) (g : α → β) (l : List α) (h : ∀ a ∈ l, R a (F a (g a))) :
    List.Forall₂ R l (List.zipWith F l (l.map g)) := by
  induction l with
  | nil => exact .nil
  | cons a l ih => exact .cons (h a (by simp)) (ih fun x hx => h x (by simp [hx]))

/-- **C76.**  A row in which the item is not treated is not changed.  In a row in which it is treated, each of the five metrics is multiplied
by one plus its own effect (so zero stays zero and missing stays missing) and every other column is not changed.  Rows and columns keep their
order.  (The data counts as a crossover if some row carries the first test period.) -/
theorem C76_scales_exactly_the_treated_rows (f out : Frame ℝ) (periodCol treatCol : String) (e : DemoEffects)
    (h : addDemoEffects f periodCol treatCol e = .ok out) :
    out.cols = f.cols ∧ List.Forall₂ (fun r r' =>
      (¬ Spec.TreatedRow (∃ q ∈ f.rows, q periodCol = .str "test_1") periodCol treatCol r → r' = r) ∧
      (Spec.TreatedRow (∃ q ∈ f.rows, q periodCol = .str "test_1") periodCol treatCol r →
        (∀ c, c ∉ ["impressions", "clicks", "conversions", "total_conversion_value", "total_cost"] → r' c = r c) ∧
        ∀ c effect, (c, effect) ∈ [("impressions", e.impressions), ("clicks", e.clicks), ("conversions", e.conversions),
            ("total_conversion_value", e.value), ("total_cost", e.cost)] →
          (∀ x, (r c).toFl = .fin x → (r' c).toFl = .fin (x * (1 + effect))) ∧
          ((r c).toFl = .fin 0 → (r' c).toFl = .fin 0) ∧ (r c = .null → r' c = .null))) f.rows out.rows := by
  unfold addDemoEffects at h
  obtain ⟨-, h⟩ := raiseIf_bind_ok.mp h
  obtain ⟨-, h⟩ := raiseIf_bind_ok.mp h
  obtain ⟨h1, h2⟩ := scaleColumns_ok (by simp) h
  refine ⟨h1, ?_⟩
  rw [h2]
  refine forall₂_zipWith_map _ _ _ fun r _ => ⟨fun hr => ?_, fun hr => ?_⟩
  · exact if_neg (fun hd => hr ((demoTreated_iff _ _ _ _).mp hd))
  · simp only [if_pos ((demoTreated_iff _ _ _ _).mpr hr)]
    refine ⟨fun c hc => scaleRow_other (by simpa [DemoEffects.columns] using hc) r, fun c effect hc => ?_⟩
    have hs : scaleRow e.columns r c = scaleCell (1 + effect) (r c) :=
      scaleRow_mem (by simp [DemoEffects.columns]) (c := (c, effect)) hc r
    rw [hs]
    have hfin : ∀ x, (r c).toFl = .fin x → (scaleCell (1 + effect) (r c)).toFl = .fin (x * (1 + effect)) := by
      intro x hx
      cases hcell : r c with
      | int i => rw [hcell] at hx; cases hx; rfl
      | num y => rw [hcell] at hx; cases hx; rfl
      | inf b => rw [hcell] at hx; cases b <;> simp [Cell.toFl] at hx
      | _ => rw [hcell] at hx; cases hx
    exact ⟨hfin, fun h0 => by rw [hfin 0 h0, zero_mul], fun h0 => by rw [h0]; rfl⟩

theorem scaleColumns_total {mask : List Bool} : ∀ {cs : List (String × ℝ)} {f : Frame ℝ}, (∀ c ∈ cs, c.1 ∈ f.cols) →
    (∀ c ∈ cs, ∀ r ∈ f.rows, (r c.1).isNumeric = true) → (cs.map Prod.fst).Nodup →
    ∃ out, cs.foldlM (fun g c => scaleColumn mask c g) f = .ok out
  | [], f, _, _, _ => ⟨f, rfl⟩
  | c :: cs, f, hc, hn, hd => by
    rw [List.map_cons, List.nodup_cons] at hd
    have hstep : scaleColumn mask c f = .ok ⟨f.cols, List.zipWith
        (fun r b => if b then Function.update r c.1 (scaleCell (1 + c.2) (r c.1)) else r) f.rows mask⟩ := by
      refine raiseIf_bind_ok.mpr ⟨not_not.mpr (hc c (by simp)), raiseIf_bind_ok.mpr ⟨?_, rfl⟩⟩
      intro h
      obtain ⟨q, hq, h⟩ := List.any_eq_true.mp h
      simp [hn c (by simp) q.1 (List.of_mem_zip hq).1] at h
    obtain ⟨out, ho⟩ := scaleColumns_total (mask := mask) (cs := cs) (f := ⟨f.cols, List.zipWith
        (fun r b => if b then Function.update r c.1 (scaleCell (1 + c.2) (r c.1)) else r) f.rows mask⟩)
      (fun d hd' => hc d (by simp [hd'])) (fun d hd' r hr => by
        obtain ⟨i, hi, rfl⟩ := List.getElem_of_mem hr
        rw [List.getElem_zipWith]
        have hne : d.1 ≠ c.1 := fun he => hd.1 (he ▸ List.mem_map_of_mem hd')
        split
        · rw [Function.update_of_ne hne]
          exact hn d (by simp [hd']) _ (List.getElem_mem _)
        · exact hn d (by simp [hd']) _ (List.getElem_mem _)) hd.2
    exact ⟨out, by rw [List.foldlM_cons]; exact Py.bind_eq_ok.mpr ⟨_, hstep, ho⟩⟩

/-- **C76.**  The call returns on every data set that has the two given columns and the five numeric metric columns; without the period or
the treatment column it raises `KeyError`. -/
theorem C76_returns (f : Frame ℝ) (periodCol treatCol : String) (e : DemoEffects) :
    (periodCol ∈ f.cols → treatCol ∈ f.cols →
      (∀ c ∈ ["impressions", "clicks", "conversions", "total_conversion_value", "total_cost"], c ∈ f.cols ∧ ∀ r ∈ f.rows, (r c).isNumeric = true) →
      ∃ out, addDemoEffects f periodCol treatCol e = .ok out) ∧
    (periodCol ∉ f.cols ∨ treatCol ∉ f.cols → addDemoEffects f periodCol treatCol e = .error .keyError) := by
  unfold addDemoEffects
  refine ⟨fun h1 h2 h3 => ?_, fun h => ?_⟩
  · obtain ⟨out, ho⟩ := scaleColumns_total (mask := f.rows.map (demoTreated ((f.col periodCol).any (fun x => decide (x = .str "test_1"))) periodCol treatCol))
      (cs := e.columns) (f := f) (fun c hc => (h3 c.1 (by
        have := List.mem_map_of_mem (f := Prod.fst) hc
        simpa [DemoEffects.columns] using this)).1) (fun c hc => (h3 c.1 (by
        have := List.mem_map_of_mem (f := Prod.fst) hc
        simpa [DemoEffects.columns] using this)).2) (by simp [DemoEffects.columns])
    exact ⟨out, raiseIf_bind_ok.mpr ⟨not_not.mpr h1, raiseIf_bind_ok.mpr ⟨not_not.mpr h2, ho⟩⟩⟩
  · by_cases h1 : periodCol ∈ f.cols
    · exact raiseIf_bind_err.mpr (Or.inr ⟨not_not.mpr h1, raiseIf_bind_err.mpr (Or.inl ⟨by tauto, rfl⟩)⟩)
    · exact raiseIf_bind_err.mpr (Or.inl ⟨h1, rfl⟩)

/-- A row of generated data with a period and a treatment. -/
noncomputable def demoRow (period : String) (treatment : ℤ) (clicks : ℕ) : Row ℝ :=
  Function.update (Function.update (syntheticRow "2024-01-08" "item_0" 20 clicks 0 1 30) "period" (.str period)) "treatment" (.int treatment)

/-- C76 is not vacuous: in a crossover the control items are treated in the second half. -/
example : ∃ out, addDemoEffects ⟨syntheticColumns ++ ["period", "treatment"], [demoRow "test_1" 1 10, demoRow "test_1" 0 10, demoRow "washout_2" 0 5]⟩
      "period" "treatment" ⟨0.1, 0.2, 0.2, 0.2, 0.2⟩ = .ok out ∧
    out.rows.map (fun r => (r "clicks").toFl) = [.fin 12, .fin 10, .fin 6] ∧ out.rows.map (fun r => (r "conversions").toFl) = [.fin 0, .fin 0, .fin 0] := by
  obtain ⟨out, ho⟩ := (C76_returns ⟨syntheticColumns ++ ["period", "treatment"], [demoRow "test_1" 1 10, demoRow "test_1" 0 10, demoRow "washout_2" 0 5]⟩
      "period" "treatment" ⟨0.1, 0.2, 0.2, 0.2, 0.2⟩).1 (by decide) (by decide) (by
      intro c hc
      refine ⟨by fin_cases hc <;> decide, fun r hr => ?_⟩
      fin_cases hr <;> fin_cases hc <;> simp [demoRow, syntheticRow, Function.update, Cell.isNumeric])
  obtain ⟨-, hF⟩ := C76_scales_exactly_the_treated_rows _ _ _ _ _ ho
  have hx : ∃ q ∈ [demoRow "test_1" 1 10, demoRow "test_1" 0 10, demoRow "washout_2" 0 5], q "period" = .str "test_1" := ⟨demoRow "test_1" 1 10, by simp, rfl⟩
  rcases ho' : out.rows with _ | ⟨a, _ | ⟨b, _ | ⟨c, _ | ⟨d, l⟩⟩⟩⟩ <;> rw [ho'] at hF <;> simp only [List.forall₂_cons, List.forall₂_nil_right_iff, List.forall₂_nil_left_iff, reduceCtorEq, and_false] at hF
  obtain ⟨⟨-, h1⟩, ⟨h2, -⟩, ⟨-, h3⟩, -⟩ := hF
  have t1 := (h1 (Or.inl ⟨by simp [demoRow, Cell.toFl], Or.inr ⟨hx, Or.inl rfl⟩⟩)).2
  have t2 := h2 (by
    rintro (⟨h, -⟩ | ⟨-, -, h | h⟩)
    · simp [demoRow, Cell.toFl] at h
    · simp [demoRow, Function.update] at h
    · simp [demoRow, Function.update] at h)
  have t3 := (h3 (Or.inr ⟨by simp [demoRow, Cell.toFl], hx, Or.inr rfl⟩)).2
  have c1 := (t1 "clicks" 0.2 (by simp)).1 10 (by simp [demoRow, syntheticRow, Function.update, Cell.toFl])
  have c3 := (t3 "clicks" 0.2 (by simp)).1 5 (by simp [demoRow, syntheticRow, Function.update, Cell.toFl])
  have z1 := (t1 "conversions" 0.2 (by simp)).2.1 (by simp [demoRow, syntheticRow, Function.update, Cell.toFl])
  have z3 := (t3 "conversions" 0.2 (by simp)).2.1 (by simp [demoRow, syntheticRow, Function.update, Cell.toFl])
  have c2 : (b "clicks").toFl = .fin 10 := by rw [t2]; simp [demoRow, syntheticRow, Function.update, Cell.toFl]
  have z2 : (b "conversions").toFl = .fin 0 := by rw [t2]; simp [demoRow, syntheticRow, Function.update, Cell.toFl]
  refine ⟨out, ho, ?_, ?_⟩
  · rw [ho', List.map_cons, List.map_cons, List.map_cons, List.map_nil, c1, c2, c3]
    norm_num
  · rw [ho', List.map_cons, List.map_cons, List.map_cons, List.map_nil, z1, z2, z3]

end Feedx
