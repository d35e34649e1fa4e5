import Verif.Model.OneSample
import Verif.Props.Robustness
import Verif.Proofs.TTestSE

/-!
C107: what the checks of the simulated point estimates say.
-/

namespace Feedx

open Fl

/-- The t-tests of the robustness checks are SciPy's. -/
def Spec.ExactT (D : TDist) (X : RobustnessTests) : Prop := ∀ l m, X.t1 l m = oneSampleT D l m

/-- The average of some numbers. -/
noncomputable def Spec.average (l : List ℝ) : ℝ := l.sum / l.length

/-- The sample variance of some numbers. -/
noncomputable def Spec.sampleVariance (l : List ℝ) : ℝ := (l.map (fun x => (x - Spec.average l) ^ 2)).sum / (l.length - 1)

/-- The simulations `rs` gave the point estimates `es`. -/
def Spec.Estimated (rs : List TestResult) (es : List ℝ) : Prop := rs.map TestResult.absoluteDifference = es.map fin

variable {D : TDist} {X : RobustnessTests} {c : SimConfig} {s : SimState}

theorem flTotal_fin (l : List ℝ) : flTotal (l.map fin) = fin l.sum := by
  induction l with
  | nil => rfl
  | cons a l ih =>
    have : flTotal ((a :: l).map fin) = fin a + flTotal (l.map fin) := rfl
    rw [this, ih, List.sum_cons]
    rfl

theorem flMean_fin {l : List ℝ} (h : l ≠ []) : flMean (l.map fin) = fin (Spec.average l) := by
  have hn : (l.length : ℝ) ≠ 0 := by
    have := List.length_pos_iff.mpr h
    positivity
  unfold flMean
  rw [flTotal_fin, List.length_map, fin_div_ne hn]
  rfl

theorem flVar_fin {l : List ℝ} (h : 2 ≤ l.length) : flVar (l.map fin) = fin (Spec.sampleVariance l) := by
  have hne : l ≠ [] := by
    intro e
    rw [e] at h
    simp at h
  have h1 : (2 : ℝ) ≤ l.length := by exact_mod_cast h
  have e : (l.map fin).map (fun x => (x - flMean (l.map fin)).sq) = (l.map (fun x => (x - Spec.average l) ^ 2)).map fin := by
    rw [flMean_fin hne, List.map_map, List.map_map]
    refine List.map_congr_left fun x _ => ?_
    show fin ((x - Spec.average l) * (x - Spec.average l)) = fin ((x - Spec.average l) ^ 2)
    rw [pow_two]
  unfold flVar
  rw [e, flTotal_fin, List.length_map, fin_sub, fin_div_ne (by linarith)]
  rfl

theorem oneSampleT_fin {l : List ℝ} (h : 2 ≤ l.length) (hv : Spec.sampleVariance l ≠ 0) (m : ℝ) :
    oneSampleT D (l.map fin) (fin m) =
      fin (2 * D.cdf (l.length - 1) (-|(Spec.average l - m) / Real.sqrt (Spec.sampleVariance l / l.length)|)) := by
  have hne : l ≠ [] := by
    intro e
    rw [e] at h
    simp at h
  have h1 : (2 : ℝ) ≤ l.length := by exact_mod_cast h
  have hv0 : 0 < Spec.sampleVariance l := by
    refine lt_of_le_of_ne ?_ hv.symm
    unfold Spec.sampleVariance
    refine div_nonneg (List.sum_nonneg ?_) (by linarith)
    intro x hx
    obtain ⟨y, -, rfl⟩ := List.mem_map.mp hx
    positivity
  have hs : 0 < Real.sqrt (Spec.sampleVariance l / l.length) := Real.sqrt_pos.mpr (by positivity)
  unfold oneSampleT
  simp only [flMean_fin hne, flVar_fin h, List.length_map]
  rw [fin_div_ne (by linarith), sqrt_fin (by positivity), fin_sub, fin_sub, fin_div_ne hs.ne', abs_fin, fin_mul,
    D.cdfFl_fin (by linarith), fin_mul, neg_one_mul]

/-- The two-sided p-value reaches the threshold exactly if the statistic is within the critical value. -/
theorem two_sided_ge (D : TDist) {df θ x : ℝ} (hdf : 0 < df) (h0 : 0 < θ) (h1 : θ < 1) :
    θ ≤ 2 * D.cdf df (-|x|) ↔ |x| ≤ D.ppf df (1 - θ / 2) := by
  have hc := D.ppf_one_sub hdf (q := θ / 2) (by linarith) (by linarith)
  have hl := D.cdf_lt_iff hdf (q := θ / 2) (by linarith) (by linarith) (-|x|)
  rw [hc]
  constructor
  · intro h
    by_contra hn
    have := hl.mpr (by linarith)
    linarith
  · intro h
    by_contra hn
    have := hl.mp (by linarith)
    linarith

theorem estimated_ne {rs : List TestResult} {es : List ℝ} (h : Spec.Estimated rs es) (hl : es ≠ []) : rs ≠ [] := by
  rintro rfl
  unfold Spec.Estimated at h
  cases es with
  | nil => exact hl rfl
  | cons a es => cases h

theorem abPoint_eval (hX : Spec.ExactT D X) {aa ab : List TestResult} {m : Fl ℝ} (haa : s.aa = some aa) (hab : s.ab = some ab)
    (hm : s.mde = some m) (hne : ab ≠ []) :
    abPointCheck X c s = .ok (some (Fl.le (fin c.threshold) (oneSampleT D (ab.map TestResult.absoluteDifference) m))) := by
  unfold abPointCheck aboveThreshold abPointPValue abResults resultColumn
  simp only [haa, hab, hm, raiseIf, hne, if_false, bind, Except.bind, pure, Except.pure, Option.map_some]
  rw [hX]

theorem aaPoint_eval (hX : Spec.ExactT D X) {aa : List TestResult} (haa : s.aa = some aa) (hne : aa ≠ []) :
    aaPointCheck X c s = .ok (some (Fl.le (fin c.threshold) (oneSampleT D (aa.map TestResult.absoluteDifference) (fin 0)))) := by
  unfold aaPointCheck aboveThreshold aaPointPValue resultColumn
  simp only [haa, raiseIf, hne, if_false, bind, Except.bind, pure, Except.pure, Option.map_some]
  rw [hX]

theorem ne_nil_of_two {α : Type} {l : List α} (h : 2 ≤ l.length) : l ≠ [] := by
  rintro rfl
  simp at h

theorem within_iff (D : TDist) {l : List ℝ} (h : 2 ≤ l.length) (hv : Spec.sampleVariance l ≠ 0) (m : ℝ) {θ : ℝ} (h0 : 0 < θ) (h1 : θ < 1) :
    Fl.le (fin θ) (oneSampleT D (l.map fin) (fin m)) = true ↔
      |Spec.average l - m| ≤ D.ppf (l.length - 1) (1 - θ / 2) * Real.sqrt (Spec.sampleVariance l / l.length) := by
  have h2 : (2 : ℝ) ≤ l.length := by exact_mod_cast h
  rw [oneSampleT_fin h hv, le_fin, decide_eq_true_eq, two_sided_ge D (by linarith) h0 h1, abs_div]
  have hv0 : 0 ≤ Spec.sampleVariance l := by
    unfold Spec.sampleVariance
    refine div_nonneg (List.sum_nonneg ?_) (by linarith)
    intro x hx
    obtain ⟨y, -, rfl⟩ := List.mem_map.mp hx
    positivity
  have hs : 0 < Real.sqrt (Spec.sampleVariance l / l.length) := by
    have : 0 < Spec.sampleVariance l := lt_of_le_of_ne hv0 hv.symm
    exact Real.sqrt_pos.mpr (by positivity)
  rw [abs_of_pos hs, div_le_iff₀ hs]

/-- **C107.**  At least two A/B simulations with different estimates: the check passes exactly if the minimum detectable effect lies in the
t-interval around the average estimate whose level is one minus the threshold. -/
theorem C107_ab_check_is_interval (hX : Spec.ExactT D X) (aa ab : List TestResult) (es : List ℝ) (m : ℝ) (haa : s.aa = some aa)
    (hab : s.ab = some ab) (hm : s.mde = some (fin m)) (hes : Spec.Estimated ab es) (h2 : 2 ≤ es.length) (hv : Spec.sampleVariance es ≠ 0)
    (h0 : 0 < c.threshold) (h1 : c.threshold < 1) :
    ∃ b, abPointCheck X c s = .ok (some b) ∧ (b = true ↔
      |Spec.average es - m| ≤ D.ppf (es.length - 1) (1 - c.threshold / 2) * Real.sqrt (Spec.sampleVariance es / es.length)) := by
  refine ⟨_, abPoint_eval hX haa hab hm (estimated_ne hes (ne_nil_of_two h2)), ?_⟩
  rw [show ab.map TestResult.absoluteDifference = es.map fin from hes]
  exact within_iff D h2 hv m h0 h1

/-- **C107.**  The same for the A/A simulations, around zero. -/
theorem C107_aa_check_is_interval (hX : Spec.ExactT D X) (aa : List TestResult) (es : List ℝ) (haa : s.aa = some aa)
    (hes : Spec.Estimated aa es) (h2 : 2 ≤ es.length) (hv : Spec.sampleVariance es ≠ 0) (h0 : 0 < c.threshold) (h1 : c.threshold < 1) :
    ∃ b, aaPointCheck X c s = .ok (some b) ∧ (b = true ↔
      |Spec.average es| ≤ D.ppf (es.length - 1) (1 - c.threshold / 2) * Real.sqrt (Spec.sampleVariance es / es.length)) := by
  refine ⟨_, aaPoint_eval hX haa (estimated_ne hes (ne_nil_of_two h2)), ?_⟩
  rw [show aa.map TestResult.absoluteDifference = es.map fin from hes, within_iff D h2 hv 0 h0 h1, sub_zero]

/-- **C107.**  Estimates that are right on average, and differ, pass. -/
theorem C107_right_on_average (hX : Spec.ExactT D X) (aa ab : List TestResult) (es : List ℝ) (haa : s.aa = some aa)
    (hab : s.ab = some ab) (hm : s.mde = some (fin (Spec.average es))) (hes : Spec.Estimated ab es) (h2 : 2 ≤ es.length)
    (hv : Spec.sampleVariance es ≠ 0) (h1 : c.threshold ≤ 1) : abPointCheck X c s = .ok (some true) := by
  have h2' : (2 : ℝ) ≤ es.length := by exact_mod_cast h2
  rw [abPoint_eval hX haa hab hm (estimated_ne hes (ne_nil_of_two h2)), show ab.map TestResult.absoluteDifference = es.map fin from hes,
    oneSampleT_fin h2 hv, sub_self, zero_div, abs_zero, neg_zero, D.cdf_zero (by linarith)]
  simp only [le_fin, Except.ok.injEq, Option.some.injEq, decide_eq_true_eq]
  linarith

/-! ### When the test has no p-value -/

theorem total_nan {l : List (Fl ℝ)} (h : nan ∈ l) : flTotal l = nan := by
  induction l with
  | nil => cases h
  | cons a l ih =>
    have e : flTotal (a :: l) = a + flTotal l := rfl
    rw [e]
    rcases List.mem_cons.mp h with rfl | h
    · exact nan_add _
    · rw [ih h]
      exact add_nan _

/-- A sum with infinite terms is not finite, and an infinite sum has a term of its own kind. -/
theorem total_cases {l : List (Fl ℝ)} :
    (∃ xs : List ℝ, l = xs.map fin) ∨ flTotal l = nan ∨ (flTotal l = pinf ∧ pinf ∈ l) ∨ (flTotal l = ninf ∧ ninf ∈ l) := by
  induction l with
  | nil => exact Or.inl ⟨[], rfl⟩
  | cons a l ih =>
    have e : flTotal (a :: l) = a + flTotal l := rfl
    rw [e]
    rcases ih with ⟨xs, rfl⟩ | h | ⟨h, hm⟩ | ⟨h, hm⟩
    · rw [flTotal_fin]
      cases a with
      | nan => exact Or.inr (Or.inl rfl)
      | pinf => exact Or.inr (Or.inr (Or.inl ⟨rfl, List.mem_cons_self⟩))
      | ninf => exact Or.inr (Or.inr (Or.inr ⟨rfl, List.mem_cons_self⟩))
      | fin x => exact Or.inl ⟨x :: xs, rfl⟩
    · rw [h]
      exact Or.inr (Or.inl (add_nan _))
    · rw [h]
      cases a with
      | nan => exact Or.inr (Or.inl rfl)
      | pinf => exact Or.inr (Or.inr (Or.inl ⟨rfl, List.mem_cons_self⟩))
      | ninf => exact Or.inr (Or.inl rfl)
      | fin x => exact Or.inr (Or.inr (Or.inl ⟨rfl, List.mem_cons_of_mem _ hm⟩))
    · rw [h]
      cases a with
      | nan => exact Or.inr (Or.inl rfl)
      | pinf => exact Or.inr (Or.inl rfl)
      | ninf => exact Or.inr (Or.inr (Or.inr ⟨rfl, List.mem_cons_self⟩))
      | fin x => exact Or.inr (Or.inr (Or.inr ⟨rfl, List.mem_cons_of_mem _ hm⟩))

theorem oneSampleT_nan_of_var {l : List (Fl ℝ)} {m : Fl ℝ} (h : flVar l = nan) : oneSampleT D l m = nan := by
  unfold oneSampleT
  simp only [h, nan_div, Fl.sqrt, div_nan, Fl.abs, mul_nan, TDist.cdfFl]

/-- Without a finite value for every simulation there is no p-value. -/
theorem oneSampleT_not_finite {l : List (Fl ℝ)} {m : Fl ℝ} (h : ¬ ∃ xs : List ℝ, l = xs.map fin) : oneSampleT D l m = nan := by
  have hne : l ≠ [] := by
    rintro rfl
    exact h ⟨[], rfl⟩
  have hn : (0 : ℝ) < l.length := by exact_mod_cast List.length_pos_iff.mpr hne
  refine oneSampleT_nan_of_var ?_
  have key : nan ∈ l.map (fun x => (x - flMean l).sq) → flVar l = nan := by
    intro hk
    unfold flVar
    rw [total_nan hk, nan_div]
  apply key
  rcases total_cases (l := l) with hf | hf | ⟨hf, hm⟩ | ⟨hf, hm⟩
  · exact absurd hf h
  · obtain ⟨a, l', rfl⟩ := List.exists_cons_of_ne_nil hne
    refine List.mem_map.mpr ⟨a, List.mem_cons_self, ?_⟩
    unfold flMean
    rw [hf, nan_div, sub_nan]
    rfl
  · refine List.mem_map.mpr ⟨pinf, hm, ?_⟩
    have : flMean l = pinf := by
      unfold flMean
      rw [hf]
      show Fl.div pinf (fin _) = pinf
      simp [Fl.div, not_lt.mpr hn.le]
    rw [this]
    rfl
  · refine List.mem_map.mpr ⟨ninf, hm, ?_⟩
    have : flMean l = ninf := by
      unfold flMean
      rw [hf]
      show Fl.div ninf (fin _) = ninf
      simp [Fl.div, not_lt.mpr hn.le]
    rw [this]
    rfl

theorem oneSampleT_short {l : List (Fl ℝ)} {m : Fl ℝ} (h : l.length ≤ 1) : oneSampleT D l m = nan := by
  unfold oneSampleT
  have hd : ∀ x : Fl ℝ, D.cdfFl (fin (l.length : ℝ) - fin 1) x = nan := by
    intro x
    have h1 : (l.length : ℝ) ≤ 1 := by exact_mod_cast h
    rw [fin_sub]
    cases x <;> simp [TDist.cdfFl, not_lt.mpr h1]
  simp only [hd, mul_nan]

/-- **C107.**  A missing or infinite estimate in any simulation fails the check of those simulations. -/
theorem C107_missing_estimate_fails (hX : Spec.ExactT D X) (aa ab : List TestResult) (m : Fl ℝ) (haa : s.aa = some aa)
    (hab : s.ab = some ab) (hm : s.mde = some m) (hne : aa ≠ []) (hne' : ab ≠ []) :
    ((∃ r ∈ aa, ∀ x, r.absoluteDifference ≠ fin x) → aaPointCheck X c s = .ok (some false)) ∧
    ((∃ r ∈ ab, ∀ x, r.absoluteDifference ≠ fin x) → abPointCheck X c s = .ok (some false)) := by
  have key : ∀ l : List TestResult, (∃ r ∈ l, ∀ x, r.absoluteDifference ≠ fin x) → ∀ m,
      oneSampleT D (l.map TestResult.absoluteDifference) m = nan := by
    intro l ⟨r, hr, hx⟩ m
    refine oneSampleT_not_finite ?_
    rintro ⟨xs, e⟩
    have : r.absoluteDifference ∈ xs.map fin := e ▸ List.mem_map_of_mem hr
    obtain ⟨x, -, hx'⟩ := List.mem_map.mp this
    exact hx x hx'.symm
  constructor
  · intro h
    rw [aaPoint_eval hX haa hne, key aa h]
    rfl
  · intro h
    rw [abPoint_eval hX haa hab hm hne', key ab h]
    rfl

/-- **C107.**  Validating with a single simulation never passes all checks. -/
theorem C107_single_simulation_fails (hX : Spec.ExactT D X) (a b : TestResult) (m : Fl ℝ) (haa : s.aa = some [a])
    (hab : s.ab = some [b]) (hm : s.mde = some m) : allChecksPass X c s = .ok (some false) := by
  obtain ⟨v, h1, h2⟩ := C73_true_iff_five_checks (c := c) X s [a] [b] m haa hab hm (by simp) (by simp)
  rw [h1]
  cases v with
  | false => rfl
  | true =>
    obtain ⟨-, -, -, h, -⟩ := h2.mp rfl
    rw [hX, oneSampleT_short (by simp)] at h
    rcases h with h | ⟨x, h, -⟩ <;> cases h

theorem constant_average {x : ℝ} {n : ℕ} (hn : 0 < n) : Spec.average (List.replicate n x) = x := by
  have : (0 : ℝ) < n := by exact_mod_cast hn
  unfold Spec.average
  rw [List.sum_replicate, List.length_replicate, nsmul_eq_mul, mul_div_cancel_left₀ _ this.ne']

theorem constant_variance {x : ℝ} {n : ℕ} (hn : 0 < n) : Spec.sampleVariance (List.replicate n x) = 0 := by
  unfold Spec.sampleVariance
  rw [constant_average hn, List.map_replicate, sub_self]
  simp

/-- **C107.**  If all simulations give the same estimate the check fails, whatever it is compared with - even if it is exactly right. -/
theorem C107_identical_estimates_fail (hX : Spec.ExactT D X) (aa ab : List TestResult) (x m : ℝ) (n : ℕ) (hn : 2 ≤ n) (haa : s.aa = some aa)
    (hab : s.ab = some ab) (hm : s.mde = some (fin m)) (hes : Spec.Estimated ab (List.replicate n x)) (h0 : 0 < c.threshold) :
    abPointCheck X c s = .ok (some false) := by
  have hlen : 2 ≤ (List.replicate n x).length := by simpa using hn
  have hne := ne_nil_of_two hlen
  have hn' : (2 : ℝ) ≤ n := by exact_mod_cast hn
  rw [abPoint_eval hX haa hab hm (estimated_ne hes hne), show ab.map TestResult.absoluteDifference = _ from hes]
  unfold oneSampleT
  simp only [flMean_fin hne, flVar_fin hlen, constant_variance (show 0 < n by omega), constant_average (show 0 < n by omega), List.length_map,
    List.length_replicate]
  have hz : (fin (0 : ℝ) / fin (n : ℝ)).sqrt = fin 0 := by
    rw [fin_div_ne (by linarith), zero_div, sqrt_fin (le_refl _), Real.sqrt_zero]
  rw [hz, fin_sub, fin_sub]
  have hd : (fin (x - m) / fin 0 : Fl ℝ) = infSign (x - m) := by
    show Fl.div (fin _) (fin _) = _
    simp [Fl.div]
  rw [hd]
  have hdf : (0 : ℝ) < n - 1 := by linarith
  unfold infSign
  split_ifs
  · have e : (fin (-1) * (Fl.abs pinf) : Fl ℝ) = ninf := by
      show infSign (-1 : ℝ) = ninf
      simp [infSign]
    rw [e]
    simp only [TDist.cdfFl, hdf, if_true, fin_mul, mul_zero, le_fin]
    simp [h0]
  · have e : (fin (-1) * (Fl.abs ninf) : Fl ℝ) = ninf := by
      show infSign (-1 : ℝ) = ninf
      simp [infSign]
    rw [e]
    simp only [TDist.cdfFl, hdf, if_true, fin_mul, mul_zero, le_fin]
    simp [h0]
  · rfl

/-- **C107.**  Changing the unit of the metric: if every estimate and the minimum detectable effect are multiplied by the same positive number, the
check gives the same verdict. -/
theorem C107_units (hX : Spec.ExactT D X) (s' : SimState) (aa ab aa' ab' : List TestResult) (es : List ℝ) (m k : ℝ) (hk : 0 < k)
    (haa : s.aa = some aa) (hab : s.ab = some ab) (hm : s.mde = some (fin m)) (haa' : s'.aa = some aa') (hab' : s'.ab = some ab')
    (hm' : s'.mde = some (fin (k * m))) (hes : Spec.Estimated ab es) (hes' : Spec.Estimated ab' (es.map (fun x => k * x)))
    (h2 : 2 ≤ es.length) (hv : Spec.sampleVariance es ≠ 0) :
    abPointCheck X c s' = abPointCheck X c s := by
  have hne := ne_nil_of_two h2
  have h2' : 2 ≤ (es.map (fun x => k * x)).length := by simpa using h2
  have ea : Spec.average (es.map (fun x => k * x)) = k * Spec.average es := by
    unfold Spec.average
    rw [List.sum_map_mul_left, List.length_map, List.map_id', mul_div_assoc]
  have ev : Spec.sampleVariance (es.map (fun x => k * x)) = k ^ 2 * Spec.sampleVariance es := by
    unfold Spec.sampleVariance
    rw [ea, List.map_map, List.length_map, ← mul_div_assoc, ← List.sum_map_mul_left]
    congr 2
    refine List.map_congr_left fun x _ => ?_
    simp only [Function.comp]
    ring
  have hv' : Spec.sampleVariance (es.map (fun x => k * x)) ≠ 0 := by
    rw [ev]
    exact mul_ne_zero (by positivity) hv
  rw [abPoint_eval hX haa hab hm (estimated_ne hes hne), abPoint_eval hX haa' hab' hm' (estimated_ne hes' (ne_nil_of_two h2')),
    show ab.map TestResult.absoluteDifference = _ from hes, show ab'.map TestResult.absoluteDifference = _ from hes', oneSampleT_fin h2 hv,
    oneSampleT_fin h2' hv', ea, ev, List.length_map, mul_div_assoc, Real.sqrt_mul (by positivity), Real.sqrt_sq hk.le, ← mul_sub,
    mul_div_mul_left _ _ hk.ne']

/-! ### Examples -/

/-- A result with a given estimate. -/
noncomputable def estimateOf (x : Fl ℝ) : TestResult :=
  ⟨false, 1 / 20, .nan, .nan, x, .nan, .nan, none, none, none, .nan, 0, .nan, .nan⟩

/-- A state with given estimates of the A/A and A/B simulations. -/
noncomputable def estimatesOf (m : Fl ℝ) (aa ab : List (Fl ℝ)) : SimState :=
  ⟨⟨[], []⟩, some m, none, none, none, some (aa.map estimateOf), some (ab.map estimateOf)⟩

/-- SciPy's t-test. -/
noncomputable def exactT (D : TDist) : RobustnessTests := ⟨fun _ => .nan, binomTail, oneSampleT D⟩

theorem exactT_ok (D : TDist) : Spec.ExactT D (exactT D) := fun _ _ => rfl

theorem three_four_five : Spec.average [3, 4, 5] = 4 ∧ Spec.sampleVariance [3, 4, 5] = 1 := by
  constructor
  · unfold Spec.average
    norm_num
  · unfold Spec.sampleVariance Spec.average
    norm_num

/-- Three A/B simulations with the estimates 3, 4, 5 and a minimum detectable effect of 4. -/
example (D : TDist) : abPointCheck (exactT D) (configOf (1 / 20) (4 / 5) (1 / 20)) (estimatesOf (fin 4) [fin 0] [fin 3, fin 4, fin 5]) = .ok (some true) := by
  refine C107_right_on_average (exactT_ok D) _ _ [3, 4, 5] rfl rfl ?_ rfl (by simp) ?_ ?_
  · rw [three_four_five.1]
    rfl
  · rw [three_four_five.2]
    norm_num
  · show (1 / 20 : ℝ) ≤ 1
    norm_num

/-- The interval theorem applies to them. -/
example (D : TDist) (m : ℝ) : ∃ b, abPointCheck (exactT D) (configOf (1 / 20) (4 / 5) (1 / 20)) (estimatesOf (fin m) [fin 0] [fin 3, fin 4, fin 5]) =
    .ok (some b) ∧ (b = true ↔ |4 - m| ≤ D.ppf 2 (39 / 40) * Real.sqrt (1 / 3)) := by
  obtain ⟨b, h1, h2⟩ := C107_ab_check_is_interval (D := D) (c := configOf (1 / 20) (4 / 5) (1 / 20)) (s := estimatesOf (fin m) [fin 0] [fin 3, fin 4, fin 5])
    (exactT_ok D) _ _ [3, 4, 5] m rfl rfl rfl rfl (by simp) (by rw [three_four_five.2]; norm_num) (show (0 : ℝ) < 1 / 20 by norm_num)
    (show (1 / 20 : ℝ) < 1 by norm_num)
  refine ⟨b, h1, ?_⟩
  rw [h2, three_four_five.1, three_four_five.2]
  have e1 : ((([3, 4, 5] : List ℝ).length : ℝ) - 1) = 2 := by norm_num
  have e2 : (1 - (configOf (1 / 20) (4 / 5) (1 / 20)).threshold / 2 : ℝ) = 39 / 40 := by
    show (1 - (1 / 20 : ℝ) / 2) = 39 / 40
    norm_num
  rw [e1, e2]
  norm_num

/-- A simulation without estimate; identical estimates. -/
example (D : TDist) : abPointCheck (exactT D) (configOf (1 / 20) (4 / 5) (1 / 20)) (estimatesOf (fin 4) [fin 0] [fin 3, nan, fin 5]) = .ok (some false) :=
  (C107_missing_estimate_fails (exactT_ok D) _ _ _ rfl rfl rfl (by simp) (by simp)).2 ⟨estimateOf nan, by simp, by intro x h; cases h⟩

example (D : TDist) : abPointCheck (exactT D) (configOf (1 / 20) (4 / 5) (1 / 20)) (estimatesOf (fin 4) [fin 0] [fin 4, fin 4, fin 4]) = .ok (some false) :=
  C107_identical_estimates_fail (exactT_ok D) _ _ 4 4 3 (by norm_num) rfl rfl rfl rfl (show (0 : ℝ) < 1 / 20 by norm_num)

example (D : TDist) : allChecksPass (exactT D) (configOf (1 / 20) (4 / 5) (1 / 20)) (estimatesOf (fin 4) [fin 0] [fin 4]) = .ok (some false) :=
  C107_single_simulation_fails (exactT_ok D) _ _ _ rfl rfl rfl

end Feedx
