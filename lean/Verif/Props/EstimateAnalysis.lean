import Verif.Props.Estimate
import Verif.Props.Analysis
import Verif.Props.TTestFormulas
import Verif.Spec.EstimateAnalysis

/-!
Property C101: the uncertainty behind the estimated minimum detectable effect is the one of an analysis without effect.
-/

namespace Feedx

/-! ### Sums of squares -/

theorem sumSqDev_eq_sq (l : List ℝ) : Spec.sumSqDev l = (l.map (fun x => x ^ 2)).sum - l.length * Spec.mean l ^ 2 := by
  by_cases hl : l = []
  · subst hl; simp [Spec.sumSqDev]
  have hn : (l.length : ℝ) ≠ 0 := by rw [Nat.cast_ne_zero, ne_eq, List.length_eq_zero_iff]; exact hl
  have key : ∀ (m : ℝ) (l : List ℝ), (l.map (fun x => (x - m) ^ 2)).sum = (l.map (fun x => x ^ 2)).sum - 2 * m * l.sum + l.length * m ^ 2 := by
    intro m l
    induction l with
    | nil => simp
    | cons a l ih => simp only [List.map_cons, List.sum_cons, ih, List.length_cons]; push_cast; ring
  unfold Spec.sumSqDev
  rw [key]
  have : l.sum = l.length * Spec.mean l := by unfold Spec.mean; field_simp
  rw [this]
  ring

/-- Splitting a sample in two groups of the same size. -/
theorem sumSqDev_groups {y a b : List ℝ} (hp : (a ++ b).Perm y) {m : ℕ} (ha : a.length = m) (hb : b.length = m) (hm : m ≠ 0) :
    Spec.sumSqDev y = Spec.sumSqDev a + Spec.sumSqDev b + m / 2 * (Spec.mean a - Spec.mean b) ^ 2 := by
  rw [← sumSqDev_perm hp, sumSqDev_eq_sq, sumSqDev_eq_sq, sumSqDev_eq_sq, List.map_append, List.sum_append]
  have hm' : (m : ℝ) ≠ 0 := by exact_mod_cast hm
  have e : Spec.mean (a ++ b) = (Spec.mean a + Spec.mean b) / 2 := by
    unfold Spec.mean
    rw [List.sum_append, List.length_append, ha, hb]
    push_cast
    field_simp
    ring
  rw [e, List.length_append, ha, hb]
  push_cast
  ring

theorem yuenSummary_zero {y : List ℝ} {h : ℕ} {mu ss : ℝ} (hy : Spec.YuenSummary 0 y h mu ss) :
    h = y.length ∧ mu = Spec.mean y ∧ ss = Spec.sumSqDev y ∧ y ≠ [] := by
  obtain ⟨kept, lo, hi, h1, h2, h3, h4, h5⟩ := hy
  obtain rfl := trimmed_zero h1
  have e : kept.map (Spec.clip lo hi) = kept := by
    conv_rhs => rw [← List.map_id kept]
    exact List.map_congr_left (fun x hx => clip_extremes h2 hx)
  rw [e] at h5
  exact ⟨h3.symm, h4, h5, List.ne_nil_of_mem h2.1⟩

/-! ### The analysed table -/

theorem assigned_arm (item : Cell ℝ) (b : Bool) : (Spec.AssignedTo 1 [item, .int (if b then 1 else 0)] ↔ b = true) ∧
    (Spec.AssignedTo 0 [item, .int (if b then 1 else 0)] ↔ b = false) := by
  unfold Spec.AssignedTo
  constructor
  · constructor
    · rintro ⟨i, t, h, h1⟩
      cases b with
      | true => rfl
      | false =>
        simp only [List.cons.injEq, and_true] at h
        rw [← h.2] at h1
        have := Fl.fin.inj h1
        norm_num at this
    · rintro rfl
      exact ⟨_, _, rfl, by simp [Cell.toFl]⟩
  · constructor
    · rintro ⟨i, t, h, h1⟩
      cases b with
      | false => rfl
      | true =>
        simp only [List.cons.injEq, and_true] at h
        rw [← h.2] at h1
        have := Fl.fin.inj h1
        norm_num at this
    · rintro rfl
      exact ⟨_, _, rfl, by simp [Cell.toFl]⟩

theorem oneRow_length {items : List (Cell ℝ)} {arms : List Bool} {piv : Pivoted ℝ} (h : Spec.ItemsWithArms items arms piv) :
    piv.index.length = items.length := by
  rw [h.2, List.length_zipWith, h.1, min_self]

open Classical in
theorem group_length {items : List (Cell ℝ)} {arms : List Bool} {piv : Pivoted ℝ} (h : Spec.ItemsWithArms items arms piv) {y : List ℝ}
    (hy : y.length = items.length) :
    (Spec.groupOf piv 1 y).length = arms.count true ∧ (Spec.groupOf piv 0 y).length = arms.count false := by
  obtain ⟨h1, h2⟩ := h
  unfold Spec.groupOf
  rw [h2]
  clear h2
  induction items generalizing arms y with
  | nil =>
    have : arms = [] := List.length_eq_zero_iff.mp h1
    subst this; simp
  | cons item items ih =>
    cases arms with
    | nil => simp at h1
    | cons b arms =>
      cases y with
      | nil => simp at hy
      | cons v y =>
        obtain ⟨i1, i2⟩ := ih (arms := arms) (y := y) (by simpa using hy) (by simpa using h1)
        obtain ⟨a1, a2⟩ := assigned_arm item b
        simp only [List.zipWith_cons_cons, List.zip_cons_cons, List.filter_cons, List.count_cons]
        simp only [a1, a2]
        rw [List.length_map] at i1 i2
        cases b <;> simp [i1, i2]

theorem values_of_items {items : List (Cell ℝ)} {arms : List Bool} {piv : Pivoted ℝ} (h : Spec.ItemsWithArms items arms piv) {metric label : String}
    {f : Cell ℝ → Fl ℝ} (hf : ∀ item ∈ items, ∀ t, piv.value [item, t] metric label = f item) {v : List ℝ} (hv : Spec.ValuesOf piv metric label v) :
    List.Forall₂ (fun item x => f item = .fin x) items v := by
  obtain ⟨h1, h2⟩ := h
  unfold Spec.ValuesOf at hv
  rw [h2] at hv
  clear h2
  induction items generalizing arms v with
  | nil =>
    have : arms = [] := List.length_eq_zero_iff.mp h1
    subst this
    simp at hv
    subst hv
    exact .nil
  | cons item items ih =>
    cases arms with
    | nil => simp at h1
    | cons b arms =>
      rw [List.zipWith_cons_cons] at hv
      cases hv with
      | cons g1 g2 =>
        refine .cons ?_ (ih (fun i hi => hf i (by simp [hi])) g2 (by simpa using h1))
        rw [← hf item (by simp), g1]

theorem index_pairs {items : List (Cell ℝ)} {arms : List Bool} {piv : Pivoted ℝ} (h : Spec.ItemsWithArms items arms piv) :
    ∀ k ∈ piv.index, k.length = 2 ∧ (Spec.AssignedTo 0 k ∨ Spec.AssignedTo 1 k) := by
  intro k hk
  rw [h.2] at hk
  obtain ⟨n, hn, rfl⟩ := List.mem_iff_getElem.mp hk
  rw [List.getElem_zipWith]
  refine ⟨rfl, ?_⟩
  obtain ⟨a1, a2⟩ := assigned_arm (items[n]'(by simp at hn; omega)) (arms[n]'(by simp at hn; omega))
  cases hb : arms[n]'(by simp at hn; omega) with
  | true => rw [hb] at a1; exact Or.inr (a1.mpr rfl)
  | false => rw [hb] at a2; exact Or.inl (a2.mpr rfl)

/-- The standard error of the independent test of two groups of the same size, from all values together. -/
theorem balanced_error (R : Rounding ℝ) {argsort : List ℝ → List ℕ} (ha : ArgsortOk argsort) {D : TDist} {y a b : List ℝ} (hp : (a ++ b).Perm y)
    (hab : a.length = b.length) {alpha : ℝ} {r : TestResult} (h : indTest R argsort D a b 0 none none false "two-sided" alpha = .ok r) :
    ∃ se diff : ℝ, r.standardError = .fin se ∧ r.absoluteDifference = .fin diff ∧
      se ^ 2 * ((y.length : ℝ) - 2) = 4 * Spec.sumSqDev y / y.length - diff ^ 2 := by
  obtain ⟨g1, g2, h1, h2, mu1, mu2, ss1, ss2, k1, k2, s1, s2, e1, -, -, -, -, -, e2, -⟩ :=
    C83_independent_test_reports R argsort ha D a b 0 false "two-sided" alpha r h
  rw [rnd_zero_floor] at k1 k2
  have k1 : g1 = 0 := by exact_mod_cast k1
  have k2 : g2 = 0 := by exact_mod_cast k2
  subst k1 k2
  obtain ⟨l1, m1, q1, n1⟩ := yuenSummary_zero s1
  obtain ⟨l2, m2, q2, n2⟩ := yuenSummary_zero s2
  obtain ⟨e2, -⟩ := e2 rfl
  refine ⟨_, _, e2, e1, ?_⟩
  have hpos : 0 < a.length := List.length_pos_iff.mpr n1
  have hy : y.length = 2 * a.length := by rw [← hp.length_eq, List.length_append, ← hab]; ring
  rw [sumSqDev_groups hp rfl hab.symm hpos.ne', hy, m1, m2, q1, q2, l1, l2, ← hab]
  have hz : ∀ z : List ℝ, z.length = 1 → Spec.sumSqDev z = 0 := fun z hz => sumSqDev_zero_of_short (by omega)
  have hnn : 0 ≤ Spec.yuenVar a.length (Spec.sumSqDev a) + Spec.yuenVar a.length (Spec.sumSqDev b) := by
    unfold Spec.yuenVar
    have p1 := sumSqDev_nonneg a
    have p2 := sumSqDev_nonneg b
    have p3 : (0 : ℝ) ≤ (a.length : ℝ) * ((a.length : ℝ) - 1) := by
      have : (1 : ℝ) ≤ (a.length : ℝ) := by exact_mod_cast hpos
      nlinarith
    positivity
  rw [Real.sq_sqrt hnn]
  unfold Spec.yuenVar
  have hp0 : (a.length : ℝ) ≠ 0 := by exact_mod_cast hpos.ne'
  push_cast
  rcases Nat.lt_or_ge 1 a.length with h1 | h1
  · have : (a.length : ℝ) - 1 ≠ 0 := by
      have : (1 : ℝ) < (a.length : ℝ) := by exact_mod_cast h1
      linarith
    field_simp
    ring
  · have h1 : a.length = 1 := by omega
    rw [hz a h1, hz b (by omega), h1]
    norm_num
    ring

/-- What one start week contributes. -/
theorem one_week (R : Rounding ℝ) {argsort : List ℝ → List ℕ} (ha : ArgsortOk argsort) {D : TDist} {p : DesignParams ℝ} {c : SimConfig}
    (hd : mkDesign R p = .ok c.design) (hn : c.design.nBefore ≤ 2 ^ 51)
    (hpw : 0 < c.design.power.val ∧ c.design.power.val < 1) (hal : 0 < c.design.alpha.val ∧ c.design.alpha.val < 1) {σ : ℤ → Shuffle}
    {s : SimState} (hw : ∀ r ∈ s.data.rows, r c.weekCol = .null ∨ ∃ x : ℤ, r c.weekCol = .int x)
    (h : (estimateMde R argsort D σ c s).1 = .ok ()) (hnum : (estimateMde R argsort D σ c s).2.sd ≠ some .nan) {start : ℤ} (hstart : c.starts = [start]) :
    ∃ average variance, Spec.WeekEstimate R.rnd c.design s.data.rows c.itemCol c.weekCol start average variance ∧
      (estimateMde R argsort D σ c s).2.sd = some (.fin (Real.sqrt variance)) := by
  obtain ⟨l, -, hl, hall⟩ := (C100_formula R argsort ha D p c hd hn hpw hal σ s hw h).resolve_right (by
    rintro ⟨-, data, hres⟩
    exact hnum (by rw [hres]))
  rw [hstart] at hl
  cases hl with
  | @cons _ q _ _ h1 h2 =>
    cases h2
    obtain ⟨mde, -, -, data, hres⟩ := hall _ _ _ rfl rfl rfl
    refine ⟨q.1, q.2, h1, ?_⟩
    rw [hres]; simp [Spec.mean]

/-- The estimated standard deviation is a number when the adjustment with pretest values is not used or is defined. -/
theorem sd_number (R : Rounding ℝ) {argsort : List ℝ → List ℕ} (ha : ArgsortOk argsort) {D : TDist} {p : DesignParams ℝ} {c : SimConfig}
    (hd : mkDesign R p = .ok c.design) (hn : c.design.nBefore ≤ 2 ^ 51)
    (hpw : 0 < c.design.power.val ∧ c.design.power.val < 1) (hal : 0 < c.design.alpha.val ∧ c.design.alpha.val < 1) {σ : ℤ → Shuffle}
    {s : SimState} (hw : ∀ r ∈ s.data.rows, r c.weekCol = .null ∨ ∃ x : ℤ, r c.weekCol = .int x)
    (h : (estimateMde R argsort D σ c s).1 = .ok ())
    (hcup : Spec.NoPlainCuped R c.design ∨ Spec.PretestVaries R.rnd c.design s.data.rows c.itemCol c.weekCol c.starts) :
    (estimateMde R argsort D σ c s).2.sd ≠ some .nan := by
  obtain ⟨l, -, -, hall⟩ := (C100_formula R argsort ha D p c hd hn hpw hal σ s hw h).resolve_right
    (fun hc => week_not_constant p hd hcup hc.1)
  obtain ⟨mde, -, -, data, hres⟩ := hall _ _ _ rfl rfl rfl
  rw [hres]
  intro e
  cases e

theorem two_sd {v n : ℝ} (hv : 0 ≤ v) (hn : 0 ≤ n) (k : ℝ) : (k * Real.sqrt v / Real.sqrt n) ^ 2 = k ^ 2 * v / n := by
  rw [div_pow, mul_pow, Real.sq_sqrt hv, Real.sq_sqrt hn]

/-- **C101, regular experiment without pretest weeks and trimming.**  The minimum detectable effect is computed with the standard error
`2 sd / sqrt n`.  Analysing the same historical data, with half of the items in each group, reports the standard error `se` and the
difference `diff` with `se^2 (n - 2) = (2 sd / sqrt n)^2 (n - 1) - diff^2`. -/
theorem C101_regular (R : Rounding ℝ) (argsort : List ℝ → List ℕ) (ha : ArgsortOk argsort) (D : TDist) (p : DesignParams ℝ) (c : SimConfig)
    (hd : mkDesign R p = .ok c.design) (hn : c.design.nBefore ≤ 2 ^ 51)
    (hpw : 0 < c.design.power.val ∧ c.design.power.val < 1) (hal : 0 < c.design.alpha.val ∧ c.design.alpha.val < 1) (σ : ℤ → Shuffle)
    (s : SimState) (hw : ∀ r ∈ s.data.rows, r c.weekCol = .null ∨ ∃ x : ℤ, r c.weekCol = .int x)
    (h : (estimateMde R argsort D σ c s).1 = .ok ()) (start : ℤ) (hstart : c.starts = [start])
    (hx : c.design.isCrossover = false) (hpre : c.design.pretest = 0) (hpost : c.design.postTrim.val = 0)
    (items : List (Cell ℝ)) (hi : Spec.ListsItems c.design s.data.rows c.itemCol c.weekCol start items)
    (arms : List Bool) (hhalf : arms.count true = arms.count false) (piv : Pivoted ℝ) (hone : Spec.ItemsWithArms items arms piv)
    (hper : Cell.str "pretest" ∉ piv.periods)
    (hval : Spec.HoldsAverages piv items c.design.primaryMetric "test" s.data.rows c.itemCol c.weekCol start (start + c.design.runtime))
    (metrics : List String) (itemName armName : String) (hne : itemName ≠ armName) (hi' : ¬ Spec.Reserved itemName) (ht' : ¬ Spec.Reserved armName)
    (r : TestResult) (hr : analyzeSingleMetric R argsort D piv metrics [itemName, armName] c.design.toDesignParams c.design.primaryMetric none armName none
      = .ok r) :
    ∃ sd se diff : ℝ, (estimateMde R argsort D σ c s).2.sd = some (.fin sd) ∧ r.standardError = .fin se ∧ r.absoluteDifference = .fin diff ∧
      ∀ n : ℝ, n = c.design.nAfterPost → se ^ 2 * (n - 2) = (2 * sd / Real.sqrt n) ^ 2 * (n - 1) - diff ^ 2 := by
  obtain ⟨hdd, hvalid⟩ := (mkDesign_ok_iff R p c.design).mp hd
  obtain ⟨hleg, hmin⟩ := (validateDesign_ok_iff R _).mp hvalid
  have hnn : c.design.nAfterPost = c.design.nBefore :=
    no_trim_count hd (hleg.no_pretrim_without_pretest hpre).1 (hleg.no_pretrim_without_pretest hpre).2 hpost
  obtain ⟨average, variance, ⟨its, kept, hits, hcount, hk, -, -, -, hreg, -⟩, hsd⟩ := one_week R ha hd hn hpw hal hw h (sd_number R ha hd hn hpw hal hw h (Or.inl (Or.inr (Or.inl hpre)))) hstart
  obtain ⟨sample, hsample, hst⟩ := hreg hx (by rintro ⟨r, -, -, x, -, h1, h2⟩; rw [hpre] at h1; omega)
  rw [hpost, rnd_zero_floor] at hst
  obtain ⟨-, t2⟩ := trimmedStats_zero hst
  rw [hk hpre] at hsample
  obtain ⟨y, ⟨test, hv, hor⟩, hyl, hind, hperm⟩ := C39_regular_split R argsort D piv metrics itemName armName hne hi' ht'
    (fun k hk => (index_pairs hone k hk).1) c.design.toDesignParams hx c.design.primaryMetric none r (fun hc => hper hc.1) hr
  rcases hor with ⟨-, rfl⟩ | ⟨hc, -⟩
  swap
  · exact absurd hc hper
  have hp := hperm (fun k hk => (index_pairs hone k hk).2)
  rw [oneRow_length hone] at hyl
  obtain ⟨l1, l0⟩ := group_length hone hyl
  rw [Option.getD_none, hpost] at hind
  obtain ⟨se, diff, e1, e2, e3⟩ := balanced_error R ha hp (by rw [l1, l0, hhalf]) hind
  have hpy := values_perm (lists_perm hits hi) (fun a x y h1 h2 => by rw [h1] at h2; cases h2; rfl) hsample (values_of_items hone hval hv)
  rw [sumSqDev_perm hpy, hpy.length_eq] at t2
  have hlen : (y.length : ℤ) = c.design.nBefore := by rw [hyl, ← hcount, (lists_perm hits hi).length_eq]
  have hlen' : (y.length : ℝ) = c.design.nBefore := by rw [← hlen]; simp
  refine ⟨_, se, diff, hsd, e1, e2, ?_⟩
  rintro n rfl
  have h50 : (50 : ℤ) ≤ c.design.nBefore := by omega
  have h50' : (50 : ℝ) ≤ c.design.nBefore := by exact_mod_cast h50
  rw [hnn, ← hlen', e3, t2]
  rw [← hlen'] at h50'
  rw [two_sd (div_nonneg (sumSqDev_nonneg _) (by linarith)) (by linarith)]
  have h1 : (y.length : ℝ) - 1 ≠ 0 := by intro hz; linarith
  field_simp
  ring

/-- **C101, regular experiment with pretest weeks and without trimming.**  The same relation holds with the adjustment by the pretest averages in
both the estimate and the analysis, whenever the estimate is a number.  (It is not if all items have the same pretest average,
`C100_cuped_constant`.) -/
theorem C101_cuped (R : Rounding ℝ) (argsort : List ℝ → List ℕ) (ha : ArgsortOk argsort) (D : TDist) (p : DesignParams ℝ) (c : SimConfig)
    (hd : mkDesign R p = .ok c.design) (hn : c.design.nBefore ≤ 2 ^ 51)
    (hpw : 0 < c.design.power.val ∧ c.design.power.val < 1) (hal : 0 < c.design.alpha.val ∧ c.design.alpha.val < 1) (σ : ℤ → Shuffle)
    (s : SimState) (hw : ∀ r ∈ s.data.rows, r c.weekCol = .null ∨ ∃ x : ℤ, r c.weekCol = .int x)
    (h : (estimateMde R argsort D σ c s).1 = .ok ()) (hnum : (estimateMde R argsort D σ c s).2.sd ≠ some .nan)
    (start : ℤ) (hstart : c.starts = [start])
    (hx : c.design.isCrossover = false) (hpre : Spec.HasPretestRows c.design s.data.rows c.itemCol c.weekCol start)
    (htop : c.design.preTop.val = 0) (hbot : c.design.preBottom.val = 0) (hpost : c.design.postTrim.val = 0)
    (items : List (Cell ℝ)) (hi : Spec.ListsItems c.design s.data.rows c.itemCol c.weekCol start items)
    (arms : List Bool) (hhalf : arms.count true = arms.count false) (piv : Pivoted ℝ) (hone : Spec.ItemsWithArms items arms piv)
    (hper : Cell.str "pretest" ∈ piv.periods)
    (hval : Spec.HoldsAverages piv items c.design.primaryMetric "test" s.data.rows c.itemCol c.weekCol start (start + c.design.runtime))
    (hval' : Spec.HoldsAverages piv items c.design.primaryMetric "pretest" s.data.rows c.itemCol c.weekCol (start - c.design.pretest) start)
    (metrics : List String) (itemName armName : String) (hne : itemName ≠ armName) (hi' : ¬ Spec.Reserved itemName) (ht' : ¬ Spec.Reserved armName)
    (r : TestResult) (hr : analyzeSingleMetric R argsort D piv metrics [itemName, armName] c.design.toDesignParams c.design.primaryMetric none armName none
      = .ok r) :
    ∃ sd se diff : ℝ, (estimateMde R argsort D σ c s).2.sd = some (.fin sd) ∧ r.standardError = .fin se ∧ r.absoluteDifference = .fin diff ∧
      ∀ n : ℝ, n = c.design.nAfterPost → se ^ 2 * (n - 2) = (2 * sd / Real.sqrt n) ^ 2 * (n - 1) - diff ^ 2 := by
  obtain ⟨hdd, hvalid⟩ := (mkDesign_ok_iff R p c.design).mp hd
  obtain ⟨hleg, hmin⟩ := (validateDesign_ok_iff R _).mp hvalid
  have hnn : c.design.nAfterPost = c.design.nBefore := no_trim_count hd htop hbot hpost
  have hpos : 0 < c.design.pretest := by
    obtain ⟨r, -, -, x, -, h1, h2⟩ := hpre
    omega
  obtain ⟨average, variance, ⟨its, kept, hits, hcount, -, hk, -, -, -, hreg⟩, hsd⟩ := one_week R ha hd hn hpw hal hw h hnum hstart
  obtain ⟨sample, hsample, hst⟩ := hreg hx hpre
  rw [hpost, rnd_zero_floor] at hst
  obtain ⟨t0, -, t2⟩ := hst.1 rfl
  rw [cuts_zero htop hbot (hk hpos)] at hsample
  have hconst : ¬ Spec.ConstantPretest R piv c.design.primaryMetric ((none : Option ℝ).getD c.design.postTrim.val) := by
    rintro ⟨-, ⟨x, hall⟩, -⟩
    refine t0 ?_
    have hs : sample.map Prod.snd = List.replicate sample.length x := by
      rw [List.eq_replicate_iff]
      refine ⟨by simp, fun z hz => ?_⟩
      obtain ⟨⟨z1, z2⟩, hz2, rfl⟩ := List.mem_map.mp hz
      obtain ⟨i, hi1, e⟩ := List.mem_iff_getElem.mp hz2
      have hl := hsample.length_eq
      have hg := hsample.get (i := i) (by omega) hi1
      have hmem : its[i]'(by omega) ∈ items := (lists_perm hits hi).mem_iff.mp (List.getElem_mem _)
      obtain ⟨j, hj, ej⟩ := List.mem_iff_getElem.mp hmem
      have harm : j < arms.length := by
        rw [hone.1]
        exact hj
      have hk := hall [items[j], .int (if arms[j] then 1 else 0)] (by
        rw [hone.2]
        exact List.mem_iff_getElem.mpr ⟨j, by rw [List.length_zipWith]; omega, by simp⟩)
      rw [ej, hval' _ hmem] at hk
      simp only [List.get_eq_getElem, e] at hg
      have := hg.2.symm.trans hk
      exact Fl.fin.inj this
    rw [hs, sumSqDev_replicate]
  obtain ⟨y, ⟨test, hv, hor⟩, hyl, hind, hperm⟩ := C39_regular_split R argsort D piv metrics itemName armName hne hi' ht'
    (fun k hk => (index_pairs hone k hk).1) c.design.toDesignParams hx c.design.primaryMetric none r hconst hr
  rcases hor with ⟨hc, -⟩ | ⟨-, pre, hv', hcup⟩
  · exact absurd hper hc
  have hp := hperm (fun k hk => (index_pairs hone k hk).2)
  rw [oneRow_length hone] at hyl
  obtain ⟨l1, l0⟩ := group_length hone hyl
  rw [Option.getD_none, hpost] at hind hcup
  obtain ⟨se, diff, e1, e2, e3⟩ := balanced_error R ha hp (by rw [l1, l0, hhalf]) hind
  obtain ⟨z, rfl, rfl, hz⟩ := forall₂_pairs (values_of_items hone hval hv) (values_of_items hone hval' hv')
  have hpy := values_perm (lists_perm hits hi) (fun a x y h1 h2 => by
    rw [h1.1, h1.2] at h2
    obtain ⟨h2, h3⟩ := h2
    exact Prod.ext (Fl.fin.inj h2) (Fl.fin.inj h3)) hsample hz
  rw [sumSqDev_perm (hpy.map Prod.snd)] at t0 t2
  rw [sumSqDev_perm (hpy.map Prod.fst), crossDev_perm hpy, hpy.length_eq] at t2
  obtain ⟨v, ev, hvl, -, -, hss, -⟩ := C22_cuped_without_trimming R argsort _ _ 0 _ hcup (rnd_zero_floor R _) t0
  have ev : y = v := List.map_injective_iff.mpr (fun x y hxy => by cases hxy; rfl) ev
  subst ev
  rw [← hss, ← List.length_map (f := Prod.fst), ← hvl] at t2
  have hlen : (y.length : ℤ) = c.design.nBefore := by rw [hyl, ← hcount, (lists_perm hits hi).length_eq]
  have hlen' : (y.length : ℝ) = c.design.nBefore := by rw [← hlen]; simp
  refine ⟨_, se, diff, hsd, e1, e2, ?_⟩
  rintro n rfl
  have h50 : (50 : ℤ) ≤ c.design.nBefore := by omega
  have h50' : (50 : ℝ) ≤ c.design.nBefore := by exact_mod_cast h50
  rw [hnn, ← hlen', e3, t2]
  rw [← hlen'] at h50'
  rw [two_sd (div_nonneg (sumSqDev_nonneg _) (by linarith)) (by linarith)]
  have h1 : (y.length : ℝ) - 1 ≠ 0 := by intro hz; linarith
  field_simp
  ring

/-! ### Crossover -/

theorem crossover_values {items : List (Cell ℝ)} {arms : List Bool} {piv : Pivoted ℝ} (h : Spec.ItemsWithArms items arms piv) {metric : String}
    {f g : Cell ℝ → Fl ℝ} (hf : ∀ item ∈ items, ∀ t, piv.value [item, t] metric "test_1" = f item)
    (hg : ∀ item ∈ items, ∀ t, piv.value [item, t] metric "test_2" = g item) {its : List Spec.CrossoverItem} (hv : Spec.CrossoverItems piv metric its) :
    List.Forall₂ (fun item x => f item = .fin x.1 ∧ g item = .fin x.2) items (its.map (fun i => (i.first, i.second))) := by
  obtain ⟨h1, h2⟩ := h
  unfold Spec.CrossoverItems at hv
  rw [h2] at hv
  clear h2
  induction items generalizing arms its with
  | nil =>
    have : arms = [] := List.length_eq_zero_iff.mp h1
    subst this
    simp at hv
    subst hv
    exact .nil
  | cons item items ih =>
    cases arms with
    | nil => simp at h1
    | cons b arms =>
      rw [List.zipWith_cons_cons] at hv
      cases hv with
      | cons g1 g2 =>
        refine .cons ?_ (ih (fun i hi => hf i (by simp [hi])) (fun i hi => hg i (by simp [hi])) g2 (by simpa using h1))
        rw [← hf item (by simp), ← hg item (by simp), g1.2.1, g1.2.2]
        exact ⟨rfl, rfl⟩

/-- The standard error of the analysis of a crossover in which no item is cut; `a` and `b` are subtracted from the two periods. -/
theorem crossover_error (R : Rounding ℝ) {argsort : List ℝ → List ℕ} (ha : ArgsortOk argsort) {D : TDist} {its : List Spec.CrossoverItem} {q a b k : ℝ}
    (hq : ⌊R.rnd (q * (its.length : ℝ))⌋ = 0) {alpha : ℝ} {r : TestResult}
    (h : pairedTest R argsort D (its.map (fun i => i.treated a b + k)) (its.map (fun i => i.untreated a b + k)) q none none "two-sided" alpha = .ok r)
    (hl : 1 < its.length) :
    ∃ se diff : ℝ, r.standardError = .fin se ∧ r.absoluteDifference = .fin diff ∧
      se ^ 2 * ((its.length : ℝ) - 1) = (its.map (fun i => ((i.first - i.second) - (a - b)) ^ 2)).sum / its.length - diff ^ 2 ∧
      0 ≤ se ∧ diff = Spec.mean (its.map (fun i => i.treated a b - i.untreated a b)) := by
  obtain ⟨g, kept, ss, k1, k2, k3, k4, -, -, k5, -⟩ := C83_paired_test_reports R argsort ha D _ _ q "two-sided" alpha r h
  rw [List.length_map, hq] at k1
  have k1 : g = 0 := by exact_mod_cast k1
  subst k1
  obtain ⟨e1, e2, e3, -⟩ := yuenSummary_zero k3
  have hz : List.zipWith (fun x1 x2 : ℝ => x1 - x2) (its.map (fun i => i.treated a b + k)) (its.map (fun i => i.untreated a b + k)) =
      its.map (fun i => i.treated a b - i.untreated a b) := by
    rw [List.zipWith_map, List.zipWith_self]
    exact List.map_congr_left (fun i _ => by ring)
  rw [hz] at e1 e2 e3
  rw [List.length_map] at e1
  refine ⟨_, _, k5, k4, ?_, Real.sqrt_nonneg _, e2⟩
  have hl' : (1 : ℝ) < its.length := by exact_mod_cast hl
  rw [e1, e3, e2, Real.sq_sqrt, sumSqDev_eq_sq, List.map_map, List.length_map]
  · have hsq : ∀ i : Spec.CrossoverItem, (i.treated a b - i.untreated a b) ^ 2 = ((i.first - i.second) - (a - b)) ^ 2 := by
      intro i
      unfold Spec.CrossoverItem.treated Spec.CrossoverItem.untreated
      split_ifs <;> ring
    have : its.map ((fun x => x ^ 2) ∘ fun i : Spec.CrossoverItem => i.treated a b - i.untreated a b) =
        its.map (fun i => ((i.first - i.second) - (a - b)) ^ 2) := List.map_congr_left (fun i _ => hsq i)
    rw [this]
    unfold Spec.yuenVar
    have h1 : (its.length : ℝ) - 1 ≠ 0 := by linarith
    have h2 : (its.length : ℝ) ≠ 0 := by linarith
    field_simp
  · unfold Spec.yuenVar
    have := sumSqDev_nonneg (its.map (fun i : Spec.CrossoverItem => i.treated a b - i.untreated a b))
    have : (0 : ℝ) ≤ (its.length : ℝ) * ((its.length : ℝ) - 1) := by nlinarith
    positivity

/-- **C101, crossover experiment without trimming.**  The minimum detectable effect is computed with the standard error `sd / sqrt n`.  Analysing the
same historical data, with any split of the items, reports the standard error `se` and the difference `diff` with
`se^2 (n - 1) = (sd / sqrt n)^2 (n - 1) - diff^2`. -/
theorem C101_crossover (R : Rounding ℝ) (argsort : List ℝ → List ℕ) (ha : ArgsortOk argsort) (D : TDist) (p : DesignParams ℝ) (c : SimConfig)
    (hd : mkDesign R p = .ok c.design) (hn : c.design.nBefore ≤ 2 ^ 51)
    (hpw : 0 < c.design.power.val ∧ c.design.power.val < 1) (hal : 0 < c.design.alpha.val ∧ c.design.alpha.val < 1) (σ : ℤ → Shuffle)
    (s : SimState) (hw : ∀ r ∈ s.data.rows, r c.weekCol = .null ∨ ∃ x : ℤ, r c.weekCol = .int x)
    (h : (estimateMde R argsort D σ c s).1 = .ok ()) (start : ℤ) (hstart : c.starts = [start])
    (hx : c.design.isCrossover = true) (htop : c.design.preTop.val = 0) (hbot : c.design.preBottom.val = 0) (hpost : c.design.postTrim.val = 0)
    (washout : ℤ) (hwash : c.design.washout = some washout)
    (items : List (Cell ℝ)) (hi : Spec.ListsItems c.design s.data.rows c.itemCol c.weekCol start items)
    (arms : List Bool) (piv : Pivoted ℝ) (hone : Spec.ItemsWithArms items arms piv)
    (hval : Spec.HoldsAverages piv items c.design.primaryMetric "test_1" s.data.rows c.itemCol c.weekCol
      (start + washout) (start + c.design.runtime / 2))
    (hval' : Spec.HoldsAverages piv items c.design.primaryMetric "test_2" s.data.rows c.itemCol c.weekCol
      (start + c.design.runtime / 2 + washout) (start + c.design.runtime))
    (metrics : List String) (itemName armName : String) (hne : itemName ≠ armName) (hi' : ¬ Spec.Reserved itemName) (ht' : ¬ Spec.Reserved armName)
    (r : TestResult) (hr : analyzeSingleMetric R argsort D piv metrics [itemName, armName] c.design.toDesignParams c.design.primaryMetric none armName none
      = .ok r) :
    ∃ sd se diff : ℝ, (estimateMde R argsort D σ c s).2.sd = some (.fin sd) ∧ r.standardError = .fin se ∧ r.absoluteDifference = .fin diff ∧
      ∀ n : ℝ, n = c.design.nAfterPost → se ^ 2 * (n - 1) = (sd / Real.sqrt n) ^ 2 * (n - 1) - diff ^ 2 := by
  obtain ⟨hdd, hvalid⟩ := (mkDesign_ok_iff R p c.design).mp hd
  obtain ⟨hleg, hmin⟩ := (validateDesign_ok_iff R _).mp hvalid
  have hnn : c.design.nAfterPost = c.design.nBefore := no_trim_count hd htop hbot hpost
  obtain ⟨average, variance, ⟨its, kept, hits, hcount, hk0, hk, -, hcr, -, -⟩, hsd⟩ := one_week R ha hd hn hpw hal hw h (sd_number R ha hd hn hpw hal hw h (Or.inl (Or.inl hx))) hstart
  obtain ⟨sample, hsample, hst⟩ := hcr hx
  have hwash' : c.design.washout.getD 0 = washout := by rw [hwash]; rfl
  rw [hpost, rnd_zero_floor] at hst
  rw [hwash'] at hsample
  obtain ⟨-, t2⟩ := crossoverStats_zero (by simp) hst
  have hkept : kept = its := by
    rcases hleg.pretest_nonneg.eq_or_lt with h0 | h0
    · exact hk0 h0.symm
    · exact cuts_zero htop hbot (hk h0)
  rw [hkept] at hsample
  obtain ⟨xs, v1, v2, _s, hxs, -, hv, hpair⟩ := C38_crossover_pairs_stored R argsort D piv metrics itemName armName hne hi' ht'
    (fun k hk => (index_pairs hone k hk).1) c.design.toDesignParams hx c.design.primaryMetric none r hr
  rw [Option.getD_none, hpost] at hv hpair
  obtain ⟨m1, m2, k, hm1, hm2, rfl, rfl, -⟩ := hv.2 rfl
  have hz := crossover_values hone hval hval' hxs
  have hpy := values_perm (lists_perm hits hi) (fun a x y h1 h2 => by
    rw [h1.1, h1.2] at h2
    obtain ⟨h2, h3⟩ := h2
    exact Prod.ext (Fl.fin.inj h2) (Fl.fin.inj h3)) hsample hz
  have hxl : xs.length = items.length := by simpa using hz.length_eq.symm
  have hlen : (xs.length : ℤ) = c.design.nBefore := by rw [hxl, ← hcount, (lists_perm hits hi).length_eq]
  have hlen' : (xs.length : ℝ) = c.design.nBefore := by rw [← hlen]; simp
  have hgt : 1 < xs.length := by omega
  rw [sumSqDev_perm (hpy.map _), hpy.length_eq, List.map_map, List.length_map] at t2
  obtain ⟨se, diff, e1, e2, e3, -⟩ := crossover_error R ha (rnd_zero_floor R _) hpair hgt
  refine ⟨_, se, diff, hsd, e1, e2, ?_⟩
  rintro n rfl
  have h1 : (1 : ℝ) < xs.length := by exact_mod_cast hgt
  have hmean : Spec.mean (xs.map ((fun v : ℝ × ℝ => v.1 - v.2) ∘ fun i => (i.first, i.second))) = m1 - m2 := by
    have := mean_comb (z := xs) (by intro hc; rw [hc] at hgt; simp at hgt) (fun i => i.first) (fun i => i.second) 1 (-1) 0
    rw [hm1, hm2]
    simp only [one_mul, neg_mul, add_zero, ← sub_eq_add_neg] at this
    exact this
  have hss : Spec.sumSqDev (xs.map ((fun v : ℝ × ℝ => v.1 - v.2) ∘ fun i => (i.first, i.second))) =
      (xs.map (fun i => ((i.first - i.second) - (m1 - m2)) ^ 2)).sum := by
    unfold Spec.sumSqDev
    rw [hmean, List.map_map]
    rfl
  rw [hss] at t2
  have hsum : 0 ≤ (xs.map (fun i => ((i.first - i.second) - (m1 - m2)) ^ 2)).sum := by rw [← hss]; exact sumSqDev_nonneg _
  rw [hnn, ← hlen', e3, t2]
  have := two_sd (div_nonneg hsum (by linarith : (0 : ℝ) ≤ xs.length - 1)) (by linarith : (0 : ℝ) ≤ xs.length) 1
  rw [one_mul] at this
  rw [this]
  have h2 : (xs.length : ℝ) - 1 ≠ 0 := by linarith
  field_simp

/-- **C101, crossover experiment with post trimming** of less than one item.  Here the estimate adds a quarter of the square of the difference `d`
between the two periods to the variance, but in the analysis the squared standard error grows by the full `d^2 / (n - 1)`: the analysis is less
precise than assumed unless the observed difference is large. -/
theorem C101_post_trim_partial (R : Rounding ℝ) (argsort : List ℝ → List ℕ) (ha : ArgsortOk argsort) (D : TDist) (p : DesignParams ℝ) (c : SimConfig)
    (hd : mkDesign R p = .ok c.design) (hn : c.design.nBefore ≤ 2 ^ 51)
    (hpw : 0 < c.design.power.val ∧ c.design.power.val < 1) (hal : 0 < c.design.alpha.val ∧ c.design.alpha.val < 1) (σ : ℤ → Shuffle)
    (s : SimState) (hw : ∀ r ∈ s.data.rows, r c.weekCol = .null ∨ ∃ x : ℤ, r c.weekCol = .int x)
    (h : (estimateMde R argsort D σ c s).1 = .ok ()) (start : ℤ) (hstart : c.starts = [start])
    (hx : c.design.isCrossover = true) (htop : c.design.preTop.val = 0) (hbot : c.design.preBottom.val = 0) (hpost : 0 < c.design.postTrim.val)
    (hnone : ⌊R.rnd (c.design.postTrim.val * c.design.nBefore)⌋ = 0) (washout : ℤ) (hwash : c.design.washout = some washout)
    (items : List (Cell ℝ)) (hi : Spec.ListsItems c.design s.data.rows c.itemCol c.weekCol start items)
    (y : List (ℝ × ℝ)) (hy : List.Forall₂ (fun item v =>
      Spec.weeklyAverage s.data.rows c.itemCol c.weekCol c.design.primaryMetric (start + washout) (start + c.design.runtime / 2) item = .fin v.1 ∧
      Spec.weeklyAverage s.data.rows c.itemCol c.weekCol c.design.primaryMetric (start + c.design.runtime / 2 + washout) (start + c.design.runtime)
        item = .fin v.2) items y)
    (arms : List Bool) (piv : Pivoted ℝ) (hkeep : Spec.KeepsFractions piv c.design.primaryMetric) (hone : Spec.ItemsWithArms items arms piv)
    (hval : Spec.HoldsAverages piv items c.design.primaryMetric "test_1" s.data.rows c.itemCol c.weekCol
      (start + washout) (start + c.design.runtime / 2))
    (hval' : Spec.HoldsAverages piv items c.design.primaryMetric "test_2" s.data.rows c.itemCol c.weekCol
      (start + c.design.runtime / 2 + washout) (start + c.design.runtime))
    (metrics : List String) (itemName armName : String) (hne : itemName ≠ armName) (hi' : ¬ Spec.Reserved itemName) (ht' : ¬ Spec.Reserved armName)
    (r : TestResult) (hr : analyzeSingleMetric R argsort D piv metrics [itemName, armName] c.design.toDesignParams c.design.primaryMetric none armName none
      = .ok r) :
    ∃ sd se diff : ℝ, (estimateMde R argsort D σ c s).2.sd = some (.fin sd) ∧ r.standardError = .fin se ∧ r.absoluteDifference = .fin diff ∧
      ∀ n d : ℝ, n = c.design.nBefore → d = Spec.mean (y.map Prod.fst) - Spec.mean (y.map Prod.snd) →
        sd = Real.sqrt (Spec.sumSqDev (y.map (fun v => v.1 - v.2)) / (n - 1) + d ^ 2 / 4) ∧
        se ^ 2 * (n - 1) = (sd / Real.sqrt n) ^ 2 * (n - 1) + (1 - (n - 1) / (4 * n)) * d ^ 2 - diff ^ 2 := by
  obtain ⟨hdd, hvalid⟩ := (mkDesign_ok_iff R p c.design).mp hd
  obtain ⟨hleg, hmin⟩ := (validateDesign_ok_iff R _).mp hvalid
  obtain ⟨average, variance, ⟨its, kept, hits, hcount, hk0, hk, -, hcr, -, -⟩, hsd⟩ := one_week R ha hd hn hpw hal hw h (sd_number R ha hd hn hpw hal hw h (Or.inl (Or.inl hx))) hstart
  obtain ⟨sample, hsample, hst⟩ := hcr hx
  have hwash' : c.design.washout.getD 0 = washout := by rw [hwash]; rfl
  rw [hwash'] at hsample
  have hkept : kept = its := by
    rcases hleg.pretest_nonneg.eq_or_lt with h0 | h0
    · exact hk0 h0.symm
    · exact cuts_zero htop hbot (hk h0)
  rw [hkept] at hsample hst
  have hcount' : (its.length : ℝ) = c.design.nBefore := by rw [← hcount]; simp
  rw [hcount', hnone] at hst
  obtain ⟨kept', lo, hi2, q1, q2, -, q4, -⟩ := hst
  obtain rfl := trimmed_zero q1
  have q4 := q4 hpost
  rw [List.map_congr_left (g := fun q : ℝ × ℝ => q.1 - q.2) (fun x hx => clip_extremes q2 (List.mem_map.mpr ⟨x, hx, rfl⟩))] at q4
  obtain ⟨xs, v1, v2, hxs, hv, hpair⟩ := C38_crossover_pairs_partial R argsort D piv metrics itemName armName hne hi' ht'
    (fun k hk => (index_pairs hone k hk).1) c.design.toDesignParams hx c.design.primaryMetric hkeep none r hr
  rw [Option.getD_none] at hv hpair
  obtain ⟨rfl, rfl⟩ := hv.1 hpost.ne'
  have hz := crossover_values hone hval hval' hxs
  have hP : ∀ (a : Cell ℝ) (x y : ℝ × ℝ),
      (Spec.weeklyAverage s.data.rows c.itemCol c.weekCol c.design.primaryMetric (start + washout) (start + c.design.runtime / 2) a = .fin x.1 ∧
      Spec.weeklyAverage s.data.rows c.itemCol c.weekCol c.design.primaryMetric (start + c.design.runtime / 2 + washout) (start + c.design.runtime)
        a = .fin x.2) → (Spec.weeklyAverage s.data.rows c.itemCol c.weekCol c.design.primaryMetric (start + washout) (start + c.design.runtime / 2) a = .fin y.1 ∧
      Spec.weeklyAverage s.data.rows c.itemCol c.weekCol c.design.primaryMetric (start + c.design.runtime / 2 + washout) (start + c.design.runtime)
        a = .fin y.2) → x = y := by
    intro a x y h1 h2
    rw [h1.1, h1.2] at h2
    obtain ⟨h2, h3⟩ := h2
    exact Prod.ext (Fl.fin.inj h2) (Fl.fin.inj h3)
  have hpy := values_perm (lists_perm hits hi) hP hsample hz
  have hyy : y = xs.map (fun i => (i.first, i.second)) := values_unique hP hy hz
  have hxl : xs.length = items.length := by simpa using hz.length_eq.symm
  have hlen : (xs.length : ℤ) = c.design.nBefore := by rw [hxl, ← hcount, (lists_perm hits hi).length_eq]
  have hlen' : (xs.length : ℝ) = c.design.nBefore := by rw [← hlen]; simp
  have hgt : 1 < xs.length := by
    have hp0 : p.nBefore = c.design.nBefore := by rw [hdd]; rfl
    obtain ⟨-, -, h2, h3, h4, -⟩ := C02_item_counts R p c.design hd (by rw [hp0, ← hcount]; positivity) (by rw [hp0]; omega)
    omega
  rw [sumSqDev_perm (hpy.map _), hpy.length_eq, spec_mean_perm (hpy.map Prod.fst), spec_mean_perm (hpy.map Prod.snd), ← hyy] at q4
  have hpair' : pairedTest R argsort D (xs.map (fun i => i.treated 0 0 + 0)) (xs.map (fun i => i.untreated 0 0 + 0)) c.design.postTrim.val none none
      "two-sided" (1 / 20) = .ok r := by simpa using hpair
  obtain ⟨se, diff, e1, e2, e3, -⟩ := crossover_error R ha (by rw [hlen', hnone]) hpair' hgt
  refine ⟨_, se, diff, hsd, e1, e2, ?_⟩
  rintro n d rfl hdd'
  have h1 : (1 : ℝ) < xs.length := by exact_mod_cast hgt
  have hyl : y.length = xs.length := by rw [hyy]; simp
  have hmean : Spec.mean (y.map (fun v => v.1 - v.2)) = d := by
    have := mean_comb (z := y) (by intro hc; rw [hc] at hyl; simp at hyl; omega) Prod.fst Prod.snd 1 (-1) 0
    rw [hdd']
    simp only [one_mul, neg_mul, add_zero, ← sub_eq_add_neg] at this
    exact this
  have hss := sumSqDev_eq_sq (y.map (fun v => v.1 - v.2))
  rw [hmean, List.length_map, hyl, List.map_map] at hss
  have hsum : (xs.map (fun i => ((i.first - i.second) - (0 - 0)) ^ 2)).sum = Spec.sumSqDev (y.map (fun v => v.1 - v.2)) + xs.length * d ^ 2 := by
    rw [hss, hyy, List.map_map]
    simp [Function.comp_def]
  rw [hsum] at e3
  rw [hyl, ← hdd'] at q4
  have hnn := sumSqDev_nonneg (y.map (fun v => v.1 - v.2))
  rw [← hlen']
  refine ⟨by rw [q4], ?_⟩
  rw [e3, q4]
  have hv0 : 0 ≤ Spec.sumSqDev (y.map (fun v => v.1 - v.2)) / ((xs.length : ℝ) - 1) + d ^ 2 / 4 :=
    add_nonneg (div_nonneg hnn (by linarith)) (by positivity)
  have := two_sd hv0 (by linarith : (0 : ℝ) ≤ xs.length) 1
  rw [one_mul] at this
  rw [this]
  have h2 : (xs.length : ℝ) - 1 ≠ 0 := by linarith
  field_simp
  ring

/-! ### Cases -/

/-- Item `i` has `v w i` clicks in week `w`. -/
noncomputable def clickRow (v : ℤ → ℕ → ℝ) (w : ℤ) (i : ℕ) : Row ℝ := fun c =>
  if c = "item_id" then .int (i : ℤ) else if c = "week_id" then .int w else if c = "clicks" then .num (v w i) else .null

/-- 100 items in two weeks. -/
noncomputable def clickData (v : ℤ → ℕ → ℝ) : Frame ℝ :=
  ⟨["item_id", "week_id", "clicks"], (List.range 100).map (clickRow v 0) ++ (List.range 100).map (clickRow v 1)⟩

theorem click_rows {v : ℤ → ℕ → ℝ} {r : Row ℝ} (hr : r ∈ (clickData v).rows) : ∃ w : ℤ, ∃ i : ℕ, i < 100 ∧ r = clickRow v w i := by
  rcases List.mem_append.mp hr with hr | hr <;> obtain ⟨i, hi, rfl⟩ := List.mem_map.mp hr <;>
    exact ⟨_, i, List.mem_range.mp hi, rfl⟩

theorem click_mem {v : ℤ → ℕ → ℝ} {w : ℤ} (hw : w = 0 ∨ w = 1) {i : ℕ} (hi : i < 100) : clickRow v w i ∈ (clickData v).rows := by
  rcases hw with rfl | rfl
  · exact List.mem_append.mpr (Or.inl (List.mem_map.mpr ⟨i, List.mem_range.mpr hi, rfl⟩))
  · exact List.mem_append.mpr (Or.inr (List.mem_map.mpr ⟨i, List.mem_range.mpr hi, rfl⟩))

theorem click_items {v : ℤ → ℕ → ℝ} {d : Design ℝ} {start : ℤ}
    (htl : ∃ label, (label, 1, 2) ∈ Spec.timeline d.toDesignParams start) :
    Spec.ListsItems d (clickData v).rows "item_id" "week_id" start hundredItems := by
  refine ⟨List.nodup_range.map (fun a b h => by simpa using h), fun y => ?_⟩
  unfold hundredItems
  rw [List.mem_map]
  constructor
  · rintro ⟨i, hi, rfl⟩
    obtain ⟨label, hl⟩ := htl
    exact ⟨by simp, clickRow v 1 i, click_mem (Or.inr rfl) (List.mem_range.mp hi), by simp [clickRow], 1, by simp [clickRow], label, 1, 2, hl, by omega,
      by omega⟩
  · rintro ⟨-, r, hr, rfl, -⟩
    obtain ⟨w, i, hi, rfl⟩ := click_rows hr
    exact ⟨i, List.mem_range.mpr hi, by simp [clickRow]⟩

theorem click_weeks (v : ℤ → ℕ → ℝ) : ∀ r ∈ (clickData v).rows, r "week_id" = .null ∨ ∃ x : ℤ, r "week_id" = .int x := by
  intro r hr
  obtain ⟨w, i, -, rfl⟩ := click_rows hr
  exact Or.inr ⟨w, by simp [clickRow]⟩

theorem click_usable {v : ℤ → ℕ → ℝ} {d : Design ℝ} (hm : d.primaryMetric = "clicks") (hn : d.nBefore = 100) {start : ℤ}
    (htl : ∀ e ∈ Spec.timeline d.toDesignParams start, e.2.1 < e.2.2 → (e.2.1 = 0 ∧ e.2.2 = 1) ∨ (e.2.1 = 1 ∧ e.2.2 = 2))
    (htl' : ∃ label, (label, 1, 2) ∈ Spec.timeline d.toDesignParams start) :
    Spec.UsableHistory d "item_id" "week_id" "time_period" [start] (clickData v) := by
  refine ⟨⟨click_weeks v, ?_, ?_⟩, ?_, ?_⟩
  · intro r hr
    obtain ⟨w, i, -, rfl⟩ := click_rows hr
    exact Or.inr ⟨v w i, by simp [clickRow, hm, Cell.toFl]⟩
  · intro start' hs
    simp only [List.mem_singleton] at hs
    subst hs
    exact ⟨hundredItems, (click_items (v := v) htl').1, by rw [hn]; simp [hundredItems], (click_items htl').2⟩
  · simp [clickData, hm]
  · intro start' hs label lo hi hmem' hlt
    simp only [List.mem_singleton] at hs
    subst hs
    rcases htl _ hmem' hlt with ⟨h1, h2⟩ | ⟨h1, h2⟩ <;> simp only at h1 h2
    · exact ⟨clickRow v 0 0, click_mem (Or.inl rfl) (by omega), by simp [clickRow], 0, by simp [clickRow], by omega, by omega⟩
    · exact ⟨clickRow v 1 0, click_mem (Or.inr rfl) (by omega), by simp [clickRow], 1, by simp [clickRow], by omega, by omega⟩

theorem click_filter (v : ℤ → ℕ → ℝ) (w lo hi : ℤ) (i n : ℕ) : ((List.range n).map (clickRow v w)).filter
    (Spec.inWeeks ["item_id"] "week_id" [.int (i : ℤ)] lo hi) = if i < n ∧ lo ≤ w ∧ w < hi then [clickRow v w i] else [] := by
  induction n with
  | zero => simp
  | succ n ih =>
    rw [List.range_succ, List.map_append, List.filter_append, ih]
    have hone : ([n].map (clickRow v w)).filter (Spec.inWeeks ["item_id"] "week_id" [.int (i : ℤ)] lo hi) =
        if i = n ∧ lo ≤ w ∧ w < hi then [clickRow v w n] else [] := by
      simp only [List.map_cons, List.map_nil, List.filter_cons, List.filter_nil]
      have : Spec.inWeeks ["item_id"] "week_id" [.int (i : ℤ)] lo hi (clickRow v w n) = decide (i = n ∧ lo ≤ w ∧ w < hi) := by
        unfold Spec.inWeeks
        simp [clickRow, eq_comm]
      rw [this]
      by_cases h : i = n ∧ lo ≤ w ∧ w < hi <;> simp [h]
    rw [hone]
    by_cases hw : lo ≤ w ∧ w < hi
    · rcases Nat.lt_trichotomy i n with h | h | h
      · rw [if_pos ⟨h, hw⟩, if_neg (by omega), if_pos ⟨by omega, hw⟩, List.append_nil]
      · subst h
        rw [if_neg (by omega), if_pos ⟨rfl, hw⟩, if_pos ⟨by omega, hw⟩, List.nil_append]
      · rw [if_neg (by omega), if_neg (by omega), if_neg (by omega), List.append_nil]
    · rw [if_neg (fun h => hw h.2), if_neg (fun h => hw h.2), if_neg (fun h => hw h.2), List.append_nil]

theorem click_average (v : ℤ → ℕ → ℝ) (i : ℕ) (hi : i < 100) (w : ℤ) (hw : w = 0 ∨ w = 1) :
    Spec.weeklyAverage (clickData v).rows "item_id" "week_id" "clicks" w (w + 1) (.int (i : ℤ)) = .fin (v w i) := by
  unfold Spec.weeklyAverage Spec.total clickData
  simp only
  rw [List.filter_append, click_filter, click_filter]
  rcases hw with rfl | rfl
  · rw [if_pos (by omega), if_neg (by omega), List.append_nil, List.map_cons, List.map_nil]
    have e : Fl.sumSkip [(Fl.fin (v 0 i))] = .fin (v 0 i) := by
      show Fl.fin (v 0 i) + Fl.fin 0 = _
      rw [Fl.fin_add, add_zero]
    simp [clickRow, Cell.toFl, e, Fl.fin_div_ne]
  · rw [if_neg (by omega), if_pos (by omega), List.nil_append, List.map_cons, List.map_nil]
    have e : Fl.sumSkip [(Fl.fin (v 1 i))] = .fin (v 1 i) := by
      show Fl.fin (v 1 i) + Fl.fin 0 = _
      rw [Fl.fin_add, add_zero]
    simp [clickRow, Cell.toFl, e, Fl.fin_div_ne]

/-- Every second item is treated. -/
def hundredArms : List Bool := (List.range 100).map (fun i => decide (i % 2 = 0))

/-- The analysed table of the historical data; `periods` gives the weeks of each period. -/
noncomputable def historyPivot (v : ℤ → ℕ → ℝ) (periods : List (String × ℤ × ℤ)) : Pivoted ℝ where
  index := List.zipWith (fun item b => [item, .int (if b then 1 else 0)]) hundredItems hundredArms
  periods := periods.map (fun e => .str e.1)
  value := fun k m label => match k, periods.lookup label with
    | item :: _, some (lo, hi) => Spec.weeklyAverage (clickData v).rows "item_id" "week_id" m lo hi item
    | _, _ => .nan

theorem hundred_lengths : hundredArms.length = 100 ∧ hundredItems.length = 100 := by simp [hundredArms, hundredItems]

theorem history_arms (v : ℤ → ℕ → ℝ) (periods : List (String × ℤ × ℤ)) :
    Spec.ItemsWithArms hundredItems hundredArms (historyPivot v periods) := ⟨by rw [hundred_lengths.1, hundred_lengths.2], rfl⟩

theorem history_holds {v : ℤ → ℕ → ℝ} {periods : List (String × ℤ × ℤ)} {label : String} {lo hi : ℤ} (h : periods.lookup label = some (lo, hi)) :
    Spec.HoldsAverages (historyPivot v periods) hundredItems "clicks" label (clickData v).rows "item_id" "week_id" lo hi := by
  intro item _ t
  show (match [item, t], periods.lookup label with
    | item :: _, some (lo, hi) => Spec.weeklyAverage (clickData v).rows "item_id" "week_id" "clicks" lo hi item
    | _, _ => .nan) = _
  rw [h]

theorem history_rows (v : ℤ → ℕ → ℝ) (periods : List (String × ℤ × ℤ)) : (historyPivot v periods).index =
    (List.range 100).map (fun i : ℕ => [.int (i : ℤ), .int (if decide (i % 2 = 0) then 1 else 0)]) := by
  unfold historyPivot hundredItems hundredArms
  rw [List.zipWith_map, List.zipWith_self]

theorem history_values {v : ℤ → ℕ → ℝ} {periods : List (String × ℤ × ℤ)} {label : String} {w : ℤ} (hw : w = 0 ∨ w = 1)
    (h : periods.lookup label = some (w, w + 1)) :
    Spec.ValuesOf (historyPivot v periods) "clicks" label ((List.range 100).map (v w)) := by
  unfold Spec.ValuesOf
  rw [history_rows, List.forall₂_map_left_iff, List.forall₂_map_right_iff, List.forall₂_same]
  intro i hi
  have hm : (Cell.int (i : ℤ) : Cell ℝ) ∈ hundredItems := List.mem_map.mpr ⟨i, hi, rfl⟩
  rw [history_holds h _ hm]
  exact click_average v i (List.mem_range.mp hi) w hw

theorem history_index (v : ℤ → ℕ → ℝ) (periods : List (String × ℤ × ℤ)) :
    (historyPivot v periods).index.length = 100 ∧ ∀ k ∈ (historyPivot v periods).index, k.length = 2 := by
  refine ⟨by rw [oneRow_length (history_arms v periods), hundred_lengths.2], fun k hk => (index_pairs (history_arms v periods) k hk).1⟩

/-- One test week for 100 items, without pretest week. -/
noncomputable def plainParams : DesignParams ℝ := { untrimmedParams false with pretest := 0 }

/-- See `plainParams`. -/
noncomputable def plainDesign : Design ℝ := { plainParams with nAfterPre := 100, nAfterPost := 100 }

theorem plainDesign_created (R : Rounding ℝ) : mkDesign R plainParams = .ok plainDesign := by
  have hf : ∀ n : ℤ, R.floorMul 0 n = 0 := fun n => rnd_zero_floor R n
  have h0 : R.rnd 0 = 0 := by simpa using R.intFix 0 (by norm_num)
  have e1 : plainParams.preTop.val = 0 := rfl
  have e2 : plainParams.preBottom.val = 0 := rfl
  have e3 : plainParams.postTrim.val = 0 := rfl
  have e4 : plainParams.nBefore = 100 := rfl
  have hd : deriveCounts R plainParams = plainDesign := by
    unfold deriveCounts
    simp only [e1, e2, e3, e4, hf, sub_zero]
    rfl
  rw [mkDesign_ok_iff]
  refine ⟨hd.symm, (validateDesign_ok_iff R _).mpr ⟨?_, by show (50 : ℤ) < 100; decide⟩⟩
  have e1 : plainDesign.preTop.val = 0 := rfl
  have e2 : plainDesign.preBottom.val = 0 := rfl
  have e3 : plainDesign.postTrim.val = 0 := rfl
  refine ⟨by decide, by decide, by rw [e1], by rw [e2], by rw [e3], ?_, by rw [e3]; norm_num, fun _ => ⟨e1, e2⟩, fun h => absurd h (by decide)⟩
  rw [e1, e2, add_zero, h0]; norm_num

/-- `C101_regular` is not vacuous: estimating with 1, 2, ..., 100 clicks and analysing the same week with 50 items in each group both return, and
the relation holds. -/
example (R : Rounding ℝ) (D : TDist) (σ : ℤ → Shuffle) : ∃ r sd se diff,
    (estimateMde R stableArgsort D σ { untrimmedConfig false with design := plainDesign } untrimmedState).2.sd = some (.fin sd) ∧
    analyzeSingleMetric R stableArgsort D (historyPivot (fun _ i => (i : ℝ) + 1) [("test", 1, 2)]) ["clicks"] ["item_id", "treatment_assignment"]
      plainDesign.toDesignParams "clicks" none "treatment_assignment" none = .ok r ∧
    r.standardError = .fin se ∧ r.absoluteDifference = .fin diff ∧ se ^ 2 * 98 = (2 * sd / Real.sqrt 100) ^ 2 * 99 - diff ^ 2 := by
  have hu : Spec.UsableHistory plainDesign "item_id" "week_id" "time_period" [1] (clickData (fun _ i => (i : ℝ) + 1)) :=
    click_usable rfl rfl (by decide) ⟨"test", by decide⟩
  have hst : ({ untrimmedConfig false with design := plainDesign } : SimConfig).starts = [1] := by decide
  have hret := C100_returns R stableArgsort stableArgsort_ok D plainParams { untrimmedConfig false with design := plainDesign }
    (plainDesign_created R) (by show (100 : ℤ) ≤ 2 ^ 51; norm_num) σ untrimmedState (by rw [hst]; simp) (by rw [hst]; exact hu)
  have hy := history_values (v := fun _ i => (i : ℝ) + 1) (periods := [("test", 1, 2)]) (label := "test") (w := 1) (Or.inr rfl) (by decide)
  have hper : Cell.str "pretest" ∉ (historyPivot (fun _ i => (i : ℝ) + 1) [("test", 1, 2)]).periods := by simp [historyPivot]
  have hl : ((List.range 100).map (fun i : ℕ => (i : ℝ) + 1)).length = hundredItems.length := by simp [hundredItems]
  obtain ⟨l1, l0⟩ := group_length (history_arms (fun _ i => (i : ℝ) + 1) [("test", 1, 2)]) hl
  have c1 : hundredArms.count true = 50 := by decide
  have c0 : hundredArms.count false = 50 := by decide
  rw [c1] at l1
  rw [c0] at l0
  obtain ⟨r, hr⟩ : ∃ r, analyzeSingleMetric R stableArgsort D (historyPivot (fun _ i => (i : ℝ) + 1) [("test", 1, 2)]) ["clicks"]
      ["item_id", "treatment_assignment"] plainDesign.toDesignParams "clicks" none "treatment_assignment" none = .ok r := by
    rw [analyze_regular_eq (by decide) (by unfold Spec.Reserved; decide) (by unfold Spec.Reserved; decide) (history_index _ _).2
      (by simp [historyPivot]) (by simp [historyPivot]) rfl (by decide) (by simp) (by simp [historyPivot]) hper hy]
    have hz : ∀ n : ℝ, ⌊R.rnd ((none : Option ℝ).getD plainDesign.postTrim.val * n)⌋ = 0 := fun n => rnd_zero_floor R n
    obtain ⟨-, T1, T2, hT1, hT2, hiff, -⟩ := C34_tests_return_partial R stableArgsort stableArgsort_ok D _ _ _ (le_refl (0 : ℝ)) (by norm_num) false
      "two-sided" (Or.inl rfl) defaultAlpha (by rw [l1]; norm_num) (by rw [l0]; norm_num) (by rw [rnd_zero_floor, l1]; norm_num)
      (by rw [rnd_zero_floor, l0]; norm_num)
    refine hiff.mpr ?_
    rintro ⟨h0, -⟩
    refine ne_of_gt (trimmed_mean_pos ?_ stableArgsort_ok hT2 ?_) h0
    · intro x hx
      have : x ∈ (List.range 100).map (fun i : ℕ => (i : ℝ) + 1) := by
        unfold Spec.groupOf at hx
        obtain ⟨q, hq, rfl⟩ := List.mem_map.mp hx
        exact (List.of_mem_zip (List.mem_filter.mp hq).1).2
      obtain ⟨i, -, rfl⟩ := List.mem_map.mp this
      positivity
    · obtain ⟨-, e1, -, e2⟩ := C16_trims_exactly_the_extremes R stableArgsort stableArgsort_ok 0 _ _ T2 hT2
      rw [length_asStack, l0] at e2
      rw [length_asStack, l0, rnd_zero_floor] at e1
      unfold TrimmedArray.len
      omega
  have e3 : plainDesign.power.val = 8 / 10 := by simp [plainDesign, plainParams, untrimmedParams, twoWeekParams, tenPercentParams, PyNum.val]
  have e4 : plainDesign.alpha.val = 1 / 10 := by simp [plainDesign, plainParams, untrimmedParams, twoWeekParams, tenPercentParams, PyNum.val]
  obtain ⟨sd, se, diff, k1, k2, k3, k4⟩ := C101_regular R stableArgsort stableArgsort_ok D plainParams { untrimmedConfig false with design := plainDesign }
    (plainDesign_created R) (by show (100 : ℤ) ≤ 2 ^ 51; norm_num)
    (by show 0 < plainDesign.power.val ∧ plainDesign.power.val < 1; rw [e3]; norm_num)
    (by show 0 < plainDesign.alpha.val ∧ plainDesign.alpha.val < 1; rw [e4]; norm_num) σ untrimmedState
    (click_weeks (fun _ i => (i : ℝ) + 1)) hret 1 hst rfl rfl rfl hundredItems
    (click_items (v := fun _ i => (i : ℝ) + 1) (d := plainDesign) (start := 1) ⟨"test", by decide⟩) hundredArms (by rw [c1, c0])
    (historyPivot (fun _ i => (i : ℝ) + 1) [("test", 1, 2)]) (history_arms _ _) hper
    (history_holds (by decide)) ["clicks"] "item_id" "treatment_assignment" (by decide) (by unfold Spec.Reserved; decide) (by unfold Spec.Reserved; decide)
    r hr
  refine ⟨r, sd, se, diff, k1, hr, k2, k3, ?_⟩
  have := k4 100 (by show (100 : ℝ) = ((100 : ℤ) : ℝ); norm_num)
  norm_num at this ⊢
  exact this

theorem group_subset {piv : Pivoted ℝ} {b x : ℝ} {y : List ℝ} (hx : x ∈ Spec.groupOf piv b y) : x ∈ y := by
  unfold Spec.groupOf at hx
  obtain ⟨q, hq, rfl⟩ := List.mem_map.mp hx
  exact (List.of_mem_zip (List.mem_filter.mp hq).1).2

/-- `C101_cuped` is not vacuous: with 1, 2, ..., 100 clicks in the pretest week and in the test week, estimating and analysing both return. -/
example (R : Rounding ℝ) (D : TDist) (σ : ℤ → Shuffle) : ∃ r sd se diff,
    (estimateMde R stableArgsort D σ (untrimmedConfig false) untrimmedState).2.sd = some (.fin sd) ∧
    analyzeSingleMetric R stableArgsort D (historyPivot (fun _ i => (i : ℝ) + 1) [("pretest", 0, 1), ("test", 1, 2)]) ["clicks"]
      ["item_id", "treatment_assignment"] (untrimmedDesign false).toDesignParams "clicks" none "treatment_assignment" none = .ok r ∧
    r.standardError = .fin se ∧ r.absoluteDifference = .fin diff ∧ se ^ 2 * 98 = (2 * sd / Real.sqrt 100) ^ 2 * 99 - diff ^ 2 := by
  have hret : (estimateMde R stableArgsort D σ (untrimmedConfig false) untrimmedState).1 = .ok () := untrimmed_returns R D σ false
  have hy := history_values (v := fun _ i => (i : ℝ) + 1) (periods := [("pretest", 0, 1), ("test", 1, 2)]) (label := "test") (w := 1) (Or.inr rfl) (by decide)
  have hx := history_values (v := fun _ i => (i : ℝ) + 1) (periods := [("pretest", 0, 1), ("test", 1, 2)]) (label := "pretest") (w := 0) (Or.inl rfl) (by decide)
  have hper : Cell.str "pretest" ∈ (historyPivot (fun _ i => (i : ℝ) + 1) [("pretest", 0, 1), ("test", 1, 2)]).periods := by simp [historyPivot]
  have c1 : hundredArms.count true = 50 := by decide
  have c0 : hundredArms.count false = 50 := by decide
  obtain ⟨r, hr⟩ : ∃ r, analyzeSingleMetric R stableArgsort D (historyPivot (fun _ i => (i : ℝ) + 1) [("pretest", 0, 1), ("test", 1, 2)]) ["clicks"]
      ["item_id", "treatment_assignment"] (untrimmedDesign false).toDesignParams "clicks" none "treatment_assignment" none = .ok r := by
    have hz : ∀ n : ℝ, ⌊R.rnd ((untrimmedDesign false).postTrim.val * n)⌋ = 0 := fun n => rnd_zero_floor R n
    obtain ⟨out, hout⟩ := C22_cuped_returns R stableArgsort stableArgsort_ok ((List.range 100).map (fun i : ℕ => (i : ℝ) + 1))
      ((List.range 100).map (fun i : ℕ => (i : ℝ) + 1)) rfl (by simp) (by simp) (untrimmedDesign false).postTrim.val le_rfl
      (by show (0 : ℝ) < 1 / 2; norm_num) (by rw [hz]; simp)
    have hss : Spec.sumSqDev ((List.range 100).map (fun i : ℕ => (i : ℝ) + 1)) ≠ 0 := by rw [sumSqDev_range 100 (by norm_num)]; norm_num
    obtain ⟨z, rfl, hzl, hzm, -, hzs, -⟩ := C22_cuped_without_trimming R stableArgsort _ _ _ out hout (hz _) hss
    rw [mean_range 100 (by norm_num)] at hzm
    rw [crossDev_self, sq, mul_div_cancel_right₀ _ hss, sub_self] at hzs
    rw [analyze_cuped_eq (by decide) (by unfold Spec.Reserved; decide) (by unfold Spec.Reserved; decide) (history_index _ _).2
      (by simp [historyPivot]) (by simp [historyPivot]) rfl (by simp) (by simp [historyPivot]) hper hy hx hout]
    have hl : z.length = hundredItems.length := by rw [hzl]; simp [hundredItems]
    obtain ⟨l1, l0⟩ := group_length (history_arms (fun _ i => (i : ℝ) + 1) [("pretest", 0, 1), ("test", 1, 2)]) hl
    rw [c1] at l1
    rw [c0] at l0
    obtain ⟨-, T1, T2, hT1, hT2, hiff, -⟩ := C34_tests_return_partial R stableArgsort stableArgsort_ok D _ _ _ (le_refl (0 : ℝ)) (by norm_num) false
      "two-sided" (Or.inl rfl) defaultAlpha (by rw [l1]; norm_num) (by rw [l0]; norm_num) (by rw [rnd_zero_floor, l1]; norm_num)
      (by rw [rnd_zero_floor, l0]; norm_num)
    refine hiff.mpr ?_
    rintro ⟨h0, -⟩
    refine ne_of_gt (trimmed_mean_pos ?_ stableArgsort_ok hT2 ?_) h0
    · intro x hx
      have hx := group_subset hx
      unfold Spec.sumSqDev at hzs
      have hle := List.single_le_sum (l := z.map (fun x => (x - Spec.mean z) ^ 2)) (by
        intro t ht
        obtain ⟨u, -, rfl⟩ := List.mem_map.mp ht
        exact sq_nonneg _) _ (List.mem_map.mpr ⟨x, hx, rfl⟩)
      rw [hzs] at hle
      have := pow_eq_zero_iff two_ne_zero |>.mp (le_antisymm hle (sq_nonneg _))
      rw [hzm] at this
      norm_num at this
      linarith
    · obtain ⟨-, e1, -, e2⟩ := C16_trims_exactly_the_extremes R stableArgsort stableArgsort_ok 0 _ _ T2 hT2
      rw [length_asStack, l0] at e2
      rw [length_asStack, l0, rnd_zero_floor] at e1
      unfold TrimmedArray.len
      omega
  obtain ⟨hpw, hal⟩ := untrimmed_levels false
  obtain ⟨sd, se, diff, k1, k2, k3, k4⟩ := C101_cuped R stableArgsort stableArgsort_ok D (untrimmedParams false) (untrimmedConfig false)
    (untrimmedDesign_created R false) (by show (100 : ℤ) ≤ 2 ^ 51; norm_num) hpw hal σ untrimmedState weeks_are_integers hret
    (by rw [(untrimmed_estimate R D σ false).2]; intro e; cases e) 1
    (untrimmed_starts false) rfl ⟨twoWeekRow 0 0, List.mem_append.mpr (Or.inl (List.mem_map.mpr ⟨0, by simp, rfl⟩)),
      by simp [untrimmedConfig, twoWeekConfig, twoWeekRow], 0, by simp [untrimmedConfig, twoWeekConfig, twoWeekRow], by decide, by decide⟩ rfl rfl rfl
    hundredItems (untrimmed_items false) hundredArms (by rw [c1, c0]) (historyPivot (fun _ i => (i : ℝ) + 1) [("pretest", 0, 1), ("test", 1, 2)])
    (history_arms _ _) hper (history_holds (v := fun _ i => (i : ℝ) + 1) (by decide)) (history_holds (v := fun _ i => (i : ℝ) + 1) (by decide)) ["clicks"] "item_id"
    "treatment_assignment" (by decide) (by unfold Spec.Reserved; decide) (by unfold Spec.Reserved; decide) r hr
  refine ⟨r, sd, se, diff, k1, hr, k2, k3, ?_⟩
  have := k4 100 (by show (100 : ℝ) = ((100 : ℤ) : ℝ); norm_num)
  norm_num at this ⊢
  exact this

/-- `C101_crossover` is not vacuous: estimating and analysing the two weeks as a crossover both return. -/
example (R : Rounding ℝ) (D : TDist) (σ : ℤ → Shuffle) : ∃ r sd se diff,
    (estimateMde R stableArgsort D σ (untrimmedConfig true) untrimmedState).2.sd = some (.fin sd) ∧
    analyzeSingleMetric R stableArgsort D (historyPivot (fun _ i => (i : ℝ) + 1) [("test_1", 0, 1), ("test_2", 1, 2)]) ["clicks"]
      ["item_id", "treatment_assignment"] (untrimmedDesign true).toDesignParams "clicks" none "treatment_assignment" none = .ok r ∧
    r.standardError = .fin se ∧ r.absoluteDifference = .fin diff ∧ se ^ 2 * 99 = (sd / Real.sqrt 100) ^ 2 * 99 - diff ^ 2 := by
  have hret : (estimateMde R stableArgsort D σ (untrimmedConfig true) untrimmedState).1 = .ok () := untrimmed_returns R D σ true
  have hy := history_values (v := fun _ i => (i : ℝ) + 1) (periods := [("test_1", 0, 1), ("test_2", 1, 2)]) (label := "test_1") (w := 0) (Or.inl rfl) (by decide)
  have hx := history_values (v := fun _ i => (i : ℝ) + 1) (periods := [("test_1", 0, 1), ("test_2", 1, 2)]) (label := "test_2") (w := 1) (Or.inr rfl) (by decide)
  obtain ⟨r, hr⟩ := analyze_crossover_returns (R := R) stableArgsort_ok (D := D) (metrics := ["clicks"]) (itemCol := "item_id")
    (treatmentCol := "treatment_assignment") (by decide) (by unfold Spec.Reserved; decide) (by unfold Spec.Reserved; decide)
    (history_index (fun _ i => (i : ℝ) + 1) [("test_1", 0, 1), ("test_2", 1, 2)]).2 (by simp [historyPivot]) (by simp [historyPivot])
    (d := (untrimmedDesign true).toDesignParams) rfl (metric := "clicks") (by simp) (by simp [historyPivot]) (by simp [historyPivot]) hy hx
    (by rw [(history_index _ _).1]; norm_num) le_rfl (by show (0 : ℝ) < 1 / 2; norm_num) (by
      unfold nTrimOf
      have : R.floorMul (untrimmedDesign true).postTrim.val
        ((historyPivot (fun _ i => (i : ℝ) + 1) [("test_1", 0, 1), ("test_2", 1, 2)]).index.length) = 0 := rnd_zero_floor R _
      rw [this]; rfl)
  obtain ⟨hpw, hal⟩ := untrimmed_levels true
  obtain ⟨sd, se, diff, k1, k2, k3, k4⟩ := C101_crossover R stableArgsort stableArgsort_ok D (untrimmedParams true) (untrimmedConfig true)
    (untrimmedDesign_created R true) (by show (100 : ℤ) ≤ 2 ^ 51; norm_num) hpw hal σ untrimmedState weeks_are_integers hret 0
    (untrimmed_starts true) rfl rfl rfl rfl 0 rfl hundredItems (untrimmed_items true) hundredArms
    (historyPivot (fun _ i => (i : ℝ) + 1) [("test_1", 0, 1), ("test_2", 1, 2)])
    (history_arms _ _) (history_holds (v := fun _ i => (i : ℝ) + 1) (by decide)) (history_holds (v := fun _ i => (i : ℝ) + 1) (by decide)) ["clicks"] "item_id"
    "treatment_assignment" (by decide) (by unfold Spec.Reserved; decide) (by unfold Spec.Reserved; decide) r hr
  refine ⟨r, sd, se, diff, k1, hr, k2, k3, ?_⟩
  have := k4 100 (by show (100 : ℝ) = ((100 : ℤ) : ℝ); norm_num)
  norm_num at this ⊢
  exact this

/-- A crossover of two weeks for 100 items, with post trimming of half an item at each end: none is cut. -/
noncomputable def shiftParams : DesignParams ℝ := { untrimmedParams true with postTrim := .float (1 / 200) }

/-- See `shiftParams`. -/
noncomputable def shiftDesign : Design ℝ := { shiftParams with nAfterPre := 100, nAfterPost := 100 }

theorem shift_floor (R : Rounding ℝ) : ⌊R.rnd (shiftDesign.postTrim.val * ((100 : ℤ) : ℝ))⌋ = 0 := by
  have e : shiftDesign.postTrim.val * ((100 : ℤ) : ℝ) = ((1 : ℤ) : ℝ) / 2 := by
    have : shiftDesign.postTrim.val = 1 / 200 := rfl
    rw [this]; norm_num
  rw [e, R.halfFix 1 (by norm_num)]
  norm_num

theorem shiftDesign_created (R : Rounding ℝ) : mkDesign R shiftParams = .ok shiftDesign := by
  have hf : ∀ n : ℤ, R.floorMul 0 n = 0 := fun n => rnd_zero_floor R n
  have h0 : R.rnd 0 = 0 := by simpa using R.intFix 0 (by norm_num)
  have e1 : shiftParams.preTop.val = 0 := rfl
  have e2 : shiftParams.preBottom.val = 0 := rfl
  have e4 : shiftParams.nBefore = 100 := rfl
  have hf' : R.floorMul shiftParams.postTrim.val 100 = 0 := shift_floor R
  have hd : deriveCounts R shiftParams = shiftDesign := by
    unfold deriveCounts
    simp only [e1, e2, e4, hf, hf', sub_zero]
    rfl
  rw [mkDesign_ok_iff]
  refine ⟨hd.symm, (validateDesign_ok_iff R _).mpr ⟨?_, by show (50 : ℤ) < 100; decide⟩⟩
  have e1 : shiftDesign.preTop.val = 0 := rfl
  have e2 : shiftDesign.preBottom.val = 0 := rfl
  have e3 : shiftDesign.postTrim.val = 1 / 200 := rfl
  refine ⟨by decide, by decide, by rw [e1], by rw [e2], by rw [e3]; norm_num, ?_, by rw [e3]; norm_num, fun _ => ⟨e1, e2⟩,
    fun h => ⟨0, rfl, by decide, by decide, by decide⟩⟩
  rw [e1, e2, add_zero, h0]; norm_num

/-- Every item has one click in the first week and three in the second. -/
noncomputable def shiftClicks : ℤ → ℕ → ℝ := fun w _ => if w = 0 then 1 else 3

theorem forall₂_map_eq {α β γ : Type} {P : α → β → Prop} {l : List α} {xs : List β} (h : List.Forall₂ P l xs) {f : β → γ} {g : α → γ}
    (hfg : ∀ a x, a ∈ l → P a x → f x = g a) : xs.map f = l.map g := by
  induction h with
  | nil => rfl
  | cons h1 _ ih => rw [List.map_cons, List.map_cons, hfg _ _ (by simp) h1, ih (fun a x ha hp => hfg a x (by simp [ha]) hp)]

theorem alternating_sum (n : ℕ) : ((List.range (2 * n)).map (fun i : ℕ => if i % 2 = 0 then (-2 : ℝ) else 2)).sum = 0 := by
  induction n with
  | zero => simp
  | succ n ih =>
    rw [show 2 * (n + 1) = 2 * n + 1 + 1 by ring, List.range_succ, List.range_succ, List.map_append, List.map_append, List.sum_append, List.sum_append, ih]
    simp [Nat.add_mod]

/-- **C101 fails for crossover designs with post trimming.**  For 100 items with one click each in the first week and three in the second, the
minimum detectable effect is computed with the standard error 0.1, but the analysis of the same data, with 50 items in each group, reports the
difference 0 with the standard error `2 / sqrt 99`, more than twice as large. -/
theorem C101_post_trim_false (R : Rounding ℝ) (D : TDist) (σ : ℤ → Shuffle) :
    ∃ (p : DesignParams ℝ) (c : SimConfig) (s : SimState) (piv : Pivoted ℝ) (r : TestResult) (se : ℝ),
      mkDesign R p = .ok c.design ∧ c.design.isCrossover = true ∧ 0 < c.design.postTrim.val ∧ c.starts = [0] ∧ c.design.nAfterPost = 100 ∧
      (estimateMde R stableArgsort D σ c s).1 = .ok () ∧ (estimateMde R stableArgsort D σ c s).2.sd = some (.fin 1) ∧
      Spec.ItemsWithArms hundredItems hundredArms piv ∧
      Spec.HoldsAverages piv hundredItems c.design.primaryMetric "test_1" s.data.rows c.itemCol c.weekCol 0 1 ∧
      Spec.HoldsAverages piv hundredItems c.design.primaryMetric "test_2" s.data.rows c.itemCol c.weekCol 1 2 ∧
      analyzeSingleMetric R stableArgsort D piv ["clicks"] ["item_id", "treatment_assignment"] c.design.toDesignParams c.design.primaryMetric none
        "treatment_assignment" none = .ok r ∧
      r.absoluteDifference = .fin 0 ∧ r.standardError = .fin se ∧ se = 2 / Real.sqrt 99 ∧ 2 * (1 / Real.sqrt 100) < se := by
  have hu : Spec.UsableHistory shiftDesign "item_id" "week_id" "time_period" [0] (clickData shiftClicks) :=
    click_usable rfl rfl (by decide) ⟨"test_2", by decide⟩
  obtain ⟨c, hc⟩ : ∃ c : SimConfig, c = { untrimmedConfig true with design := shiftDesign } := ⟨_, rfl⟩
  have hcd : c.design = shiftDesign := by rw [hc]
  have hci : c.itemCol = "item_id" := by rw [hc]; rfl
  have hcw : c.weekCol = "week_id" := by rw [hc]; rfl
  have hcp : c.periodCol = "time_period" := by rw [hc]; rfl
  have hst : c.starts = [0] := by rw [hc]; decide
  clear hc
  have hret := C100_returns R stableArgsort stableArgsort_ok D shiftParams c
    (by rw [hcd]; exact shiftDesign_created R) (by rw [hcd]; show (100 : ℤ) ≤ 2 ^ 51; norm_num) σ ⟨clickData shiftClicks, none, none, none, none, none, none⟩
    (by rw [hst]; simp) (by rw [hst, hcd, hci, hcw, hcp]; exact hu)
  have hy := history_values (v := shiftClicks) (periods := [("test_1", 0, 1), ("test_2", 1, 2)]) (label := "test_1") (w := 0) (Or.inl rfl) (by decide)
  have hx := history_values (v := shiftClicks) (periods := [("test_1", 0, 1), ("test_2", 1, 2)]) (label := "test_2") (w := 1) (Or.inr rfl) (by decide)
  have hlen := (history_index shiftClicks [("test_1", 0, 1), ("test_2", 1, 2)]).1
  obtain ⟨r, hr⟩ := analyze_crossover_returns (R := R) stableArgsort_ok (D := D) (metrics := ["clicks"]) (itemCol := "item_id")
    (treatmentCol := "treatment_assignment") (by decide) (by unfold Spec.Reserved; decide) (by unfold Spec.Reserved; decide)
    (history_index shiftClicks [("test_1", 0, 1), ("test_2", 1, 2)]).2 (by simp [historyPivot]) (by simp [historyPivot])
    (d := shiftDesign.toDesignParams) rfl (metric := "clicks") (by simp) (by simp [historyPivot]) (by simp [historyPivot]) hy hx
    (by rw [hlen]; norm_num) (by show (0 : ℝ) ≤ 1 / 200; norm_num) (by show (1 / 200 : ℝ) < 1 / 2; norm_num) (by
      unfold nTrimOf
      rw [hlen]
      have : R.floorMul shiftDesign.postTrim.val ((100 : ℕ) : ℤ) = 0 := shift_floor R
      rw [this]; rfl)
  have hz : List.Forall₂ (fun item v =>
      Spec.weeklyAverage (clickData shiftClicks).rows "item_id" "week_id" "clicks" 0 1 item = .fin v.1 ∧
      Spec.weeklyAverage (clickData shiftClicks).rows "item_id" "week_id" "clicks" 1 2 item = .fin v.2) hundredItems
      ((List.range 100).map (fun _ => ((1 : ℝ), (3 : ℝ)))) := by
    unfold hundredItems
    rw [List.forall₂_map_left_iff, List.forall₂_map_right_iff, List.forall₂_same]
    intro i hi
    have h1 := click_average shiftClicks i (List.mem_range.mp hi) 0 (Or.inl rfl)
    have h2 := click_average shiftClicks i (List.mem_range.mp hi) 1 (Or.inr rfl)
    exact ⟨by simpa [shiftClicks] using h1, by simpa [shiftClicks] using h2⟩
  have e3 : shiftDesign.power.val = 8 / 10 := by simp [shiftDesign, shiftParams, untrimmedParams, twoWeekParams, tenPercentParams, PyNum.val]
  have e4 : shiftDesign.alpha.val = 1 / 10 := by simp [shiftDesign, shiftParams, untrimmedParams, twoWeekParams, tenPercentParams, PyNum.val]
  obtain ⟨sd, se, diff, k1, k2, k3, k4⟩ := C101_post_trim_partial R stableArgsort stableArgsort_ok D shiftParams c
    (by rw [hcd]; exact shiftDesign_created R) (by rw [hcd]; show (100 : ℤ) ≤ 2 ^ 51; norm_num) (by rw [hcd, e3]; norm_num)
    (by rw [hcd, e4]; norm_num) σ ⟨clickData shiftClicks, none, none, none, none, none, none⟩ (by rw [hcw]; exact click_weeks shiftClicks) hret 0 hst
    (by rw [hcd]; rfl) (by rw [hcd]; rfl) (by rw [hcd]; rfl) (by rw [hcd]; show (0 : ℝ) < 1 / 200; norm_num)
    (by rw [hcd]; exact shift_floor R) 0 (by rw [hcd]; rfl) hundredItems
    (by rw [hcd, hci, hcw]; exact click_items ⟨"test_2", by decide⟩) _ (by rw [hcd, hci, hcw]; exact hz) hundredArms _ (keeps_float rfl) (history_arms _ _)
    (by rw [hcd, hci, hcw]; exact history_holds (periods := [("test_1", 0, 1), ("test_2", 1, 2)]) (by decide)) (by rw [hcd, hci, hcw]; exact history_holds (periods := [("test_1", 0, 1), ("test_2", 1, 2)]) (by decide)) ["clicks"] "item_id"
    "treatment_assignment" (by decide) (by unfold Spec.Reserved; decide) (by unfold Spec.Reserved; decide) r (by rw [hcd]; exact hr)
  obtain ⟨k5, k6⟩ := k4 100 (-2) (by rw [hcd]; show (100 : ℝ) = ((100 : ℤ) : ℝ); norm_num) (by
    simp only [List.map_const', List.length_range, Spec.mean]
    norm_num)
  rw [List.map_map] at k5
  simp only [Function.comp_def, List.map_const', List.length_range, sumSqDev_replicate] at k5
  have k5 : sd = 1 := by rw [k5]; norm_num
  subst k5
  obtain ⟨xs, v1, v2, hxs, hv, hpair⟩ := C38_crossover_pairs_partial R stableArgsort D _ ["clicks"] "item_id" "treatment_assignment" (by decide)
    (by unfold Spec.Reserved; decide) (by unfold Spec.Reserved; decide)
    (history_index shiftClicks [("test_1", 0, 1), ("test_2", 1, 2)]).2 shiftDesign.toDesignParams rfl "clicks" (keeps_float rfl) none r hr
  rw [Option.getD_none] at hv hpair
  obtain ⟨rfl, rfl⟩ := hv.1 (by show (1 / 200 : ℝ) ≠ 0; norm_num)
  have hxl : xs.length = 100 := by rw [← hlen]; exact hxs.length_eq.symm
  have hpair' : pairedTest R stableArgsort D (xs.map (fun i => i.treated 0 0 + 0)) (xs.map (fun i => i.untreated 0 0 + 0)) shiftDesign.postTrim.val none none
      "two-sided" (1 / 20) = .ok r := by simpa using hpair
  obtain ⟨se', diff', g1, g2, -, g3, g4⟩ := crossover_error R stableArgsort_ok (by rw [hxl]; exact shift_floor R) hpair' (by rw [hxl]; norm_num)
  obtain rfl := Fl.fin.inj (g1.symm.trans k2)
  obtain rfl := Fl.fin.inj (g2.symm.trans k3)
  have hdiff : xs.map (fun i => i.treated 0 0 - i.untreated 0 0) =
      (List.range 100).map (fun i : ℕ => if i % 2 = 0 then (-2 : ℝ) else 2) := by
    unfold Spec.CrossoverItems at hxs
    rw [history_rows, List.forall₂_map_left_iff] at hxs
    refine forall₂_map_eq hxs ?_
    intro i x hi hx
    have h1 := history_holds (v := shiftClicks) (periods := [("test_1", 0, 1), ("test_2", 1, 2)]) (label := "test_1") (lo := 0) (hi := 1) (by decide)
      (.int (i : ℤ)) (List.mem_map.mpr ⟨i, hi, rfl⟩) (.int (if decide (i % 2 = 0) then 1 else 0))
    have h2 := history_holds (v := shiftClicks) (periods := [("test_1", 0, 1), ("test_2", 1, 2)]) (label := "test_2") (lo := 1) (hi := 2) (by decide)
      (.int (i : ℤ)) (List.mem_map.mpr ⟨i, hi, rfl⟩) (.int (if decide (i % 2 = 0) then 1 else 0))
    have a1 := click_average shiftClicks i (List.mem_range.mp hi) 0 (Or.inl rfl)
    have a2 := click_average shiftClicks i (List.mem_range.mp hi) 1 (Or.inr rfl)
    have b1 : x.first = 1 := by
      have := Fl.fin.inj (hx.2.1.symm.trans (h1.trans a1))
      simpa [shiftClicks] using this
    have b2 : x.second = 3 := by
      have := Fl.fin.inj (hx.2.2.symm.trans (h2.trans a2))
      simpa [shiftClicks] using this
    have b3 : x.treatedFirst ↔ i % 2 = 0 := by
      rw [hx.1, assignedTo_int]
      by_cases hm : i % 2 = 0 <;> simp [hm]
    unfold Spec.CrossoverItem.treated Spec.CrossoverItem.untreated
    rw [b1, b2]
    by_cases hm : i % 2 = 0
    · rw [if_pos (b3.mpr hm), if_pos (b3.mpr hm), if_pos hm]; norm_num
    · rw [if_neg (fun h => hm (b3.mp h)), if_neg (fun h => hm (b3.mp h)), if_neg hm]; norm_num
  have hzero : diff' = 0 := by
    rw [g4, hdiff]
    unfold Spec.mean
    rw [alternating_sum 50, zero_div]
  subst hzero
  have hsq : se' ^ 2 = 4 / 99 := by
    rw [div_pow, Real.sq_sqrt (by norm_num)] at k6
    linarith
  have hse : se' = 2 / Real.sqrt 99 := by
    rw [← abs_of_nonneg g3, ← Real.sqrt_sq_eq_abs, hsq, Real.sqrt_div (by norm_num)]
    congr 1
    rw [show (4 : ℝ) = 2 ^ 2 by norm_num, Real.sqrt_sq (by norm_num)]
  refine ⟨shiftParams, c, _, _, r, se', by rw [hcd]; exact shiftDesign_created R, by rw [hcd]; rfl, by rw [hcd]; show (0 : ℝ) < 1 / 200; norm_num, hst,
    by rw [hcd]; rfl, hret, k1, history_arms _ _, by rw [hcd, hci, hcw]; exact history_holds (periods := [("test_1", 0, 1), ("test_2", 1, 2)]) (by decide),
    by rw [hcd, hci, hcw]; exact history_holds (periods := [("test_1", 0, 1), ("test_2", 1, 2)]) (by decide), by rw [hcd]; exact hr, k3, k2, hse, ?_⟩
  rw [hse, mul_one_div]
  exact div_lt_div_of_pos_left (by norm_num) (by positivity) (Real.sqrt_lt_sqrt (by norm_num) (by norm_num))

end Feedx
