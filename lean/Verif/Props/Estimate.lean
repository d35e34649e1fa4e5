import Verif.Proofs.Estimate
import Verif.Proofs.OverTime

/-!
C100: what `estimate_minimum_detectable_effect` estimates.
-/

set_option linter.unusedSectionVars false
set_option linter.unusedSimpArgs false

namespace Feedx
open Fl

variable {R : Rounding ℝ} {argsort : List ℝ → List ℕ} {D : TDist} {c : SimConfig}

theorem mdeOf_nan {d : Design ℝ} {n : ℕ} {m : Fl ℝ × Fl ℝ} (h : mdeOf D d .nan .nan n = .ok m) : m.1 = .nan ∧ m.2 = .nan := by
  have h1 : ∀ a : Fl ℝ, oneSampleSE .nan a = .nan := fun a => nan_div _
  have h2 : ∀ a b : Fl ℝ, (twoSampleSE .nan .nan a b true).1 = .nan := by
    intro a b
    unfold twoSampleSE Fl.sq
    simp only [if_true, nan_mul, mul_nan, nan_add, nan_div]
    rfl
  unfold mdeOf pairedMde indMde mdeFromStats at h
  obtain ⟨x, hx, h⟩ := Py.bind_eq_ok.mp h
  cases h
  have : x = .nan := by
    split_ifs at hx
    · obtain ⟨t, -, hx⟩ := Py.bind_eq_ok.mp hx
      cases hx
      rw [h1, nan_mul]
    · obtain ⟨t, -, hx⟩ := Py.bind_eq_ok.mp hx
      cases hx
      rw [h2, nan_mul]
  subst this
  exact ⟨rfl, rfl⟩

/-- Either all start weeks have numbers, or one has nan. -/
theorem weeks_split {P : ℤ → ℝ → ℝ → Prop} {Q : ℤ → Prop} {N : MetricStats → Prop} {starts : List ℤ} {l : List MetricStats}
    (h : List.Forall₂ (fun start (st : MetricStats) => N st ∧
      ((∃ a v : ℝ, st.average = .fin a ∧ st.variance = .fin v ∧ 0 ≤ v ∧ P start a v) ∨ (st.average = .nan ∧ st.variance = .nan ∧ Q start))) starts l) :
    (∃ q : List (ℝ × ℝ), List.Forall₂ (fun (st : MetricStats) q => st.average = .fin q.1 ∧ st.variance = .fin q.2 ∧ 0 ≤ q.2) l q ∧
      List.Forall₂ (fun start q => P start q.1 q.2) starts q) ∨
    ∃ start ∈ starts, ∃ st ∈ l, Q start ∧ st.average = .nan ∧ st.variance = .nan := by
  induction h with
  | nil => exact Or.inl ⟨[], .nil, .nil⟩
  | cons h _ ih =>
    rcases h.2 with ⟨a, v, e1, e2, hv, hP⟩ | ⟨e1, e2, hQ⟩
    · rcases ih with ⟨q, h1, h2⟩ | ⟨start, hs, st, hst, hq⟩
      · exact Or.inl ⟨(a, v) :: q, .cons ⟨e1, e2, hv⟩ h1, .cons hP h2⟩
      · exact Or.inr ⟨start, by simp [hs], st, by simp [hst], hq⟩
    · exact Or.inr ⟨_, by simp, _, by simp, hQ, e1, e2⟩

/-- C100: whenever `estimate_minimum_detectable_effect` returns, the numbers it stores are these.  For every start week there are an average
and a variance of the primary metric as described by `Spec.WeekEstimate` (in terms of the rows the object was given).  The stored average is the
mean of the averages, the stored standard deviation the root of the mean variance, and the minimum detectable effect is the one of the two-sided
two-sample test with half of the design's items in each group, or of the paired test for a crossover experiment, at the design's level and power.
The only other outcome is that for some start week the adjustment with pretest values is not defined, and everything is nan. -/
theorem C100_formula (R : Rounding ℝ) (argsort : List ℝ → List ℕ) (ha : ArgsortOk argsort) (D : TDist) (p : DesignParams ℝ) (c : SimConfig)
    (hd : mkDesign R p = .ok c.design) (hn : c.design.nBefore ≤ 2 ^ 51)
    (hpw : 0 < c.design.power.val ∧ c.design.power.val < 1) (hal : 0 < c.design.alpha.val ∧ c.design.alpha.val < 1) (σ : ℤ → Shuffle)
    (s : SimState) (hw : ∀ r ∈ s.data.rows, r c.weekCol = .null ∨ ∃ x : ℤ, r c.weekCol = .int x)
    (h : (estimateMde R argsort D σ c s).1 = .ok ()) :
    (∃ l : List (ℝ × ℝ), l ≠ [] ∧ List.Forall₂ (fun start q => Spec.WeekEstimate R.rnd c.design s.data.rows c.itemCol c.weekCol start q.1 q.2) c.starts l ∧
      ∀ average sd n : ℝ, average = Spec.mean (l.map Prod.fst) → sd = Real.sqrt (Spec.mean (l.map Prod.snd)) → n = c.design.nAfterPost →
      ∃ mde : ℝ,
        (c.design.isCrossover = false →
          mde = 2 * sd / Real.sqrt n * (D.ppf (n - 2) (1 - c.design.alpha.val / 2) + D.ppf (n - 2) c.design.power.val)) ∧
        (c.design.isCrossover = true →
          mde = sd / Real.sqrt n * (D.ppf (n - 1) (1 - c.design.alpha.val / 2) + D.ppf (n - 1) c.design.power.val)) ∧
        ∃ data, (estimateMde R argsort D σ c s).2 = { s with
          data := data, average := some (.fin average), sd := some (.fin sd), mde := some (.fin mde),
          relativeMde := some (.fin mde / .fin average) }) ∨
    ((∃ start ∈ c.starts, Spec.WeekConstant R.rnd c.design s.data.rows c.itemCol c.weekCol start) ∧
      ∃ data, (estimateMde R argsort D σ c s).2 = { s with
        data := data, average := some .nan, sd := some .nan, mde := some .nan, relativeMde := some .nan }) := by
  obtain ⟨hdd, hvalid⟩ := (mkDesign_ok_iff R p c.design).mp hd
  obtain ⟨hleg, h50⟩ := (validateDesign_ok_iff R _).mp hvalid
  unfold estimateMde at h ⊢
  rcases hst : statsOfWeeks R argsort σ c c.starts s.data with ⟨r, f⟩
  rw [hst] at h
  cases r with
  | error x => cases h
  | ok l =>
    simp only at h ⊢
    have hl := weeks_estimate ha hd hn hw (SamePivots.refl c s.data) hst
    rcases hav : averageStats l with e | a
    · rw [hav] at h; cases h
    rw [hav] at h
    simp only at h ⊢
    have hl0 : l ≠ [] := by rintro rfl; cases hav
    have hsize : (a.2.2 : ℤ) = c.design.nAfterPost := by
      cases l with
      | nil => exact absurd rfl hl0
      | cons st l =>
        unfold averageStats at hav
        obtain ⟨-, hav⟩ := raiseIf_bind_ok.mp hav
        cases hav
        rcases hstarts : c.starts with _ | ⟨start, rest⟩
        · rw [hstarts] at hl; cases hl
        · rw [hstarts] at hl
          cases hl with
          | cons hh _ => exact hh.1
    rcases hm : mdeOf D c.design a.1 a.2.1 a.2.2 with e | m
    · rw [hm] at h; cases h
    simp only
    rcases weeks_split hl with ⟨q, hq1, hq2⟩ | ⟨start, hs, st, hst', hc, e1, e2⟩
    · left
      obtain ⟨ea, es⟩ := averageStats_numbers hq1 hav
      refine ⟨q, ?_, hq2, ?_⟩
      · rintro rfl
        cases hq1
        exact hl0 rfl
      · intro average sd n e1 e2 e3
        have e3 : n = (a.2.2 : ℝ) := by rw [e3, ← hsize]; simp
        have hn50 : (50 : ℝ) < n := by rw [e3]; exact_mod_cast hsize ▸ h50
        have hsd : 0 ≤ sd := by rw [e2]; exact Real.sqrt_nonneg _
        obtain ⟨p1, p2⟩ := C35_power_calculations D sd n c.design.power.val c.design.alpha.val hsd hpw.1 hpw.2 hal.1 hal.2 "two-sided" (Or.inl rfl)
        have p1 := p1 (by linarith)
        have p2 := p2 (by linarith)
        simp only [if_true] at p1 p2
        rw [← e1] at ea
        rw [← e2] at es
        unfold mdeOf at hm
        rw [ea, es, ← e3] at hm
        cases hx : c.design.isCrossover
        · rw [hx, p1] at hm
          cases hm
          exact ⟨_, fun _ => rfl, (fun hc => by cases hc), f, (by rw [ea, es])⟩
        · rw [hx, p2] at hm
          cases hm
          exact ⟨_, (fun hc => by cases hc), fun _ => rfl, f, (by rw [ea, es])⟩
    · right
      obtain ⟨ea, es⟩ := averageStats_nan hst' e1 e2 hav
      refine ⟨⟨start, hs, hc⟩, f, ?_⟩
      rw [ea, es] at hm ⊢
      obtain ⟨m1, m2⟩ := mdeOf_nan hm
      rw [m1, m2]

/-! ### When the estimation returns -/

/-- C100: on usable data the estimation returns. -/
theorem C100_returns (R : Rounding ℝ) (argsort : List ℝ → List ℕ) (ha : ArgsortOk argsort) (D : TDist) (p : DesignParams ℝ) (c : SimConfig)
    (hd : mkDesign R p = .ok c.design) (hn : c.design.nBefore ≤ 2 ^ 51) (σ : ℤ → Shuffle) (s : SimState) (hne : c.starts ≠ [])
    (hu : Spec.UsableHistory c.design c.itemCol c.weekCol c.periodCol c.starts s.data) :
    (estimateMde R argsort D σ c s).1 = .ok () :=
  (C71_estimation_succeeds ha p hd hn σ s hne hu).1

/-- If CUPED is not used or is followed by trimming, or if the averages before the experiment are not all the same, the adjustment with pretest values is
defined for every start week. -/
theorem week_not_constant (p : DesignParams ℝ) (hd : mkDesign R p = .ok c.design) {rows : List (Row ℝ)}
    (hcup : Spec.NoPlainCuped R c.design ∨ Spec.PretestVaries R.rnd c.design rows c.itemCol c.weekCol c.starts) :
    ¬ ∃ start ∈ c.starts, Spec.WeekConstant R.rnd c.design rows c.itemCol c.weekCol start := by
  obtain ⟨hdd, hvalid⟩ := (mkDesign_ok_iff R p c.design).mp hd
  obtain ⟨hleg, -⟩ := (validateDesign_ok_iff R _).mp hvalid
  rintro ⟨start, hs, hx, hpr, items, kept, hlist, -, hk0, hcut, hlen, hg, v, hv⟩
  have h0 : 0 < c.design.pretest := by
    obtain ⟨r, -, -, x, -, h1, h2⟩ := hpr
    omega
  rcases hcup with (h | h | h) | h
  · rw [hx] at h; cases h
  · omega
  · have : (kept.length : ℝ) = (c.design.nAfterPre : ℝ) := by rw [← hlen]; simp
    rw [this] at hg
    omega
  · obtain ⟨a, ha', b, hb', hab⟩ := h start hs items kept hlist (hcut h0)
    rw [hv a ha', hv b hb'] at hab
    exact hab rfl

/-! ### Designs that trim nothing -/

theorem rnd_zero_floor (R : Rounding ℝ) (x : ℝ) : ⌊R.rnd (0 * x)⌋ = 0 := by
  have h0 : R.rnd 0 = 0 := by simpa using R.intFix 0 (by norm_num)
  rw [zero_mul, h0]; simp

theorem trimmed_zero {α : Type} {key : α → ℝ} {all kept : List α} (h : Spec.Trimmed key 0 all kept) : kept = all := by
  obtain ⟨h1, low, high, h2, h3, h4, -⟩ := h
  rw [List.length_eq_zero_iff] at h3 h4
  subst h3 h4
  refine h1.eq_of_length ?_
  simpa using h2.length_eq

theorem clip_extremes {l : List ℝ} {lo hi : ℝ} (h : Spec.Extremes l lo hi) {x : ℝ} (hx : x ∈ l) : Spec.clip lo hi x = x := by
  obtain ⟨h1, h2⟩ := h.2.2 x hx
  unfold Spec.clip
  rw [min_eq_left h2, max_eq_right h1]

theorem trimmedStats_zero {y : List ℝ} {a v : ℝ} (h : Spec.TrimmedStats 0 y a v) :
    a = Spec.mean y ∧ v = Spec.sumSqDev y / ((y.length : ℝ) - 1) := by
  obtain ⟨kept, lo, hi, h1, h2, h3, h4⟩ := h
  obtain rfl := trimmed_zero h1
  refine ⟨h3, ?_⟩
  have e : kept.map (Spec.clip lo hi) = kept := by
    conv_rhs => rw [← List.map_id kept]
    exact List.map_congr_left (fun x hx => clip_extremes h2 hx)
  rw [h4, e]

theorem crossoverStats_zero {b : Prop} (hb : ¬ b) {y : List (ℝ × ℝ)} {a v : ℝ} (h : Spec.CrossoverStats 0 b y a v) :
    a = (Spec.mean (y.map Prod.fst) + Spec.mean (y.map Prod.snd)) / 2 ∧
    v = Spec.sumSqDev (y.map (fun q => q.1 - q.2)) / ((y.length : ℝ) - 1) := by
  obtain ⟨kept, lo, hi, h1, h2, h3, -, h4⟩ := h
  obtain rfl := trimmed_zero h1
  refine ⟨h3, ?_⟩
  rw [h4 hb, List.map_congr_left (g := fun q : ℝ × ℝ => q.1 - q.2) (fun x hx => clip_extremes h2 (List.mem_map.mpr ⟨x, hx, rfl⟩))]

theorem lists_perm {d : Design ℝ} {rows : List (Row ℝ)} {i w : String} {start : ℤ} {l l' : List (Cell ℝ)}
    (h : Spec.ListsItems d rows i w start l) (h' : Spec.ListsItems d rows i w start l') : l.Perm l' := by
  rw [List.perm_ext_iff_of_nodup h.1 h'.1]
  intro x
  rw [h.2, h'.2]

theorem values_unique {α β : Type} {P : α → β → Prop} (hP : ∀ a x y, P a x → P a y → x = y) {l : List α} {z z' : List β}
    (h : List.Forall₂ P l z) (h' : List.Forall₂ P l z') : z = z' := by
  induction h generalizing z' with
  | nil => cases h'; rfl
  | cons g1 _ ih =>
    cases h' with
    | cons g1' g2' => rw [hP _ _ _ g1 g1', ih g2']

/-- Values of items in another order. -/
theorem values_perm {α β : Type} {l l' : List α} (h : l.Perm l') {P : α → β → Prop} (hP : ∀ a x y, P a x → P a y → x = y) {y y' : List β}
    (hy : List.Forall₂ P l y) (hy' : List.Forall₂ P l' y') : y.Perm y' := by
  induction h generalizing y y' with
  | nil => cases hy; cases hy'; exact .refl _
  | cons a _ ih =>
    cases hy with
    | cons h1 h2 =>
      cases hy' with
      | cons h1' h2' =>
        rw [hP _ _ _ h1 h1']
        exact (ih h2 h2').cons _
  | swap a b l =>
    cases hy with
    | cons h1 h2 =>
      cases h2 with
      | cons h2 h3 =>
        cases hy' with
        | cons h1' h2' =>
          cases h2' with
          | cons h2' h3' =>
            rw [hP _ _ _ h1 h2', hP _ _ _ h2 h1']
            rw [values_unique hP h3 h3']
            exact .swap _ _ _
  | @trans l₁ l₂ l₃ h1 h2 ih1 ih2 =>
    obtain ⟨z, hz⟩ : ∃ z, List.Forall₂ P l₂ z := by
      have hall : ∀ a ∈ l₁, ∃ x, P a x := by
        intro a ha
        obtain ⟨n, hn, rfl⟩ := List.mem_iff_getElem.mp ha
        exact ⟨y[n]'(by rw [← hy.length_eq]; exact hn), hy.get hn (by rw [← hy.length_eq]; exact hn)⟩
      have hall : ∀ a ∈ l₂, ∃ x, P a x := fun a ha => hall a (h1.mem_iff.mpr ha)
      clear ih1 ih2 h1 h2 hy hy'
      induction l₂ with
      | nil => exact ⟨[], .nil⟩
      | cons a l ih =>
        obtain ⟨z, hz⟩ := ih (fun a ha => hall a (by simp [ha]))
        obtain ⟨x, hx⟩ := hall a (by simp)
        exact ⟨x :: z, .cons hx hz⟩
    exact (ih1 hy hz).trans (ih2 hz hy')

theorem map_of_weeks {P : ℤ → ℝ × ℝ → Prop} {A B : ℤ → ℝ} {starts : List ℤ} {l : List (ℝ × ℝ)} (h : List.Forall₂ P starts l)
    (hP : ∀ start ∈ starts, ∀ q, P start q → q.1 = A start ∧ q.2 = B start) :
    l.map Prod.fst = starts.map A ∧ l.map Prod.snd = starts.map B := by
  induction h with
  | nil => exact ⟨rfl, rfl⟩
  | @cons start q starts l h1 h2 ih =>
    obtain ⟨e1, e2⟩ := hP start (by simp) q h1
    obtain ⟨i1, i2⟩ := ih (fun s hs => hP s (by simp [hs]))
    exact ⟨by rw [List.map_cons, List.map_cons, e1, i1], by rw [List.map_cons, List.map_cons, e2, i2]⟩

theorem cuts_zero {α : Type} {value : α → Fl ℝ} {R : Rounding ℝ} {x y : ℝ} {all kept : List α} {t b : ℝ} (ht : t = 0) (hb : b = 0)
    (h : Spec.CutsExtremesOrMissing value ⌊R.rnd (t * x)⌋ ⌊R.rnd (b * y)⌋ all kept) : kept = all := by
  subst ht hb
  rw [rnd_zero_floor, rnd_zero_floor] at h
  exact h.1 ⟨rfl, rfl⟩

theorem no_trim_count {p : DesignParams ℝ} {d : Design ℝ} (hd : mkDesign R p = .ok d) (h1 : d.preTop.val = 0) (h2 : d.preBottom.val = 0)
    (h3 : d.postTrim.val = 0) : d.nAfterPost = d.nBefore := by
  obtain ⟨hdd, -⟩ := (mkDesign_ok_iff R p d).mp hd
  have f1 : ∀ x, R.floorMul 0 x = 0 := fun x => rnd_zero_floor R x
  rw [hdd] at h1 h2 h3 ⊢
  simp only [deriveCounts] at h1 h2 h3 ⊢
  rw [h1, h2, h3]
  simp only [f1]
  simp

/-- C100, regular experiment without pretest weeks and without trimming: averages and sample variances of the items' weekly averages. -/
theorem C100_plain (R : Rounding ℝ) (argsort : List ℝ → List ℕ) (ha : ArgsortOk argsort) (D : TDist) (p : DesignParams ℝ) (c : SimConfig)
    (hd : mkDesign R p = .ok c.design) (hn : c.design.nBefore ≤ 2 ^ 51)
    (hpw : 0 < c.design.power.val ∧ c.design.power.val < 1) (hal : 0 < c.design.alpha.val ∧ c.design.alpha.val < 1) (σ : ℤ → Shuffle)
    (s : SimState) (hw : ∀ r ∈ s.data.rows, r c.weekCol = .null ∨ ∃ x : ℤ, r c.weekCol = .int x)
    (h : (estimateMde R argsort D σ c s).1 = .ok ())
    (hx : c.design.isCrossover = false) (hpre : c.design.pretest = 0) (hpost : c.design.postTrim.val = 0)
    (items : ℤ → List (Cell ℝ)) (y : ℤ → List ℝ)
    (hi : ∀ start ∈ c.starts, Spec.ListsItems c.design s.data.rows c.itemCol c.weekCol start (items start))
    (hy : ∀ start ∈ c.starts, List.Forall₂ (fun item v =>
      Spec.weeklyAverage s.data.rows c.itemCol c.weekCol c.design.primaryMetric start (start + c.design.runtime) item = .fin v)
      (items start) (y start)) :
    ∀ sd n : ℝ, sd = Real.sqrt (Spec.mean (c.starts.map (fun start => Spec.sumSqDev (y start) / (((y start).length : ℝ) - 1)))) →
      n = c.design.nBefore →
      (estimateMde R argsort D σ c s).2.average = some (.fin (Spec.mean (c.starts.map (fun start => Spec.mean (y start))))) ∧
      (estimateMde R argsort D σ c s).2.sd = some (.fin sd) ∧
      (estimateMde R argsort D σ c s).2.mde = some (.fin
        (2 * sd / Real.sqrt n * (D.ppf (n - 2) (1 - c.design.alpha.val / 2) + D.ppf (n - 2) c.design.power.val))) := by
  intro sd n hsd hn'
  obtain ⟨l, -, hl, hall⟩ := (C100_formula R argsort ha D p c hd hn hpw hal σ s hw h).resolve_right
    (fun hc => week_not_constant p hd (Or.inl (Or.inr (Or.inl hpre))) hc.1)
  obtain ⟨hdd, hvalid⟩ := (mkDesign_ok_iff R p c.design).mp hd
  obtain ⟨hleg, -⟩ := (validateDesign_ok_iff R _).mp hvalid
  have hnop : ∀ start, ¬ Spec.HasPretestRows c.design s.data.rows c.itemCol c.weekCol start := by
    rintro start ⟨r, -, -, x, -, h1, h2⟩
    rw [hpre] at h1; omega
  have hnn : c.design.nAfterPost = c.design.nBefore :=
    no_trim_count hd (hleg.no_pretrim_without_pretest hpre).1 (hleg.no_pretrim_without_pretest hpre).2 hpost
  obtain ⟨m1, m2⟩ := map_of_weeks (A := fun start => Spec.mean (y start))
    (B := fun start => Spec.sumSqDev (y start) / (((y start).length : ℝ) - 1)) hl (by
      rintro start hs q ⟨its, kept, hits, -, hk, -, -, -, hreg, -⟩
      obtain ⟨sample, hsample, hst⟩ := hreg hx (hnop start)
      rw [hpost, rnd_zero_floor] at hst
      obtain ⟨t1, t2⟩ := trimmedStats_zero hst
      rw [hk hpre] at hsample
      have hperm := values_perm (lists_perm hits (hi start hs)) (fun a x y h1 h2 => by rw [h1] at h2; cases h2; rfl) hsample (hy start hs)
      rw [t1, t2, spec_mean_perm hperm, sumSqDev_perm hperm, hperm.length_eq]
      exact ⟨rfl, rfl⟩)
  obtain ⟨mde, hm, -, data, hres⟩ := hall _ sd n rfl (by rw [m2]; exact hsd) (by rw [hnn]; exact hn')
  rw [hres, m1, hm hx]
  exact ⟨rfl, rfl, rfl⟩

theorem sumSqDev_constant {l : List ℝ} {v : ℝ} (h : ∀ x ∈ l, x = v) : Spec.sumSqDev l = 0 := by
  by_contra hne
  have e : l = List.replicate l.length v := List.eq_replicate_iff.mpr ⟨rfl, h⟩
  rw [e] at hne
  exact hne (sumSqDev_replicate _ _)

theorem constant_values {R : Rounding ℝ} {d : Design ℝ} {rows : List (Row ℝ)} {i w : String} {start : ℤ} (htop : d.preTop.val = 0) (hbot : d.preBottom.val = 0)
    (h : Spec.WeekConstant R.rnd d rows i w start) {items : List (Cell ℝ)} (hi : Spec.ListsItems d rows i w start items) {y : List (ℝ × ℝ)}
    (hy : List.Forall₂ (fun item v => Spec.weeklyAverage rows i w d.primaryMetric start (start + d.runtime) item = .fin v.1 ∧
      Spec.weeklyAverage rows i w d.primaryMetric (start - d.pretest) start item = .fin v.2) items y) : Spec.sumSqDev (y.map Prod.snd) = 0 := by
  obtain ⟨-, hpr, its, kept, hlist, -, -, hcut, -, -, v, hv⟩ := h
  have hpos : 0 < d.pretest := by
    obtain ⟨r, -, -, x, -, h1, h2⟩ := hpr
    omega
  rw [cuts_zero htop hbot (hcut hpos)] at hv
  refine sumSqDev_constant (v := v) ?_
  intro x hx
  obtain ⟨q, hq, rfl⟩ := List.mem_map.mp hx
  obtain ⟨item, hitem, h1, h2⟩ := forall₂_mem_left hy.flip hq
  rw [hv item ((lists_perm hlist hi).mem_iff.mpr hitem)] at h2
  cases h2; rfl

/-- C100, regular experiment with pretest weeks (that have rows) and without trimming: `y` lists an item's weekly averages in the test and in
the pretest weeks.  The variance is what a regression on the pretest averages leaves. -/
theorem C100_cuped (R : Rounding ℝ) (argsort : List ℝ → List ℕ) (ha : ArgsortOk argsort) (D : TDist) (p : DesignParams ℝ) (c : SimConfig)
    (hd : mkDesign R p = .ok c.design) (hn : c.design.nBefore ≤ 2 ^ 51)
    (hpw : 0 < c.design.power.val ∧ c.design.power.val < 1) (hal : 0 < c.design.alpha.val ∧ c.design.alpha.val < 1) (σ : ℤ → Shuffle)
    (s : SimState) (hw : ∀ r ∈ s.data.rows, r c.weekCol = .null ∨ ∃ x : ℤ, r c.weekCol = .int x)
    (h : (estimateMde R argsort D σ c s).1 = .ok ())
    (hx : c.design.isCrossover = false) (hpre : ∀ start ∈ c.starts, Spec.HasPretestRows c.design s.data.rows c.itemCol c.weekCol start)
    (htop : c.design.preTop.val = 0) (hbot : c.design.preBottom.val = 0) (hpost : c.design.postTrim.val = 0)
    (items : ℤ → List (Cell ℝ)) (y : ℤ → List (ℝ × ℝ))
    (hi : ∀ start ∈ c.starts, Spec.ListsItems c.design s.data.rows c.itemCol c.weekCol start (items start))
    (hy : ∀ start ∈ c.starts, List.Forall₂ (fun item v =>
      Spec.weeklyAverage s.data.rows c.itemCol c.weekCol c.design.primaryMetric start (start + c.design.runtime) item = .fin v.1 ∧
      Spec.weeklyAverage s.data.rows c.itemCol c.weekCol c.design.primaryMetric (start - c.design.pretest) start item = .fin v.2)
      (items start) (y start))
    (hvar : ∀ start ∈ c.starts, Spec.sumSqDev ((y start).map Prod.snd) ≠ 0) :
    ∀ sd n : ℝ, sd = Real.sqrt (Spec.mean (c.starts.map (fun start => (Spec.sumSqDev ((y start).map Prod.fst) -
        Spec.crossDev ((y start).map Prod.fst) ((y start).map Prod.snd) ^ 2 / Spec.sumSqDev ((y start).map Prod.snd)) /
          (((y start).length : ℝ) - 1)))) →
      n = c.design.nBefore →
      (estimateMde R argsort D σ c s).2.average = some (.fin (Spec.mean (c.starts.map (fun start => Spec.mean ((y start).map Prod.fst))))) ∧
      (estimateMde R argsort D σ c s).2.sd = some (.fin sd) ∧
      (estimateMde R argsort D σ c s).2.mde = some (.fin
        (2 * sd / Real.sqrt n * (D.ppf (n - 2) (1 - c.design.alpha.val / 2) + D.ppf (n - 2) c.design.power.val))) := by
  intro sd n hsd hn'
  obtain ⟨l, -, hl, hall⟩ := (C100_formula R argsort ha D p c hd hn hpw hal σ s hw h).resolve_right (by
    rintro ⟨⟨start, hs, hconst⟩, -⟩
    exact hvar start hs (constant_values htop hbot hconst (hi start hs) (hy start hs)))
  obtain ⟨hdd, hvalid⟩ := (mkDesign_ok_iff R p c.design).mp hd
  obtain ⟨hleg, -⟩ := (validateDesign_ok_iff R _).mp hvalid
  have hpos : ∀ start ∈ c.starts, 0 < c.design.pretest := by
    intro start hs
    obtain ⟨r, -, -, x, -, h1, h2⟩ := hpre start hs
    omega
  have key : ∀ start ∈ c.starts, ∀ q : ℝ × ℝ, Spec.WeekEstimate R.rnd c.design s.data.rows c.itemCol c.weekCol start q.1 q.2 →
      Spec.sumSqDev ((y start).map Prod.snd) ≠ 0 ∧ q.1 = Spec.mean ((y start).map Prod.fst) ∧
      q.2 = (Spec.sumSqDev ((y start).map Prod.fst) -
        Spec.crossDev ((y start).map Prod.fst) ((y start).map Prod.snd) ^ 2 / Spec.sumSqDev ((y start).map Prod.snd)) /
          (((y start).length : ℝ) - 1) := by
    rintro start hs q ⟨its, kept, hits, -, -, hk, -, -, -, hreg⟩
    obtain ⟨sample, hsample, hst⟩ := hreg hx (hpre start hs)
    rw [hpost, rnd_zero_floor] at hst
    obtain ⟨t0, t1, t2⟩ := hst.1 rfl
    rw [cuts_zero htop hbot (hk (hpos start hs))] at hsample
    have hperm := values_perm (lists_perm hits (hi start hs)) (fun a x y h1 h2 => by
      rw [h1.1, h1.2] at h2
      obtain ⟨h2, h3⟩ := h2
      exact Prod.ext (Fl.fin.inj h2) (Fl.fin.inj h3)) hsample (hy start hs)
    rw [sumSqDev_perm (hperm.map Prod.snd)] at t0 t2
    rw [t1, t2, spec_mean_perm (hperm.map Prod.fst), sumSqDev_perm (hperm.map Prod.fst), crossDev_perm hperm, hperm.length_eq]
    exact ⟨t0, rfl, rfl⟩
  obtain ⟨m1, m2⟩ := map_of_weeks hl (fun start hs q hq => (key start hs q hq).2)
  obtain ⟨mde, hm, -, data, hres⟩ := hall _ sd n rfl (by rw [m2]; exact hsd) (by rw [no_trim_count hd htop hbot hpost]; exact hn')
  rw [hres, m1, hm hx]
  exact ⟨rfl, rfl, rfl⟩

/-- C100, the same experiments: if for a single start week all items have the same average before the experiment, then all four results are nan, whatever
the other start weeks look like. -/
theorem C100_cuped_constant (R : Rounding ℝ) (argsort : List ℝ → List ℕ) (ha : ArgsortOk argsort) (D : TDist) (p : DesignParams ℝ) (c : SimConfig)
    (hd : mkDesign R p = .ok c.design) (hn : c.design.nBefore ≤ 2 ^ 51)
    (hpw : 0 < c.design.power.val ∧ c.design.power.val < 1) (hal : 0 < c.design.alpha.val ∧ c.design.alpha.val < 1) (σ : ℤ → Shuffle)
    (s : SimState) (hw : ∀ r ∈ s.data.rows, r c.weekCol = .null ∨ ∃ x : ℤ, r c.weekCol = .int x)
    (h : (estimateMde R argsort D σ c s).1 = .ok ())
    (hx : c.design.isCrossover = false) (start : ℤ) (hs : start ∈ c.starts)
    (hpre : Spec.HasPretestRows c.design s.data.rows c.itemCol c.weekCol start)
    (htop : c.design.preTop.val = 0) (hbot : c.design.preBottom.val = 0) (hpost : c.design.postTrim.val = 0) (v : ℝ)
    (hv : ∀ items, Spec.ListsItems c.design s.data.rows c.itemCol c.weekCol start items → ∀ item ∈ items,
      Spec.weeklyAverage s.data.rows c.itemCol c.weekCol c.design.primaryMetric (start - c.design.pretest) start item = .fin v) :
    ∃ data, (estimateMde R argsort D σ c s).2 = { s with
      data := data, average := some .nan, sd := some .nan, mde := some .nan, relativeMde := some .nan } := by
  rcases C100_formula R argsort ha D p c hd hn hpw hal σ s hw h with ⟨l, -, hl, -⟩ | ⟨-, hres⟩
  · exfalso
    obtain ⟨n, hn1, e⟩ := List.mem_iff_getElem.mp hs
    have hq := hl.get hn1 (by rw [← hl.length_eq]; exact hn1)
    simp only [List.get_eq_getElem, e] at hq
    obtain ⟨its, kept, hits, -, -, hk, -, -, -, hreg⟩ := hq
    have hpos : 0 < c.design.pretest := by
      obtain ⟨r, -, -, x, -, h1, h2⟩ := hpre
      omega
    obtain ⟨sample, hsample, hst⟩ := hreg hx hpre
    rw [hpost, rnd_zero_floor] at hst
    rw [cuts_zero htop hbot (hk hpos)] at hsample
    refine (hst.1 rfl).1 (sumSqDev_constant (v := v) ?_)
    intro x hx
    obtain ⟨q, hq, rfl⟩ := List.mem_map.mp hx
    obtain ⟨item, hitem, h1, h2⟩ := forall₂_mem_left hsample.flip hq
    rw [hv its hits item hitem] at h2
    cases h2; rfl
  · exact hres

/-- C100, crossover experiment without trimming: `y` lists an item's weekly averages in the two test periods.  The variance is the one of the
differences. -/
theorem C100_crossover (R : Rounding ℝ) (argsort : List ℝ → List ℕ) (ha : ArgsortOk argsort) (D : TDist) (p : DesignParams ℝ) (c : SimConfig)
    (hd : mkDesign R p = .ok c.design) (hn : c.design.nBefore ≤ 2 ^ 51)
    (hpw : 0 < c.design.power.val ∧ c.design.power.val < 1) (hal : 0 < c.design.alpha.val ∧ c.design.alpha.val < 1) (σ : ℤ → Shuffle)
    (s : SimState) (hw : ∀ r ∈ s.data.rows, r c.weekCol = .null ∨ ∃ x : ℤ, r c.weekCol = .int x)
    (h : (estimateMde R argsort D σ c s).1 = .ok ())
    (hx : c.design.isCrossover = true) (htop : c.design.preTop.val = 0) (hbot : c.design.preBottom.val = 0) (hpost : c.design.postTrim.val = 0)
    (items : ℤ → List (Cell ℝ)) (y : ℤ → List (ℝ × ℝ)) (washout : ℤ) (hwash : c.design.washout = some washout)
    (hi : ∀ start ∈ c.starts, Spec.ListsItems c.design s.data.rows c.itemCol c.weekCol start (items start))
    (hy : ∀ start ∈ c.starts, List.Forall₂ (fun item v =>
      Spec.weeklyAverage s.data.rows c.itemCol c.weekCol c.design.primaryMetric (start + washout) (start + c.design.runtime / 2) item = .fin v.1 ∧
      Spec.weeklyAverage s.data.rows c.itemCol c.weekCol c.design.primaryMetric (start + c.design.runtime / 2 + washout) (start + c.design.runtime)
        item = .fin v.2)
      (items start) (y start)) :
    ∀ sd n : ℝ, sd = Real.sqrt (Spec.mean (c.starts.map (fun start =>
        Spec.sumSqDev ((y start).map (fun v => v.1 - v.2)) / (((y start).length : ℝ) - 1)))) →
      n = c.design.nBefore →
      (estimateMde R argsort D σ c s).2.average =
        some (.fin (Spec.mean (c.starts.map (fun start => (Spec.mean ((y start).map Prod.fst) + Spec.mean ((y start).map Prod.snd)) / 2)))) ∧
      (estimateMde R argsort D σ c s).2.sd = some (.fin sd) ∧
      (estimateMde R argsort D σ c s).2.mde = some (.fin
        (sd / Real.sqrt n * (D.ppf (n - 1) (1 - c.design.alpha.val / 2) + D.ppf (n - 1) c.design.power.val))) := by
  intro sd n hsd hn'
  obtain ⟨l, -, hl, hall⟩ := (C100_formula R argsort ha D p c hd hn hpw hal σ s hw h).resolve_right
    (fun hc => week_not_constant p hd (Or.inl (Or.inl hx)) hc.1)
  obtain ⟨hdd, hvalid⟩ := (mkDesign_ok_iff R p c.design).mp hd
  obtain ⟨hleg, -⟩ := (validateDesign_ok_iff R _).mp hvalid
  have hwash' : c.design.washout.getD 0 = washout := by rw [hwash]; rfl
  obtain ⟨m1, m2⟩ := map_of_weeks (A := fun start => (Spec.mean ((y start).map Prod.fst) + Spec.mean ((y start).map Prod.snd)) / 2)
    (B := fun start => Spec.sumSqDev ((y start).map (fun v => v.1 - v.2)) / (((y start).length : ℝ) - 1)) hl (by
      rintro start hs q ⟨its, kept, hits, -, hk0, hk, -, hcr, -, -⟩
      obtain ⟨sample, hsample, hst⟩ := hcr hx
      rw [hpost, rnd_zero_floor] at hst
      rw [hwash'] at hsample
      obtain ⟨t1, t2⟩ := crossoverStats_zero (by simp) hst
      have hkept : kept = its := by
        rcases hleg.pretest_nonneg.eq_or_lt with h0 | h0
        · exact hk0 h0.symm
        · exact cuts_zero htop hbot (hk h0)
      rw [hkept] at hsample
      have hperm := values_perm (lists_perm hits (hi start hs)) (fun a x y h1 h2 => by
        rw [h1.1, h1.2] at h2
        obtain ⟨h2, h3⟩ := h2
        exact Prod.ext (Fl.fin.inj h2) (Fl.fin.inj h3)) hsample (hy start hs)
      rw [t1, t2, spec_mean_perm (hperm.map Prod.fst), spec_mean_perm (hperm.map Prod.snd), sumSqDev_perm (hperm.map _), hperm.length_eq]
      exact ⟨rfl, rfl⟩)
  obtain ⟨mde, -, hm, data, hres⟩ := hall _ sd n rfl (by rw [m2]; exact hsd) (by rw [no_trim_count hd htop hbot hpost]; exact hn')
  rw [hres, m1, hm hx]
  exact ⟨rfl, rfl, rfl⟩

/-! ### Concrete cases -/

theorem sum_range_succ (n : ℕ) : ((List.range n).map (fun i : ℕ => (i : ℝ) + 1)).sum = n * (n + 1) / 2 := by
  induction n with
  | zero => simp
  | succ n ih => rw [List.range_succ, List.map_append, List.sum_append, ih]; simp; ring

theorem sum_range_sq (n : ℕ) (m : ℝ) : ((List.range n).map (fun i : ℕ => ((i : ℝ) + 1 - m) ^ 2)).sum =
    n * (n + 1) * (2 * n + 1) / 6 - m * n * (n + 1) + n * m ^ 2 := by
  induction n with
  | zero => simp
  | succ n ih => rw [List.range_succ, List.map_append, List.sum_append, ih]; simp; ring

theorem mean_range (n : ℕ) (hn : n ≠ 0) : Spec.mean ((List.range n).map (fun i : ℕ => (i : ℝ) + 1)) = ((n : ℝ) + 1) / 2 := by
  unfold Spec.mean
  rw [sum_range_succ, List.length_map, List.length_range]
  have : (n : ℝ) ≠ 0 := by exact_mod_cast hn
  field_simp

theorem sumSqDev_range (n : ℕ) (hn : n ≠ 0) : Spec.sumSqDev ((List.range n).map (fun i : ℕ => (i : ℝ) + 1)) = n * (n ^ 2 - 1) / 12 := by
  unfold Spec.sumSqDev
  rw [mean_range n hn, List.map_map]
  refine (sum_range_sq n _).trans ?_
  ring

/-- Total of an item in the rows of one week of the example data. -/
theorem twoWeek_filter (w lo hi : ℤ) (i n : ℕ) : ((List.range n).map (twoWeekRow w)).filter
    (Spec.inWeeks ["item_id"] "week_id" [.int (i : ℤ)] lo hi) = if i < n ∧ lo ≤ w ∧ w < hi then [twoWeekRow w i] else [] := by
  induction n with
  | zero => simp
  | succ n ih =>
    rw [List.range_succ, List.map_append, List.filter_append, ih]
    have hone : ([n].map (twoWeekRow w)).filter (Spec.inWeeks ["item_id"] "week_id" [.int (i : ℤ)] lo hi) =
        if i = n ∧ lo ≤ w ∧ w < hi then [twoWeekRow w n] else [] := by
      simp only [List.map_cons, List.map_nil, List.filter_cons, List.filter_nil]
      have : Spec.inWeeks ["item_id"] "week_id" [.int (i : ℤ)] lo hi (twoWeekRow w n) = decide (i = n ∧ lo ≤ w ∧ w < hi) := by
        unfold Spec.inWeeks
        simp [twoWeekRow, eq_comm]
      rw [this]
      by_cases h : i = n ∧ lo ≤ w ∧ w < hi <;> simp [h]
    rw [hone]
    by_cases hw : lo ≤ w ∧ w < hi
    · rcases Nat.lt_trichotomy i n with h | h | h
      · rw [if_pos ⟨h, hw⟩, if_neg (by omega), if_pos ⟨by omega, hw⟩, List.append_nil]
      · subst h
        rw [if_neg (by omega), if_pos ⟨rfl, hw⟩, if_pos ⟨by omega, hw⟩, List.nil_append]
      · rw [if_neg (by omega), if_neg (by omega), if_neg (by omega), List.append_nil]
    · rw [if_neg (fun h => hw h.2), if_neg (fun h => hw h.2), if_neg (fun h => hw h.2), List.append_nil]

theorem twoWeek_average (i : ℕ) (hi : i < 100) (w : ℤ) (hw : w = 0 ∨ w = 1) :
    Spec.weeklyAverage twoWeekData.rows "item_id" "week_id" "clicks" w (w + 1) (.int (i : ℤ)) = .fin ((i : ℝ) + 1) := by
  unfold Spec.weeklyAverage Spec.total twoWeekData
  simp only
  rw [List.filter_append, twoWeek_filter, twoWeek_filter]
  rcases hw with rfl | rfl
  · rw [if_pos (by omega), if_neg (by omega), List.append_nil, List.map_cons, List.map_nil]
    have e : Fl.sumSkip [(Fl.fin ((i : ℝ) + 1))] = .fin ((i : ℝ) + 1) := by
      show Fl.fin ((i : ℝ) + 1) + Fl.fin 0 = _
      rw [Fl.fin_add, add_zero]
    simp [twoWeekRow, Cell.toFl, e, fin_div_ne]
  · rw [if_neg (by omega), if_pos (by omega), List.nil_append, List.map_cons, List.map_nil]
    have e : Fl.sumSkip [(Fl.fin ((i : ℝ) + 1))] = .fin ((i : ℝ) + 1) := by
      show Fl.fin ((i : ℝ) + 1) + Fl.fin 0 = _
      rw [Fl.fin_add, add_zero]
    simp [twoWeekRow, Cell.toFl, e, fin_div_ne]

/-- Designs for the example data without trimming: crossover of two weeks, or one pretest week and one test week. -/
noncomputable def untrimmedParams (x : Bool) : DesignParams ℝ := { twoWeekParams x with postTrim := .float 0 }

/-- See `untrimmedParams`. -/
noncomputable def untrimmedDesign (x : Bool) : Design ℝ := { untrimmedParams x with nAfterPre := 100, nAfterPost := 100 }

theorem untrimmedDesign_created (R : Rounding ℝ) (x : Bool) : mkDesign R (untrimmedParams x) = .ok (untrimmedDesign x) := by
  have hf : ∀ n : ℤ, R.floorMul 0 n = 0 := fun n => rnd_zero_floor R n
  have h0 : R.rnd 0 = 0 := by simpa using R.intFix 0 (by norm_num)
  have hd : deriveCounts R (untrimmedParams x) = untrimmedDesign x := by
    unfold deriveCounts
    have e1 : (untrimmedParams x).preTop.val = 0 := rfl
    have e2 : (untrimmedParams x).preBottom.val = 0 := rfl
    have e3 : (untrimmedParams x).postTrim.val = 0 := rfl
    have e4 : (untrimmedParams x).nBefore = 100 := rfl
    simp only [e1, e2, e3, e4, hf, sub_zero]
    rfl
  rw [mkDesign_ok_iff]
  refine ⟨hd.symm, (validateDesign_ok_iff R _).mpr ⟨?_, by show (50 : ℤ) < 100; decide⟩⟩
  have e1 : (untrimmedDesign x).preTop.val = 0 := rfl
  have e2 : (untrimmedDesign x).preBottom.val = 0 := rfl
  have e3 : (untrimmedDesign x).postTrim.val = 0 := rfl
  refine ⟨by cases x <;> decide, by cases x <;> decide, by rw [e1], by rw [e2], by rw [e3], ?_, by rw [e3]; norm_num,
    fun _ => ⟨e1, e2⟩, fun h => ?_⟩
  · rw [e1, e2, add_zero, h0]; norm_num
  · cases x with
    | false => exact absurd h (by decide)
    | true => exact ⟨0, rfl, by decide, by decide, by decide⟩

/-- The object for these designs. -/
noncomputable def untrimmedConfig (x : Bool) : SimConfig := { twoWeekConfig x with design := untrimmedDesign x }

/-- The new object. -/
noncomputable def untrimmedState : SimState := ⟨twoWeekData, none, none, none, none, none, none⟩

theorem untrimmed_starts (x : Bool) : (untrimmedConfig x).starts = [if x then 0 else 1] := twoWeek_starts x

theorem untrimmed_usable (x : Bool) :
    Spec.UsableHistory (untrimmedDesign x) "item_id" "week_id" "time_period" (untrimmedConfig x).starts twoWeekData :=
  ⟨⟨(twoWeekData_usable x).complete.weeks, (twoWeekData_usable x).complete.finite, (twoWeekData_usable x).complete.items⟩,
    (twoWeekData_usable x).columns, (twoWeekData_usable x).periods⟩

/-- The items of the example data. -/
noncomputable def hundredItems : List (Cell ℝ) := (List.range 100).map (fun i : ℕ => .int (i : ℤ))

theorem untrimmed_items (x : Bool) :
    Spec.ListsItems (untrimmedDesign x) twoWeekData.rows "item_id" "week_id" (if x then 0 else 1) hundredItems := by
  have hrow : ∀ r ∈ twoWeekData.rows, ∃ w : ℤ, ∃ i : ℕ, i < 100 ∧ r = twoWeekRow w i := by
    intro r hr
    rcases List.mem_append.mp hr with hr | hr <;> obtain ⟨i, hi, rfl⟩ := List.mem_map.mp hr <;>
      exact ⟨_, i, List.mem_range.mp hi, rfl⟩
  refine ⟨List.nodup_range.map (fun a b h => by simpa using h), fun y => ?_⟩
  unfold hundredItems
  rw [List.mem_map]
  constructor
  · rintro ⟨i, hi, rfl⟩
    refine ⟨by simp, twoWeekRow 1 i, List.mem_append.mpr (Or.inr (List.mem_map.mpr ⟨i, hi, rfl⟩)), by simp [twoWeekRow], 1, by simp [twoWeekRow],
      if x then "test_2" else "test", 1, 2, ?_, by omega, by omega⟩
    cases x <;> decide
  · rintro ⟨-, r, hr, rfl, -⟩
    obtain ⟨w, i, hi, rfl⟩ := hrow r hr
    exact ⟨i, List.mem_range.mpr hi, by simp [twoWeekRow]⟩

theorem hundred_values (w : ℤ) (hw : w = 0 ∨ w = 1) : List.Forall₂ (fun item v =>
    Spec.weeklyAverage twoWeekData.rows "item_id" "week_id" "clicks" w (w + 1) item = .fin v) hundredItems
    ((List.range 100).map (fun i : ℕ => (i : ℝ) + 1)) := by
  unfold hundredItems
  rw [List.forall₂_map_left_iff, List.forall₂_map_right_iff, List.forall₂_same]
  intro i hi
  exact twoWeek_average i (List.mem_range.mp hi) w hw

theorem weeks_are_integers : ∀ r ∈ twoWeekData.rows, r "week_id" = .null ∨ ∃ x : ℤ, r "week_id" = .int x :=
  (twoWeekData_usable true).complete.weeks

/-- 51 items with 1, 2, ..., 51 clicks in a single week: the estimated average is 26 and the estimated variance 221. -/
example (R : Rounding ℝ) (D : TDist) (σ : ℤ → Shuffle) :
    (estimateMde R stableArgsort D σ simConfig simState).2.average = some (.fin 26) ∧
    (estimateMde R stableArgsort D σ simConfig simState).2.sd = some (.fin (Real.sqrt 221)) ∧
    (estimateMde R stableArgsort D σ simConfig simState).2.mde = some (.fin
      (2 * Real.sqrt 221 / Real.sqrt 51 * (D.ppf (51 - 2) (1 - simDesign.alpha.val / 2) + D.ppf (51 - 2) simDesign.power.val))) := by
  have hret := C100_returns R stableArgsort stableArgsort_ok D simParams simConfig (simDesign_created R) (by decide) σ simState
    (by rw [simConfig_starts]; simp) simData_usable
  have hw := simData_usable.complete.weeks
  have e3 : simDesign.power.val = 8 / 10 := by simp [simDesign, simParams, tenPercentParams, PyNum.val]
  have e4 : simDesign.alpha.val = 1 / 10 := by simp [simDesign, simParams, tenPercentParams, PyNum.val]
  have hitems : Spec.ListsItems simDesign simData.rows "item_id" "week_id" 0 ((List.range 51).map (fun i : ℕ => .int (i : ℤ))) := by
    refine ⟨List.nodup_range.map (fun a b h => by simpa using h), fun y => ?_⟩
    rw [List.mem_map]
    constructor
    · rintro ⟨i, hi, rfl⟩
      exact ⟨by simp, simRow i, List.mem_map.mpr ⟨i, hi, rfl⟩, by simp [simRow], 0, by simp [simRow], "test", 0, 1, by decide, by omega, by omega⟩
    · rintro ⟨-, r, hr, rfl, -⟩
      obtain ⟨i, hi, rfl⟩ := List.mem_map.mp hr
      exact ⟨i, hi, by simp [simRow]⟩
  have hvals : List.Forall₂ (fun item v => Spec.weeklyAverage simData.rows "item_id" "week_id" "clicks" 0 1 item = .fin v)
      ((List.range 51).map (fun i : ℕ => (.int (i : ℤ) : Cell ℝ))) ((List.range 51).map (fun i : ℕ => (i : ℝ) + 1)) := by
    rw [List.forall₂_map_left_iff, List.forall₂_map_right_iff, List.forall₂_same]
    intro i hi
    have hrows : simData.rows = (List.range 51).map (twoWeekRow 0) := rfl
    unfold Spec.weeklyAverage Spec.total
    rw [hrows, twoWeek_filter, if_pos ⟨List.mem_range.mp hi, by omega⟩, List.map_cons, List.map_nil]
    have e : Fl.sumSkip [(Fl.fin ((i : ℝ) + 1))] = .fin ((i : ℝ) + 1) := by
      show Fl.fin ((i : ℝ) + 1) + Fl.fin 0 = _
      rw [Fl.fin_add, add_zero]
    simp [twoWeekRow, Cell.toFl, e, fin_div_ne]
  have key := C100_plain R stableArgsort stableArgsort_ok D simParams simConfig (simDesign_created R) (by decide)
    (by show 0 < simDesign.power.val ∧ simDesign.power.val < 1; rw [e3]; norm_num)
    (by show 0 < simDesign.alpha.val ∧ simDesign.alpha.val < 1; rw [e4]; norm_num) σ simState hw hret rfl rfl rfl
    (fun _ => (List.range 51).map (fun i : ℕ => .int (i : ℤ))) (fun _ => (List.range 51).map (fun i : ℕ => (i : ℝ) + 1))
    (by rw [simConfig_starts]; intro start hs; rw [List.mem_singleton.mp hs]; exact hitems)
    (by rw [simConfig_starts]; intro start hs; rw [List.mem_singleton.mp hs]; exact hvals)
    (Real.sqrt 221) 51 (by
      rw [simConfig_starts, List.map_cons, List.map_nil, sumSqDev_range 51 (by norm_num), List.length_map, List.length_range]
      unfold Spec.mean
      norm_num) (by show (51 : ℝ) = ((51 : ℤ) : ℝ); norm_num)
  rw [simConfig_starts, List.map_cons, List.map_nil, mean_range 51 (by norm_num)] at key
  have e5 : Spec.mean [((51 : ℕ) : ℝ) + 1] = 52 := by unfold Spec.mean; norm_num
  have e6 : Spec.mean [(((51 : ℕ) : ℝ) + 1) / 2] = 26 := by unfold Spec.mean; norm_num
  rw [e6] at key
  exact key

theorem untrimmed_levels (x : Bool) : (0 < (untrimmedConfig x).design.power.val ∧ (untrimmedConfig x).design.power.val < 1) ∧
    (0 < (untrimmedConfig x).design.alpha.val ∧ (untrimmedConfig x).design.alpha.val < 1) := by
  have e3 : (untrimmedDesign x).power.val = 8 / 10 := by simp [untrimmedDesign, untrimmedParams, twoWeekParams, tenPercentParams, PyNum.val]
  have e4 : (untrimmedDesign x).alpha.val = 1 / 10 := by simp [untrimmedDesign, untrimmedParams, twoWeekParams, tenPercentParams, PyNum.val]
  constructor
  · show 0 < (untrimmedDesign x).power.val ∧ (untrimmedDesign x).power.val < 1; rw [e3]; norm_num
  · show 0 < (untrimmedDesign x).alpha.val ∧ (untrimmedDesign x).alpha.val < 1; rw [e4]; norm_num

theorem untrimmed_returns (R : Rounding ℝ) (D : TDist) (σ : ℤ → Shuffle) (x : Bool) :
    (estimateMde R stableArgsort D σ (untrimmedConfig x) untrimmedState).1 = .ok () := by
  exact C100_returns R stableArgsort stableArgsort_ok D (untrimmedParams x) (untrimmedConfig x) (untrimmedDesign_created R x)
    (by show (100 : ℤ) ≤ 2 ^ 51; norm_num) σ untrimmedState (by rw [untrimmed_starts]; simp) (untrimmed_usable x)

/-- 100 items with 1, 2, ..., 100 clicks in each of two weeks.  If the first week is the pretest, or the two weeks are the halves of a crossover
experiment, nothing is left to explain: the estimated average is 50.5 and the standard deviation 0. -/
theorem untrimmed_estimate (R : Rounding ℝ) (D : TDist) (σ : ℤ → Shuffle) (x : Bool) :
    (estimateMde R stableArgsort D σ (untrimmedConfig x) untrimmedState).2.average = some (.fin (101 / 2)) ∧
    (estimateMde R stableArgsort D σ (untrimmedConfig x) untrimmedState).2.sd = some (.fin 0) := by
  obtain ⟨hpw, hal⟩ := untrimmed_levels x
  have hret := untrimmed_returns R D σ x
  obtain ⟨y, hy⟩ : ∃ y : List (ℝ × ℝ), y = (List.range 100).map (fun i : ℕ => ((i : ℝ) + 1, (i : ℝ) + 1)) := ⟨_, rfl⟩
  have hy1 : y.map Prod.fst = (List.range 100).map (fun i : ℕ => (i : ℝ) + 1) := by rw [hy, List.map_map]; rfl
  have hy2 : y.map Prod.snd = (List.range 100).map (fun i : ℕ => (i : ℝ) + 1) := by rw [hy, List.map_map]; rfl
  have hyd : y.map (fun v => v.1 - v.2) = List.replicate 100 0 := by
    rw [hy, List.map_map, List.eq_replicate_iff]
    refine ⟨by simp, ?_⟩
    intro b hb
    obtain ⟨i, -, rfl⟩ := List.mem_map.mp hb
    simp
  have hpair : ∀ a b : ℤ, (a = 0 ∨ a = 1) → (b = 0 ∨ b = 1) → List.Forall₂ (fun item v =>
      Spec.weeklyAverage twoWeekData.rows "item_id" "week_id" "clicks" a (a + 1) item = .fin v.1 ∧
      Spec.weeklyAverage twoWeekData.rows "item_id" "week_id" "clicks" b (b + 1) item = .fin v.2) hundredItems y := by
    intro a b ha hb
    rw [hy]
    unfold hundredItems
    rw [List.forall₂_map_left_iff, List.forall₂_map_right_iff, List.forall₂_same]
    intro i hi
    exact ⟨twoWeek_average i (List.mem_range.mp hi) a ha, twoWeek_average i (List.mem_range.mp hi) b hb⟩
  have em : Spec.mean [(((100 : ℕ) : ℝ) + 1) / 2] = 101 / 2 := by unfold Spec.mean; norm_num
  cases x with
  | false =>
    have key := C100_cuped R stableArgsort stableArgsort_ok D (untrimmedParams false) (untrimmedConfig false) (untrimmedDesign_created R false)
      (by show (100 : ℤ) ≤ 2 ^ 51; norm_num) hpw hal σ untrimmedState weeks_are_integers hret rfl (by
        rw [untrimmed_starts]
        intro start hs
        have hs : start = 1 := by simpa using hs
        subst hs
        exact ⟨twoWeekRow 0 0, List.mem_append.mpr (Or.inl (List.mem_map.mpr ⟨0, by simp, rfl⟩)), by simp [untrimmedConfig, twoWeekConfig, twoWeekRow],
          0, by simp [untrimmedConfig, twoWeekConfig, twoWeekRow], by decide, by decide⟩) rfl rfl rfl (fun _ => hundredItems) (fun _ => y)
      (by rw [untrimmed_starts]; intro start hs; rw [List.mem_singleton.mp hs]; exact untrimmed_items false)
      (by
        rw [untrimmed_starts]; intro start hs
        have hs : start = 1 := by simpa using hs
        subst hs
        exact hpair 1 0 (Or.inr rfl) (Or.inl rfl))
      (by
        intro start _
        rw [hy2, sumSqDev_range 100 (by norm_num)]
        norm_num) 0 100 (by
        rw [untrimmed_starts, List.map_cons, List.map_nil, hy1, hy2, crossDev_self, sumSqDev_range 100 (by norm_num)]
        unfold Spec.mean
        norm_num) (by show (100 : ℝ) = ((100 : ℤ) : ℝ); norm_num)
    obtain ⟨k1, k2, -⟩ := key
    rw [untrimmed_starts, List.map_cons, List.map_nil, hy1, mean_range 100 (by norm_num), em] at k1
    exact ⟨k1, k2⟩
  | true =>
    have key := C100_crossover R stableArgsort stableArgsort_ok D (untrimmedParams true) (untrimmedConfig true) (untrimmedDesign_created R true)
      (by show (100 : ℤ) ≤ 2 ^ 51; norm_num) hpw hal σ untrimmedState weeks_are_integers hret rfl rfl rfl rfl (fun _ => hundredItems) (fun _ => y) 0 rfl
      (by rw [untrimmed_starts]; intro start hs; rw [List.mem_singleton.mp hs]; exact untrimmed_items true)
      (by
        rw [untrimmed_starts]; intro start hs
        have hs : start = 0 := by simpa using hs
        subst hs
        exact hpair 0 1 (Or.inl rfl) (Or.inr rfl)) 0 100 (by
        rw [untrimmed_starts, List.map_cons, List.map_nil, hyd, sumSqDev_replicate]
        unfold Spec.mean
        norm_num) (by show (100 : ℝ) = ((100 : ℤ) : ℝ); norm_num)
    obtain ⟨k1, k2, -⟩ := key
    rw [untrimmed_starts, List.map_cons, List.map_nil, hy1, hy2, mean_range 100 (by norm_num)] at k1
    have em' : Spec.mean [((((100 : ℕ) : ℝ) + 1) / 2 + (((100 : ℕ) : ℝ) + 1) / 2) / 2] = 101 / 2 := by unfold Spec.mean; norm_num
    rw [em'] at k1
    exact ⟨k1, k2⟩

/-- The general theorem applies to designs with trimming: this crossover design cuts two of 100 items at each end. -/
example (R : Rounding ℝ) (D : TDist) (σ : ℤ → Shuffle) :
    ∃ average variance : ℝ, Spec.WeekEstimate R.rnd (twoWeekDesign true) twoWeekData.rows "item_id" "week_id" 0 average variance ∧
      (estimateMde R stableArgsort D σ (twoWeekConfig true) untrimmedState).2.average = some (.fin average) ∧
      (estimateMde R stableArgsort D σ (twoWeekConfig true) untrimmedState).2.sd = some (.fin (Real.sqrt variance)) := by
  have e3 : (twoWeekDesign true).power.val = 8 / 10 := by simp [twoWeekDesign, twoWeekParams, tenPercentParams, PyNum.val]
  have e4 : (twoWeekDesign true).alpha.val = 1 / 10 := by simp [twoWeekDesign, twoWeekParams, tenPercentParams, PyNum.val]
  have hret := C100_returns R stableArgsort stableArgsort_ok D (twoWeekParams true) (twoWeekConfig true) (twoWeekDesign_created R true)
    (by decide) σ untrimmedState (by rw [twoWeek_starts]; simp) (twoWeekData_usable true)
  obtain ⟨l, -, hl, hall⟩ := (C100_formula R stableArgsort stableArgsort_ok D (twoWeekParams true) (twoWeekConfig true) (twoWeekDesign_created R true)
    (by decide) (by show 0 < (twoWeekDesign true).power.val ∧ (twoWeekDesign true).power.val < 1; rw [e3]; norm_num)
    (by show 0 < (twoWeekDesign true).alpha.val ∧ (twoWeekDesign true).alpha.val < 1; rw [e4]; norm_num) σ untrimmedState weeks_are_integers hret).resolve_right
    (fun hc => week_not_constant (twoWeekParams true) (twoWeekDesign_created R true) (Or.inl (Or.inl rfl)) hc.1)
  rw [twoWeek_starts] at hl
  cases hl with
  | @cons _ q _ _ h1 h2 =>
    cases h2
    obtain ⟨mde, -, -, data, hres⟩ := hall _ _ _ rfl rfl rfl
    refine ⟨q.1, q.2, h1, ?_, ?_⟩ <;> rw [hres] <;> simp [Spec.mean]

end Feedx
