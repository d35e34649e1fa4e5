import Verif.Props.RandomisationCrossover
import Verif.Props.Exchange

/-!
Property C113 with trimming after the experiment: assignments in pairs, each the exchange of the other.
-/

set_option linter.unusedSectionVars false

namespace Feedx
open Fl

variable {n : ℕ}

/-- If an assignment and its exchange average to `e`, so do all assignments. -/
theorem average_exchange {A : Finset (Finset (Fin n))} (hA : A.Nonempty) (hc : ∀ S ∈ A, Sᶜ ∈ A) {est : Finset (Fin n) → ℝ} {e : ℝ}
    (h : ∀ S ∈ A, est S + est Sᶜ = 2 * e) : Spec.averageOver A est = e := by
  have hsum : ∑ S ∈ A, est Sᶜ = ∑ S ∈ A, est S :=
    Finset.sum_nbij' (fun S => Sᶜ) (fun S => Sᶜ) hc hc (fun S _ => compl_compl S) (fun S _ => compl_compl S) (fun S _ => rfl)
  have h2 : ∑ S ∈ A, est S + ∑ S ∈ A, est Sᶜ = (A.card : ℝ) * (2 * e) := by
    rw [← Finset.sum_add_distrib, Finset.sum_congr rfl h, Finset.sum_const, nsmul_eq_mul]
  have h0 : (A.card : ℝ) ≠ 0 := by exact_mod_cast (Finset.card_pos.mpr hA).ne'
  unfold Spec.averageOver
  rw [div_eq_iff h0]
  rw [hsum] at h2
  linarith

theorem mean_perm {l l' : List ℝ} (h : l.Perm l') : Spec.mean l = Spec.mean l' := by
  unfold Spec.mean
  rw [h.sum_eq, h.length_eq]

theorem mean_moved {l : List ℝ} (hl : l ≠ []) (e : ℝ) : Spec.mean (l.map (fun x => x + e)) = Spec.mean l + e := by
  have h0 : (l.length : ℝ) ≠ 0 := by exact_mod_cast (List.length_pos_iff.mpr hl).ne'
  have hs : (l.map (fun x => x + e)).sum = l.sum + l.length * e := by
    clear hl h0
    induction l with
    | nil => simp
    | cons a l ih => simp only [List.map_cons, List.sum_cons, ih, List.length_cons]; push_cast; ring
  unfold Spec.mean
  rw [hs, List.length_map]
  field_simp

theorem mean_reflect {l : List ℝ} (hl : l ≠ []) (e : ℝ) : Spec.mean (l.map (fun x => 2 * e - x)) = 2 * e - Spec.mean l := by
  have h0 : (l.length : ℝ) ≠ 0 := by exact_mod_cast (List.length_pos_iff.mpr hl).ne'
  have hs : (l.map (fun x => 2 * e - x)).sum = l.length * (2 * e) - l.sum := by
    clear hl h0
    induction l with
    | nil => simp
    | cons a l ih => simp only [List.map_cons, List.sum_cons, ih, List.length_cons]; push_cast; ring
  unfold Spec.mean
  rw [hs, List.length_map]
  field_simp

/-- The trimmed mean moves with the sample. -/
theorem yuen_shift {g h h' : ℕ} {l : List ℝ} {e mu mu' ss ss' : ℝ} (s : Spec.YuenSummary g l h mu ss)
    (s' : Spec.YuenSummary g (l.map (fun x => x + e)) h' mu' ss') : mu' = mu + e := by
  obtain ⟨kept, lo, hi, ht, hx, -, hm, -⟩ := s
  obtain ⟨kept', lo', hi', ht', -, -, hm', -⟩ := s'
  have hk : kept ≠ [] := List.ne_nil_of_mem hx.1
  have := trimmed_unique ht' (trimmed_mono (f := fun x => x + e) (Or.inl fun a b h => by simpa using h) ht) (List.Perm.refl _)
  rw [hm', hm, mean_perm this, mean_moved hk]

/-- The trimmed mean is reflected with the sample. -/
theorem yuen_reflect {g h h' : ℕ} {l : List ℝ} {e mu mu' ss ss' : ℝ} (s : Spec.YuenSummary g l h mu ss)
    (s' : Spec.YuenSummary g (l.map (fun x => 2 * e - x)) h' mu' ss') : mu' = 2 * e - mu := by
  obtain ⟨kept, lo, hi, ht, hx, -, hm, -⟩ := s
  obtain ⟨kept', lo', hi', ht', -, -, hm', -⟩ := s'
  have hk : kept ≠ [] := List.ne_nil_of_mem hx.1
  have := trimmed_unique ht' (trimmed_mono (f := fun x => 2 * e - x) (Or.inr fun a b h => by show 2 * e - b ≤ 2 * e - a; linarith) ht) (List.Perm.refl _)
  rw [hm', hm, mean_perm this, mean_reflect hk]

/-- The values of the items in `S`, in order. -/
noncomputable def valuesIn (S : Finset (Fin n)) (f : Fin n → ℝ) : List ℝ := ((List.finRange n).filter (fun i => decide (i ∈ S))).map f

theorem valuesIn_seen (S : Finset (Fin n)) (y1 y0 : Fin n → ℝ) :
    valuesIn S (seen y1 y0 S) = valuesIn S y1 ∧ valuesIn Sᶜ (seen y1 y0 S) = valuesIn Sᶜ y0 := by
  unfold valuesIn
  constructor <;> refine List.map_congr_left fun i hi => ?_
  · have := (List.mem_filter.mp hi).2
    rw [seen, if_pos (by simpa using this)]
  · have := (List.mem_filter.mp hi).2
    rw [seen, if_neg (by simpa using this)]

/-- What is reported for one assignment: the difference of the trimmed means of the two groups. -/
theorem trimmed_trial {R : Rounding ℝ} {argsort : List ℝ → List ℕ} (ha : ArgsortOk argsort) {D : TDist} {piv : Pivoted ℝ}
    {metrics : List String} {itemCol treatmentCol : String} (hne : itemCol ≠ treatmentCol) (hi : ¬ Spec.Reserved itemCol) (ht : ¬ Spec.Reserved treatmentCol)
    {d : DesignParams ℝ} (hd : d.isCrossover = false) {metric : String} {override : Option ℝ}
    {y1 y0 : Fin n → ℝ} {S : Finset (Fin n)} (hobs : Spec.Observed piv metric y1 y0 S) (hpre : Cell.str "pretest" ∉ piv.periods) {r : TestResult}
    (h : analyzeSingleMetric R argsort D piv metrics [itemCol, treatmentCol] d metric none treatmentCol override = .ok r) :
    ∃ (g1 g2 h1 h2 : ℕ) (mu1 mu2 ss1 ss2 : ℝ),
      (g1 : ℤ) = ⌊R.rnd (override.getD d.postTrim.val * ((valuesIn S y1).length : ℝ))⌋ ∧
      (g2 : ℤ) = ⌊R.rnd (override.getD d.postTrim.val * ((valuesIn Sᶜ y0).length : ℝ))⌋ ∧
      Spec.YuenSummary g1 (valuesIn S y1) h1 mu1 ss1 ∧ Spec.YuenSummary g2 (valuesIn Sᶜ y0) h2 mu2 ss2 ∧ r.absoluteDifference = fin (mu1 - mu2) := by
  obtain ⟨hix, hidx⟩ := observed_index hobs
  obtain ⟨y, ⟨test, hv, hy⟩, -, hr, -⟩ := C39_regular_split R argsort D piv metrics itemCol treatmentCol hne hi ht hidx d hd metric override r
    (fun hc => hpre hc.1) h
  rcases hy with ⟨-, rfl⟩ | ⟨hp, -⟩
  swap
  · exact absurd hp hpre
  rw [observed_values hobs hv, (observed_groups _ hix _).1, (observed_groups _ hix _).2] at hr
  change indTest R argsort D (valuesIn S (seen y1 y0 S)) (valuesIn Sᶜ (seen y1 y0 S)) _ _ _ _ _ _ = _ at hr
  rw [(valuesIn_seen S y1 y0).1, (valuesIn_seen S y1 y0).2] at hr
  obtain ⟨g1, g2, h1, h2, mu1, mu2, ss1, ss2, e1, e2, e3, e4, e5, -⟩ := C83_independent_test_reports R argsort ha D _ _ _ _ _ _ _ hr
  exact ⟨g1, g2, h1, h2, mu1, mu2, ss1, ss2, e1, e2, e3, e4, e5⟩

/-- **C113, trimming after the experiment, regular experiments**: if the effect is the same for all items, the average of the reported differences over the
assignments is this effect for every trimming fraction, provided that with each assignment also its exchange is possible: all assignments of half of the
items, or all assignments by coin flips with at least a given number of items in both groups. -/
theorem C113_trimmed_partial (R : Rounding ℝ) (argsort : List ℝ → List ℕ) (ha : ArgsortOk argsort) (D : TDist)
    (metrics : List String) (itemCol treatmentCol : String) (hne : itemCol ≠ treatmentCol) (hi : ¬ Spec.Reserved itemCol) (ht : ¬ Spec.Reserved treatmentCol)
    (d : DesignParams ℝ) (hd : d.isCrossover = false) (metric : String) (override : Option ℝ)
    (n : ℕ) (A : Finset (Finset (Fin n))) (hA : A.Nonempty) (hc : ∀ S ∈ A, Sᶜ ∈ A) (y0 : Fin n → ℝ) (e : ℝ) (piv : Finset (Fin n) → Pivoted ℝ)
    (hobs : ∀ S ∈ A, Spec.Observed (piv S) metric (fun i => y0 i + e) y0 S) (hpre : ∀ S ∈ A, Cell.str "pretest" ∉ (piv S).periods)
    (r : Finset (Fin n) → TestResult)
    (h : ∀ S ∈ A, analyzeSingleMetric R argsort D (piv S) metrics [itemCol, treatmentCol] d metric none treatmentCol override = .ok (r S)) :
    ∃ est : Finset (Fin n) → ℝ, (∀ S ∈ A, (r S).absoluteDifference = fin (est S)) ∧ Spec.averageOver A est = e := by
  have key := fun S (hS : S ∈ A) => trimmed_trial ha hne hi ht hd (hobs S hS) (hpre S hS) (h S hS)
  have hest : ∀ S, ∃ x, S ∈ A → (r S).absoluteDifference = fin x := by
    intro S
    by_cases hS : S ∈ A
    · obtain ⟨g1, g2, h1, h2, mu1, mu2, ss1, ss2, -, -, -, -, e5⟩ := key S hS
      exact ⟨_, fun _ => e5⟩
    · exact ⟨0, fun h => absurd h hS⟩
  choose est hest using hest
  refine ⟨est, hest, average_exchange hA hc fun S hS => ?_⟩
  obtain ⟨g1, g2, h1, h2, mu1, mu2, ss1, ss2, e1, e2, e3, e4, e5⟩ := key S hS
  obtain ⟨g1', g2', h1', h2', mu1', mu2', ss1', ss2', e1', e2', e3', e4', e5'⟩ := key Sᶜ (hc S hS)
  rw [compl_compl] at e2' e4'
  have hsh : ∀ T : Finset (Fin n), valuesIn T (fun i => y0 i + e) = (valuesIn T y0).map (fun x => x + e) := by
    intro T
    unfold valuesIn
    rw [List.map_map]; rfl
  rw [hsh] at e1 e3 e1' e3'
  rw [List.length_map] at e1 e1'
  obtain rfl : g2' = g1 := by exact_mod_cast e2'.trans e1.symm
  obtain rfl : g1' = g2 := by exact_mod_cast e1'.trans e2.symm
  have a1 := yuen_shift e4' e3
  have a2 := yuen_shift e4 e3'
  rw [hest S hS] at e5
  rw [hest _ (hc S hS)] at e5'
  rw [Fl.fin.inj e5, Fl.fin.inj e5']
  linarith

/-- **C113, trimming after the experiment, crossovers**: the same for crossovers, if the values of the second period keep their fractions. -/
theorem C113_trimmed_crossover_partial (R : Rounding ℝ) (argsort : List ℝ → List ℕ) (ha : ArgsortOk argsort) (D : TDist)
    (metrics : List String) (itemCol treatmentCol : String) (hne : itemCol ≠ treatmentCol) (hi : ¬ Spec.Reserved itemCol) (ht : ¬ Spec.Reserved treatmentCol)
    (d : DesignParams ℝ) (hd : d.isCrossover = true) (metric : String) (override : Option ℝ) (hq : override.getD d.postTrim.val ≠ 0)
    (n : ℕ) (A : Finset (Finset (Fin n))) (hA : A.Nonempty) (hc : ∀ S ∈ A, Sᶜ ∈ A) (b1 b2 : Fin n → ℝ) (e : ℝ) (piv : Finset (Fin n) → Pivoted ℝ)
    (hobs : ∀ S ∈ A, Spec.ObservedCrossover (piv S) metric (fun i => b1 i + e) b1 (fun i => b2 i + e) b2 S)
    (hk : ∀ S ∈ A, Spec.KeepsFractions (piv S) metric) (r : Finset (Fin n) → TestResult)
    (h : ∀ S ∈ A, analyzeSingleMetric R argsort D (piv S) metrics [itemCol, treatmentCol] d metric none treatmentCol override = .ok (r S)) :
    ∃ est : Finset (Fin n) → ℝ, (∀ S ∈ A, (r S).absoluteDifference = fin (est S)) ∧ Spec.averageOver A est = e := by
  have key : ∀ S ∈ A, ∃ (g h : ℕ) (mu ss : ℝ), (g : ℤ) = ⌊R.rnd (override.getD d.postTrim.val * (n : ℝ))⌋ ∧
      Spec.YuenSummary g ((List.finRange n).map (fun i => if i ∈ S then b1 i - b2 i + e else b2 i - b1 i + e)) h mu ss ∧
      (r S).absoluteDifference = fin mu := by
    intro S hS
    obtain ⟨items, v1, v2, hit, harr, hr⟩ := C38_crossover_pairs_partial R argsort D (piv S) metrics itemCol treatmentCol hne hi ht
      (observed_crossover_keys (hobs S hS)) d hd metric (hk S hS) override (r S) (h S hS)
    obtain ⟨rfl, rfl⟩ := harr.1 hq
    obtain ⟨g, kept, ss, hg, -, hY, had, -⟩ := C83_paired_test_reports R argsort ha D _ _ _ _ _ _ hr
    have hitems := observed_items (hobs S hS) hit
    have hlen : items.length = n := by rw [hitems]; simp
    rw [List.length_map, hlen] at hg
    have hzip : List.zipWith (· - ·) (items.map (fun i => i.treated 0 0)) (items.map (fun i => i.untreated 0 0)) =
        (List.finRange n).map (fun i => if i ∈ S then b1 i - b2 i + e else b2 i - b1 i + e) := by
      rw [hitems, List.zipWith_map_left, List.zipWith_map_right, List.zipWith_self, List.map_map]
      refine List.map_congr_left fun i _ => ?_
      unfold Spec.CrossoverItem.treated Spec.CrossoverItem.untreated seen
      by_cases hi : i ∈ S <;> simp [hi] <;> ring
    rw [hzip] at hY
    exact ⟨g, _, _, ss, hg, hY, had⟩
  have hest : ∀ S, ∃ x, S ∈ A → (r S).absoluteDifference = fin x := by
    intro S
    by_cases hS : S ∈ A
    · obtain ⟨g, h, mu, ss, -, -, e5⟩ := key S hS
      exact ⟨_, fun _ => e5⟩
    · exact ⟨0, fun h => absurd h hS⟩
  choose est hest using hest
  refine ⟨est, hest, average_exchange hA hc fun S hS => ?_⟩
  obtain ⟨g, m, mu, ss, e1, e2, e3⟩ := key S hS
  obtain ⟨g', m', mu', ss', e1', e2', e3'⟩ := key Sᶜ (hc S hS)
  obtain rfl : g' = g := by exact_mod_cast e1'.trans e1.symm
  have hl : (List.finRange n).map (fun i => if i ∈ Sᶜ then b1 i - b2 i + e else b2 i - b1 i + e) =
      ((List.finRange n).map (fun i => if i ∈ S then b1 i - b2 i + e else b2 i - b1 i + e)).map (fun x => 2 * e - x) := by
    rw [List.map_map]
    refine List.map_congr_left fun i _ => ?_
    by_cases hi : i ∈ S <;> simp [hi] <;> ring
  rw [hl] at e2'
  have := yuen_reflect e2 e2'
  rw [hest S hS] at e3
  rw [hest _ (hc S hS)] at e3'
  rw [Fl.fin.inj e3, Fl.fin.inj e3']
  linarith

/-- **C113, treatments without effect**: for every design (with pretest values, trimming, crossovers, any groups), if the treatment changes nothing and the pretest
values are not all the same (`C124_constant_pretest`), the average of the reported differences over the assignments is 0, provided that with each assignment also its exchange is possible; and as many of the
assignments lead to a significant gain as to a significant loss. -/
theorem C113_no_effect_partial (R : Rounding ℝ) (argsort : List ℝ → List ℕ) (ha : ArgsortOk argsort) (D : TDist)
    (metrics : List String) (itemCol treatmentCol : String) (hne : itemCol ≠ treatmentCol) (hi : ¬ Spec.Reserved itemCol) (ht : ¬ Spec.Reserved treatmentCol)
    (d : DesignParams ℝ) (metric : String) (override : Option ℝ)
    (n : ℕ) (A : Finset (Finset (Fin n))) (hA : A.Nonempty) (hc : ∀ S ∈ A, Sᶜ ∈ A) (piv : Finset (Fin n) → Pivoted ℝ)
    (hidx : ∀ S ∈ A, ∀ k ∈ (piv S).index, k.length = 2) (hx : ∀ S ∈ A, Spec.Exchanged (piv S) (piv Sᶜ) metric)
    (hvar : d.isCrossover = false → ∀ S ∈ A, ¬ Spec.ConstantPretest R (piv S) metric (override.getD d.postTrim.val))
    (r : Finset (Fin n) → TestResult)
    (h : ∀ S ∈ A, analyzeSingleMetric R argsort D (piv S) metrics [itemCol, treatmentCol] d metric none treatmentCol override = .ok (r S)) :
    ∃ est : Finset (Fin n) → ℝ, (∀ S ∈ A, (r S).absoluteDifference = fin (est S)) ∧ Spec.averageOver A est = 0 ∧
      {S ∈ A | (r S).isSignificant = true ∧ 0 < est S}.card = {S ∈ A | (r S).isSignificant = true ∧ est S < 0}.card := by
  have hfin : ∀ S ∈ A, ∃ x, (r S).absoluteDifference = fin x := by
    intro S hS
    by_cases hd : d.isCrossover = true
    · obtain ⟨items, v1, v2, -, -, hr⟩ := crossover_pairs_into hne hi ht (hidx S hS) hd (h S hS)
      obtain ⟨g, kept, ss, -, -, -, had, -⟩ := C83_paired_test_reports R argsort ha D _ _ _ _ _ _ hr
      exact ⟨_, had⟩
    · rw [Bool.not_eq_true] at hd
      obtain ⟨y, hy, -, hr, -⟩ := C39_regular_split R argsort D (piv S) metrics itemCol treatmentCol hne hi ht (hidx S hS) d hd metric override (r S)
        (hvar hd S hS) (h S hS)
      obtain ⟨g1, g2, h1, h2, mu1, mu2, ss1, ss2, -, -, -, -, e5, -⟩ := C83_independent_test_reports R argsort ha D _ _ _ _ _ _ _ hr
      exact ⟨_, e5⟩
  have hest : ∀ S, ∃ x, S ∈ A → (r S).absoluteDifference = fin x := by
    intro S
    by_cases hS : S ∈ A
    · exact ⟨(hfin S hS).choose, fun _ => (hfin S hS).choose_spec⟩
    · exact ⟨0, fun h => absurd h hS⟩
  choose est hest using hest
  have hm := fun S (hS : S ∈ A) => C109_exchanging_groups R argsort ha D (piv S) (piv Sᶜ) metrics itemCol treatmentCol hne hi ht (hidx S hS) (hidx _ (hc S hS)) d
    metric (hx S hS) override (r S) (r Sᶜ) (h S hS) (h _ (hc S hS))
  have hneg : ∀ S ∈ A, est Sᶜ = -est S := by
    intro S hS
    have := (hm S hS).difference
    rw [hest S hS, hest _ (hc S hS)] at this
    exact Fl.fin.inj this
  refine ⟨est, hest, average_exchange hA hc fun S hS => by rw [hneg S hS]; ring, ?_⟩
  refine Finset.card_bij' (fun S _ => Sᶜ) (fun S _ => Sᶜ) ?_ ?_ (fun S _ => compl_compl S) (fun S _ => compl_compl S)
  · intro S hS
    obtain ⟨hS, h1, h2⟩ := Finset.mem_filter.mp hS
    exact Finset.mem_filter.mpr ⟨hc S hS, by rw [(hm S hS).significant, h1], by rw [hneg S hS]; linarith⟩
  · intro S hS
    obtain ⟨hS, h1, h2⟩ := Finset.mem_filter.mp hS
    exact Finset.mem_filter.mpr ⟨hc S hS, by rw [(hm S hS).significant, h1], by rw [hneg S hS]; linarith⟩

/-! ### Effects that are cut off -/

/-- A design like `tenPercentParams` that cuts the fraction `q` of the values at both ends after the experiment. -/
noncomputable def trimmedParams (q : ℝ) (crossover : Bool) : DesignParams ℝ := { tenPercentParams with postTrim := .float q, isCrossover := crossover }

/-- The analysis returns if at least two values of each group are kept and the untreated values are positive. -/
theorem trialTable_trimmed_returns (R : Rounding ℝ) (argsort : List ℝ → List ℕ) (ha : ArgsortOk argsort) (D : TDist) (n : ℕ) (hn : n ≤ 2 ^ 53) (S : Finset (Fin n))
    (y1 y0 : Fin n → ℝ) (hy : ∀ i, 0 < y0 i) (q : ℝ) (hq0 : 0 ≤ q) (hq1 : q < 1 / 2) (h1 : 2 * ⌊R.rnd (q * (S.card : ℝ))⌋ + 1 < S.card)
    (h0 : 2 * ⌊R.rnd (q * (Sᶜ.card : ℝ))⌋ + 1 < Sᶜ.card) :
    ∃ r, analyzeSingleMetric R argsort D (trialTable n S ["test"] (fun _ => seen y1 y0 S)) ["clicks"] ["item_id", "treatment_assignment"]
      (trimmedParams q false) "clicks" none "treatment_assignment" none = .ok r := by
  have hobs := trialTable_observed n S ["test"] (fun _ => seen y1 y0 S) "clicks" y1 y0 rfl
  have hv := trialTable_values n S ["test"] (fun _ => seen y1 y0 S) "clicks" "test"
  rw [analyze_regular_eq (by decide) (by unfold Spec.Reserved; decide) (by unfold Spec.Reserved; decide)
    (trialTable_keys _ _ _ _) (by simp [trialTable]) (by simp [trialTable]) rfl (by simp [trimmedParams, tenPercentParams]) (by simp)
    (by simp [trialTable]) (by simp [trialTable]) hv,
    (observed_groups _ (observed_index hobs).1 _).1, (observed_groups _ (observed_index hobs).1 _).2]
  have l1 : (((List.finRange n).filter (fun i => decide (i ∈ S))).map (seen y1 y0 S)).length = S.card := by
    rw [List.length_map, (sum_filter_range S y1).2]
  have l0 : (((List.finRange n).filter (fun i => decide (i ∈ Sᶜ))).map (seen y1 y0 S)).length = Sᶜ.card := by
    rw [List.length_map, (sum_filter_range Sᶜ y1).2]
  have c : ∀ T : Finset (Fin n), T.card ≤ 2 ^ 53 := fun T => (Finset.card_le_univ T).trans (by rwa [Fintype.card_fin])
  obtain ⟨-, T1, T2, hT1, hT2, hiff, -⟩ := C34_tests_return_partial R argsort ha D _ _ q hq0 hq1 false "two-sided" (Or.inl rfl) defaultAlpha
    (by rw [l1]; exact c S) (by rw [l0]; exact c Sᶜ) (by rw [l1]; exact h1) (by rw [l0]; exact h0)
  refine hiff.mpr ?_
  rintro ⟨hz, -⟩
  refine ne_of_gt (trimmed_mean_pos (l := ((List.finRange n).filter (fun i => decide (i ∈ Sᶜ))).map (seen y1 y0 S)) ?_ ha hT2 ?_) hz
  · intro x hx
    obtain ⟨i, hi, rfl⟩ := List.mem_map.mp hx
    have := (List.mem_filter.mp hi).2
    rw [seen, if_neg (by simpa using this)]
    exact hy i
  · obtain ⟨-, e1, -, e2⟩ := C16_trims_exactly_the_extremes R argsort ha 0 _ _ T2 hT2
    rw [length_asStack, l0] at e2
    rw [length_asStack, l0] at e1
    unfold TrimmedArray.len
    omega

/-- If all values but one are the same and something is cut at both ends, only this value is left. -/
theorem trimmed_one_value {g : ℕ} (hg : 1 ≤ g) {c : ℝ} {l : List ℝ} (hl : l.countP (fun x => decide (x ≠ c)) ≤ 1) {kept : List ℝ} (h : Spec.Trimmed id g l kept) :
    ∀ x ∈ kept, x = c := by
  obtain ⟨-, low, high, hp, h1, h2, h3, h4⟩ := h
  intro x hx
  by_contra hxc
  obtain ⟨a, low', rfl⟩ : ∃ a l', low = a :: l' := by
    cases low with
    | nil => simp at h1; omega
    | cons a l => exact ⟨a, l, rfl⟩
  obtain ⟨b, high', rfl⟩ : ∃ a l', high = a :: l' := by
    cases high with
    | nil => simp at h2; omega
    | cons a l => exact ⟨a, l, rfl⟩
  have ax : a ≤ x := h3 a (by simp) x (List.mem_append_left _ hx)
  have xb : x ≤ b := h4 b (by simp) x (List.mem_append_right _ hx)
  have hcnt := hp.countP_eq (fun x => decide (x ≠ c))
  rw [List.countP_append, List.countP_append] at hcnt
  have k1 : 0 < kept.countP (fun x => decide (x ≠ c)) := List.countP_pos_iff.mpr ⟨x, hx, by simpa using hxc⟩
  have k2 : 0 < (a :: low').countP (fun x => decide (x ≠ c)) ∨ 0 < (b :: high').countP (fun x => decide (x ≠ c)) := by
    rcases lt_or_gt_of_ne hxc with hlt | hgt
    · exact Or.inl (List.countP_pos_iff.mpr ⟨a, by simp, by simpa using (lt_of_le_of_lt ax hlt).ne⟩)
    · exact Or.inr (List.countP_pos_iff.mpr ⟨b, by simp, by simpa using (lt_of_lt_of_le hgt xb).ne'⟩)
  omega

theorem yuen_one_value {g : ℕ} (hg : 1 ≤ g) {c : ℝ} {l : List ℝ} (hl : l.countP (fun x => decide (x ≠ c)) ≤ 1) {m : ℕ} {mu ss : ℝ}
    (h : Spec.YuenSummary g l m mu ss) : mu = c := by
  obtain ⟨kept, lo, hi, ht, hx, -, hm, -⟩ := h
  have hk : kept ≠ [] := List.ne_nil_of_mem hx.1
  have := trimmed_one_value hg hl ht
  rw [hm, List.eq_replicate_of_mem this]
  unfold Spec.mean
  have h0 : (kept.length : ℝ) ≠ 0 := by exact_mod_cast (List.length_pos_iff.mpr hk).ne'
  rw [List.sum_replicate, List.length_replicate, nsmul_eq_mul]
  field_simp

/-- **C113 is false with trimming if the effects of the items differ**: if only one item reacts to the treatment, every analysis that cuts off at least
one value at both ends of each group reports the difference 0, for every assignment, although the average effect is not 0. -/
theorem C113_trimmed_false (R : Rounding ℝ) (argsort : List ℝ → List ℕ) (ha : ArgsortOk argsort) (D : TDist) (n k : ℕ) (hn : n ≤ 2 ^ 53) (hkn : k ≤ n)
    (q : ℝ) (hq0 : 0 ≤ q) (hq1 : q < 1 / 2) (g1 : 1 ≤ ⌊R.rnd (q * (k : ℝ))⌋) (g2 : 1 ≤ ⌊R.rnd (q * ((n - k : ℕ) : ℝ))⌋)
    (l1 : 2 * ⌊R.rnd (q * (k : ℝ))⌋ + 1 < k) (l2 : 2 * ⌊R.rnd (q * ((n - k : ℕ) : ℝ))⌋ + 1 < (n - k : ℕ)) (i0 : Fin n) (e : ℝ) (he : e ≠ 0) :
    ∃ (y1 y0 : Fin n → ℝ) (piv : Finset (Fin n) → Pivoted ℝ) (r : Finset (Fin n) → TestResult),
      (∀ i, y1 i - y0 i = if i = i0 then e else 0) ∧ Spec.itemMean (fun i => y1 i - y0 i) = e / n ∧ e / n ≠ 0 ∧
      ∀ S ∈ Spec.assignments n k, Spec.Observed (piv S) "clicks" y1 y0 S ∧
        analyzeSingleMetric R argsort D (piv S) ["clicks"] ["item_id", "treatment_assignment"] (trimmedParams q false) "clicks" none
          "treatment_assignment" none = .ok (r S) ∧ (r S).absoluteDifference = fin 0 := by
  have hret : ∀ S : Finset (Fin n), ∃ r, S ∈ Spec.assignments n k →
      analyzeSingleMetric R argsort D (trialTable n S ["test"] (fun _ => seen (fun i => if i = i0 then 1 + e else 1) (fun _ => 1) S)) ["clicks"]
        ["item_id", "treatment_assignment"] (trimmedParams q false) "clicks" none "treatment_assignment" none = .ok r := by
    have hret' : ∀ S ∈ Spec.assignments n k, ∃ r,
        analyzeSingleMetric R argsort D (trialTable n S ["test"] (fun _ => seen (fun i => if i = i0 then 1 + e else 1) (fun _ => 1) S)) ["clicks"]
        ["item_id", "treatment_assignment"] (trimmedParams q false) "clicks" none "treatment_assignment" none = .ok r := by
      intro S hS
      have hc := mem_assignments.mp hS
      have hc' : Sᶜ.card = n - k := by rw [Finset.card_compl, Fintype.card_fin, hc]
      exact trialTable_trimmed_returns R argsort ha D n hn S _ _ (fun _ => one_pos) q hq0 hq1 (by rw [hc]; exact l1) (by rw [hc']; exact l2)
    intro S
    by_cases hS : S ∈ Spec.assignments n k
    · obtain ⟨r, hr⟩ := hret' S hS
      exact ⟨r, fun _ => hr⟩
    · obtain ⟨S₀, hS₀⟩ := assignments_nonempty hkn
      obtain ⟨r, -⟩ := hret' S₀ hS₀
      exact ⟨r, fun h => absurd h hS⟩
  choose r hr using hret
  have hn0 : (n : ℝ) ≠ 0 := by
    have := i0.pos
    exact_mod_cast this.ne'
  refine ⟨fun i => if i = i0 then 1 + e else 1, fun _ => 1,
    fun S => trialTable n S ["test"] (fun _ => seen (fun i => if i = i0 then 1 + e else 1) (fun _ => 1) S), r, fun i => ?_, ?_, div_ne_zero he hn0, fun S hS => ?_⟩
  · by_cases hi : i = i0 <;> simp [hi]
  · unfold Spec.itemMean
    congr 1
    rw [Finset.sum_eq_single i0 (fun i _ hi => by simp [hi]) (by simp)]
    simp
  have hobs := trialTable_observed n S ["test"] (fun _ => seen (fun i => if i = i0 then 1 + e else 1) (fun _ => 1) S) "clicks" _ _ rfl
  refine ⟨hobs, hr S hS, ?_⟩
  obtain ⟨a, b, h1, h2, mu1, mu2, ss1, ss2, e1, e2, e3, e4, e5⟩ := trimmed_trial ha (by decide) (by unfold Spec.Reserved; decide) (by unfold Spec.Reserved; decide)
    (show (trimmedParams q false).isCrossover = false from rfl) hobs (by simp [trialTable]) (hr S hS)
  have hc := mem_assignments.mp hS
  have hc' : Sᶜ.card = n - k := by rw [Finset.card_compl, Fintype.card_fin, hc]
  have len : ∀ (T : Finset (Fin n)) (f : Fin n → ℝ), (valuesIn T f).length = T.card := by
    intro T f
    unfold valuesIn
    rw [List.length_map, (sum_filter_range T f).2]
  rw [len, hc] at e1
  rw [len, hc'] at e2
  have ha1 : 1 ≤ a := by
    have : (1 : ℤ) ≤ (a : ℤ) := e1 ▸ g1
    exact_mod_cast this
  have hb1 : 1 ≤ b := by
    have : (1 : ℤ) ≤ (b : ℤ) := e2 ▸ g2
    exact_mod_cast this
  have m1 : mu1 = 1 := by
    refine yuen_one_value ha1 ?_ e3
    unfold valuesIn
    rw [List.countP_map]
    refine (List.Sublist.countP_le (List.filter_sublist)).trans ?_
    refine (List.countP_mono_left (q := fun i => i == i0) ?_).trans (List.nodup_iff_count_le_one.mp (List.nodup_finRange n) i0)
    intro i _ hi
    by_contra hne
    simp at hne
    simp [hne] at hi
  have m2 : mu2 = 1 := by
    refine yuen_one_value hb1 ?_ e4
    unfold valuesIn
    rw [List.countP_map, List.countP_eq_zero.mpr]
    · omega
    · simp
  rw [e5, m1, m2, sub_self]

/-- A quarter cut at both ends of groups of eight: two values at each end, four are kept. -/
theorem quarter_of_eight (R : Rounding ℝ) : ⌊R.rnd ((1 / 4 : ℝ) * ((8 : ℕ) : ℝ))⌋ = 2 := by
  have := R.intFix 2 (by norm_num)
  rw [show (1 / 4 : ℝ) * ((8 : ℕ) : ℝ) = ((2 : ℤ) : ℝ) by norm_num, this]
  simp

/-- The hypotheses of `C113_trimmed_false` hold for 16 items in groups of eight, cutting a quarter at both ends. -/
example (R : Rounding ℝ) (argsort : List ℝ → List ℕ) (ha : ArgsortOk argsort) (D : TDist) (e : ℝ) (he : e ≠ 0) :
    ∃ (y1 y0 : Fin 16 → ℝ) (piv : Finset (Fin 16) → Pivoted ℝ) (r : Finset (Fin 16) → TestResult),
      (∀ i, y1 i - y0 i = if i = 3 then e else 0) ∧ Spec.itemMean (fun i => y1 i - y0 i) = e / (16 : ℕ) ∧ e / (16 : ℕ) ≠ 0 ∧
      ∀ S ∈ Spec.assignments 16 8, Spec.Observed (piv S) "clicks" y1 y0 S ∧
        analyzeSingleMetric R argsort D (piv S) ["clicks"] ["item_id", "treatment_assignment"] (trimmedParams (1 / 4) false) "clicks" none
          "treatment_assignment" none = .ok (r S) ∧ (r S).absoluteDifference = fin 0 :=
  C113_trimmed_false R argsort ha D 16 8 (by norm_num) (by norm_num) (1 / 4) (by norm_num) (by norm_num) (by rw [quarter_of_eight]; norm_num)
    (by show 1 ≤ ⌊R.rnd ((1 / 4 : ℝ) * ((8 : ℕ) : ℝ))⌋; rw [quarter_of_eight]; norm_num) (by rw [quarter_of_eight]; norm_num)
    (by show 2 * ⌊R.rnd ((1 / 4 : ℝ) * ((8 : ℕ) : ℝ))⌋ + 1 < ((8 : ℕ) : ℤ); rw [quarter_of_eight]; norm_num) 3 e he

/-- The hypotheses of `C113_trimmed_partial` hold for all positive values of 16 items in groups of eight, cutting a quarter at both ends. -/
example (R : Rounding ℝ) (argsort : List ℝ → List ℕ) (ha : ArgsortOk argsort) (D : TDist) (y0 : Fin 16 → ℝ) (hy : ∀ i, 0 < y0 i) (e : ℝ) :
    ∃ (r : Finset (Fin 16) → TestResult) (est : Finset (Fin 16) → ℝ),
      (∀ S ∈ Spec.assignments 16 8, analyzeSingleMetric R argsort D (trialTable 16 S ["test"] (fun _ => seen (fun i => y0 i + e) y0 S)) ["clicks"]
        ["item_id", "treatment_assignment"] (trimmedParams (1 / 4) false) "clicks" none "treatment_assignment" none = .ok (r S) ∧
        (r S).absoluteDifference = fin (est S)) ∧
      Spec.averageOver (Spec.assignments 16 8) est = e := by
  have hc : ∀ S ∈ Spec.assignments 16 8, Sᶜ ∈ Spec.assignments 16 8 := by
    intro S hS
    rw [mem_assignments] at hS ⊢
    rw [Finset.card_compl, Fintype.card_fin, hS]
  have hret : ∀ S : Finset (Fin 16), ∃ r, S ∈ Spec.assignments 16 8 →
      analyzeSingleMetric R argsort D (trialTable 16 S ["test"] (fun _ => seen (fun i => y0 i + e) y0 S)) ["clicks"]
        ["item_id", "treatment_assignment"] (trimmedParams (1 / 4) false) "clicks" none "treatment_assignment" none = .ok r := by
    have hret' : ∀ S ∈ Spec.assignments 16 8, ∃ r,
        analyzeSingleMetric R argsort D (trialTable 16 S ["test"] (fun _ => seen (fun i => y0 i + e) y0 S)) ["clicks"]
        ["item_id", "treatment_assignment"] (trimmedParams (1 / 4) false) "clicks" none "treatment_assignment" none = .ok r := by
      intro S hS
      exact trialTable_trimmed_returns R argsort ha D 16 (by norm_num) S _ _ hy (1 / 4) (by norm_num) (by norm_num)
        (by rw [mem_assignments.mp hS, quarter_of_eight]; norm_num) (by rw [mem_assignments.mp (hc S hS), quarter_of_eight]; norm_num)
    intro S
    by_cases hS : S ∈ Spec.assignments 16 8
    · obtain ⟨r, hr⟩ := hret' S hS
      exact ⟨r, fun _ => hr⟩
    · obtain ⟨S₀, hS₀⟩ := assignments_nonempty (show 8 ≤ 16 by norm_num)
      obtain ⟨r, -⟩ := hret' S₀ hS₀
      exact ⟨r, fun h => absurd h hS⟩
  choose r hr using hret
  obtain ⟨est, h1, h2⟩ := C113_trimmed_partial R argsort ha D ["clicks"] "item_id" "treatment_assignment" (by decide)
    (by unfold Spec.Reserved; decide) (by unfold Spec.Reserved; decide) (trimmedParams (1 / 4) false) rfl "clicks" none 16 _ (assignments_nonempty (by norm_num)) hc
    y0 e _ (fun S _ => trialTable_observed 16 S ["test"] (fun _ => seen (fun i => y0 i + e) y0 S) "clicks" _ y0 rfl) (fun S _ => by simp [trialTable]) r hr
  exact ⟨r, est, fun S hS => ⟨hr S hS, h1 S hS⟩, h2⟩

/-- The hypotheses of `C113_trimmed_crossover_partial` hold for all values of eight items, cutting a quarter at both ends, for all assignments. -/
example (R : Rounding ℝ) (argsort : List ℝ → List ℕ) (ha : ArgsortOk argsort) (D : TDist) (b1 b2 : Fin 8 → ℝ) (e : ℝ) :
    ∃ (r : Finset (Fin 8) → TestResult) (est : Finset (Fin 8) → ℝ),
      (∀ S, analyzeSingleMetric R argsort D (crossoverTrial 8 (fun i => b1 i + e) b1 (fun i => b2 i + e) b2 S) ["clicks"]
        ["item_id", "treatment_assignment"] (trimmedParams (1 / 4) true) "clicks" none "treatment_assignment" none = .ok (r S) ∧
        (r S).absoluteDifference = fin (est S)) ∧
      Spec.averageOver Finset.univ est = e := by
  have hret : ∀ S : Finset (Fin 8), ∃ r,
      analyzeSingleMetric R argsort D (crossoverTrial 8 (fun i => b1 i + e) b1 (fun i => b2 i + e) b2 S) ["clicks"]
        ["item_id", "treatment_assignment"] (trimmedParams (1 / 4) true) "clicks" none "treatment_assignment" none = .ok r := by
    intro S
    have hidx : (crossoverTrial 8 (fun i => b1 i + e) b1 (fun i => b2 i + e) b2 S).index.length = 8 := by simp [crossoverTrial, trialTable]
    refine analyze_crossover_trimmed_returns ha (by decide) (by unfold Spec.Reserved; decide) (by unfold Spec.Reserved; decide)
      (trialTable_keys 8 S ["test_1", "test_2"] _) (by simp [trialTable]) (by simp [trialTable]) rfl (by simp)
      (by simp [trialTable]) (by simp [trialTable])
      (trialTable_values 8 S _ _ "clicks" "test_1") (trialTable_values 8 S _ _ "clicks" "test_2")
      (show (0 : ℝ) ≤ 1 / 4 by norm_num) (show (1 / 4 : ℝ) < 1 / 2 by norm_num) ?_
    have hg : nTrimOf R (trimmedParams (1 / 4) true).postTrim.val 8 = 2 := by
      have := quarter_of_eight R
      show nTrimOf R (1 / 4 : ℝ) 8 = 2
      unfold nTrimOf Rounding.floorMul
      rw [show (((8 : ℕ) : ℤ) : ℝ) = ((8 : ℕ) : ℝ) by norm_num, this]
      rfl
    unfold crossoverTrial at hidx
    rw [hidx, hg]
    norm_num
  choose r hr using hret
  obtain ⟨est, h1, h2⟩ := C113_trimmed_crossover_partial R argsort ha D ["clicks"] "item_id" "treatment_assignment" (by decide)
    (by unfold Spec.Reserved; decide) (by unfold Spec.Reserved; decide) (trimmedParams (1 / 4) true) rfl "clicks" none
    (show (1 / 4 : ℝ) ≠ 0 by norm_num) 8 Finset.univ ⟨∅, Finset.mem_univ _⟩ (fun _ _ => Finset.mem_univ _)
    b1 b2 e _ (fun S _ => crossoverTrial_observed 8 _ b1 _ b2 S "clicks") (fun S _ hw => by simp [crossoverTrial, trialTable] at hw) r (fun S _ => hr S)
  exact ⟨r, est, fun S => ⟨hr S, h1 S (Finset.mem_univ _)⟩, h2⟩

theorem trialTable_exchanged (n : ℕ) (S : Finset (Fin n)) (periods : List String) (val : String → Fin n → ℝ) (m : String) :
    Spec.Exchanged (trialTable n S periods val) (trialTable n Sᶜ periods val) m := by
  refine ⟨rfl, rfl, ?_⟩
  have hv := fun (T : Finset (Fin n)) p i => trialTable_value n T periods val m p i
  have ha := fun (T : Finset (Fin n)) (i : Fin n) => trialTable_assigned n T i
  have hl : List.Forall₂ (fun k k' => k'[0]? = k[0]? ∧ (∀ p, (trialTable n Sᶜ periods val).value k' m p = (trialTable n S periods val).value k m p) ∧
      ((Spec.AssignedTo 1 k ∧ Spec.AssignedTo 0 k') ∨ (Spec.AssignedTo 0 k ∧ Spec.AssignedTo 1 k')))
      ((List.finRange n).map (fun i : Fin n => [Cell.num ((i : ℕ) : ℝ), Cell.num (if i ∈ S then (1 : ℝ) else 0)]))
      ((List.finRange n).map (fun i : Fin n => [Cell.num ((i : ℕ) : ℝ), Cell.num (if i ∈ Sᶜ then (1 : ℝ) else 0)])) := by
    rw [List.forall₂_map_left_iff, List.forall₂_map_right_iff, List.forall₂_same]
    intro i _
    refine ⟨rfl, fun p => by rw [hv S, hv Sᶜ], ?_⟩
    by_cases hi : i ∈ S
    · exact Or.inl ⟨(ha S i).1 hi, (ha Sᶜ i).2 (by simpa using hi)⟩
    · exact Or.inr ⟨(ha S i).2 hi, (ha Sᶜ i).1 (by simpa using hi)⟩
  exact hl

/-- The hypotheses of `C113_no_effect_partial` hold for all positive values of 16 items in groups of eight, cutting a quarter at both ends. -/
example (R : Rounding ℝ) (argsort : List ℝ → List ℕ) (ha : ArgsortOk argsort) (D : TDist) (y : Fin 16 → ℝ) (hy : ∀ i, 0 < y i) :
    ∃ (r : Finset (Fin 16) → TestResult) (est : Finset (Fin 16) → ℝ),
      (∀ S ∈ Spec.assignments 16 8, (r S).absoluteDifference = fin (est S)) ∧ Spec.averageOver (Spec.assignments 16 8) est = 0 ∧
      {S ∈ Spec.assignments 16 8 | (r S).isSignificant = true ∧ 0 < est S}.card = {S ∈ Spec.assignments 16 8 | (r S).isSignificant = true ∧ est S < 0}.card := by
  have hc : ∀ S ∈ Spec.assignments 16 8, Sᶜ ∈ Spec.assignments 16 8 := by
    intro S hS
    rw [mem_assignments] at hS ⊢
    rw [Finset.card_compl, Fintype.card_fin, hS]
  have hret : ∀ S : Finset (Fin 16), ∃ r, S ∈ Spec.assignments 16 8 →
      analyzeSingleMetric R argsort D (trialTable 16 S ["test"] (fun _ => y)) ["clicks"]
        ["item_id", "treatment_assignment"] (trimmedParams (1 / 4) false) "clicks" none "treatment_assignment" none = .ok r := by
    have hret' : ∀ S ∈ Spec.assignments 16 8, ∃ r,
        analyzeSingleMetric R argsort D (trialTable 16 S ["test"] (fun _ => y)) ["clicks"]
        ["item_id", "treatment_assignment"] (trimmedParams (1 / 4) false) "clicks" none "treatment_assignment" none = .ok r := by
      intro S hS
      have hs : seen y y S = y := by funext i; simp [seen]
      have := trialTable_trimmed_returns R argsort ha D 16 (by norm_num) S y y hy (1 / 4) (by norm_num) (by norm_num)
        (by rw [mem_assignments.mp hS, quarter_of_eight]; norm_num) (by rw [mem_assignments.mp (hc S hS), quarter_of_eight]; norm_num)
      rwa [hs] at this
    intro S
    by_cases hS : S ∈ Spec.assignments 16 8
    · obtain ⟨r, hr⟩ := hret' S hS
      exact ⟨r, fun _ => hr⟩
    · obtain ⟨S₀, hS₀⟩ := assignments_nonempty (show 8 ≤ 16 by norm_num)
      obtain ⟨r, -⟩ := hret' S₀ hS₀
      exact ⟨r, fun h => absurd h hS⟩
  choose r hr using hret
  obtain ⟨est, h1⟩ := C113_no_effect_partial R argsort ha D ["clicks"] "item_id" "treatment_assignment" (by decide)
    (by unfold Spec.Reserved; decide) (by unfold Spec.Reserved; decide) (trimmedParams (1 / 4) false) "clicks" none 16 _ (assignments_nonempty (by norm_num)) hc
    _ (fun S _ => trialTable_keys 16 S ["test"] (fun _ => y)) (fun S _ => trialTable_exchanged 16 S ["test"] (fun _ => y) "clicks")
    (fun _ S _ hc => by simpa [trialTable] using hc.1) r hr
  exact ⟨r, est, h1⟩

end Feedx
