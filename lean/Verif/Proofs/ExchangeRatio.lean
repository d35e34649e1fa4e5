import Verif.Props.ItemOrder
import Verif.Props.TTestSymmetry

/-!
Exchanging the samples of the paired test of a ratio metric.
-/

set_option linter.unusedSectionVars false

namespace Feedx
open Fl

section cut
variable {K : Type} [Field K] [LinearOrder K] [IsStrictOrderedRing K] {α β : Type} {key : α → K} {key' : β → K} {g : ℕ} {all kept : List α} {f : α → β}

/-- Trimming at both ends, seen from the other end. -/
theorem trimmed_mirror (hf : ∀ a, key' (f a) = -key a) (h : Spec.Trimmed key g all kept) : Spec.Trimmed key' g (all.map f) (kept.map f) := by
  obtain ⟨h1, low, high, h2, h3, h4, h5, h6⟩ := h
  refine ⟨h1.map f, high.map f, low.map f, ?_, by simpa using h4, by simpa using h3, ?_, ?_⟩
  · rw [← List.map_append, ← List.map_append]
    refine List.Perm.map f (List.Perm.trans ?_ h2)
    rw [List.append_assoc]
    refine (List.perm_append_comm).trans ?_
    refine List.Perm.append_right _ List.perm_append_comm
  · intro x hx y hy
    obtain ⟨a, ha, rfl⟩ := List.mem_map.mp hx
    rw [← List.map_append] at hy
    obtain ⟨b, hb, rfl⟩ := List.mem_map.mp hy
    rw [hf, hf, neg_le_neg_iff]
    exact h6 a ha b (List.perm_append_comm.mem_iff.mp hb)
  · intro x hx y hy
    obtain ⟨a, ha, rfl⟩ := List.mem_map.mp hx
    rw [← List.map_append] at hy
    obtain ⟨b, hb, rfl⟩ := List.mem_map.mp hy
    rw [hf, hf, neg_le_neg_iff]
    exact h5 a ha b (List.perm_append_comm.mem_iff.mp hb)

theorem clean_mirror (hf : ∀ a, key' (f a) = -key a) (hc : Spec.CleanCut key g all) : Spec.CleanCut key' g (all.map f) := by
  rcases hc with rfl | hc
  · exact Or.inl rfl
  refine Or.inr ?_
  intro a ha b hb e
  obtain ⟨a, ha', rfl⟩ := List.mem_map.mp ha
  obtain ⟨b, hb', rfl⟩ := List.mem_map.mp hb
  rw [hf, hf, neg_inj] at e
  have e1 : ∀ p : β → Bool, (all.map f).countP p = all.countP (p ∘ f) := fun p => List.countP_map ..
  rw [e1, e1, List.length_map]
  simp only [Function.comp_def, hf, neg_lt_neg_iff]
  rcases hc a ha' b hb' e with h | ⟨h1, h2⟩ | h | h
  · exact Or.inl (by rw [h])
  · exact Or.inr (Or.inl ⟨h2, h1⟩)
  · exact Or.inr (Or.inr (Or.inr h))
  · exact Or.inr (Or.inr (Or.inl h))

end cut

section stats
variable {K : Type} [Field K] [LinearOrder K] [IsStrictOrderedRing K] [FloorRing K]

/-- All statistics of a stack whose first row is negated and whose other rows are exchanged. -/
theorem stats_mirror {R : Rounding K} {argsort : List K → List ℕ} (ha : ArgsortOk argsort) {m : ℕ}
    {cols : List (Fin (m + 1) → K)} {f : (Fin (m + 1) → K) → (Fin (m + 1) → K)} (hf : ∀ c, f c 0 = -c 0) {q : K} {T T' : TrimmedArray K m}
    (h : mkTrimmed R argsort cols q = .ok T) (h' : mkTrimmed R argsort (cols.map f) q = .ok T') (hne : T.trimmed ≠ [])
    (hc : Spec.CleanCut (fun c : Fin (m + 1) → K => c 0) T.nTrim cols) :
    T.len = T'.len ∧ (∀ i j, (∀ c, f c i = c j) → T'.mean i = T.mean j) ∧
      ∀ ddof i j i' j', (∀ c, f c i = c j) → (∀ c, f c i' = c j') → T'.cov ddof i i' = T.cov ddof j j' := by
  obtain ⟨-, h1, h2, h3, -⟩ := mkTrimmed_ok h
  obtain ⟨-, h1', h2', h3', -⟩ := mkTrimmed_ok h'
  have hg : T'.nTrim = T.nTrim := by rw [h2, h2', List.length_map]
  have ht := trimmed_mirror (key' := fun c : Fin (m + 1) → K => c 0) hf (mkTrimmed_trims ha h)
  have ht' := mkTrimmed_trims ha h'
  rw [hg] at ht'
  have hc' := clean_mirror (key' := fun c : Fin (m + 1) → K => c 0) hf hc
  have hk := clean_perm ht ht' (List.Perm.refl _) hc'
  have hl : T.len = T'.len := by
    have := hk.length_eq
    rw [List.length_map] at this
    exact this
  have hs : T.size = T'.size := by unfold TrimmedArray.size; rw [h1, h1', List.length_map]
  have hne' : T'.trimmed ≠ [] := by
    intro e
    rw [e] at hk
    exact hne (List.map_eq_nil_iff.mp hk.eq_nil)
  have hw : (T.wins.map f).Perm T'.wins := by
    unfold TrimmedArray.wins
    rw [hg]
    rcases Nat.eq_zero_or_pos T.nTrim with h0 | h0
    · rw [h0]
      simpa using hk
    obtain ⟨m1, m2⟩ := argminCol_spec hne
    obtain ⟨m3, m4⟩ := argmaxCol_spec hne
    obtain ⟨m1', m2'⟩ := argminCol_spec hne'
    obtain ⟨m3', m4'⟩ := argmaxCol_spec hne'
    have e1 : f T.maxValues = T'.minValues := clean_extreme ht h0.ne' hc' (List.mem_map_of_mem m3) (hk.mem_iff.mpr m1')
      (Or.inl ⟨fun x hx => by
        obtain ⟨y, hy, rfl⟩ := List.mem_map.mp hx
        rw [hf, hf, neg_le_neg_iff]
        exact m4 y hy, fun x hx => m2' x (hk.mem_iff.mp hx)⟩)
    have e2 : f T.minValues = T'.maxValues := clean_extreme ht h0.ne' hc' (List.mem_map_of_mem m1) (hk.mem_iff.mpr m3')
      (Or.inr ⟨fun x hx => by
        obtain ⟨y, hy, rfl⟩ := List.mem_map.mp hx
        rw [hf, hf, neg_le_neg_iff]
        exact m2 y hy, fun x hx => m4' x (hk.mem_iff.mp hx)⟩)
    rw [← e1, ← e2, List.map_append, List.map_append, List.map_replicate, List.map_replicate, List.append_assoc, List.append_assoc]
    exact hk.append List.perm_append_comm
  refine ⟨hl, ?_, ?_⟩
  · intro i j hij
    unfold TrimmedArray.mean rowOf
    rw [← (hk.map (fun c => c i)).sum_eq, ← hl, List.map_map]
    simp only [Function.comp_def, hij]
  · intro ddof i j i' j' hij hij'
    have hm : ∀ k l, (∀ c, f c k = c l) → T'.winsorizedMean k = T.winsorizedMean l := by
      intro k l hkl
      rw [T.winsorizedMean_eq, T'.winsorizedMean_eq, hs]
      unfold rowOf
      rw [← (hw.map (fun c => c k)).sum_eq, List.map_map]
      simp only [Function.comp_def, hkl]
    rw [T.cov_eq, T'.cov_eq, hm i j hij, hm i' j' hij', hl, ← (hw.map _).sum_eq, List.map_map]
    simp only [Function.comp_def, hij, hij']

end stats

theorem neg_mul' (a b : Fl ℝ) : -a * b = -(a * b) := by
  cases a <;> cases b
  case fin.fin x y => show fin _ = fin _; rw [neg_mul]
  case fin.pinf x => exact infSign_neg x
  case fin.ninf x => exact infSign_neg (-x)
  case pinf.fin x => exact infSign_neg x
  case ninf.fin x => show infSign x = -infSign (-x); rw [infSign_neg, neg_neg']
  all_goals rfl

theorem neg_mul_neg' (a b : Fl ℝ) : -a * -b = a * b := by
  rw [neg_mul', mul_comm', neg_mul', neg_neg', mul_comm']

theorem sum4_swap (f : Fin 4 → Fl ℝ) : sum4 (fun i => f (![2, 3, 0, 1] i)) = sum4 f := by
  unfold sum4
  show f 2 + f 3 + f 0 + f 1 = _
  rw [add_assoc' (f 2 + f 3), add_comm' (f 2 + f 3), ← add_assoc']

theorem sum4_neg (f : Fin 4 → Fl ℝ) : sum4 (fun i => -f i) = -sum4 f := by
  unfold sum4
  rw [neg_add', neg_add', neg_add']

theorem grad_swap (a b c d : ℝ) (i : Fin 4) :
    (![fin 1 / fin d, -fin c / (fin d).sq, fin (-1) / fin b, fin a / (fin b).sq] : Fin 4 → Fl ℝ) i =
      -(![fin 1 / fin b, -fin a / (fin b).sq, fin (-1) / fin d, fin c / (fin d).sq] : Fin 4 → Fl ℝ) (![2, 3, 0, 1] i) := by
  have e : ∀ x : Fl ℝ, fin (-1) / x = -(fin 1 / x) := fun x => neg_div' (fin 1) x
  fin_cases i
  · show fin 1 / fin d = -(fin (-1) / fin d)
    rw [e, neg_neg']
  · show -fin c / (fin d).sq = -(fin c / (fin d).sq)
    rw [neg_div']
  · show fin (-1) / fin b = -(fin 1 / fin b)
    rw [e]
  · show fin a / (fin b).sq = -(-fin a / (fin b).sq)
    rw [neg_div', neg_neg']

/-- Exchanging the two ratios. -/
theorem diffOfRatios_swap {m m' : Fin 4 → ℝ} {cov cov' : Fin 4 → Fin 4 → ℝ} (hm : ∀ i, m' i = m (![2, 3, 0, 1] i))
    (hc : ∀ i j, cov' i j = cov (![2, 3, 0, 1] i) (![2, 3, 0, 1] j)) :
    let e := diffOfRatios m cov
    let e' := diffOfRatios m' cov'
    e'.differenceMean = -e.differenceMean ∧ e'.differenceVar = e.differenceVar ∧ e'.mean1 = e.mean2 ∧ e'.mean2 = e.mean1 ∧
      e'.var1 = e.var2 ∧ e'.var2 = e.var1 ∧ e'.corr12 = e.corr12 := by
  have m0 : m' 0 = m 2 := hm 0
  have m1 : m' 1 = m 3 := hm 1
  have m2 : m' 2 = m 0 := hm 2
  have m3 : m' 3 = m 1 := hm 3
  have hv : (diffOfRatios m' cov').differenceVar = (diffOfRatios m cov).differenceVar := by
    unfold diffOfRatios
    simp only [m0, m1, m2, m3]
    obtain ⟨G, hG⟩ : ∃ G : Fin 4 → Fl ℝ, G = ![fin 1 / fin (m 1), -fin (m 0) / (fin (m 1)).sq, fin (-1) / fin (m 3), fin (m 2) / (fin (m 3)).sq] := ⟨_, rfl⟩
    have key : (![fin 1 / fin (m 3), -fin (m 2) / (fin (m 3)).sq, fin (-1) / fin (m 1), fin (m 0) / (fin (m 1)).sq] : Fin 4 → Fl ℝ) =
        fun i => -G (![2, 3, 0, 1] i) := by
      rw [hG]
      exact funext (grad_swap (m 0) (m 1) (m 2) (m 3))
    rw [key, ← hG]
    have inner : ∀ k, sum4 (fun j => -G (![2, 3, 0, 1] j) * fin (cov (![2, 3, 0, 1] j) k)) = -sum4 (fun j => G j * fin (cov j k)) := by
      intro k
      rw [← sum4_swap (fun j => G j * fin (cov j k)), ← sum4_neg]
      simp only [neg_mul']
    simp only [hc, inner, neg_mul_neg']
    exact sum4_swap (fun i => sum4 (fun j => G j * fin (cov j i)) * G i)
  have v1 : (diffOfRatios m' cov').var1 = (diffOfRatios m cov).var2 := by
    unfold diffOfRatios
    simp only [m0, m1, hc]
    rfl
  have v2 : (diffOfRatios m' cov').var2 = (diffOfRatios m cov).var1 := by
    unfold diffOfRatios
    simp only [m2, m3, hc]
    rfl
  have a1 : (diffOfRatios m' cov').mean1 = (diffOfRatios m cov).mean2 := by
    unfold diffOfRatios ratioMeanVar
    simp only [m0, m1]
  have a2 : (diffOfRatios m' cov').mean2 = (diffOfRatios m cov).mean1 := by
    unfold diffOfRatios ratioMeanVar
    simp only [m2, m3]
  refine ⟨?_, hv, a1, a2, v1, v2, ?_⟩
  · show (diffOfRatios m' cov').mean1 - (diffOfRatios m' cov').mean2 = -((diffOfRatios m cov).mean1 - (diffOfRatios m cov).mean2)
    rw [a1, a2, Fl.neg_sub']
  · show ((diffOfRatios m' cov').var1 + (diffOfRatios m' cov').var2 - (diffOfRatios m' cov').differenceVar) /
        (fin 2 * ((diffOfRatios m' cov').var1 * (diffOfRatios m' cov').var2).sqrt) =
      ((diffOfRatios m cov).var1 + (diffOfRatios m cov).var2 - (diffOfRatios m cov).differenceVar) /
        (fin 2 * ((diffOfRatios m cov).var1 * (diffOfRatios m cov).var2).sqrt)
    rw [v1, v2, hv, add_comm' (diffOfRatios m cov).var2, mul_comm' (diffOfRatios m cov).var2]

/-- The reported result when the estimates of the two samples are exchanged. -/
theorem estimates_mirror {D : TDist} {e e' : Estimates} {pf : Bool} {α : ℝ} {r r' : TestResult} (h : resultsFrom D e pf "two-sided" α = .ok r)
    (h' : resultsFrom D e' pf "two-sided" α = .ok r') (c1 : e'.difference = -e.difference) (cm : e'.mean1 - e'.mean2 = -(e.mean1 - e.mean2))
    (c2 : e'.differenceSE = e.differenceSE) (c3 : e'.se1 = e.se2) (c4 : e'.se2 = e.se1) (c5 : e'.corr = e.corr) (c6 : e'.df = e.df)
    (c7 : e'.sampleSize = e.sampleSize) :
    r'.statistic = -r.statistic ∧ r'.absoluteDifference = -r.absoluteDifference ∧
      r'.absoluteLower = -r.absoluteUpper ∧ r'.absoluteUpper = -r.absoluteLower ∧
      r'.pValue = r.pValue ∧ r'.isSignificant = r.isSignificant ∧ r'.standardError = r.standardError ∧
      r'.degreesOfFreedom = r.degreesOfFreedom ∧ r'.sampleSize = r.sampleSize := by
  obtain ⟨-, a1, a2, a3, a4, a5, a6, a7, a8, a9, a10⟩ := resultsFrom_ok h
  obtain ⟨-, b1, b2, b3, b4, b5, b6, b7, b8, b9, b10⟩ := resultsFrom_ok h'
  have hp : r'.pValue = r.pValue := by
    rw [a2, b2, c1, c2, c6, neg_div']
    simp [pOf, abs_neg']
  have hb : r'.absoluteLower = -r.absoluteUpper ∧ r'.absoluteUpper = -r.absoluteLower := by
    have d1 : r'.absoluteLower = _ := congrArg Prod.fst b6
    have d2 : r'.absoluteUpper = _ := congrArg Prod.snd b6
    have d3 : r.absoluteLower = _ := congrArg Prod.fst a6
    have d4 : r.absoluteUpper = _ := congrArg Prod.snd a6
    rw [d1, d2, d3, d4, c3, c4, c5, c6, ciSE_comm, cm]
    simp [boundsOf, Fl.sub_eq, neg_add', neg_neg']
  exact ⟨by rw [a1, b1, c1, c2, neg_div'], by rw [a5, b5, c1], hb.1, hb.2, hp, by rw [a3, b3, hp], by rw [a7, b7, c2], by rw [a9, b9, c6],
    by rw [a8, b8, c7]⟩

/-- Exchanging the samples of the paired test of a ratio metric, clean cut. -/
theorem paired_ratio_mirror {R : Rounding ℝ} {argsort : List ℝ → List ℕ} (ha : ArgsortOk argsort) {D : TDist}
    {items : List ((ℝ × ℝ) × (ℝ × ℝ))} {q α : ℝ}
    (hc : ∀ g : ℕ, (g : ℤ) = ⌊R.rnd (q * (items.length : ℝ))⌋ → Spec.CleanCut (fun p => p.1.1 - p.2.1) g items) {r r' : TestResult}
    (h : pairedTest R argsort D (items.map (fun p => p.1.1)) (items.map (fun p => p.2.1)) q (some (items.map (fun p => p.1.2)))
      (some (items.map (fun p => p.2.2))) "two-sided" α = .ok r)
    (h' : pairedTest R argsort D (items.map (fun p => p.2.1)) (items.map (fun p => p.1.1)) q (some (items.map (fun p => p.2.2)))
      (some (items.map (fun p => p.1.2))) "two-sided" α = .ok r') :
    r'.statistic = -r.statistic ∧ r'.absoluteDifference = -r.absoluteDifference ∧
      r'.absoluteLower = -r.absoluteUpper ∧ r'.absoluteUpper = -r.absoluteLower ∧
      r'.pValue = r.pValue ∧ r'.isSignificant = r.isSignificant ∧ r'.standardError = r.standardError ∧
      r'.degreesOfFreedom = r.degreesOfFreedom ∧ r'.sampleSize = r.sampleSize := by
  rcases pairedTest_ok h with ⟨x1, x2, e1, e2, T, t, hl, hr⟩ | ⟨e1, -⟩
  swap
  · cases e1
  cases e1
  cases e2
  rcases pairedTest_ok h' with ⟨x1, x2, e1, e2, T', t', hl', hr'⟩ | ⟨e1, -⟩
  swap
  · cases e1
  cases e1
  cases e2
  rw [stack5_items] at t
  have es : stack5 (items.map (fun p => p.2.1)) (items.map (fun p => p.2.2)) (items.map (fun p => p.1.1)) (items.map (fun p => p.1.2)) =
      (items.map (fun p => (![p.1.1 - p.2.1, p.1.1, p.1.2, p.2.1, p.2.2] : Fin 5 → ℝ))).map (fun c => ![-c 0, c 3, c 4, c 1, c 2]) := by
    have := stack5_items (items.map Prod.swap)
    rw [List.map_map, List.map_map, List.map_map, List.map_map, List.map_map] at this
    rw [List.map_map]
    refine this.trans (List.map_congr_left fun p _ => ?_)
    ext i
    fin_cases i <;> simp
  rw [es] at t'
  have n := nTrim_floor ha t
  rw [List.length_map] at n
  obtain ⟨s0, s1, s2⟩ := stats_mirror ha (f := fun c => ![-c 0, c 3, c 4, c 1, c 2]) (fun _ => rfl) t t' (trimmed_ne_nil hl)
    (clean_map (fun _ => rfl) (hc _ n))
  have hπ : ∀ (i : Fin 4) (c : Fin 5 → ℝ), (![-c 0, c 3, c 4, c 1, c 2] : Fin 5 → ℝ) i.succ = c (![2, 3, 0, 1] i : Fin 4).succ := by
    intro i c
    fin_cases i <;> rfl
  obtain ⟨d1, d2, d3, d4, d5, d6, d7⟩ := diffOfRatios_swap (m := fun i => T.mean i.succ) (m' := fun i => T'.mean i.succ)
    (cov := fun i j => T.cov 1 i.succ j.succ) (cov' := fun i j => T'.cov 1 i.succ j.succ) (fun i => s1 _ _ (hπ i))
    (fun i j => s2 _ _ _ _ _ (hπ i) (hπ j))
  refine estimates_mirror hr hr' d1 ?_ ?_ ?_ ?_ d7 ?_ ?_
  · unfold pairedRatio
    simp only
    rw [d3, d4, Fl.neg_sub']
  · show oneSampleSE _ _ = oneSampleSE _ _
    rw [d2, s0]
  · show oneSampleSE _ _ = oneSampleSE _ _
    rw [d5, s0]
  · show oneSampleSE _ _ = oneSampleSE _ _
    rw [d6, s0]
  · show oneSampleDf _ = oneSampleDf _
    rw [s0]
  · exact s0.symm

end Feedx
