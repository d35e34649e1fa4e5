import Verif.Proofs.Trimmed
import Verif.Spec.ItemOrder

/-!
Trimming with a clean cut does not depend on the order of the elements or on the order of equal keys.
-/

set_option linter.unusedSectionVars false

namespace Feedx

variable {K : Type} [Field K] [LinearOrder K] [IsStrictOrderedRing K]

section cut
variable {α : Type} {key : α → K} {g : ℕ} {all kept : List α}

theorem kept_not_low (h : Spec.Trimmed key g all kept) {x : α} (hx : x ∈ kept) :
    g + all.countP (fun y => key x < key y) < all.length ∧ g + all.countP (fun y => key y < key x) < all.length := by
  obtain ⟨-, low, high, h2, h3, h4, h5, h6⟩ := h
  have hk : ∀ p : α → Bool, p x = false → kept.countP p < kept.length := by
    intro p hp
    rcases (List.countP_le_length (p := p) (l := kept)).lt_or_eq with h | h
    · exact h
    · rw [List.countP_eq_length] at h
      have := h x hx
      rw [hp] at this
      cases this
  have e0 : all.length = low.length + kept.length + high.length := by
    rw [← h2.length_eq]; simp; omega
  constructor
  · have hl : low.countP (fun y => key x < key y) = 0 := by
      rw [List.countP_eq_zero]
      intro y hy
      simpa using h5 y hy x (List.mem_append_left _ hx)
    have := hk (fun y => key x < key y) (by simp)
    have h7 := List.countP_le_length (p := fun y => decide (key x < key y)) (l := high)
    rw [← h2.countP_eq, List.countP_append, List.countP_append, hl, e0]
    omega
  · have hl : high.countP (fun y => key y < key x) = 0 := by
      rw [List.countP_eq_zero]
      intro y hy
      simpa using h6 y hy x (List.mem_append_right _ hx)
    have := hk (fun y => key y < key x) (by simp)
    have h7 := List.countP_le_length (p := fun y => decide (key y < key x)) (l := low)
    rw [← h2.countP_eq, List.countP_append, List.countP_append, hl, e0]
    omega

/-- An element with more than `g` smaller and more than `g` larger keys is never cut. -/
theorem inside_count [DecidableEq α] (h : Spec.Trimmed key g all kept) {x : α} (h7 : g < all.countP (fun y => key y < key x))
    (h8 : g < all.countP (fun y => key x < key y)) : kept.count x = all.count x := by
  obtain ⟨-, low, high, h2, h3, h4, h5, h6⟩ := h
  have hlow : x ∉ low := by
    intro hx
    rw [← h2.countP_eq, List.append_assoc, List.countP_append] at h7
    have : (kept ++ high).countP (fun y => key y < key x) = 0 := by
      rw [List.countP_eq_zero]
      intro y hy
      simpa using h5 x hx y hy
    rw [this] at h7
    have := List.countP_le_length (p := fun y => decide (key y < key x)) (l := low)
    omega
  have hhigh : x ∉ high := by
    intro hx
    rw [← h2.countP_eq, List.countP_append] at h8
    have : (low ++ kept).countP (fun y => key x < key y) = 0 := by
      rw [List.countP_eq_zero]
      intro y hy
      simpa using h6 x hx y hy
    rw [this] at h8
    have := List.countP_le_length (p := fun y => decide (key x < key y)) (l := high)
    omega
  rw [← h2.count_eq, List.count_append, List.count_append, List.count_eq_zero_of_not_mem hlow, List.count_eq_zero_of_not_mem hhigh]
  omega

theorem kept_subset (h : Spec.Trimmed key g all kept) {x : α} (hx : x ∈ kept) : x ∈ all := h.1.subset hx

/-- The kept elements, up to order. -/
theorem clean_perm {all' kept' : List α} (h : Spec.Trimmed key g all kept) (h' : Spec.Trimmed key g all' kept') (hp : all.Perm all')
    (hc : Spec.CleanCut key g all) : kept.Perm kept' := by
  classical
  rcases hc with rfl | hc
  · have hz : ∀ {all kept : List α}, Spec.Trimmed key 0 all kept → kept.Perm all := by
      rintro all kept ⟨-, low, high, h2, h3, h4, -⟩
      rw [List.length_eq_zero_iff] at h3 h4
      subst h3 h4
      simpa using h2
    exact ((hz h).trans hp).trans (hz h').symm
  rw [List.perm_iff_count]
  intro x
  by_cases hx : x ∈ all
  swap
  · rw [List.count_eq_zero_of_not_mem (fun k => hx (kept_subset h k)),
      List.count_eq_zero_of_not_mem (fun k => hx (hp.mem_iff.mpr (kept_subset h' k)))]
  by_cases hu : ∀ b ∈ all, key x = key b → x = b
  · have hk := trimmed_unique (trimmed_map h) (trimmed_map h') (hp.map key)
    have key_count : ∀ l : List α, (∀ b ∈ l, b ∈ all) → l.count x = (l.map key).count (key x) := by
      intro l hl
      rw [List.count, List.count, List.countP_map]
      apply List.countP_congr
      intro b hb
      simp only [Function.comp, beq_iff_eq]
      exact ⟨fun e => by rw [e], fun e => (hu b (hl b hb) e.symm).symm⟩
    rw [key_count kept (fun b hb => kept_subset h hb), key_count kept' (fun b hb => hp.mem_iff.mpr (kept_subset h' hb)), hk.count_eq]
  · push Not at hu
    obtain ⟨b, hb, e, hne⟩ := hu
    rcases hc x hx b hb e with h1 | ⟨h1, h2⟩ | h1 | h1
    · exact absurd h1 hne
    · rw [inside_count h h1 h2, inside_count h' (by rwa [← hp.countP_eq]) (by rwa [← hp.countP_eq]), hp.count_eq]
    · rw [List.count_eq_zero_of_not_mem (fun k => by have := (kept_not_low h k).1; omega),
        List.count_eq_zero_of_not_mem (fun k => by
          have := (kept_not_low h' k).1
          rw [← hp.countP_eq, ← hp.length_eq] at this
          omega)]
    · rw [List.count_eq_zero_of_not_mem (fun k => by have := (kept_not_low h k).2; omega),
        List.count_eq_zero_of_not_mem (fun k => by
          have := (kept_not_low h' k).2
          rw [← hp.countP_eq, ← hp.length_eq] at this
          omega)]

/-- The most extreme kept elements are determined. -/
theorem clean_extreme (h : Spec.Trimmed key g all kept) (hg : g ≠ 0) (hc : Spec.CleanCut key g all) {a b : α} (ha : a ∈ kept) (hb : b ∈ kept)
    (he : (∀ x ∈ kept, key a ≤ key x) ∧ (∀ x ∈ kept, key b ≤ key x) ∨ (∀ x ∈ kept, key x ≤ key a) ∧ (∀ x ∈ kept, key x ≤ key b)) : a = b := by
  have hk : key a = key b := by
    rcases he with ⟨h1, h2⟩ | ⟨h1, h2⟩
    · exact le_antisymm (h1 b hb) (h2 a ha)
    · exact le_antisymm (h2 a ha) (h1 b hb)
  have hno := kept_not_low h ha
  rcases hc with rfl | hc
  · exact absurd rfl hg
  rcases hc a (kept_subset h ha) b (kept_subset h hb) hk with h1 | ⟨h1, h2⟩ | h1 | h1
  · exact h1
  · exfalso
    obtain ⟨-, low, high, e2, e3, e4, e5, e6⟩ := h
    rcases he with ⟨k1, -⟩ | ⟨k1, -⟩
    · rw [← e2.countP_eq, List.append_assoc, List.countP_append] at h1
      have : (kept ++ high).countP (fun y => key y < key a) = 0 := by
        rw [List.countP_eq_zero]
        intro y hy
        rcases List.mem_append.mp hy with hy | hy
        · simpa using k1 y hy
        · simpa using e6 y hy a (List.mem_append_right _ ha)
      rw [this] at h1
      have := List.countP_le_length (p := fun y => decide (key y < key a)) (l := low)
      omega
    · rw [← e2.countP_eq, List.countP_append] at h2
      have : (low ++ kept).countP (fun y => key a < key y) = 0 := by
        rw [List.countP_eq_zero]
        intro y hy
        rcases List.mem_append.mp hy with hy | hy
        · simpa using e5 y hy a (List.mem_append_left _ ha)
        · simpa using k1 y hy
      rw [this] at h2
      have := List.countP_le_length (p := fun y => decide (key a < key y)) (l := high)
      omega
  · omega
  · omega

theorem clean_map {β : Type} {key' : β → K} {f : α → β} (hf : ∀ a, key' (f a) = key a) (hc : Spec.CleanCut key g all) :
    Spec.CleanCut key' g (all.map f) := by
  rcases hc with rfl | hc
  · exact Or.inl rfl
  refine Or.inr ?_
  intro a ha b hb e
  obtain ⟨a, ha', rfl⟩ := List.mem_map.mp ha
  obtain ⟨b, hb', rfl⟩ := List.mem_map.mp hb
  rw [hf, hf] at e
  have e1 : ∀ p : β → Bool, (all.map f).countP p = all.countP (p ∘ f) := fun p => List.countP_map ..
  rw [e1, e1, List.length_map]
  simp only [Function.comp_def, hf]
  rcases hc a ha' b hb' e with h | h
  · exact Or.inl (by rw [h])
  · exact Or.inr h

end cut

section stats
variable [FloorRing K]

/-- All statistics of a stack that is trimmed with a clean cut ignore the order of the samples and the order of equal keys. -/
theorem stats_perm {R : Rounding K} {argsort argsort' : List K → List ℕ} (ha : ArgsortOk argsort) (ha' : ArgsortOk argsort') {m : ℕ}
    {cols cols' : List (Fin (m + 1) → K)} (hp : cols.Perm cols') {q : K} {T T' : TrimmedArray K m} (h : mkTrimmed R argsort cols q = .ok T)
    (h' : mkTrimmed R argsort' cols' q = .ok T') (hne : T.trimmed ≠ [])
    (hc : Spec.CleanCut (fun c : Fin (m + 1) → K => c 0) T.nTrim cols) :
    T.len = T'.len ∧ (∀ i, T.mean i = T'.mean i) ∧ ∀ ddof i j, T.cov ddof i j = T'.cov ddof i j := by
  obtain ⟨-, h1, h2, h3, -⟩ := mkTrimmed_ok h
  obtain ⟨-, h1', h2', h3', -⟩ := mkTrimmed_ok h'
  have hg : T'.nTrim = T.nTrim := by rw [h2, h2', hp.length_eq]
  have ht := mkTrimmed_trims ha h
  have ht' := mkTrimmed_trims ha' h'
  rw [hg] at ht'
  have hk := clean_perm ht ht' hp hc
  have hl : T.len = T'.len := hk.length_eq
  have hs : T.size = T'.size := by unfold TrimmedArray.size; rw [h1, h1', hp.length_eq]
  have hne' : T'.trimmed ≠ [] := by
    intro e
    rw [e] at hk
    exact hne hk.eq_nil
  have hw : T.wins.Perm T'.wins := by
    unfold TrimmedArray.wins
    rw [hg]
    rcases Nat.eq_zero_or_pos T.nTrim with h0 | h0
    · rw [h0]
      simpa using hk
    obtain ⟨m1, m2⟩ := argminCol_spec hne
    obtain ⟨m3, m4⟩ := argmaxCol_spec hne
    obtain ⟨m1', m2'⟩ := argminCol_spec hne'
    obtain ⟨m3', m4'⟩ := argmaxCol_spec hne'
    have e1 : T.minValues = T'.minValues := clean_extreme ht h0.ne' hc m1 (hk.mem_iff.mpr m1')
      (Or.inl ⟨m2, fun x hx => m2' x (hk.mem_iff.mp hx)⟩)
    have e2 : T.maxValues = T'.maxValues := clean_extreme ht h0.ne' hc m3 (hk.mem_iff.mpr m3')
      (Or.inr ⟨m4, fun x hx => m4' x (hk.mem_iff.mp hx)⟩)
    rw [e1, e2]
    exact (hk.append_right _).append_right _
  refine ⟨hl, ?_, ?_⟩
  · intro i
    unfold TrimmedArray.mean rowOf
    rw [(hk.map (fun c => c i)).sum_eq, hl]
  · intro ddof i j
    have hm : ∀ k, T.winsorizedMean k = T'.winsorizedMean k := by
      intro k
      rw [T.winsorizedMean_eq, T'.winsorizedMean_eq, hs]
      unfold rowOf
      rw [(hw.map (fun c => c k)).sum_eq]
    rw [T.cov_eq, T'.cov_eq, hm, hm, hl, (hw.map _).sum_eq]

end stats

end Feedx
