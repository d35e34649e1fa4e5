import Verif.Props.Trimmed

/-! Helper lemmas about the CUPED adjustment. -/

set_option linter.unusedSectionVars false
set_option linter.unusedSimpArgs false

namespace Feedx

variable {K : Type} [Field K] [LinearOrder K]

theorem meanOf_eq (l : List K) : meanOf l = Spec.mean l := rfl

theorem sampleCov_eq (x y : List K) : sampleCov x y = Spec.crossDev x y / ((x.length : K) - 1) := rfl

theorem crossDev_self (l : List K) : Spec.crossDev l l = Spec.sumSqDev l := by
  unfold Spec.crossDev Spec.sumSqDev
  rw [List.zipWith_self]
  congr 1
  apply List.map_congr_left
  intro x _
  rw [sq]

/-- Zipping as pairs. -/
theorem zipWith_pairs {α β γ : Type} (f : α → β → γ) (z : List (α × β)) :
    List.zipWith f (z.map Prod.fst) (z.map Prod.snd) = z.map (fun p => f p.1 p.2) := by
  rw [List.zipWith_map_left, List.zipWith_map_right, List.zipWith_self]

theorem exists_pairs {α β : Type} {x : List α} {y : List β} (h : x.length = y.length) :
    ∃ z : List (α × β), x = z.map Prod.fst ∧ y = z.map Prod.snd :=
  ⟨x.zip y, by rw [List.map_fst_zip h.le], by rw [List.map_snd_zip h.ge]⟩

variable [CharZero K]

theorem sum_dev {α : Type} {z : List α} (h : z ≠ []) (f : α → K) :
    (z.map (fun p => f p - Spec.mean (z.map f))).sum = 0 := by
  have hl : (z.length : K) ≠ 0 := by
    rw [Nat.cast_ne_zero]; exact fun h' => h (List.length_eq_zero_iff.mp h')
  have : (z.map (fun p => f p - Spec.mean (z.map f))).sum =
      (z.map f).sum - (z.length : K) * Spec.mean (z.map f) := by
    generalize Spec.mean (z.map f) = μ
    clear hl h
    induction z with
    | nil => simp
    | cons a z ih => simp only [List.map_cons, List.sum_cons, ih, List.length_cons]; push_cast; ring
  rw [this, Spec.mean, List.length_map]
  field_simp
  ring

/-- Mean of a linear combination of two paired samples. -/
theorem mean_comb {α : Type} {z : List α} (h : z ≠ []) (f g : α → K) (s t c : K) :
    Spec.mean (z.map (fun p => s * f p + t * g p + c)) =
      s * Spec.mean (z.map f) + t * Spec.mean (z.map g) + c := by
  have hl : (z.length : K) ≠ 0 := by
    rw [Nat.cast_ne_zero]; exact fun h' => h (List.length_eq_zero_iff.mp h')
  have : (z.map (fun p => s * f p + t * g p + c)).sum =
      s * (z.map f).sum + t * (z.map g).sum + (z.length : K) * c := by
    clear hl h
    induction z with
    | nil => simp
    | cons a z ih => simp only [List.map_cons, List.sum_cons, ih, List.length_cons]; push_cast; ring
  unfold Spec.mean
  rw [this]
  simp only [List.length_map]
  field_simp

theorem crossDev_pairs {α : Type} (z : List α) (f g : α → K) :
    Spec.crossDev (z.map f) (z.map g) =
      (z.map (fun p => (f p - Spec.mean (z.map f)) * (g p - Spec.mean (z.map g)))).sum := by
  unfold Spec.crossDev
  rw [List.zipWith_map_left, List.zipWith_map_right, List.zipWith_self]

/-- Bilinearity of the cross deviation. -/
theorem crossDev_comb {α : Type} {z : List α} (h : z ≠ []) (f g k : α → K) (s t c : K) :
    Spec.crossDev (z.map (fun p => s * f p + t * g p + c)) (z.map k) =
      s * Spec.crossDev (z.map f) (z.map k) + t * Spec.crossDev (z.map g) (z.map k) := by
  rw [crossDev_pairs, crossDev_pairs, crossDev_pairs, mean_comb h, ← List.sum_map_mul_left,
    ← List.sum_map_mul_left, ← List.sum_map_add]
  congr 1
  apply List.map_congr_left
  intro p _
  ring

theorem crossDev_comm {α : Type} (z : List α) (f g : α → K) :
    Spec.crossDev (z.map f) (z.map g) = Spec.crossDev (z.map g) (z.map f) := by
  rw [crossDev_pairs, crossDev_pairs]
  congr 2
  funext p
  ring

/-- Sum of squared deviations of a linear combination. -/
theorem sumSqDev_comb {α : Type} {z : List α} (h : z ≠ []) (f g : α → K) (s t c : K) :
    Spec.sumSqDev (z.map (fun p => s * f p + t * g p + c)) =
      s ^ 2 * Spec.sumSqDev (z.map f) + 2 * s * t * Spec.crossDev (z.map f) (z.map g)
        + t ^ 2 * Spec.sumSqDev (z.map g) := by
  rw [← crossDev_self, ← crossDev_self, ← crossDev_self, crossDev_comb h, crossDev_comm z f,
    crossDev_comm z g, crossDev_comb h, crossDev_comb h, crossDev_comm z g f]
  ring

theorem sumSqDev_nonneg [IsStrictOrderedRing K] (l : List K) : 0 ≤ Spec.sumSqDev l := by
  apply List.sum_nonneg
  intro x hx
  obtain ⟨c, _, rfl⟩ := List.mem_map.mp hx
  positivity

section
variable [IsStrictOrderedRing K] [FloorRing K]

theorem nTrimOf_le {R : Rounding K} {q : K} {n : ℕ} (hn : n ≤ 2 ^ 53) (h0 : 0 ≤ q) (h1 : q < 1 / 2) :
    2 * nTrimOf R q n ≤ n := by
  have hz : 0 ≤ R.floorMul q (n : ℤ) := by
    unfold Rounding.floorMul
    rw [Int.floor_nonneg]
    have := R.mono (by positivity : (0 : K) ≤ q * ((n : ℤ) : K))
    have h3 := R.intFix 0 (by norm_num)
    simp only [Int.cast_zero] at h3
    rwa [h3] at this
  have hle : 2 * R.floorMul q (n : ℤ) ≤ n := by
    have h2 : q * ((n : ℤ) : K) ≤ ((n : ℤ) : K) / 2 := by
      have : (0 : K) ≤ ((n : ℤ) : K) := by positivity
      nlinarith
    have h3 := R.mono h2
    rw [R.halfFix _ (by rw [abs_of_nonneg (by positivity)]; exact_mod_cast hn)] at h3
    have h4 : (R.floorMul q (n : ℤ) : K) ≤ ((n : ℤ) : K) / 2 :=
      (Int.floor_le _).trans h3
    have h5 : (2 * R.floorMul q (n : ℤ) : K) ≤ ((n : ℤ) : K) := by linarith
    exact_mod_cast h5
  unfold nTrimOf; omega

/-- Explicit result of the constructor for legal quantiles. -/
theorem mkTrimmed_eq {R : Rounding K} {argsort : List K → List ℕ} (ha : ArgsortOk argsort) {m : ℕ}
    (cols : List (Fin (m + 1) → K)) {q : K} (h0 : 0 ≤ q) (h1 : q < 1 / 2)
    (hg : 2 * nTrimOf R q cols.length ≤ cols.length) :
    mkTrimmed R argsort cols q = .ok ⟨cols, nTrimOf R q cols.length,
      (trimmedIndex argsort (rowOf cols 0) (nTrimOf R q cols.length)).map (fun i => cols.getD i 0)⟩ := by
  unfold mkTrimmed
  simp only [raiseIf_bind_ok]
  refine ⟨by push Not; exact ⟨h0, h1⟩, ?_, rfl⟩
  obtain ⟨-, low, high, hp, hl, hh, -⟩ := trimmedIndex_trims ha cols _ hg
  have := hp.length_eq
  simp only [List.length_append] at this
  push Not
  omega

end

/-- The stack built by the CUPED function, from pairs. -/
theorem cuped_stack (z : List (K × K)) (f : K × K → K) :
    List.zipWith (fun a (bc : K × K) => (![a, bc.1, bc.2] : Fin 3 → K)) (z.map f)
      ((z.map Prod.fst).zip (z.map Prod.snd)) = z.map (fun p => ![f p, p.1, p.2]) := by
  have : (z.map Prod.fst).zip (z.map Prod.snd) = z := by
    rw [List.zip, zipWith_pairs]; simp
  rw [this, List.zipWith_map_left, List.zipWith_self]

end Feedx
