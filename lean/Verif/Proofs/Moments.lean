import Verif.Proofs.Assignments

/-!
Averages over all assignments of the difference in means and of its squared standard error (Neyman), and of the corresponding quantities of
a crossover and of a covariate adjustment.
-/

namespace Feedx
open Finset

variable {n k : ℕ}

theorem compl_sum (S : Finset (Fin n)) (f : Fin n → ℝ) : ∑ i ∈ Sᶜ, f i = ∑ i, f i - ∑ i ∈ S, f i := by
  rw [← sum_add_sum_compl S f]
  ring

theorem card_of_assigned {S : Finset (Fin n)} (hS : S ∈ Spec.assignments n k) : (S.card : ℝ) = k ∧ (Sᶜ.card : ℝ) = n - k := by
  have h := mem_assignments.mp hS
  refine ⟨by rw [h], ?_⟩
  rw [card_compl, Fintype.card_fin, h, Nat.cast_sub]
  rw [← h]
  simpa using card_le_univ S

/-- The difference in means over the assignments. -/
theorem average_difference (hk : 1 ≤ k) (hn : k < n) (y1 y0 : Fin n → ℝ) :
    Spec.averageOver (Spec.assignments n k) (fun S => (∑ i ∈ S, y1 i) / S.card - (∑ i ∈ Sᶜ, y0 i) / Sᶜ.card) =
      Spec.itemMean (fun i => y1 i - y0 i) := by
  have hk' : (1 : ℝ) ≤ k := by exact_mod_cast hk
  have hn' : (k : ℝ) < n := by exact_mod_cast hn
  have e1 : (k : ℝ) ≠ 0 := by linarith
  have e2 : (n : ℝ) - k ≠ 0 := by linarith
  have e3 : (n : ℝ) ≠ 0 := by linarith
  rw [average_congr (g := fun S => (∑ i ∈ S, y1 i) / (k : ℝ) - ((∑ i, y0 i) / ((n : ℝ) - k) - (∑ i ∈ S, y0 i) / ((n : ℝ) - k)))]
  · rw [average_sub, average_sub, average_div, average_div, average_div, average_treated hk hn.le, average_treated hk hn.le,
      average_const (assignments_nonempty hn.le)]
    unfold Spec.itemMean
    rw [sum_sub_distrib]
    field_simp
  · intro S hS
    obtain ⟨c1, c2⟩ := card_of_assigned hS
    rw [c1, c2, compl_sum, sub_div]

/-- Deviations from the mean. -/
theorem itemSum_dev (f : Fin n → ℝ) (hn : (n : ℝ) ≠ 0) : ∑ i, (f i - Spec.itemMean f) = 0 := by
  rw [sum_sub_distrib, sum_const, card_univ, Fintype.card_fin, nsmul_eq_mul]
  unfold Spec.itemMean
  field_simp
  ring

/-- The variance of a sum over the treated items. -/
theorem average_sq_treated (hk : 1 ≤ k) (hn : k ≤ n) (h2 : 2 ≤ n) (f : Fin n → ℝ) :
    Spec.averageOver (Spec.assignments n k) (fun S => (∑ i ∈ S, (f i - Spec.itemMean f)) ^ 2) =
      (k : ℝ) * (n - k) / (n * (n - 1)) * Spec.itemSumSq f := by
  have hn0 : (n : ℝ) ≠ 0 := by
    have : (2 : ℝ) ≤ n := by exact_mod_cast h2
    linarith
  rw [average_congr (g := fun S => (∑ i ∈ S, (f i - Spec.itemMean f)) * ∑ i ∈ S, (f i - Spec.itemMean f)) (fun S _ => by ring),
    average_treated_centred hk hn h2 _ _ (itemSum_dev f hn0)]
  unfold Spec.itemSumSq
  congr 1
  exact sum_congr rfl fun i _ => by ring

theorem sumSq_eq (f : Fin n → ℝ) (hn : (n : ℝ) ≠ 0) : Spec.itemSumSq f = ∑ i, f i ^ 2 - (∑ i, f i) ^ 2 / n := by
  have e : ∀ i, (f i - Spec.itemMean f) ^ 2 = f i ^ 2 - 2 * Spec.itemMean f * f i + Spec.itemMean f ^ 2 := fun i => by ring
  unfold Spec.itemSumSq
  simp only [e]
  rw [sum_add_distrib, sum_sub_distrib, ← mul_sum, sum_const, card_univ, Fintype.card_fin, nsmul_eq_mul]
  unfold Spec.itemMean
  field_simp
  ring

theorem sum_sq_dev_on (S : Finset (Fin n)) (hS : (S.card : ℝ) ≠ 0) (f : Fin n → ℝ) (c : ℝ) :
    (∑ i ∈ S, f i ^ 2) - (∑ i ∈ S, f i) ^ 2 / S.card = (∑ i ∈ S, (f i - c) ^ 2) - (∑ i ∈ S, (f i - c)) ^ 2 / S.card := by
  have e : ∀ i, (f i - c) ^ 2 = f i ^ 2 - 2 * c * f i + c ^ 2 := fun i => by ring
  simp only [e]
  rw [sum_add_distrib, sum_sub_distrib, ← mul_sum, sum_const, nsmul_eq_mul, sum_sub_distrib, sum_const, nsmul_eq_mul]
  field_simp
  ring

/-- The average sum of squared deviations of the treated items. -/
theorem average_sumSq_treated (hk : 1 ≤ k) (hn : k ≤ n) (h2 : 2 ≤ n) (f : Fin n → ℝ) :
    Spec.averageOver (Spec.assignments n k) (fun S => (∑ i ∈ S, f i ^ 2) - (∑ i ∈ S, f i) ^ 2 / S.card) =
      ((k : ℝ) - 1) / (n - 1) * Spec.itemSumSq f := by
  have h2' : (2 : ℝ) ≤ n := by exact_mod_cast h2
  have hk' : (1 : ℝ) ≤ k := by exact_mod_cast hk
  have e1 : (k : ℝ) ≠ 0 := by linarith
  have e2 : (n : ℝ) - 1 ≠ 0 := by linarith
  have e3 : (n : ℝ) ≠ 0 := by linarith
  rw [average_congr (g := fun S => (∑ i ∈ S, (f i - Spec.itemMean f) ^ 2) - (∑ i ∈ S, (f i - Spec.itemMean f)) ^ 2 / (k : ℝ))]
  · rw [average_sub, average_div, average_sq_treated hk hn h2, average_treated hk hn]
    show (k : ℝ) / n * Spec.itemSumSq f - _ = _
    field_simp
    ring
  · intro S hS
    obtain ⟨c1, -⟩ := card_of_assigned hS
    rw [sum_sq_dev_on S (by rw [c1]; exact e1) f (Spec.itemMean f), c1]

/-- The average sum of squared deviations of the other items. -/
theorem average_sumSq_control (hk : 1 ≤ k) (hn : k < n) (h2 : 2 ≤ n) (f : Fin n → ℝ) :
    Spec.averageOver (Spec.assignments n k) (fun S => (∑ i ∈ Sᶜ, f i ^ 2) - (∑ i ∈ Sᶜ, f i) ^ 2 / Sᶜ.card) =
      ((n : ℝ) - k - 1) / (n - 1) * Spec.itemSumSq f := by
  have h2' : (2 : ℝ) ≤ n := by exact_mod_cast h2
  have hk' : (1 : ℝ) ≤ k := by exact_mod_cast hk
  have hn' : (k : ℝ) < n := by exact_mod_cast hn
  have e1 : (n : ℝ) - k ≠ 0 := by linarith
  have e2 : (n : ℝ) - 1 ≠ 0 := by linarith
  have e3 : (n : ℝ) ≠ 0 := by linarith
  rw [average_congr (g := fun S => (Spec.itemSumSq f - ∑ i ∈ S, (f i - Spec.itemMean f) ^ 2) - (∑ i ∈ S, (f i - Spec.itemMean f)) ^ 2 / ((n : ℝ) - k))]
  · rw [average_sub, average_sub, average_const (assignments_nonempty hn.le), average_div, average_sq_treated hk hn.le h2, average_treated hk hn.le]
    show Spec.itemSumSq f - (k : ℝ) / n * Spec.itemSumSq f - _ = _
    field_simp
    ring
  · intro S hS
    obtain ⟨-, c2⟩ := card_of_assigned hS
    rw [sum_sq_dev_on Sᶜ (by rw [c2]; exact e1) f (Spec.itemMean f), c2, compl_sum, compl_sum, itemSum_dev f e3, zero_sub, neg_sq]
    rfl

theorem itemMean_add (f g : Fin n → ℝ) : Spec.itemMean (fun i => f i + g i) = Spec.itemMean f + Spec.itemMean g := by
  unfold Spec.itemMean
  rw [sum_add_distrib, add_div]

theorem itemMean_mul (c : ℝ) (f : Fin n → ℝ) : Spec.itemMean (fun i => c * f i) = c * Spec.itemMean f := by
  unfold Spec.itemMean
  rw [← mul_sum, mul_div_assoc]

/-- The sum of squared deviations of a linear combination. -/
theorem sumSq_comb (f g : Fin n → ℝ) (a b : ℝ) : Spec.itemSumSq (fun i => a * f i + b * g i) =
    a ^ 2 * Spec.itemSumSq f + b ^ 2 * Spec.itemSumSq g + 2 * a * b * ∑ i, (f i - Spec.itemMean f) * (g i - Spec.itemMean g) := by
  unfold Spec.itemSumSq
  rw [itemMean_add, itemMean_mul, itemMean_mul, mul_sum, mul_sum, mul_sum, ← sum_add_distrib, ← sum_add_distrib]
  exact sum_congr rfl fun i _ => by ring

/-- The variance of the difference in means over the assignments. -/
theorem average_difference_sq (hk : 1 ≤ k) (hn : k < n) (y1 y0 : Fin n → ℝ) :
    Spec.averageOver (Spec.assignments n k) (fun S => ((∑ i ∈ S, y1 i) / S.card - (∑ i ∈ Sᶜ, y0 i) / Sᶜ.card - Spec.itemMean (fun i => y1 i - y0 i)) ^ 2) =
      (k : ℝ) * (n - k) / (n * (n - 1)) * Spec.itemSumSq (fun i => 1 / (k : ℝ) * y1 i + 1 / ((n : ℝ) - k) * y0 i) := by
  have hk' : (1 : ℝ) ≤ k := by exact_mod_cast hk
  have hn' : (k : ℝ) < n := by exact_mod_cast hn
  have e1 : (k : ℝ) ≠ 0 := by linarith
  have e2 : (n : ℝ) - k ≠ 0 := by linarith
  have e3 : (n : ℝ) ≠ 0 := by linarith
  rw [← average_sq_treated hk hn.le (by omega)]
  refine average_congr fun S hS => ?_
  obtain ⟨c1, c2⟩ := card_of_assigned hS
  rw [c1, c2, compl_sum]
  congr 1
  rw [sum_sub_distrib, sum_const, nsmul_eq_mul, c1, itemMean_add, itemMean_mul, itemMean_mul, sum_add_distrib, ← mul_sum, ← mul_sum]
  unfold Spec.itemMean
  rw [sum_sub_distrib]
  field_simp
  ring

/-- **Neyman's formula**: the average squared standard error exceeds the variance of the difference in means by the spread of the effects. -/
theorem neyman (h2 : 2 ≤ k) (hn : k + 2 ≤ n) (y1 y0 : Fin n → ℝ) :
    Spec.averageOver (Spec.assignments n k) (fun S =>
        ((∑ i ∈ S, y1 i ^ 2) - (∑ i ∈ S, y1 i) ^ 2 / S.card) / (S.card * (S.card - 1)) +
        ((∑ i ∈ Sᶜ, y0 i ^ 2) - (∑ i ∈ Sᶜ, y0 i) ^ 2 / Sᶜ.card) / (Sᶜ.card * (Sᶜ.card - 1))) =
      Spec.averageOver (Spec.assignments n k)
        (fun S => ((∑ i ∈ S, y1 i) / S.card - (∑ i ∈ Sᶜ, y0 i) / Sᶜ.card - Spec.itemMean (fun i => y1 i - y0 i)) ^ 2) +
      Spec.itemSumSq (fun i => y1 i - y0 i) / (n * (n - 1)) := by
  have hk' : (2 : ℝ) ≤ k := by exact_mod_cast h2
  have hn' : (k : ℝ) + 2 ≤ n := by exact_mod_cast hn
  have e1 : (k : ℝ) ≠ 0 := by linarith
  have e2 : (n : ℝ) - k ≠ 0 := by linarith
  have e3 : (n : ℝ) ≠ 0 := by linarith
  have e4 : (n : ℝ) - 1 ≠ 0 := by linarith
  have e5 : (k : ℝ) - 1 ≠ 0 := by linarith
  have e6 : (n : ℝ) - k - 1 ≠ 0 := by linarith
  rw [average_difference_sq (by omega) (by omega), sumSq_comb, show (fun i => y1 i - y0 i) = fun i => 1 * y1 i + (-1) * y0 i by funext i; ring, sumSq_comb]
  rw [average_congr (g := fun S => ((∑ i ∈ S, y1 i ^ 2) - (∑ i ∈ S, y1 i) ^ 2 / S.card) / ((k : ℝ) * (k - 1)) +
        ((∑ i ∈ Sᶜ, y0 i ^ 2) - (∑ i ∈ Sᶜ, y0 i) ^ 2 / Sᶜ.card) / (((n : ℝ) - k) * (n - k - 1)))]
  · rw [average_add, average_div, average_div, average_sumSq_treated (by omega) (by omega) (by omega),
      average_sumSq_control (by omega) (by omega) (by omega)]
    generalize ∑ i, (y1 i - Spec.itemMean y1) * (y0 i - Spec.itemMean y0) = P
    generalize Spec.itemSumSq y1 = A
    generalize Spec.itemSumSq y0 = B
    field_simp
    ring
  · intro S hS
    obtain ⟨c1, c2⟩ := card_of_assigned hS
    rw [c1, c2]

/-- The difference in means after subtracting the regression on a covariate, over the assignments. -/
theorem average_adjusted (hk : 1 ≤ k) (hn : k < n) (y1 y0 x : Fin n → ℝ) (hx : Spec.itemSumSq x ≠ 0) :
    Spec.averageOver (Spec.assignments n k) (fun S => (∑ i ∈ S, y1 i) / S.card - (∑ i ∈ Sᶜ, y0 i) / Sᶜ.card -
        (∑ i, y0 i * (x i - Spec.itemMean x) + ∑ i ∈ S, (y1 i - y0 i) * (x i - Spec.itemMean x)) / Spec.itemSumSq x *
          ((∑ i ∈ S, x i) / S.card - (∑ i ∈ Sᶜ, x i) / Sᶜ.card)) =
      Spec.itemMean (fun i => y1 i - y0 i) -
        (∑ i, (y1 i - y0 i) * (x i - Spec.itemMean x) ^ 2) / Spec.itemSumSq x / (n - 1) := by
  have hk' : (1 : ℝ) ≤ k := by exact_mod_cast hk
  have hn' : (k : ℝ) < n := by exact_mod_cast hn
  have e1 : (k : ℝ) ≠ 0 := by linarith
  have e2 : (n : ℝ) - k ≠ 0 := by linarith
  have e3 : (n : ℝ) ≠ 0 := by linarith
  have e4 : (n : ℝ) - 1 ≠ 0 := by linarith
  rw [average_sub, average_difference hk hn]
  congr 1
  obtain ⟨u, hu⟩ : ∃ u : Fin n → ℝ, u = fun i => x i - Spec.itemMean x := ⟨_, rfl⟩
  have hu' : ∀ i, x i - Spec.itemMean x = u i := fun i => by rw [hu]
  have hu0 : ∑ i, u i = 0 := by rw [hu]; exact itemSum_dev x e3
  simp only [hu']
  rw [average_congr (g := fun S => (n : ℝ) / (k * (n - k) * Spec.itemSumSq x) *
    ((∑ i, y0 i * u i) * (∑ i ∈ S, u i) + (∑ i ∈ S, (y1 i - y0 i) * u i) * ∑ i ∈ S, u i))]
  · rw [average_mul_left, average_add, average_mul_left, average_treated hk hn.le, hu0,
      average_treated_centred hk hn.le (by omega) _ _ hu0]
    have : ∀ i, (y1 i - y0 i) * u i * u i = (y1 i - y0 i) * u i ^ 2 := fun i => by ring
    simp only [this]
    field_simp
    ring
  · intro S hS
    obtain ⟨c1, c2⟩ := card_of_assigned hS
    have ex : ∑ i ∈ S, x i = ∑ i ∈ S, u i + k * Spec.itemMean x := by
      rw [hu, sum_sub_distrib, sum_const, nsmul_eq_mul, c1]
      ring
    have ec : ∑ i, x i = n * Spec.itemMean x := by
      unfold Spec.itemMean
      field_simp
    rw [c1, c2, compl_sum, ec, ex]
    field_simp
    ring

/-- The estimate of an untrimmed crossover, in terms of the items' differences while treated first (`p`) and second (`q`), over the assignments. -/
theorem average_crossover (hk : 1 ≤ k) (hn : k ≤ n) (p q : Fin n → ℝ) :
    Spec.averageOver (Spec.assignments n k) (fun S =>
        (∑ i ∈ S, p i + ∑ i ∈ Sᶜ, q i - (2 * (S.card : ℝ) - n) * ((∑ i ∈ S, p i - ∑ i ∈ Sᶜ, q i) / n)) / n) =
      4 * k * (n - k) / (n : ℝ) ^ 2 * Spec.itemMean (fun i => (p i + q i) / 2) := by
  have hk' : (1 : ℝ) ≤ k := by exact_mod_cast hk
  have hn' : (k : ℝ) ≤ n := by exact_mod_cast hn
  have e3 : (n : ℝ) ≠ 0 := by linarith
  rw [average_congr (g := fun S => 2 * ((n : ℝ) - k) / (n : ℝ) ^ 2 * (∑ i ∈ S, p i) + 2 * k / (n : ℝ) ^ 2 * (∑ i, q i) - 2 * k / (n : ℝ) ^ 2 * ∑ i ∈ S, q i)]
  · rw [average_sub, average_add, average_mul_left, average_mul_left, average_mul_left, average_treated hk hn, average_treated hk hn,
      average_const (assignments_nonempty hn)]
    unfold Spec.itemMean
    rw [← sum_div, sum_add_distrib]
    field_simp
    ring
  · intro S hS
    obtain ⟨c1, -⟩ := card_of_assigned hS
    rw [c1, compl_sum]
    field_simp
    ring

/-- Neyman's formula for untrimmed crossovers with equally large groups. -/
theorem neyman_crossover (h2 : 2 ≤ k) (hn : n = 2 * k) (p q : Fin n → ℝ) :
    Spec.averageOver (Spec.assignments n k) (fun S =>
        ((∑ i ∈ S, p i ^ 2) - (∑ i ∈ S, p i) ^ 2 / S.card + ((∑ i ∈ Sᶜ, q i ^ 2) - (∑ i ∈ Sᶜ, q i) ^ 2 / Sᶜ.card)) / (n * (n - 1))) =
      ((n : ℝ) - 2) / (n - 1) * (Spec.averageOver (Spec.assignments n k)
        (fun S => ((∑ i ∈ S, p i + ∑ i ∈ Sᶜ, q i) / n - Spec.itemMean (fun i => (p i + q i) / 2)) ^ 2) +
      Spec.itemSumSq (fun i => (p i + q i) / 2) / (n * (n - 1))) := by
  have hk' : (2 : ℝ) ≤ k := by exact_mod_cast h2
  have hn' : (n : ℝ) = 2 * k := by exact_mod_cast hn
  have e1 : (k : ℝ) ≠ 0 := by linarith
  have e3 : (n : ℝ) ≠ 0 := by linarith
  have e4 : (n : ℝ) - 1 ≠ 0 := by linarith
  have e5 : (k : ℝ) - 1 ≠ 0 := by linarith
  have key := neyman h2 (by omega) p (fun i => -q i)
  have hs : Spec.itemSumSq (fun i => (p i + q i) / 2) = Spec.itemSumSq (fun i => p i - -q i) / 4 := by
    rw [show (fun i => (p i + q i) / 2) = fun i => 1 / 2 * p i + 1 / 2 * q i by funext i; ring, sumSq_comb,
      show (fun i => p i - -q i) = fun i => 1 * p i + 1 * q i by funext i; ring, sumSq_comb]
    ring
  have hm : Spec.itemMean (fun i => (p i + q i) / 2) = Spec.itemMean (fun i => p i - -q i) / 2 := by
    rw [show (fun i => (p i + q i) / 2) = fun i => 1 / 2 * (p i - -q i) by funext i; ring, itemMean_mul]
    ring
  have f1 : Spec.averageOver (Spec.assignments n k) (fun S => ((∑ i ∈ S, p i + ∑ i ∈ Sᶜ, q i) / n - Spec.itemMean (fun i => (p i + q i) / 2)) ^ 2) =
      1 / 4 * Spec.averageOver (Spec.assignments n k)
        (fun S => ((∑ i ∈ S, p i) / S.card - (∑ i ∈ Sᶜ, -q i) / Sᶜ.card - Spec.itemMean (fun i => p i - -q i)) ^ 2) := by
    rw [← average_mul_left]
    refine average_congr fun S hS => ?_
    obtain ⟨c1, c2⟩ := card_of_assigned hS
    rw [c1, c2, hm, sum_neg_distrib, hn']
    rw [show (2 * (k : ℝ) - k) = k by ring]
    field_simp
    ring
  have f2 : Spec.averageOver (Spec.assignments n k) (fun S =>
        ((∑ i ∈ S, p i ^ 2) - (∑ i ∈ S, p i) ^ 2 / S.card + ((∑ i ∈ Sᶜ, q i ^ 2) - (∑ i ∈ Sᶜ, q i) ^ 2 / Sᶜ.card)) / (n * (n - 1))) =
      (k : ℝ) * (k - 1) / (n * (n - 1)) * Spec.averageOver (Spec.assignments n k) (fun S =>
        ((∑ i ∈ S, p i ^ 2) - (∑ i ∈ S, p i) ^ 2 / S.card) / (S.card * (S.card - 1)) +
        ((∑ i ∈ Sᶜ, (-q i) ^ 2) - (∑ i ∈ Sᶜ, -q i) ^ 2 / Sᶜ.card) / (Sᶜ.card * (Sᶜ.card - 1))) := by
    rw [← average_mul_left]
    refine average_congr fun S hS => ?_
    obtain ⟨c1, c2⟩ := card_of_assigned hS
    have : (n : ℝ) - k = k := by rw [hn']; ring
    rw [c1, c2, this, sum_neg_distrib, neg_sq]
    simp only [neg_sq]
    field_simp
  rw [f1, f2, key, hs, hn']
  rw [hn'] at e4
  field_simp
  ring

end Feedx
