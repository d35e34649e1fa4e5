import Verif.Props.SimulateRepeat

/-!
Facts for the counterexample of C98: what the first trimming keeps when all values are tied, and the variance it leaves.
-/

set_option linter.unusedSectionVars false
set_option linter.unusedSimpArgs false

namespace Feedx
open Fl

variable {R : Rounding ℝ} {argsort : List ℝ → List ℕ} {D : TDist}

theorem countP_idxOf {l : List ℕ} (h : l.Nodup) (k : ℕ) (hk : k ≤ l.length) : l.countP (fun j => decide (l.idxOf j < k)) = k := by
  have e : l = (List.range l.length).map (fun t => l.getD t 0) := by
    apply List.ext_getElem
    · simp
    · intro i h1 h2
      simp [List.getD_eq_getElem?_getD, h1]
  have e2 : l.countP (fun j => decide (l.idxOf j < k)) = (List.range l.length).countP (fun t => decide (t < k)) := by
    conv_lhs => rw [e]
    rw [List.countP_map]
    apply List.countP_congr
    intro t ht
    have ht := List.mem_range.mp ht
    have : l.idxOf (l.getD t 0) = t := by
      rw [List.getD_eq_getElem?_getD, List.getElem?_eq_getElem ht]
      exact h.idxOf_getElem t ht
    simp only [Function.comp_apply, decide_eq_true_eq]
    rw [← e, this]
  rw [e2]
  have gen : ∀ n k : ℕ, k ≤ n → (List.range n).countP (fun t => decide (t < k)) = k := by
    intro n
    induction n with
    | zero => intro k hk; simp; omega
    | succ n ih =>
      intro k hk
      rw [List.range_succ, List.countP_append]
      rcases Nat.lt_or_ge n k with h | h
      · have : k = n + 1 := by omega
        subst this
        have h1 := ih n le_rfl
        have h2 : (List.range n).countP (fun t => decide (t < n + 1)) = (List.range n).countP (fun t => decide (t < n)) := by
          apply List.countP_congr
          intro t ht
          have := List.mem_range.mp ht
          simp; omega
        rw [h2, h1]
        simp
      · rw [ih k h]
        simp; omega
  exact gen _ k hk

/-- The rank of a position among tied values is its place in the shuffled order. -/
theorem rankFirst_tied {v : ℕ → Fl ℝ} {order : List ℕ} {n : ℕ} (hp : order.Perm (List.range n)) {x : ℝ} (hv : ∀ i < n, v i = .fin x) {i : ℕ} (hi : i < n) :
    rankFirst v order i = 1 + order.idxOf i := by
  unfold rankFirst
  have hnd : order.Nodup := hp.nodup_iff.mpr List.nodup_range
  have e : order.countP (fun j => decide (Fl.lt (v i) (v j) = true ∨ (v j = v i ∧ order.idxOf j < order.idxOf i))) =
      order.countP (fun j => decide (order.idxOf j < order.idxOf i)) := by
    apply List.countP_congr
    intro j hj
    have hj : j < n := List.mem_range.mp (hp.mem_iff.mp hj)
    rw [hv i hi, hv j hj]
    simp
  rw [e, countP_idxOf hnd _ List.idxOf_le_length]

/-- Rows that the trimming keeps when all values are tied: those that do not come first in the shuffled order. -/
theorem trimWide_tied {σ : Shuffle} {w w' : Wide ℝ} {l : List String} {t : ℝ} {g : ℕ} {x : ℝ}
    (hv : ∀ r ∈ w.rows, r.val l = .fin x) (hg : R.floorMul t w.rows.length = g) (hg0 : 0 < g)
    (h : trimWide R σ w l t 0 = .ok w') (r : WideRow ℝ) :
    r ∈ w'.rows ↔ ∃ i, w.rows[i]? = some r ∧ g ≤ (σ.order w.rows.length).idxOf i := by
  have hb : R.floorMul 0 w.rows.length = 0 := by
    unfold Rounding.floorMul
    have := R.intFix 0 (by norm_num)
    simp only [zero_mul]
    rw [show (0 : ℝ) = ((0 : ℤ) : ℝ) by simp, this]; simp
  unfold trimWide at h
  obtain ⟨out, hout, h⟩ := Py.bind_eq_ok.mp h
  cases h
  unfold trimOutliers at hout
  have hout := (raiseIf_bind_ok.mp (raiseIf_bind_ok.mp (raiseIf_bind_ok.mp hout).2).2).2
  dsimp only at hout
  simp only [List.length_map, List.length_zipIdx, hg, hb] at hout
  rw [if_neg (by omega)] at hout
  have hout := (raiseIf_bind_ok.mp (raiseIf_bind_ok.mp hout).2).2
  cases hout
  set f : Frame ℝ := ⟨if l ∈ w.cols then ["position", "order"] else ["position"],
    w.rows.zipIdx.map (fun p c => if c = "position" then (Cell.int (p.2 : ℤ) : Cell ℝ) else flCell (p.1.val l))⟩ with hf
  have hval : ∀ i < w.rows.length, valueAt f "order" i = .fin x := by
    intro i hi
    unfold valueAt
    have : f.rows[i]? = some (fun c => if c = "position" then (Cell.int (i : ℤ) : Cell ℝ) else flCell ((w.rows[i]).val l)) := by
      simp [hf, List.getElem?_map, List.getElem?_zipIdx, List.getElem?_eq_getElem hi]
    rw [this]
    simp [hv _ (List.getElem_mem hi), flCell, Cell.toFl]
  have hrow : ∀ i < w.rows.length, f.rows[i]? =
      some (fun c => if c = "position" then (Cell.int (i : ℤ) : Cell ℝ) else flCell ((w.rows.getD i ⟨[], fun _ => .nan⟩).val l)) := by
    intro i hi
    simp [hf, List.getElem?_map, List.getElem?_zipIdx, List.getElem?_eq_getElem hi, List.getD_eq_getElem?_getD]
  have hlen : f.rows.length = w.rows.length := by simp [hf]
  have hint : ∀ (L : List (Cell ℝ)) (z : ℤ), z ∈ ints L ↔ Cell.int z ∈ L := by
    intro L z
    unfold ints
    rw [List.mem_filterMap]
    constructor
    · rintro ⟨a, ha, h⟩
      cases a <;> simp at h
      subst h; exact ha
    · intro h; exact ⟨_, h, rfl⟩
  rw [List.mem_filterMap]
  constructor
  · rintro ⟨z, hz, hr⟩
    rw [hint] at hz
    obtain ⟨row, hrow', hz⟩ := List.mem_map.mp hz
    obtain ⟨⟨row', i⟩, hp, rfl⟩ := List.mem_map.mp hrow'
    rw [List.mem_filter] at hp
    obtain ⟨hp, hk⟩ := hp
    have hi := List.mem_zipIdx_iff_getElem?.mp hp
    simp only at hi hz hk
    have hlt : i < w.rows.length := by
      rw [← hlen]
      exact (List.getElem?_eq_some_iff.mp hi).1
    rw [hrow i hlt] at hi
    have hi := Option.some.inj hi
    rw [← hi] at hz
    simp at hz
    subst hz
    refine ⟨i, by simpa using hr, ?_⟩
    rw [rankFirst_tied (σ.perm _) hval hlt] at hk
    simp at hk
    omega
  · rintro ⟨i, hi, hge⟩
    have hlt : i < w.rows.length := (List.getElem?_eq_some_iff.mp hi).1
    refine ⟨(i : ℤ), ?_, by simpa using hi⟩
    rw [hint]
    obtain ⟨row, hrowi, hpos⟩ : ∃ row, f.rows[i]? = some row ∧ row "position" = .int (i : ℤ) := ⟨_, hrow i hlt, if_pos rfl⟩
    refine List.mem_map.mpr ⟨row, List.mem_map.mpr ⟨(row, i), List.mem_filter.mpr ⟨List.mem_zipIdx_iff_getElem?.mpr hrowi, ?_⟩, rfl⟩, hpos⟩
    simp only
    rw [rankFirst_tied (σ.perm _) hval hlt, hval i hlt]
    have hidx : (σ.order w.rows.length).idxOf i < w.rows.length := by
      have h1 : i ∈ σ.order w.rows.length := (σ.perm _).mem_iff.mpr (List.mem_range.mpr hlt)
      have h2 := List.idxOf_lt_length_iff.mpr h1
      rwa [(σ.perm _).length_eq, List.length_range] at h2
    simp [Fl.isNan]
    omega

/-- Position `k` comes first. -/
def shuffleFirst (k : ℕ) : Shuffle where
  order n := if k < n then k :: (List.range n).erase k else List.range n
  perm n := by
    split_ifs with h
    · exact (List.perm_cons_erase (List.mem_range.mpr h)).symm
    · exact List.Perm.refl _

/-- Position `k` comes last. -/
def shuffleLast (k : ℕ) : Shuffle where
  order n := if k < n then (List.range n).erase k ++ [k] else List.range n
  perm n := by
    split_ifs with h
    · exact (List.perm_append_singleton k _).trans (List.perm_cons_erase (List.mem_range.mpr h)).symm
    · exact List.Perm.refl _

theorem shuffleFirst_idx {k n : ℕ} (h : k < n) : ((shuffleFirst k).order n).idxOf k = 0 := by
  simp [shuffleFirst, h]

theorem shuffleLast_idx {k n : ℕ} (h : k < n) : ((shuffleLast k).order n).idxOf k = n - 1 := by
  have h1 : k ∉ (List.range n).erase k := fun hm => (List.Nodup.mem_erase_iff List.nodup_range).mp hm |>.1 rfl
  simp only [shuffleLast, h, if_true]
  rw [List.idxOf_append_of_notMem h1, List.length_erase_of_mem (List.mem_range.mpr h), List.length_range]
  simp

/-- The variance of equal values is zero. -/
theorem var_constant {m : ℕ} {cols : List (Fin (m + 1) → ℝ)} (h : ∀ c ∈ cols, c 0 = 0) : (⟨cols, 0, cols⟩ : TrimmedArray ℝ m).var 1 0 = 0 := by
  have hsum : (rowOf cols 0).sum = 0 := by
    apply List.sum_eq_zero
    intro x hx
    obtain ⟨c, hc, rfl⟩ := List.mem_map.mp hx
    exact h c hc
  have hw : (⟨cols, 0, cols⟩ : TrimmedArray ℝ m).winsorizedMean 0 = 0 := by
    simp [TrimmedArray.winsorizedMean, hsum]
  unfold TrimmedArray.var TrimmedArray.cov
  simp only [hw, Nat.cast_zero, zero_mul, add_zero, sub_zero]
  rw [List.sum_eq_zero, zero_div]
  intro x hx
  obtain ⟨c, hc, rfl⟩ := List.mem_map.mp hx
  simp [h c hc]

/-- The variance of values that differ is positive. -/
theorem var_varied {m : ℕ} {cols : List (Fin (m + 1) → ℝ)} {a b : Fin (m + 1) → ℝ} (ha : a ∈ cols) (hb : b ∈ cols) (hab : a 0 ≠ b 0)
    (hlen : 1 < cols.length) : 0 < (⟨cols, 0, cols⟩ : TrimmedArray ℝ m).var 1 0 := by
  unfold TrimmedArray.var TrimmedArray.cov
  set μ := (⟨cols, 0, cols⟩ : TrimmedArray ℝ m).winsorizedMean 0 with hμ
  simp only [Nat.cast_zero, zero_mul, add_zero]
  have hden : (0 : ℝ) < ((⟨cols, 0, cols⟩ : TrimmedArray ℝ m).len : ℝ) - ((1 : ℕ) : ℝ) := by
    show (0 : ℝ) < (cols.length : ℝ) - ((1 : ℕ) : ℝ)
    have : (1 : ℝ) < cols.length := by exact_mod_cast hlen
    simpa using this
  apply div_pos _ hden
  have hnn : ∀ x ∈ cols.map (fun c => (c 0 - μ) * (c 0 - μ)), 0 ≤ x := by
    intro x hx
    obtain ⟨c, -, rfl⟩ := List.mem_map.mp hx
    exact mul_self_nonneg _
  have hle : ∀ c ∈ cols, (c 0 - μ) * (c 0 - μ) ≤ (cols.map (fun c => (c 0 - μ) * (c 0 - μ))).sum := fun c hc =>
    List.single_le_sum hnn _ (List.mem_map.mpr ⟨c, hc, rfl⟩)
  by_contra hn
  have h0 : ∀ c ∈ cols, c 0 = μ := by
    intro c hc
    have h1 := hle c hc
    have h2 := mul_self_nonneg (c 0 - μ)
    have h3 : (c 0 - μ) * (c 0 - μ) = 0 := by
      have := not_lt.mp hn
      linarith
    have := mul_self_eq_zero.mp h3
    linarith
  exact hab ((h0 a ha).trans (h0 b hb).symm)

end Feedx
