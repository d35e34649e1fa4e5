import Verif.Model.Design
import Verif.Spec.Design
import Mathlib.Tactic.Linarith
import Mathlib.Tactic.Positivity
import Mathlib.Tactic.Push
import Mathlib.Algebra.Ring.Int.Parity
import Mathlib.Data.List.Perm.Basic
import Mathlib.Data.List.Nodup

/-! Helper lemmas about design construction and YAML. -/

set_option linter.unusedSectionVars false

namespace Feedx

variable {K : Type} [Field K] [LinearOrder K] [FloorRing K]

section
variable (R : Rounding K)

omit [FloorRing K] [LinearOrder K] [Field K] in
theorem validateCrossover_ok_iff (d : Design K) (u : Unit) :
    validateCrossover d = .ok u ↔ (d.isCrossover = true →
      ∃ w, d.washout = some w ∧ 0 ≤ w ∧ 2 * w < d.runtime ∧ Even d.runtime) := by
  unfold validateCrossover
  by_cases hc : d.isCrossover = true
  · rw [if_pos hc]
    cases hw : d.washout with
    | none => simp [hc]
    | some w =>
      simp only [raiseIf_bind_ok, raiseIf_ok, hc, Int.even_iff, forall_const, Option.some.injEq,
        exists_eq_left']
      omega
  · simp [hc]

omit [FloorRing K] [LinearOrder K] [Field K] in
theorem validateCrossover_err (d : Design K) (e : PyErr) (h : validateCrossover d = .error e) :
    e = .valueError := by
  unfold validateCrossover at h
  split at h
  · split at h
    · cases h; rfl
    · simp only [raiseIf_bind_err, raiseIf_err] at h
      rcases h with h | ⟨_, h | ⟨_, h⟩⟩ <;> exact h.2.symm
  · cases h

theorem validateDesign_ok_iff (d : Design K) :
    validateDesign R d = .ok () ↔
      Spec.LegalParams d.toDesignParams (R.rnd (d.preTop.val + d.preBottom.val)) ∧
        50 < d.nAfterPost := by
  unfold validateDesign
  simp only [raiseIf_bind_ok]
  simp only [Py.bind_eq_ok, raiseIf_ok, validateCrossover_ok_iff, not_le, not_lt, ge_iff_le]
  constructor
  · rintro ⟨h1, h2, h3, h4, h5, h6, h7, h8, _, h9, h10⟩
    refine ⟨⟨h1, h2, h3, h4, h5, h6, h7, ?_, h9⟩, h10⟩
    intro hp
    push Not at h8
    exact ⟨le_antisymm (h8 hp).1 h3, le_antisymm (h8 hp).2 h4⟩
  · rintro ⟨h, h50⟩
    refine ⟨h.1, h.2, h.3, h.4, h.5, h.6, h.7, ?_, (), h.9, h50⟩
    rintro ⟨hp, h'⟩
    obtain ⟨a, b⟩ := h.no_pretrim_without_pretest hp
    rw [a, b] at h'
    simp at h'

theorem validateDesign_err (d : Design K) (e : PyErr) (h : validateDesign R d = .error e) :
    e = .valueError := by
  unfold validateDesign at h
  simp only [raiseIf_bind_err] at h
  simp only [Py.bind_eq_error, raiseIf_err] at h
  rcases h with h | ⟨_, h | ⟨_, h | ⟨_, h | ⟨_, h | ⟨_, h | ⟨_, h | ⟨_, h | ⟨_, h | ⟨_, _, _, h⟩⟩⟩⟩⟩⟩⟩⟩⟩
  all_goals first | exact h.2.symm | exact h.symm | exact validateCrossover_err d e h

theorem mkDesign_ok_iff (p : DesignParams K) (d : Design K) :
    mkDesign R p = .ok d ↔ d = deriveCounts R p ∧ validateDesign R d = .ok () := by
  unfold mkDesign
  simp only [Py.bind_eq_ok]
  constructor
  · rintro ⟨a, h, h'⟩; cases h'; exact ⟨rfl, h⟩
  · rintro ⟨rfl, h⟩; exact ⟨(), h, rfl⟩

theorem mkDesign_err (p : DesignParams K) (e : PyErr) (h : mkDesign R p = .error e) :
    e = .valueError := by
  unfold mkDesign at h
  simp only [Py.bind_eq_error] at h
  rcases h with h | ⟨_, _, h⟩
  · exact validateDesign_err R _ _ h
  · cases h

theorem deriveCounts_params (p : DesignParams K) : (deriveCounts R p).toDesignParams = p := rfl

end

section rounding
variable [IsStrictOrderedRing K] (R : Rounding K)

omit [FloorRing K] [IsStrictOrderedRing K] in
theorem Rounding.zero : R.rnd 0 = 0 := by
  have := R.intFix 0 (by norm_num); simpa using this

theorem floorMul_nonneg {p : K} {n : ℤ} (hp : 0 ≤ p) (hn : 0 ≤ n) : 0 ≤ R.floorMul p n := by
  unfold Rounding.floorMul
  apply Int.floor_nonneg.mpr
  have h : (0 : K) ≤ p * n := mul_nonneg hp (by exact_mod_cast hn)
  have := R.mono h
  rwa [R.zero] at this

theorem floorMul_le_of_le {p : K} {n m : ℤ} (h : p * n ≤ m) (hm : |m| ≤ 2 ^ 53) :
    R.floorMul p n ≤ m := by
  unfold Rounding.floorMul
  have := R.mono h
  rw [R.intFix m hm] at this
  exact_mod_cast (Int.floor_le _).trans this

omit [IsStrictOrderedRing K] in
theorem le_floorMul_of_le {p : K} {n m : ℤ} (h : (m : K) ≤ p * n) (hm : |m| ≤ 2 ^ 53) :
    m ≤ R.floorMul p n := by
  unfold Rounding.floorMul
  have := R.mono h
  rw [R.intFix m hm] at this
  exact Int.le_floor.mpr this

end rounding

section dict
variable {V : Type}

theorem lookup_perm {m m' : Dict V} (h : m.Perm m') (hn : (m.map Prod.fst).Nodup) (k : String) :
    m.lookup k = m'.lookup k := by
  induction h with
  | nil => rfl
  | cons x _ ih =>
    obtain ⟨a, b⟩ := x
    simp only [List.map_cons, List.nodup_cons] at hn
    simp only [List.lookup_cons]
    split <;> [rfl; exact ih hn.2]
  | swap x y l =>
    obtain ⟨a, b⟩ := x
    obtain ⟨c, d⟩ := y
    simp only [List.map_cons, List.nodup_cons, List.mem_cons, not_or] at hn
    simp only [List.lookup_cons]
    by_cases h1 : k = a
    · subst h1
      have h2 : (k == c) = false := by simpa using (Ne.symm hn.1.1)
      simp [h2]
    · have h1' : (k == a) = false := by simpa using h1
      simp [h1']
  | trans h1 _ ih1 ih2 =>
    rw [ih1 hn, ih2]
    exact (h1.map Prod.fst).nodup_iff.mp hn

theorem lookup_filter_ne {m : Dict V} {k k' : String} (h : k ≠ k') :
    (m.filter (fun e => e.1 ≠ k')).lookup k = m.lookup k := by
  induction m with
  | nil => rfl
  | cons x l ih =>
    obtain ⟨a, b⟩ := x
    rw [List.filter_cons, List.lookup_cons]
    by_cases h1 : a = k'
    · subst h1
      have : (k == a) = false := by simpa using h
      simp only [ne_eq, not_true_eq_false, decide_false, this]
      simpa using ih
    · simp only [ne_eq, h1, not_false_eq_true, decide_true, if_true, List.lookup_cons]
      split <;> [rfl; simpa using ih]

theorem pop_eq_ok {m : Dict V} {k : String} {v : V} {m' : Dict V} :
    m.pop k = .ok (v, m') ↔ m.lookup k = some v ∧ m' = m.filter (fun e => e.1 ≠ k) := by
  unfold Dict.pop
  cases h : m.lookup k <;> simp [eq_comm]

theorem required_perm {m m' : Dict V} (h : m.Perm m') (hn : (m.map Prod.fst).Nodup) (k : String) :
    required m k = required m' k := by
  unfold required; rw [lookup_perm h hn]

theorem pop_perm {m m' : Dict V} (h : m.Perm m') (hn : (m.map Prod.fst).Nodup) {k : String}
    {v : V} {r : Dict V} (hp : m.pop k = .ok (v, r)) :
    ∃ r', m'.pop k = .ok (v, r') ∧ r.Perm r' ∧ (r.map Prod.fst).Nodup := by
  obtain ⟨h1, rfl⟩ := pop_eq_ok.mp hp
  refine ⟨_, pop_eq_ok.mpr ⟨?_, rfl⟩, h.filter _, ?_⟩
  · rw [← lookup_perm h hn, h1]
  · exact hn.sublist (List.filter_sublist.map _)

end dict

theorem paramsOfDict_perm {a b : K} {m m' : Dict (YVal K)} (h : m.Perm m')
    (hn : (m.map Prod.fst).Nodup) : paramsOfDict a b m = paramsOfDict a b m' := by
  unfold paramsOfDict
  have hany : (m.any (fun e => !(initNames.contains e.1))) =
      (m'.any (fun e => !(initNames.contains e.1))) := by
    rw [Bool.eq_iff_iff, List.any_eq_true, List.any_eq_true]
    simp only [h.mem_iff]
  rw [hany]
  simp only [required_perm h hn, lookup_perm h hn]

end Feedx
