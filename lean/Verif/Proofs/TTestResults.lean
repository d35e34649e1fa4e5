import Verif.Proofs.TTestSE
import Verif.Proofs.Cuped

/-!
Helper lemmas about the two t-tests.
-/

set_option linter.unusedSectionVars false
set_option linter.unusedSimpArgs false

namespace Feedx

open Fl

theorem row0_asStack (l : List ℝ) : rowOf (asStack l) 0 = l := by
  unfold rowOf asStack
  rw [List.map_map]
  exact List.map_id l

theorem length_asStack (l : List ℝ) : (asStack l).length = l.length := by simp [asStack]

/-- Creating a trimmed array succeeds or fails depending on the quantile and the number of samples only. -/
theorem mkTrimmed_transfer {R : Rounding ℝ} {argsort argsort' : List ℝ → List ℕ} (ha' : ArgsortOk argsort')
    {m m' : ℕ} {cols : List (Fin (m + 1) → ℝ)} {cols' : List (Fin (m' + 1) → ℝ)} {q : ℝ}
    {T : TrimmedArray ℝ m} (h : mkTrimmed R argsort cols q = .ok T) (hl : cols.length = cols'.length) :
    ∃ T', mkTrimmed R argsort' cols' q = .ok T' ∧ T'.len = T.len := by
  obtain ⟨⟨h0, h1⟩, -, h2, h3, -⟩ := mkTrimmed_ok h
  have hg : 2 * nTrimOf R q cols'.length ≤ cols'.length := by rw [← hl, ← h2]; omega
  obtain ⟨T', hT'⟩ : ∃ T', mkTrimmed R argsort' cols' q = .ok T' := ⟨_, mkTrimmed_eq ha' cols' h0 h1 hg⟩
  refine ⟨T', hT', ?_⟩
  obtain ⟨-, -, e2, e3, -⟩ := mkTrimmed_ok hT'
  rw [← hl, ← h2] at e2
  unfold TrimmedArray.len
  omega

theorem ratioOf_finite {T : TrimmedArray ℝ 1} {x : ℝ} (h : (ratioOf T).2 = fin x) :
    ∃ y, (ratioOf T).1 = fin y := by
  obtain ⟨h1, h2⟩ := ratioMeanVar_eq_fin h
  unfold ratioOf
  rw [ratioMeanVar_fin h1 h2]
  exact ⟨_, rfl⟩

/-- What a returned result of the independent test is computed from. -/
theorem indTest_ok {R : Rounding ℝ} {argsort : List ℝ → List ℕ} {D : TDist} {v1 v2 : List ℝ} {q : ℝ}
    {d1 d2 : Option (List ℝ)} {ev : Bool} {alt : String} {α : ℝ} {r : TestResult}
    (h : indTest R argsort D v1 v2 q d1 d2 ev alt α = .ok r) :
    (∃ x1 x2, d1 = some x1 ∧ d2 = some x2 ∧ ∃ T1 T2, mkTrimmed R argsort (stack2 v1 x1) q = .ok T1 ∧
      mkTrimmed R argsort (stack2 v2 x2) q = .ok T2 ∧ 1 < T1.len ∧ 1 < T2.len ∧
      resultsFrom D (indEstimates (ratioOf T1).1 (ratioOf T2).1 (ratioOf T1).2 (ratioOf T2).2 T1.len T2.len ev)
        false alt α = .ok r) ∨
    (d1 = none ∧ d2 = none ∧ ∃ T1 T2, mkTrimmed R argsort (asStack v1) q = .ok T1 ∧
      mkTrimmed R argsort (asStack v2) q = .ok T2 ∧ 1 < T1.len ∧ 1 < T2.len ∧
      resultsFrom D (indEstimates (fin (T1.mean 0)) (fin (T2.mean 0)) (fin (T1.var 1 0)) (fin (T2.var 1 0))
        T1.len T2.len ev) true alt α = .ok r) := by
  unfold indTest at h
  cases d1 with
  | none =>
    cases d2 with
    | none =>
      right
      obtain ⟨T1, h1, h⟩ := Py.bind_eq_ok.mp h
      obtain ⟨T2, h2, h⟩ := Py.bind_eq_ok.mp h
      obtain ⟨h3, h⟩ := raiseIf_bind_ok.mp h
      push Not at h3
      exact ⟨rfl, rfl, T1, T2, h1, h2, h3.1, h3.2, h⟩
    | some x => cases h
  | some x1 =>
    cases d2 with
    | none => cases h
    | some x2 =>
      left
      obtain ⟨-, h⟩ := raiseIf_bind_ok.mp h
      obtain ⟨T1, h1, h⟩ := Py.bind_eq_ok.mp h
      obtain ⟨T2, h2, h⟩ := Py.bind_eq_ok.mp h
      obtain ⟨h3, h⟩ := raiseIf_bind_ok.mp h
      push Not at h3
      exact ⟨x1, x2, rfl, rfl, T1, T2, h1, h2, h3.1, h3.2, h⟩

/-- What a returned result of the paired test is computed from. -/
theorem pairedTest_ok {R : Rounding ℝ} {argsort : List ℝ → List ℕ} {D : TDist} {v1 v2 : List ℝ} {q : ℝ}
    {d1 d2 : Option (List ℝ)} {alt : String} {α : ℝ} {r : TestResult}
    (h : pairedTest R argsort D v1 v2 q d1 d2 alt α = .ok r) :
    (∃ x1 x2, d1 = some x1 ∧ d2 = some x2 ∧ ∃ T, mkTrimmed R argsort (stack5 v1 x1 v2 x2) q = .ok T ∧
      1 < T.len ∧ resultsFrom D (pairedRatio T) false alt α = .ok r) ∨
    (d1 = none ∧ d2 = none ∧ ∃ T, mkTrimmed R argsort (stack3 v1 v2) q = .ok T ∧
      1 < T.len ∧ resultsFrom D (pairedPlain T) false alt α = .ok r) := by
  unfold pairedTest at h
  obtain ⟨-, h⟩ := raiseIf_bind_ok.mp h
  cases d1 with
  | none =>
    cases d2 with
    | none =>
      right
      obtain ⟨T1, h1, h⟩ := Py.bind_eq_ok.mp h
      obtain ⟨h3, h⟩ := raiseIf_bind_ok.mp h
      exact ⟨rfl, rfl, T1, h1, not_le.mp h3, h⟩
    | some x => cases h
  | some x1 =>
    cases d2 with
    | none => cases h
    | some x2 =>
      left
      obtain ⟨-, h⟩ := raiseIf_bind_ok.mp h
      obtain ⟨T1, h1, h⟩ := Py.bind_eq_ok.mp h
      obtain ⟨h3, h⟩ := raiseIf_bind_ok.mp h
      exact ⟨x1, x2, rfl, rfl, T1, h1, not_le.mp h3, h⟩

/-- The independent test with a positive standard error: estimate, interval and degrees of freedom. -/
theorem indTest_finite {R : Rounding ℝ} {argsort : List ℝ → List ℕ} {D : TDist} {v1 v2 : List ℝ} {q : ℝ}
    {d1 d2 : Option (List ℝ)} {ev : Bool} {alt : String} {α : ℝ} {r : TestResult}
    (h : indTest R argsort D v1 v2 q d1 d2 ev alt α = .ok r) {s : ℝ} (hs : 0 < s)
    (hse : r.standardError = fin s) :
    KnownAlt alt ∧ ∃ d df : ℝ, 0 < df ∧ r.absoluteDifference = fin d ∧ r.degreesOfFreedom = fin df ∧
      r.pValue = pOf D (fin df) (fin d / fin s) alt ∧ r.isSignificant = Fl.lt r.pValue (fin α) ∧
      (r.absoluteLower, r.absoluteUpper) = boundsOf D (fin d) (fin s) (fin df) alt α := by
  have key : ∀ (m1 m2 w1 w2 : Fl ℝ) (n1 n2 : ℕ) (pf : Bool), 1 < n1 → 1 < n2 →
      (∀ x, w1 = fin x → ∃ y, m1 = fin y) → (∀ x, w2 = fin x → ∃ y, m2 = fin y) →
      resultsFrom D (indEstimates m1 m2 w1 w2 n1 n2 ev) pf alt α = .ok r →
      KnownAlt alt ∧ ∃ d df : ℝ, 0 < df ∧ r.absoluteDifference = fin d ∧ r.degreesOfFreedom = fin df ∧
      r.pValue = pOf D (fin df) (fin d / fin s) alt ∧ r.isSignificant = Fl.lt r.pValue (fin α) ∧
      (r.absoluteLower, r.absoluteUpper) = boundsOf D (fin d) (fin s) (fin df) alt α := by
    intro m1 m2 w1 w2 n1 n2 pf hn1 hn2 k1 k2 hr
    obtain ⟨hk, a1, a2, a3, a4, a5, a6, a7, a8, a9, a10⟩ := resultsFrom_ok hr
    have hse' : (indEstimates m1 m2 w1 w2 n1 n2 ev).differenceSE = fin s := by rw [← a7, hse]
    obtain ⟨b1, ⟨df, hdf, hdf'⟩, x, y, rfl, rfl, -, -⟩ := ind_finite hn1 hn2 hse' hs
    obtain ⟨y1, rfl⟩ := k1 _ rfl
    obtain ⟨y2, rfl⟩ := k2 _ rfl
    refine ⟨hk, y1 - y2, df, hdf, ?_, ?_, ?_, a3, ?_⟩
    · rw [a5]; simp [indEstimates]
    · rw [a9, hdf']
    · rw [a2, hdf', hse']; simp [indEstimates]
    · rw [a6, hdf', show (indEstimates (fin y1) (fin y2) (fin x) (fin y) n1 n2 ev).corr = fin 0 from rfl, b1]
      simp [indEstimates]
  rcases indTest_ok h with ⟨x1, x2, -, -, T1, T2, -, -, hl1, hl2, hr⟩ | ⟨-, -, T1, T2, -, -, hl1, hl2, hr⟩
  · exact key _ _ _ _ _ _ _ hl1 hl2 (fun x hx => ratioOf_finite hx) (fun x hx => ratioOf_finite hx) hr
  · exact key _ _ _ _ _ _ _ hl1 hl2 (fun x _ => ⟨_, rfl⟩) (fun x _ => ⟨_, rfl⟩) hr

theorem boundsOf_nan {D : TDist} {d df : Fl ℝ} {alt : String} {α : ℝ} :
    (boundsOf D d nan df alt α).1 = nan ∨ (boundsOf D d nan df alt α).2 = nan := by
  unfold boundsOf
  split_ifs
  · left; rw [mul_nan, sub_nan]
  · left; rw [mul_nan, sub_nan]
  · right; rw [mul_nan, add_nan]

/-- The paired test with a finite standard error and bounds that are not nan. -/
theorem pairedTest_finite {R : Rounding ℝ} {argsort : List ℝ → List ℕ} (ha : ArgsortOk argsort) {D : TDist}
    {v1 v2 : List ℝ} {q : ℝ} {d1 d2 : Option (List ℝ)} {alt : String} {α : ℝ} {r : TestResult}
    (h : pairedTest R argsort D v1 v2 q d1 d2 alt α = .ok r) {s : ℝ} 
    (hse : r.standardError = fin s) (hl : r.absoluteLower ≠ nan) (hu : r.absoluteUpper ≠ nan) :
    KnownAlt alt ∧ ∃ d : ℝ, 1 < r.sampleSize ∧ r.absoluteDifference = fin d ∧
      r.degreesOfFreedom = fin ((r.sampleSize : ℝ) - 1) ∧
      r.pValue = pOf D (fin ((r.sampleSize : ℝ) - 1)) (fin d / fin s) alt ∧
      r.isSignificant = Fl.lt r.pValue (fin α) ∧
      (r.absoluteLower, r.absoluteUpper) =
        boundsOf D (fin d) (fin s) (fin ((r.sampleSize : ℝ) - 1)) alt α := by
  have hnan : ∀ {d df : Fl ℝ}, (r.absoluteLower, r.absoluteUpper) ≠ boundsOf D d nan df alt α := by
    intro d df heq
    rcases boundsOf_nan (D := D) (d := d) (df := df) (alt := alt) (α := α) with h' | h'
    · exact hl (by rw [← h', ← heq])
    · exact hu (by rw [← h', ← heq])
  rcases pairedTest_ok h with ⟨x1, x2, -, -, T, hT, hlen, hr⟩ | ⟨-, -, T, hT, hlen, hr⟩
  · obtain ⟨hk, a1, a2, a3, a4, a5, a6, a7, a8, a9, a10⟩ := resultsFrom_ok hr
    have hse' : (pairedRatio T).differenceSE = fin s := by rw [← a7, hse]
    rcases pairedRatio_se hlen hse' with ⟨b1, b2⟩ | ⟨b1, b2, x, y, b3, b4⟩
    · rw [b2] at a6; exact absurd a6 hnan
    · have hss : r.sampleSize = T.len := a8
      have hd : (pairedRatio T).difference = fin (x - y) := by
        rw [← fin_sub, ← b3, ← b4]; rfl
      refine ⟨hk, x - y, by rw [hss]; exact hlen, by rw [a5, hd], ?_, ?_, a3, ?_⟩
      · rw [a9, b1, hss]
      · rw [a2, b1, hse', hd, hss]
      · rw [a6, b2, b1, b3, b4, fin_sub, hss]
  · obtain ⟨hk, a1, a2, a3, a4, a5, a6, a7, a8, a9, a10⟩ := resultsFrom_ok hr
    have hse' : (pairedPlain T).differenceSE = fin s := by rw [← a7, hse]
    obtain ⟨b0, b1, b2, b3, b4⟩ := pairedPlain_se ha hT hlen
    by_cases h0 : T.cov 1 1 1 * T.cov 1 2 2 = 0
    · rw [b3 h0] at a6; exact absurd a6 hnan
    · have hss : r.sampleSize = T.len := a8
      have hd : (pairedPlain T).difference = fin (T.mean 0) := rfl
      refine ⟨hk, T.mean 0, by rw [hss]; exact hlen, by rw [a5, hd], ?_, ?_, a3, ?_⟩
      · rw [a9, b1, hss]
      · rw [a2, b1, hse', hd, hss]
      · rw [a6, b4 h0, b1, hse', hss]
        rw [show (pairedPlain T).mean1 - (pairedPlain T).mean2 = fin (T.mean 0) by
          rw [b2]; exact fin_sub _ _]

/-- The tests return once the alternative is known and no Python division by zero happens. -/
theorem resultsFrom_returns {D : TDist} {e : Estimates} {pf : Bool} {alt : String} {α : ℝ}
    (hk : KnownAlt alt)
    (h0 : ¬ (pf = true ∧ e.mean2 = fin 0 ∧ Fl.le (fin 0) e.mean1 = true)) :
    ∃ r, resultsFrom D e pf alt α = .ok r := by
  unfold resultsFrom
  rw [ttestFromStats_known hk, absoluteCI_known hk]
  simp only [bind, Except.bind]
  split_ifs with hc
  · simp only [Bool.and_eq_true] at hc
    have h1 : ¬ (pf = true ∧ e.mean2 = fin 0) := fun h' => h0 ⟨h'.1, h'.2, hc.1⟩
    unfold raiseIf relativeCI
    rw [if_neg h1]
    have nl : ∀ x : Fl ℝ, Fl.le (fin 0) x = true → Fl.lt x (fin 0) = false := by
      intro x hx
      cases x with
      | fin y => simpa using hx
      | nan => rfl
      | pinf => rfl
      | ninf => simp [Fl.le] at hx
    simp only [raiseIf, nl _ hc.1, nl _ hc.2, Bool.false_eq_true, or_self, if_false, criticalT_known hk, bind,
      Except.bind]
    split_ifs <;> exact ⟨_, rfl⟩
  · exact ⟨_, rfl⟩

end Feedx
