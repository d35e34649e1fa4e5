import Verif.Proofs.Assign
import Verif.Props.Trimmed
import Verif.Props.Validate
import Verif.Props.DesignId
import Mathlib.Data.Nat.Choose.Basic
import Mathlib.Algebra.BigOperators.Intervals

/-!
C55–C59: trimming outliers and assigning items to control and treatment.
-/

set_option linter.unusedSectionVars false

namespace Feedx

variable {K : Type} [Field K] [LinearOrder K] [FloorRing K] [IsStrictOrderedRing K]

/-! ### C55 -/

/-- **C55**, for data without missing values in the ordering column.  The rows returned are what is left, in the original order, after
cutting `floor(n * top)` rows with the highest and `floor(n * bottom)` rows with the lowest values, whatever the shuffle does with ties;
so `n - floor(n * top) - floor(n * bottom)` rows are left. -/
theorem C55_trims_the_extremes_partial (R : Rounding K) (σ : Shuffle) (f out : Frame K) (c : String) (top bottom : K)
    (hn : f.rows.length ≤ 2 ^ 51) (hnum : ∀ r ∈ f.rows, Spec.IsNumber (r c)) (hv : ∀ r ∈ f.rows, r c ≠ .null)
    (h : trimOutliers R σ f c top bottom = .ok out) :
    out.cols = f.cols ∧
    Spec.CutsExtremes (fun r : Row K => (r c).toFl) ⌊R.rnd (top * f.rows.length)⌋ ⌊R.rnd (bottom * f.rows.length)⌋ f.rows out.rows ∧
    (out.rows.length : ℤ) = f.rows.length - ⌊R.rnd (top * f.rows.length)⌋ - ⌊R.rnd (bottom * f.rows.length)⌋ := by
  obtain ⟨⟨h1, h2, h3⟩, hc, hcut⟩ := trimOutliers_ok h hn
  have hle : top + bottom ≤ 1 := by
    by_contra hc
    have := R.mono (not_le.mp hc).le
    have e := R.intFix 1 (by norm_num)
    rw [Int.cast_one] at e
    rw [e] at this
    exact absurd h3 (not_lt.mpr this)
  have hf : ∀ p : K, ⌊R.rnd (p * f.rows.length)⌋ = R.floorMul p f.rows.length := by
    intro p
    rw [Rounding.floorMul, Int.cast_natCast]
  rw [hf, hf]
  have := cuts_of_complete hcut (floorMul_nonneg R h1 (by omega)) (floorMul_nonneg R h2 (by omega))
    (floorMul_add_le R h1 h2 hle (by omega) (by exact_mod_cast hn)) (fun r hr => by
      have := hv r hr
      cases hx : r c with
      | inf b => cases b <;> simp [Cell.toFl, Fl.isNan]
      | null => exact absurd hx this
      | str s => exact absurd hx ((hnum r hr).1 s)
      | time t => exact absurd hx ((hnum r hr).2 t)
      | _ => simp [Cell.toFl, Fl.isNan])
  exact ⟨hc, this, this.length⟩

/-- **C55.**  Negative fractions and fractions that (as computed) sum to one or more raise `ValueError`; legal fractions never do, and if
there is a numeric ordering column the call returns. -/
theorem C55_illegal_fractions_raise (R : Rounding K) (σ : Shuffle) (f : Frame K) (c : String) (top bottom : K) :
    (¬ (0 ≤ top ∧ 0 ≤ bottom ∧ R.rnd (top + bottom) < 1) → trimOutliers R σ f c top bottom = .error .valueError) ∧
    (0 ≤ top ∧ 0 ≤ bottom ∧ R.rnd (top + bottom) < 1 → trimOutliers R σ f c top bottom ≠ .error .valueError ∧
      (c ∈ f.cols → (∀ r ∈ f.rows, Spec.IsNumber (r c)) → (trimOutliers R σ f c top bottom).Returns)) := by
  unfold trimOutliers
  refine ⟨fun h => ?_, ?_⟩
  · simp only [raiseIf_bind_err]
    by_cases h1 : top < 0
    · exact Or.inl ⟨h1, trivial⟩
    · by_cases h2 : bottom < 0
      · exact Or.inr ⟨h1, Or.inl ⟨h2, trivial⟩⟩
      · refine Or.inr ⟨h1, Or.inr ⟨h2, Or.inl ⟨?_, trivial⟩⟩⟩
        push Not at h1 h2
        exact not_lt.mp (fun h3 => h ⟨h1, h2, h3⟩)
  · rintro ⟨h1, h2, h3⟩
    refine ⟨?_, ?_⟩
    · intro he
      simp only [raiseIf_bind_err] at he
      rcases he with ⟨he, -⟩ | ⟨-, ⟨he, -⟩ | ⟨-, ⟨he, -⟩ | ⟨-, he⟩⟩⟩
      · exact absurd he (not_lt.mpr h1)
      · exact absurd he (not_lt.mpr h2)
      · exact absurd he (not_le.mpr h3)
      · split at he
        · cases he
        · simp only [raiseIf_bind_err] at he
          rcases he with ⟨-, he⟩ | ⟨-, ⟨-, he⟩ | ⟨-, he⟩⟩ <;> cases he
    · intro hc hnum
      by_cases h0 : R.floorMul top f.rows.length = 0 ∧ R.floorMul bottom f.rows.length = 0
      · refine ⟨f, ?_⟩
        simp only [raiseIf_bind_ok]
        refine ⟨not_lt.mpr h1, not_lt.mpr h2, not_le.mpr h3, ?_⟩
        rw [if_pos h0]
        rfl
      · refine ⟨{ f with rows := (f.rows.zipIdx.filter (fun p => !(valueAt f c p.2).isNan && decide
            (R.floorMul top f.rows.length < rankFirst (valueAt f c) (σ.order f.rows.length) p.2 ∧
              (rankFirst (valueAt f c) (σ.order f.rows.length) p.2 : ℤ) ≤ f.rows.length - R.floorMul bottom f.rows.length))).map Prod.fst }, ?_⟩
        simp only [raiseIf_bind_ok]
        refine ⟨not_lt.mpr h1, not_lt.mpr h2, not_le.mpr h3, ?_⟩
        rw [if_neg h0]
        simp only [raiseIf_bind_ok]
        refine ⟨by simpa using hc, ?_, rfl⟩
        rw [Bool.not_eq_true, List.any_eq_false]
        intro r hr
        simp [isNumeric_iff.mpr (hnum r hr)]

/-- **C55.**  In general: unless nothing is to be cut, rows without a value are cut as well, and count as the lowest ones. -/
theorem C55_with_missing_values (R : Rounding K) (σ : Shuffle) (f out : Frame K) (c : String) (top bottom : K)
    (hn : f.rows.length ≤ 2 ^ 51) (h : trimOutliers R σ f c top bottom = .ok out) :
    Spec.CutsExtremesOrMissing (fun r : Row K => (r c).toFl) ⌊R.rnd (top * f.rows.length)⌋ ⌊R.rnd (bottom * f.rows.length)⌋ f.rows
      out.rows := by
  have := (trimOutliers_ok h hn).2.2
  rwa [Rounding.floorMul, Rounding.floorMul, Int.cast_natCast] at this

/-- A shuffle that leaves the order. -/
def noShuffle : Shuffle := ⟨List.range, fun _ => List.Perm.refl _⟩

/-- Four items, one without a value. -/
def fourValues : Frame ℚ where
  cols := ["i", "x"]
  rows := [("a", Cell.num 3), ("b", Cell.null), ("c", Cell.num 1), ("d", Cell.num 2)].map (fun p c =>
    if c = "i" then Cell.str p.1 else if c = "x" then p.2 else Cell.null)

/-- **C55 is false as stated** when values are missing: cutting one of four rows leaves two. -/
theorem C55_missing_values_false :
    ¬ ∀ (R : Rounding ℚ) (σ : Shuffle) (f out : Frame ℚ) (c : String) (top bottom : ℚ), f.rows.length ≤ 2 ^ 51 →
      trimOutliers R σ f c top bottom = .ok out →
      (out.rows.length : ℤ) = f.rows.length - ⌊R.rnd (top * f.rows.length)⌋ - ⌊R.rnd (bottom * f.rows.length)⌋ := by
  intro h
  have e : (trimOutliers (Rounding.exact ℚ) noShuffle fourValues "x" (1 / 4) 0).map (fun o => o.rows.length) = .ok 2 := by
    decide +kernel
  cases ho : trimOutliers (Rounding.exact ℚ) noShuffle fourValues "x" (1 / 4) 0 with
  | error => rw [ho] at e; cases e
  | ok out =>
    have h1 := h _ _ _ _ _ _ _ (by decide) ho
    rw [ho] at e
    have e' : out.rows.length = 2 := by simpa [Except.map] using e
    rw [e'] at h1
    revert h1
    decide +kernel

/-- C55 is not vacuous: of four values the highest is cut, and of two equal lowest ones the one the shuffle puts last. -/
example : (trimOutliers (Rounding.exact ℚ) noShuffle
      ⟨["x"], [3, 1, 5, 1].map (fun x c => if c = "x" then .int x else .null)⟩ "x" (1 / 4) (1 / 3)).map (fun o => o.table) =
    .ok [[.int 3], [.int 1]] := by
  decide +kernel

/-! ### C56 -/

/-- **C56.**  For every design that can be created, trimming as many rows as the design counts before trimming, none of them missing its
value, with the design's fractions leaves the number the design gives after the first trimming; a trimmed array over that many samples with
the design's fraction leaves the number the design gives after the second. -/
theorem C56_counts_agree (R : Rounding K) (p : DesignParams K) (d : Design K) (hd : mkDesign R p = .ok d) (σ : Shuffle) (f : Frame K)
    (c : String) (hn : (f.rows.length : ℤ) = d.nBefore) (hn' : f.rows.length ≤ 2 ^ 51) (hc : c ∈ f.cols)
    (hnum : ∀ r ∈ f.rows, Spec.IsNumber (r c)) (hv : ∀ r ∈ f.rows, r c ≠ .null) :
    (∃ out, trimOutliers R σ f c d.preTop.val d.preBottom.val = .ok out ∧ (out.rows.length : ℤ) = d.nAfterPre) ∧
    ∀ (argsort : List K → List ℕ), ArgsortOk argsort → ∀ (m : ℕ) (cols : List (Fin (m + 1) → K)), (cols.length : ℤ) = d.nAfterPre →
      ∃ T, mkTrimmed R argsort cols d.postTrim.val = .ok T ∧ (T.trimmed.length : ℤ) = d.nAfterPost := by
  obtain ⟨rfl, hval⟩ := (mkDesign_ok_iff R p d).mp hd
  obtain ⟨hl, -⟩ := (validateDesign_ok_iff R _).mp hval
  have hleg : 0 ≤ p.preTop.val ∧ 0 ≤ p.preBottom.val ∧ R.rnd (p.preTop.val + p.preBottom.val) < 1 :=
    ⟨hl.top_nonneg, hl.bottom_nonneg, hl.pre_lt_one⟩
  have hn0 : (f.rows.length : ℤ) = p.nBefore := hn
  have hcast : (f.rows.length : K) = (p.nBefore : K) := by rw [← hn0, Int.cast_natCast]
  refine ⟨?_, ?_⟩
  · obtain ⟨out, ho⟩ := ((C55_illegal_fractions_raise R σ f c p.preTop.val p.preBottom.val).2 hleg).2 hc hnum
    refine ⟨out, ho, ?_⟩
    rw [(C55_trims_the_extremes_partial R σ f out c _ _ hn' hnum hv ho).2.2, hcast, hn0]
    rfl
  · intro argsort ha m cols hlen
    have hn2 : (0 : ℤ) ≤ p.nBefore := by omega
    have hle : (cols.length : ℤ) ≤ p.nBefore := by
      rw [hlen]
      have h1 := floorMul_nonneg R hl.top_nonneg hn2
      have h2 := floorMul_nonneg R hl.bottom_nonneg hn2
      have e : (deriveCounts R p).nAfterPre = p.nBefore - R.floorMul p.preTop.val p.nBefore - R.floorMul p.preBottom.val p.nBefore := rfl
      have e1 : (deriveCounts R p).preTop = p.preTop := rfl
      have e2 : (deriveCounts R p).preBottom = p.preBottom := rfl
      rw [e1] at h1
      rw [e2] at h2
      omega
    have hq : 0 ≤ p.postTrim.val ∧ p.postTrim.val < 1 / 2 := ⟨hl.post_nonneg, hl.post_lt_half⟩
    obtain ⟨T, hT⟩ := (C16_accepts_iff R argsort ha m cols (by omega) p.postTrim.val).1.mpr hq
    refine ⟨T, hT, ?_⟩
    obtain ⟨-, h2, -, h4⟩ := C16_trims_exactly_the_extremes R argsort ha m cols _ T hT
    have e : (deriveCounts R p).nAfterPost = (deriveCounts R p).nAfterPre - 2 * R.floorMul p.postTrim.val (deriveCounts R p).nAfterPre := rfl
    rw [e, ← hlen, Rounding.floorMul, Int.cast_natCast, ← h2]
    omega

/-! ### C57 -/

theorem performAssignment_ok {R : Rounding K} {σ : Shuffle} {E : Ext K} {binom : ℕ → ℕ → Py K} {bytes : List ℕ} {f out : Frame K}
    {d d' : Design K} {itemCol : String} {weekCol : Option String} {treatCol : String}
    (h : performAssignment R σ E binom bytes f d itemCol weekCol treatCol = (d', .ok out)) :
    ¬ (d.hasPreTrim ∧ weekCol = none) ∧ itemCol ∈ f.cols ∧ itemCol ≠ treatCol ∧
    ∃ coin items, chooseCoin d bytes = .ok coin ∧ d' = { d with salt := some coin.salt } ∧
      eligibleItems R σ f d itemCol weekCol = .ok items ∧ out = assignedFrame E coin itemCol treatCol items := by
  unfold performAssignment at h
  split at h
  · cases h
  rename_i h1
  split at h
  · cases h
  rename_i h2
  split at h
  · cases h
  rename_i h3
  push Not at h2
  refine ⟨h1, h2.1, h3, ?_⟩
  cases hc : chooseCoin d bytes with
  | error e => simp [hc] at h
  | ok coin =>
    simp only [hc, Prod.mk.injEq, Py.bind_eq_ok] at h
    obtain ⟨rfl, items, h4, _, -, h5⟩ := h
    cases h5
    exact ⟨coin, items, rfl, rfl, h4, rfl⟩

theorem chooseCoin_ok {d : Design K} {bytes : List ℕ} {coin : Coinflip} (h : chooseCoin d bytes = .ok coin) :
    coin.salt ≠ "" ∧ ((d.salt.getD "" ≠ "") → coin.salt = d.salt.getD "") ∧
      (d.salt.getD "" = "" → coin.salt = String.ofList (Md5.hex bytes)) := by
  unfold chooseCoin coinflipOfBytes mkCoinflip at h
  split at h
  · rename_i h1
    cases h
    exact ⟨h1, fun _ => rfl, fun h => absurd h h1⟩
  · rename_i h1
    split at h
    · cases h
    · rename_i h2
      cases h
      exact ⟨h2, fun h => absurd h h1, fun _ => rfl⟩

theorem assignedFrame_cols (E : Ext K) (coin : Coinflip) {itemCol treatCol : String} (hne : itemCol ≠ treatCol) (items : List (Cell K)) :
    (assignedFrame E coin itemCol treatCol items).col itemCol = items ∧
    ∀ r ∈ (assignedFrame E coin itemCol treatCol items).rows, r treatCol = .int (coin.flip (E.toStr (r itemCol))) := by
  unfold assignedFrame Frame.col
  refine ⟨by simp [Function.comp_def], ?_⟩
  intro r hr
  obtain ⟨i, -, rfl⟩ := List.mem_map.mp hr
  simp [Ne.symm hne]

/-- **C57.**  The table returned has every eligible item exactly once, with the coinflip of the design's salt (as the call leaves it) for
the item.  Without trimming before the test, the eligible items are those of the data.  With trimming, they are what is left of the items
that appear in the last `pretest` weeks after cutting the design's fractions of them with the highest and lowest totals of the primary
metric in those weeks. -/
theorem C57_each_eligible_item_once (R : Rounding K) (σ : Shuffle) (E : Ext K) (binom : ℕ → ℕ → Py K) (bytes : List ℕ) (f out : Frame K)
    (d d' : Design K) (itemCol : String) (weekCol : Option String) (treatCol : String) (hn : f.rows.length ≤ 2 ^ 51)
    (h : performAssignment R σ E binom bytes f d itemCol weekCol treatCol = (d', .ok out)) :
    (∃ salt, d'.salt = some salt ∧ salt ≠ "" ∧
      ∀ r ∈ out.rows, r treatCol = .int ((Coinflip.mk salt).flip (E.toStr (r itemCol)))) ∧
    out.cols = [itemCol, treatCol] ∧ (out.col itemCol).Nodup ∧
    (d.preTop.val ≤ 0 ∧ d.preBottom.val ≤ 0 → ∀ i, i ∈ out.col itemCol ↔ i ∈ f.col itemCol) ∧
    (0 < d.preTop.val ∨ 0 < d.preBottom.val → ∃ w, weekCol = some w ∧ ∃ all : List (Cell K), all.Nodup ∧
      (∀ i, i ∈ all ↔ i ≠ .null ∧ ∃ r ∈ f.rows, r itemCol = i ∧ Spec.InLastWeeks f w d.pretest r) ∧
      Spec.CutsExtremesOrMissing (Spec.lastWeeksTotal f w d.pretest itemCol d.primaryMetric)
        ⌊R.rnd (d.preTop.val * all.length)⌋ ⌊R.rnd (d.preBottom.val * all.length)⌋ all (out.col itemCol)) := by
  obtain ⟨h1, -, h3, coin, items, hcoin, rfl, hitems, rfl⟩ := performAssignment_ok h
  obtain ⟨hcol, hflip⟩ := assignedFrame_cols E coin h3 items
  have hnt : ¬ d.hasPreTrim → items = dropDup (f.col itemCol) := by
    intro hh
    unfold eligibleItems at hitems
    rw [if_neg hh] at hitems
    cases hitems
    rfl
  have htr : d.hasPreTrim → ∃ w, weekCol = some w ∧ ∃ all : List (Cell K), all.Nodup ∧
      (∀ i, i ∈ all ↔ i ≠ .null ∧ ∃ r ∈ f.rows, r itemCol = i ∧ Spec.InLastWeeks f w d.pretest r) ∧
      Spec.CutsExtremesOrMissing (Spec.lastWeeksTotal f w d.pretest itemCol d.primaryMetric)
        ⌊R.rnd (d.preTop.val * all.length)⌋ ⌊R.rnd (d.preBottom.val * all.length)⌋ all items := by
    intro hh
    obtain ⟨w, rfl⟩ : ∃ w, weekCol = some w := by
      cases weekCol with
      | none => exact absurd ⟨hh, rfl⟩ h1
      | some w => exact ⟨w, rfl⟩
    obtain ⟨all, a1, a2, a3⟩ := eligibleItems_trim hh hitems hn
    rw [Rounding.floorMul, Rounding.floorMul, Int.cast_natCast] at a3
    exact ⟨w, rfl, all, a1, a2, a3⟩
  rw [hcol]
  refine ⟨⟨coin.salt, rfl, (chooseCoin_ok hcoin).1, hflip⟩, rfl, ?_, ?_, ?_⟩
  · by_cases hh : d.hasPreTrim
    · obtain ⟨w, -, all, a1, -, a3⟩ := htr hh
      by_cases h0 : ⌊R.rnd (d.preTop.val * all.length)⌋ = 0 ∧ ⌊R.rnd (d.preBottom.val * all.length)⌋ = 0
      · rw [a3.1 h0]; exact a1
      · exact a1.sublist (a3.2 h0).1
    · rw [hnt hh]
      exact nodup_dropDup _
  · rintro ⟨t1, t2⟩ i
    rw [hnt (by unfold Design.hasPreTrim; push Not; exact ⟨t1, t2⟩), mem_dropDup]
  · exact fun hh => htr hh

/-- **C57.**  Wrong arguments raise `ValueError` and leave the design as it was: trimming without a week column, missing columns, the
assignment column equal to the item column. -/
theorem C57_wrong_arguments (R : Rounding K) (σ : Shuffle) (E : Ext K) (binom : ℕ → ℕ → Py K) (bytes : List ℕ) (f : Frame K) (d : Design K)
    (itemCol : String) (weekCol : Option String) (treatCol : String)
    (h : ((0 < d.preTop.val ∨ 0 < d.preBottom.val) ∧ ∀ w, weekCol = some w → w ∉ f.cols) ∨ itemCol ∉ f.cols ∨ itemCol = treatCol) :
    performAssignment R σ E binom bytes f d itemCol weekCol treatCol = (d, .error .valueError) := by
  unfold performAssignment
  split
  · rfl
  rename_i h1
  split
  · rfl
  rename_i h2
  split
  · rfl
  rename_i h3
  exfalso
  push Not at h2
  rcases h with ⟨ht, hw⟩ | hi | he
  · have ht' : d.hasPreTrim := ht
    cases weekCol with
    | none => exact h1 ⟨ht', rfl⟩
    | some w => exact hw w rfl (h2.2 ht')
  · exact hi h2.1
  · exact h3 he

/-- **C57.**  Without trimming and with valid arguments the call returns exactly when the sample ratio test is passed: its p-value for the
number of items in treatment among all items is at least 1/1000. -/
theorem C57_returns (R : Rounding K) (σ : Shuffle) (E : Ext K) (binom : ℕ → ℕ → Py K) (bytes : List ℕ) (f : Frame K) (d : Design K)
    (itemCol : String) (weekCol : Option String) (treatCol salt : String) (hs : d.salt = some salt) (hs' : salt ≠ "")
    (ht : d.preTop.val ≤ 0 ∧ d.preBottom.val ≤ 0) (hi : itemCol ∈ f.cols) (hne : itemCol ≠ treatCol) (hnull : Cell.null ∉ f.col itemCol)
    (p : K) (hp : binom (((f.col itemCol).toFinset.filter (fun i => (Coinflip.mk salt).flip (E.toStr i) = 1)).card)
      (f.col itemCol).toFinset.card = .ok p) :
    (1 / 1000 ≤ p → ∃ out, performAssignment R σ E binom bytes f d itemCol weekCol treatCol = (d, .ok out)) ∧
    (p < 1 / 1000 → performAssignment R σ E binom bytes f d itemCol weekCol treatCol = (d, .error .valueError)) := by
  have hnt : ¬ d.hasPreTrim := by unfold Design.hasPreTrim; push Not; exact ht
  have hcoin : chooseCoin d bytes = .ok ⟨salt⟩ := by
    unfold chooseCoin mkCoinflip
    simp [hs, hs']
  have hdd : ({ d with salt := some salt } : Design K) = d := by rw [← hs]
  obtain ⟨hcol, hflip⟩ := assignedFrame_cols E ⟨salt⟩ hne (dropDup (f.col itemCol))
  set out := assignedFrame E ⟨salt⟩ itemCol treatCol (dropDup (f.col itemCol)) with hout
  have harm : ∀ a : ℕ, armSize out itemCol treatCol (a : K) =
      ((f.col itemCol).toFinset.filter (fun i => (Coinflip.mk salt).flip (E.toStr i) = a)).card := by
    intro a
    unfold armSize
    rw [nunique_eq]
    congr 1
    ext i
    simp only [Finset.mem_erase, List.mem_toFinset, List.mem_map, List.mem_filter, Finset.mem_filter, decide_eq_true_eq]
    have hmem : ∀ j, j ∈ f.col itemCol ↔ ∃ r ∈ out.rows, r itemCol = j := by
      intro j
      rw [← mem_dropDup, ← hcol, Frame.col, List.mem_map]
    constructor
    · rintro ⟨-, r, ⟨hr, e⟩, rfl⟩
      refine ⟨(hmem _).mpr ⟨r, hr, rfl⟩, ?_⟩
      rw [hflip r hr] at e
      simp only [Cell.toFl, Fl.fin.injEq] at e
      exact_mod_cast e
    · rintro ⟨h1, h2⟩
      refine ⟨fun e => hnull (e ▸ h1), ?_⟩
      obtain ⟨r, hr, rfl⟩ := (hmem _).mp h1
      refine ⟨r, ⟨hr, ?_⟩, rfl⟩
      rw [hflip r hr, h2]
      simp [Cell.toFl]
  have hsum : armSize out itemCol treatCol 1 + armSize out itemCol treatCol 0 = (f.col itemCol).toFinset.card := by
    have h1 := harm 1
    have h0 := harm 0
    rw [Nat.cast_one] at h1
    rw [Nat.cast_zero] at h0
    rw [h1, h0, ← Finset.card_filter_add_card_filter_not (s := (f.col itemCol).toFinset)
      (fun i => (Coinflip.mk salt).flip (E.toStr i) = 1)]
    congr 2
    ext i
    simp only [Finset.mem_filter]
    refine and_congr Iff.rfl ?_
    have := (C07_coinflip_is_digest_parity ⟨salt⟩ (E.toStr i)).1
    omega
  have hratio : checkRatio binom out itemCol treatCol = .ok (decide (p < 1 / 1000)) := by
    unfold checkRatio
    simp only [raiseIf_bind_ok]
    refine ⟨by simp [hout, assignedFrame], ?_⟩
    have h1 := harm 1
    rw [Nat.cast_one] at h1
    rw [hsum, h1, hp]
    rfl
  have hperf : performAssignment R σ E binom bytes f d itemCol weekCol treatCol =
      (d, do
        runCheck [] "no_sample_ratio_mismatch" (checkRatio binom out itemCol treatCol)
        return out) := by
    unfold performAssignment
    rw [if_neg (fun hc => hnt hc.1), if_neg (by push Not; exact ⟨hi, fun hc => absurd hc hnt⟩), if_neg hne]
    simp only [hcoin, hdd]
    unfold eligibleItems
    rw [if_neg hnt]
    rfl
  rw [hperf, hratio]
  constructor
  · intro h
    refine ⟨out, ?_⟩
    have : decide (p < 1 / 1000) = false := by simpa using h
    rw [this]
    rfl
  · intro h
    have : decide (p < 1 / 1000) = true := by simpa using h
    rw [this]
    rfl

/-! ### C58 -/

/-- One call of `perform_treatment_assignment` on a design: everything else it is given or draws. -/
structure AssignCall (K : Type) [Field K] [LinearOrder K] where
  rounding : Rounding K
  shuffle : Shuffle
  binom : ℕ → ℕ → Py K
  bytes : List ℕ
  data : Frame K
  itemCol : String
  weekCol : Option String
  treatCol : String

/-- The calls of a history, one after the other on the same design object: the design afterwards, and for each call its assignment column
names and result. -/
def runCalls (E : Ext K) : Design K → List (AssignCall K) → Design K × List (String × String × Py (Frame K))
  | d, [] => (d, [])
  | d, c :: l =>
    let r := performAssignment c.rounding c.shuffle E c.binom c.bytes c.data d c.itemCol c.weekCol c.treatCol
    let rest := runCalls E r.1 l
    (rest.1, (c.itemCol, c.treatCol, r.2) :: rest.2)

theorem perform_design (R : Rounding K) (σ : Shuffle) (E : Ext K) (binom : ℕ → ℕ → Py K) (bytes : List ℕ) (f : Frame K) (d : Design K)
    (itemCol : String) (weekCol : Option String) (treatCol : String) :
    ((performAssignment R σ E binom bytes f d itemCol weekCol treatCol).1 = d ∧
      ∃ e, (performAssignment R σ E binom bytes f d itemCol weekCol treatCol).2 = .error e) ∨
    ∃ coin, chooseCoin d bytes = .ok coin ∧
      (performAssignment R σ E binom bytes f d itemCol weekCol treatCol).1 = { d with salt := some coin.salt } := by
  unfold performAssignment
  split
  · exact Or.inl ⟨rfl, _, rfl⟩
  split
  · exact Or.inl ⟨rfl, _, rfl⟩
  split
  · exact Or.inl ⟨rfl, _, rfl⟩
  cases hc : chooseCoin d bytes with
  | error e => exact Or.inl ⟨rfl, _, rfl⟩
  | ok coin => exact Or.inr ⟨coin, rfl, rfl⟩

theorem runCalls_salted (E : Ext K) (salt : String) (hs' : salt ≠ "") (calls : List (AssignCall K)) (d : Design K) (hs : d.salt = some salt) :
    (runCalls E d calls).1 = d ∧
    ∀ x ∈ (runCalls E d calls).2, ∀ out, x.2.2 = .ok out →
      ∀ r ∈ out.rows, r x.2.1 = .int ((Coinflip.mk salt).flip (E.toStr (r x.1))) := by
  induction calls with
  | nil => exact ⟨rfl, fun x hx => by cases hx⟩
  | cons c l ih =>
    have hcoin : ∀ bytes coin, chooseCoin d bytes = .ok coin → coin = ⟨salt⟩ := by
      intro bytes coin h
      have := (chooseCoin_ok h).2.1
      rw [hs] at this
      have := this hs'
      cases coin
      simpa using this
    have hd : (performAssignment c.rounding c.shuffle E c.binom c.bytes c.data d c.itemCol c.weekCol c.treatCol).1 = d := by
      rcases perform_design c.rounding c.shuffle E c.binom c.bytes c.data d c.itemCol c.weekCol c.treatCol with ⟨h, -⟩ | ⟨coin, h1, h2⟩
      · exact h
      · rw [h2, hcoin _ _ h1, ← hs]
    refine ⟨?_, ?_⟩
    · show (runCalls E _ l).1 = d
      rw [hd]
      exact ih.1
    · intro x hx out hout r hr
      simp only [runCalls] at hx
      rcases List.mem_cons.mp hx with rfl | hx
      · obtain ⟨-, -, hne, coin, items, h1, -, -, rfl⟩ := performAssignment_ok
          (show performAssignment c.rounding c.shuffle E c.binom c.bytes c.data d c.itemCol c.weekCol c.treatCol = (_, .ok out) from
            Prod.ext rfl hout)
        rw [hcoin _ _ h1] at hr
        exact (assignedFrame_cols E ⟨salt⟩ hne items).2 r hr
      · rw [hd] at hx
        exact ih.2 x hx out hout r hr

/-- **C58.**  A design with a salt keeps it, and every other field, through any history of calls on any data with any outcomes; all
assignments returned are the coinflips of that salt. -/
theorem C58_salt_kept (E : Ext K) (d : Design K) (salt : String) (hs : d.salt = some salt) (hs' : salt ≠ "")
    (calls : List (AssignCall K)) :
    (runCalls E d calls).1 = d ∧
    ∀ x ∈ (runCalls E d calls).2, ∀ out, x.2.2 = .ok out →
      ∀ r ∈ out.rows, r x.2.1 = .int ((Coinflip.mk salt).flip (E.toStr (r x.1))) :=
  runCalls_salted E salt hs' calls d hs

/-- **C58.**  A call that returns leaves the design with a non-empty salt, and the rest of the design as it was. -/
theorem C58_salt_set (R : Rounding K) (σ : Shuffle) (E : Ext K) (binom : ℕ → ℕ → Py K) (bytes : List ℕ) (f out : Frame K)
    (d d' : Design K) (itemCol : String) (weekCol : Option String) (treatCol : String)
    (h : performAssignment R σ E binom bytes f d itemCol weekCol treatCol = (d', .ok out)) :
    ∃ salt, salt ≠ "" ∧ d' = { d with salt := some salt } := by
  obtain ⟨-, -, -, coin, -, h1, h2, -⟩ := performAssignment_ok h
  exact ⟨coin.salt, (chooseCoin_ok h1).1, h2⟩

/-- **C58.**  In any history of calls on a design, with or without a salt to begin with, an item has the same assignment in all the tables
returned. -/
theorem C58_assignments_never_change (E : Ext K) (d : Design K) (calls : List (AssignCall K)) :
    ∀ x ∈ (runCalls E d calls).2, ∀ x' ∈ (runCalls E d calls).2, ∀ out out', x.2.2 = .ok out → x'.2.2 = .ok out' →
      ∀ r ∈ out.rows, ∀ r' ∈ out'.rows, r x.1 = r' x'.1 → r x.2.1 = r' x'.2.1 := by
  induction calls generalizing d with
  | nil => intro x hx; cases hx
  | cons c l ih =>
    -- either the first call changes nothing and raises, or the design has a salt from then on
    have key : (∃ salt, salt ≠ "" ∧ ∀ x ∈ (runCalls E d (c :: l)).2, ∀ out, x.2.2 = .ok out →
        ∀ r ∈ out.rows, r x.2.1 = .int ((Coinflip.mk salt).flip (E.toStr (r x.1)))) ∨
        ∃ e y, (runCalls E d (c :: l)).2 = (y, e) :: (runCalls E d l).2 ∧ ∃ er, e.2 = .error er := by
      rcases perform_design c.rounding c.shuffle E c.binom c.bytes c.data d c.itemCol c.weekCol c.treatCol with
        ⟨h, er, he⟩ | ⟨coin, h1, h2⟩
      · refine Or.inr ⟨(c.treatCol, (performAssignment c.rounding c.shuffle E c.binom c.bytes c.data d c.itemCol c.weekCol c.treatCol).2),
          c.itemCol, ?_, er, he⟩
        simp only [runCalls, h]
      · refine Or.inl ⟨coin.salt, (chooseCoin_ok h1).1, ?_⟩
        intro x hx out hout r hr
        simp only [runCalls] at hx
        rcases List.mem_cons.mp hx with rfl | hx
        · obtain ⟨-, -, hne, coin', items, h3, -, -, rfl⟩ := performAssignment_ok
            (show performAssignment c.rounding c.shuffle E c.binom c.bytes c.data d c.itemCol c.weekCol c.treatCol = (_, .ok out) from
              Prod.ext rfl hout)
          rw [h1] at h3
          cases h3
          exact (assignedFrame_cols E coin hne items).2 r hr
        · rw [h2] at hx
          exact (runCalls_salted E coin.salt (chooseCoin_ok h1).1 l { d with salt := some coin.salt } rfl).2 x hx out hout r hr
    rcases key with ⟨salt, -, key⟩ | ⟨e, y, hrun, er, he⟩
    · intro x hx x' hx' out out' ho ho' r hr r' hr' hi
      rw [key x hx out ho r hr, key x' hx' out' ho' r' hr', hi]
    · rw [hrun]
      intro x hx x' hx' out out' ho ho'
      rcases List.mem_cons.mp hx with rfl | hx
      · have : e.2 = .ok out := ho
        rw [he] at this
        cases this
      · rcases List.mem_cons.mp hx' with rfl | hx'
        · have : e.2 = .ok out' := ho'
          rw [he] at this
          cases this
        · exact ih d x hx x' hx' out out' ho ho'

/-! ### C59 -/

/-- The exact two-sided binomial test of a fair coin. -/
def exactBinom (k n : ℕ) : Py ℚ :=
  .ok ((((List.range (n + 1)).filter (fun i => decide (n.choose i ≤ n.choose k))).map (fun i => (n.choose i : ℚ))).sum / 2 ^ n)

/-- A call that stored a salt and then raised gives the same outcome when repeated, whatever the random generator would have drawn. -/
theorem C59_retry_repeats_false (R : Rounding K) (σ : Shuffle) (E : Ext K) (binom : ℕ → ℕ → Py K) (bytes : List ℕ) (f : Frame K)
    (d d' : Design K) (itemCol : String) (weekCol : Option String) (treatCol : String) (res : Py (Frame K))
    (h : performAssignment R σ E binom bytes f d itemCol weekCol treatCol = (d', res)) (hs : d'.salt.getD "" ≠ "") (bytes' : List ℕ) :
    performAssignment R σ E binom bytes' f d' itemCol weekCol treatCol = (d', res) := by
  have hd : d' = { d with salt := d'.salt } := by
    rcases perform_design R σ E binom bytes f d itemCol weekCol treatCol with ⟨h1, -⟩ | ⟨coin, -, h1⟩
    · rw [h] at h1
      rw [show d' = d from h1]
    · rw [h] at h1
      rw [show d' = _ from h1]
  have hsame : d'.hasPreTrim ↔ d.hasPreTrim := by rw [hd]; rfl
  have helig : eligibleItems R σ f d' itemCol weekCol = eligibleItems R σ f d itemCol weekCol := by rw [hd]; rfl
  have hcoin' : chooseCoin d' bytes' = .ok ⟨d'.salt.getD ""⟩ := by
    unfold chooseCoin mkCoinflip
    rw [if_pos hs, if_neg hs]
  have hdd : ({ d' with salt := some (d'.salt.getD "") } : Design K) = d' := by
    cases hx : d'.salt with
    | none => rw [hx] at hs; simp at hs
    | some s => rw [Option.getD_some, ← hx]
  unfold performAssignment at h ⊢
  simp only [hsame] at *
  split at h
  · rename_i h1
    obtain ⟨rfl, rfl⟩ := Prod.mk.injEq .. ▸ h
    rw [if_pos h1]
  rename_i h1
  rw [if_neg h1]
  split at h
  · rename_i h2
    obtain ⟨rfl, rfl⟩ := Prod.mk.injEq .. ▸ h
    rw [if_pos h2]
  rename_i h2
  rw [if_neg h2]
  split at h
  · rename_i h3
    obtain ⟨rfl, rfl⟩ := Prod.mk.injEq .. ▸ h
    rw [if_pos h3]
  rename_i h3
  rw [if_neg h3, hcoin']
  cases hc : chooseCoin d bytes with
  | error e =>
    simp only [hc, Prod.mk.injEq] at h
    obtain ⟨rfl, rfl⟩ := h
    unfold chooseCoin mkCoinflip at hc
    rw [if_pos hs, if_neg hs] at hc
    cases hc
  | ok coin =>
    simp only [hc, Prod.mk.injEq] at h
    obtain ⟨h4, rfl⟩ := h
    have : d'.salt.getD "" = coin.salt := by rw [← h4]; rfl
    rw [this] at hdd
    simp only [helig, this, hdd]

/-- Eleven items that all fall into treatment under the salt of the bytes 0, 1, ..., 9. -/
def unluckyItems : Frame ℚ where
  cols := ["item_id"]
  rows := ["i1", "i3", "i4", "i5", "i6", "i7", "i8", "i14", "i16", "i17", "i18"].map (fun i c =>
    if c = "item_id" then Cell.str i else Cell.null)

/-- **C59 is false**: on this data a first call raises because of the sample ratio mismatch, and so do all later ones, with whatever the
random generator draws. -/
theorem C59_mismatch_is_permanent_false :
    ∃ d' : Design ℚ, d'.salt = some "00010203040506070809" ∧
      performAssignment (Rounding.exact ℚ) noShuffle exampleExt exactBinom (List.range 10) unluckyItems { saltedDesign with salt := none }
        "item_id" none "t" = (d', .error .valueError) ∧
      ∀ bytes, performAssignment (Rounding.exact ℚ) noShuffle exampleExt exactBinom bytes unluckyItems d' "item_id" none "t" =
        (d', .error .valueError) := by
  have e : performAssignment (Rounding.exact ℚ) noShuffle exampleExt exactBinom (List.range 10) unluckyItems { saltedDesign with salt := none }
      "item_id" none "t" = ({ saltedDesign with salt := some "00010203040506070809" }, .error .valueError) := by
    refine Prod.ext ?_ ?_
    · decide +kernel
    · have : ((performAssignment (Rounding.exact ℚ) noShuffle exampleExt exactBinom (List.range 10) unluckyItems
          { saltedDesign with salt := none } "item_id" none "t").2).map (fun _ => ()) = .error .valueError := by decide +kernel
      revert this
      generalize (performAssignment (Rounding.exact ℚ) noShuffle exampleExt exactBinom (List.range 10) unluckyItems
          { saltedDesign with salt := none } "item_id" none "t").2 = x
      intro this
      cases x with
      | error e => simpa [Except.map] using this
      | ok f => simp [Except.map] at this
  exact ⟨_, rfl, e, fun bytes => C59_retry_repeats_false _ _ _ _ _ _ _ _ _ _ _ _ e (by decide) bytes⟩

/-- **C59**, if the caller removes the salt from the design before the retry: the call uses the salt newly drawn. -/
theorem C59_retry_without_salt_partial (R : Rounding K) (σ : Shuffle) (E : Ext K) (binom : ℕ → ℕ → Py K) (bytes : List ℕ) (f out : Frame K)
    (d d' : Design K) (itemCol : String) (weekCol : Option String) (treatCol : String)
    (h : performAssignment R σ E binom bytes f { d with salt := none } itemCol weekCol treatCol = (d', .ok out)) :
    d'.salt = some (String.ofList (Md5.hex bytes)) ∧
    ∀ r ∈ out.rows, r treatCol = .int ((Coinflip.mk (String.ofList (Md5.hex bytes))).flip (E.toStr (r itemCol))) := by
  obtain ⟨-, -, hne, coin, items, h1, rfl, -, rfl⟩ := performAssignment_ok h
  have hc := (chooseCoin_ok h1).2.2 rfl
  obtain ⟨s⟩ := coin
  subst hc
  exact ⟨rfl, (assignedFrame_cols E _ hne items).2⟩

/-! ### Examples -/

/-- Three items over two weeks. -/
def threeItems : Frame ℚ where
  cols := ["item_id", "week_id", "clicks"]
  rows := [("a", 0, 100), ("a", 1, 1), ("b", 1, 2), ("c", 1, 3), ("c", 0, 0), ("d", 1, 4)].map (fun p c =>
    if c = "item_id" then Cell.str p.1 else if c = "week_id" then .int p.2.1 else if c = "clicks" then .int p.2.2 else .null)

/-- C57 is not vacuous: all items without trimming; with trimming by the last week's clicks, all but the highest and the lowest. -/
example : ((performAssignment (Rounding.exact ℚ) noShuffle exampleExt exactBinom [] threeItems saltedDesign "item_id" none "t").2).map
      (fun o => o.table) =
        .ok (["a", "b", "c", "d"].map (fun i => [.str i, .int ((Coinflip.mk "abc").flip i)])) ∧
    ((performAssignment (Rounding.exact ℚ) noShuffle exampleExt exactBinom [] threeItems
      { saltedDesign with preTop := .float (1 / 4), preBottom := .float (1 / 4) } "item_id" (some "week_id") "t").2).map
      (fun o => o.table) =
        .ok (["b", "c"].map (fun i => [.str i, .int ((Coinflip.mk "abc").flip i)])) := by
  decide +kernel

/-- C56 is not vacuous: a design that trims can be created. -/
example : (mkDesign (Rounding.exact ℚ) { saltedDesign.toDesignParams with preTop := .float (1 / 10), postTrim := .float (1 / 10) }).map
    (fun d => (d.nAfterPre, d.nAfterPost)) = .ok (90, 72) := by
  decide +kernel

end Feedx
