import Mathlib.Data.Nat.Digits.Lemmas
import Verif.Model.Format
import Verif.Spec.Format
import Verif.Props.Columns
import Verif.Props.TTestFormulas

/-!
Properties C80 and C90: the texts and colours of the formatted results table.
-/

set_option linter.unusedSectionVars false

namespace Feedx

variable {K : Type} [Field K] [LinearOrder K] [IsStrictOrderedRing K] [FloorRing K]

/-! ### Rounding -/

theorem roundHalfEven_error (x : K) : |(roundHalfEven x : K) - x| ≤ 1 / 2 := by
  have h1 := Int.floor_le x
  have h2 := Int.lt_floor_add_one x
  unfold roundHalfEven
  split_ifs <;> push_cast <;> rw [abs_le] <;> constructor <;> linarith

theorem roundHalfEven_mono {x y : K} (h : x ≤ y) : roundHalfEven x ≤ roundHalfEven y := by
  have hf := Int.floor_le_floor h
  rcases hf.lt_or_eq with hlt | heq
  · have : roundHalfEven x ≤ ⌊x⌋ + 1 := by rcases roundHalfEven_cases x with e | ⟨e, -⟩ <;> omega
    have : ⌊y⌋ ≤ roundHalfEven y := by rcases roundHalfEven_cases y with e | ⟨e, -⟩ <;> omega
    omega
  · unfold roundHalfEven
    rw [heq]
    split_ifs <;> first | omega | (exfalso; linarith)

theorem roundHalfEven_nonneg {x : K} (h : 0 ≤ x) : 0 ≤ roundHalfEven x := by
  have h0 : (0 : ℤ) ≤ ⌊x⌋ := Int.floor_nonneg.mpr h
  rcases roundHalfEven_cases x with e | ⟨e, -⟩ <;> omega

/-! ### Reading -/

theorem digitChar_ne_comma {d : ℕ} (h : d < 10) : Nat.digitChar d ≠ ',' := by
  interval_cases d <;> decide

theorem filter_digits {ds : List ℕ} (h : ∀ d ∈ ds, d < 10) : (ds.map Nat.digitChar).filter (· ≠ ',') = ds.map Nat.digitChar := by
  rw [List.filter_eq_self]
  intro c hc
  obtain ⟨d, hd, rfl⟩ := List.mem_map.mp hc
  exact decide_eq_true (digitChar_ne_comma (h d hd))

theorem filter_addCommas (l : List Char) : (addCommas l).filter (· ≠ ',') = l.filter (· ≠ ',') := by
  fun_induction addCommas l with
  | case1 a b c d rest ih => simp only [List.filter_cons, ih]; simp
  | case2 => rfl

theorem wholeDigits_lt (n : ℕ) : ∀ d ∈ wholeDigits n, d < 10 := by
  intro d hd
  unfold wholeDigits at hd
  split at hd
  · simp at hd; omega
  · exact Nat.digits_lt_base (by norm_num) hd

theorem wholeDigits_value (n : ℕ) : Nat.ofDigits 10 (wholeDigits n) = n := by
  unfold wholeDigits
  split
  · rename_i h; rw [h]; rfl
  · exact Nat.ofDigits_digits 10 n

theorem lastDigits_lt (k n : ℕ) : ∀ d ∈ lastDigits k n, d < 10 := by
  intro d hd
  rcases List.mem_append.mp hd with hd | hd
  · exact Nat.digits_lt_base (by norm_num) hd
  · rw [(List.mem_replicate.mp hd).2]; norm_num

theorem lastDigits_length (k n : ℕ) : (lastDigits k n).length = k := by
  have : (Nat.digits 10 (n % 10 ^ k)).length ≤ k := by
    rw [Nat.digits_length_le_iff (by norm_num)]
    exact Nat.mod_lt _ (by positivity)
  unfold lastDigits
  rw [List.length_append, List.length_replicate]
  omega

theorem lastDigits_value (k n : ℕ) : Nat.ofDigits 10 (lastDigits k n) = n % 10 ^ k := by
  unfold lastDigits
  rw [Nat.ofDigits_append_replicate_zero, Nat.ofDigits_digits]

theorem reads_decimal (commas : Bool) (k n : ℕ) : Spec.Reads (decimalChars commas k n) k ((n : K) / 10 ^ k) := by
  refine ⟨(wholeDigits (n / 10 ^ k)).reverse, (lastDigits k n).reverse, ?_, ?_, ?_, ?_, ?_⟩
  · intro d hd
    rcases List.mem_append.mp hd with hd | hd
    · exact wholeDigits_lt _ d (List.mem_reverse.mp hd)
    · exact lastDigits_lt k n d (List.mem_reverse.mp hd)
  · unfold wholeDigits
    split
    · simp
    · rename_i h
      simpa using (Nat.digits_ne_nil_iff_ne_zero.mpr h)
  · simpa using lastDigits_length k n
  · have hw := filter_digits (ds := (wholeDigits (n / 10 ^ k)).reverse) (fun d hd => wholeDigits_lt _ d (List.mem_reverse.mp hd))
    have hl := filter_digits (ds := (lastDigits k n).reverse) (fun d hd => lastDigits_lt k n d (List.mem_reverse.mp hd))
    unfold decimalChars
    simp only
    rw [List.filter_append]
    congr 1
    · split
      · rw [List.filter_reverse, filter_addCommas, List.filter_reverse, List.reverse_reverse]
        exact hw
      · exact hw
    · split
      · rfl
      · rw [List.filter_cons, if_pos (by decide)]
        congr 1
  · rw [List.reverse_append, List.reverse_reverse, List.reverse_reverse, Nat.ofDigits_append, lastDigits_length, lastDigits_value,
      wholeDigits_value]
    have : n % 10 ^ k + 10 ^ k * (n / 10 ^ k) = n := Nat.mod_add_div n (10 ^ k)
    congr 1
    exact_mod_cast this.symm

/-- The printed value of a number that is not negative. -/
theorem reads_fixed (commas : Bool) (k : ℕ) {x : K} (hx : 0 ≤ x) :
    Spec.Reads (fixedChars commas k x) k ((roundHalfEven (x * 10 ^ k) : K) / 10 ^ k) := by
  have h0 := roundHalfEven_nonneg (x := x * 10 ^ k) (by positivity)
  have h := reads_decimal (K := K) commas k (roundHalfEven (x * 10 ^ k)).toNat
  have : (((roundHalfEven (x * 10 ^ k)).toNat : ℕ) : K) = (roundHalfEven (x * 10 ^ k) : K) := by
    have : (((roundHalfEven (x * 10 ^ k)).toNat : ℤ) : K) = (roundHalfEven (x * 10 ^ k) : K) := by rw [Int.toNat_of_nonneg h0]
    exact_mod_cast this
  rwa [this] at h

theorem fixed_error (k : ℕ) (x : K) : |(roundHalfEven (x * 10 ^ k) : K) / 10 ^ k - x| ≤ 1 / 2 / 10 ^ k := by
  have hp : (0 : K) < 10 ^ k := by positivity
  have h := roundHalfEven_error (x * 10 ^ k)
  have e : (roundHalfEven (x * 10 ^ k) : K) / 10 ^ k - x = ((roundHalfEven (x * 10 ^ k) : K) - x * 10 ^ k) / 10 ^ k := by field_simp
  rw [e, abs_div, abs_of_pos hp]
  gcongr

/-! ### C80 -/

theorem ofList_append_toList (s t : String) : (s ++ t).toList = s.toList ++ t.toList := by simp

/-- The unmarked text does not end like the mark. -/
theorem not_marked {body s : String} (hb : body.toList.getLast? ≠ some ')') : body ≠ s ++ " (Significant)" := by
  rintro rfl
  apply hb
  rw [ofList_append_toList]
  simp [List.getLast?_append]

theorem fixed_last (k : ℕ) (x : K) : (String.ofList (fixedChars false (k + 1) x)).toList.getLast? ≠ some ')' := by
  rw [String.toList_ofList]
  unfold fixedChars decimalChars
  simp only [Nat.add_eq_zero_iff, one_ne_zero, and_false, if_false]
  intro h
  have hmem : ')' ∈ digitChars (lastDigits (k + 1) (roundHalfEven (x * 10 ^ (k + 1))).toNat) := by
    have hne : digitChars (lastDigits (k + 1) (roundHalfEven (x * 10 ^ (k + 1))).toNat) ≠ [] := by
      intro h0
      have := congrArg List.length h0
      simp [digitChars, lastDigits_length] at this
    rw [List.getLast?_append, List.getLast?_cons, List.getLast?_eq_some_getLast hne] at h
    simp only [Option.getD_some, Option.some_or, Option.some.injEq] at h
    rw [← h]
    exact List.getLast_mem hne
  obtain ⟨d, hd, he⟩ := List.mem_map.mp hmem
  have hlt := lastDigits_lt _ _ d (List.mem_reverse.mp hd)
  interval_cases d <;> simp [Nat.digitChar] at he

/-- **C80, p-values.**  A p-value that is a number `x` is shown as `p<0.001` below 0.001, with three decimal places below 0.01, with two decimal
places up to 0.99 and as `p>0.99` above; the shown number differs from it by at most half a unit of the last place.  The text is followed by
` (Significant)` exactly if the p-value is below the level. -/
theorem C80_p_value_text (x alpha : K) :
    ∃ body : String, formatPValue (.fin x) alpha = (if x < alpha then body ++ " (Significant)" else body) ∧
      (x < 1 / 1000 → body = "p<0.001") ∧
      (1 / 1000 ≤ x → x < 1 / 100 → ∃ s v, body = "p=" ++ String.ofList s ∧ Spec.Reads s 3 v ∧ |v - x| ≤ 1 / 2000) ∧
      (1 / 100 ≤ x → x ≤ 99 / 100 → ∃ s v, body = "p=" ++ String.ofList s ∧ Spec.Reads s 2 v ∧ |v - x| ≤ 1 / 200) ∧
      (99 / 100 < x → body = "p>0.99") := by
  unfold formatPValue
  simp only [Fl.lt, decide_eq_true_eq]
  by_cases h1 : x < 1 / 1000
  · refine ⟨"p<0.001", by simp only [if_pos h1], fun _ => rfl, fun h => absurd h1 (not_lt.mpr h), fun h => ?_, fun h => ?_⟩ <;>
      exfalso <;> linarith
  by_cases h2 : x < 1 / 100
  · refine ⟨"p=" ++ String.ofList (fixedChars false 3 x), by simp only [if_neg h1, if_pos h2], fun h => absurd h h1, fun _ _ => ⟨_, _, rfl, reads_fixed false 3 (by linarith), ?_⟩,
      fun h => absurd h2 (not_lt.mpr h), fun h => ?_⟩
    · refine (fixed_error 3 x).trans (by norm_num)
    · exfalso; linarith
  by_cases h3 : x ≤ 99 / 100
  · refine ⟨"p=" ++ String.ofList (fixedChars false 2 x), by simp only [if_neg h1, if_neg h2, if_pos h3], fun h => absurd h h1, fun _ h => absurd h h2,
      fun _ _ => ⟨_, _, rfl, reads_fixed false 2 (by linarith), ?_⟩, fun h => absurd h3 (not_le.mpr h)⟩
    exact (fixed_error 2 x).trans (by norm_num)
  · exact ⟨_, by simp only [if_neg h1, if_neg h2, if_neg h3], fun h => absurd h h1, fun _ h => absurd h h2, fun _ h => absurd h h3, fun _ => rfl⟩

/-- **C80, mark.**  The text ends with ` (Significant)` exactly if the p-value is a number (or minus infinity) below the level. -/
theorem C80_marked_iff_significant (p : Fl K) (alpha : K) :
    (∃ s, formatPValue p alpha = s ++ " (Significant)") ↔ Fl.lt p (.fin alpha) = true := by
  have hlast : ∀ s : String, ∀ c, s.toList.getLast? = some c → ∀ t : String, (t ++ s).toList.getLast? = some c := by
    intro s c h t
    rw [ofList_append_toList, List.getLast?_append, h]
    rfl
  have hbody : ∀ t : String, ∀ k, (t ++ String.ofList (fixedChars false (k + 1) (0 : K))).toList.getLast? ≠ none := by
    intro t k h
    rw [List.getLast?_eq_none_iff] at h
    simp [fixedChars, decimalChars] at h
  constructor
  · rintro ⟨s, hs⟩
    by_contra hn
    revert hs
    unfold formatPValue
    simp only [hn]
    rw [if_neg (by simp)]
    apply not_marked
    have hfix : ∀ (k : ℕ) (x : K), ("p=" ++ String.ofList (fixedChars false (k + 1) x)).toList.getLast? ≠ some ')' := by
      intro k x h
      apply fixed_last k x
      rw [ofList_append_toList, List.getLast?_append] at h
      rcases hl : (String.ofList (fixedChars false (k + 1) x)).toList.getLast? with _ | c
      · rw [List.getLast?_eq_none_iff] at hl
        simp [fixedChars, decimalChars] at hl
      · rw [hl] at h
        simpa using h
    split
    · decide
    · split
      · split
        · exact hfix 2 _
        · split
          · exact hfix 1 _
          · decide
      · decide
  · intro h
    unfold formatPValue
    simp only [h, if_true]
    exact ⟨_, rfl⟩

/-- **C80, colours.**  A row is grey exactly if its result is not significant, green exactly if it is significant with a positive difference, and
pink otherwise. -/
theorem C80_row_colours (isSignificant : Bool) (difference : Fl K) :
    (rowStyle isSignificant difference = "color:grey" ↔ isSignificant = false) ∧
    (rowStyle isSignificant difference = "background-color:lightgreen" ↔ isSignificant = true ∧ Fl.lt (.fin 0) difference = true) ∧
    (rowStyle isSignificant difference = "background-color:pink" ↔ isSignificant = true ∧ Fl.lt (.fin 0) difference = false) := by
  unfold rowStyle
  cases isSignificant <;> cases h : Fl.lt (.fin 0) difference <;> decide

/-- **C80, text and colour agree.**  In the formatted table of analysis results the rows that are not grey are those marked ` (Significant)`. -/
theorem C80_text_and_colour_agree (D : TDist) (e : Estimates) (pythonFloats : Bool) (alternative : String) (alpha : ℝ) (r : TestResult)
    (h : resultsFrom D e pythonFloats alternative alpha = .ok r) (R : Rounding ℝ) (general : ℕ → Fl ℝ → String) (o : FormatOptions)
    (ci metric : String) :
    let shown := shownRow R general o ci (.ofTest (metric, r))
    (shown.style ≠ "color:grey" ↔ ∃ s, (("P-value", ""), s ++ " (Significant)") ∈ shown.cells) := by
  intro shown
  obtain ⟨-, -, -, h1, h2, -⟩ := resultsFrom_ok h
  have hs : shown.style = rowStyle r.isSignificant r.absoluteDifference := rfl
  have hm : ∀ t, (("P-value", ""), t) ∈ shown.cells ↔ t = formatPValue r.pValue r.alpha := by
    intro t
    simp only [shown, shownRow, List.mem_append, List.mem_singleton, Prod.mk.injEq, true_and]
    constructor
    · rintro (((h | h) | h) | h)
      · split at h <;> simp at h
      · split at h <;> simp at h
      · split at h <;> simp at h
      · exact h
    · exact Or.inr
  simp only [hm]
  rw [hs, ne_eq, (C80_row_colours _ _).1, h1, ← h2, Bool.not_eq_false, ← C80_marked_iff_significant]
  exact ⟨fun ⟨s, h⟩ => ⟨s, h.symm⟩, fun ⟨s, h⟩ => ⟨s, h.symm⟩⟩

theorem pOf_nan (D : TDist) (df : Fl ℝ) {alternative : String} (hk : KnownAlt alternative) : pOf D df .nan alternative = .nan := by
  rcases hk with rfl | rfl | rfl <;> cases df <;> rfl

/-- **C80, full statement for missing p-values.**  A p-value that is not a number is not shown as a number or a range. -/
def C80_nan_full (K : Type) [Field K] [LinearOrder K] [FloorRing K] : Prop :=
  ∀ (alpha x : K), formatPValue (.nan : Fl K) alpha ≠ formatPValue (.fin x) alpha

/-- **C80: the code violates it.**  A missing p-value is shown as `p>0.99`, like any p-value between 0.99 and 1 that is not below the level.  This
happens for every crossover experiment in which the metric of every item is the same in both periods. -/
theorem C80_nan_p_value_false :
    ¬ C80_nan_full K ∧
    (∀ alpha : K, formatPValue (.nan : Fl K) alpha = "p>0.99") ∧
    ∀ (R : Rounding ℝ) (argsort : List ℝ → List ℕ), ArgsortOk argsort → ∀ (D : TDist) (values : List ℝ) (alternative : String) (alpha : ℝ),
      (alternative = "two-sided" ∨ alternative = "greater" ∨ alternative = "less") → 2 ≤ values.length → values.length ≤ 2 ^ 53 →
      ∃ r, pairedTest R argsort D values values 0 none none alternative alpha = .ok r ∧ r.pValue = .nan ∧
        formatPValue r.pValue r.alpha = "p>0.99" := by
  have hnan : ∀ {K : Type} [Field K] [LinearOrder K] [FloorRing K] (alpha : K), formatPValue (.nan : Fl K) alpha = "p>0.99" := by
    intro K _ _ _ alpha
    simp [formatPValue, Fl.lt]
  refine ⟨fun h => ?_, hnan, fun R argsort ha D values alternative alpha hk h2 hn => ?_⟩
  · have h1 : ¬ (1 : K) < 1 / 1000 := by norm_num
    have h2 : ¬ (1 : K) < 1 / 100 := by norm_num
    have h3 : ¬ (1 : K) ≤ 99 / 100 := by norm_num
    refine h 0 1 ?_
    rw [hnan]
    have h4 : ¬ (1 : K) < 0 := by norm_num
    simp only [formatPValue, Fl.lt, h1, h2, h3, h4, decide_false, if_false, Bool.false_eq_true]
  · have h0 : ⌊R.rnd (0 * (values.length : ℝ))⌋ = 0 := by
      rw [zero_mul]
      have := R.intFix 0 (by norm_num)
      simp only [Int.cast_zero] at this
      rw [this]; simp
    obtain ⟨r, hr⟩ := (C34_tests_return_partial R argsort ha D values values 0 le_rfl (by norm_num) true alternative hk alpha hn hn
      (by rw [h0]; omega) (by rw [h0]; omega)).1 rfl
    refine ⟨r, hr, ?_⟩
    suffices hp : r.pValue = .nan by exact ⟨hp, by rw [hp, hnan]⟩
    obtain ⟨g, kept, ss, hg, ht, hy, e1, -, e3, e4, e5, e6, -⟩ := C83_paired_test_reports R argsort ha D values values 0 alternative alpha r hr
    rcases pairedTest_ok hr with ⟨x1, x2, hx, -⟩ | ⟨-, -, T, -, -, hres⟩
    · cases hx
    obtain ⟨hka, s1, s2, -⟩ := resultsFrom_ok hres
    rw [s2, ← s1, e6, e1, e4]
    have hsub : kept.map Prod.fst = kept.map Prod.snd := by
      refine List.map_congr_left fun p hp => ?_
      have := ht.1.subset hp
      obtain ⟨i, hi, hp⟩ := List.mem_iff_getElem.mp this
      rw [← hp]
      simp
    have hz : List.zipWith (· - ·) values values = List.replicate values.length (0 : ℝ) := by
      clear * -
      induction values with
      | nil => rfl
      | cons a l ih => simp [List.replicate_succ]
    obtain ⟨k, lo, hi, -, -, -, -, hss⟩ := hy
    have hss0 : ss = 0 := by
      rw [hss, hz, List.map_replicate]
      unfold Spec.sumSqDev Spec.mean
      rw [List.map_replicate, List.sum_replicate, List.sum_replicate, List.length_replicate]
      have : (values.length : ℝ) ≠ 0 := by
        have : 0 < values.length := by omega
        exact_mod_cast this.ne'
      simp only [nsmul_eq_mul]
      rw [mul_div_cancel_left₀ _ this]
      simp
    rw [hsub, hss0]
    have : (.fin (Spec.mean (kept.map Prod.snd) - Spec.mean (kept.map Prod.snd)) : Fl ℝ) /
        .fin (Real.sqrt (Spec.yuenVar kept.length 0)) = .nan := by
      unfold Spec.yuenVar
      simp only [sub_self, zero_div, Real.sqrt_zero]
      show Fl.div (.fin 0) (.fin 0) = .nan
      simp [Fl.div, Fl.infSign]
    rw [this, pOf_nan D _ hka]

/-- Texts of some p-values. -/
example : formatPValue (.fin (7/1000) : Fl ℚ) (1/20) = "p=0.007 (Significant)" ∧ formatPValue (.fin (96/10000) : Fl ℚ) (1/20) =
    "p=0.010 (Significant)" ∧ formatPValue (.fin (125/1000) : Fl ℚ) (1/20) = "p=0.12" ∧ formatPValue (.fin (1/20) : Fl ℚ) (1/20) = "p=0.05" ∧
    formatPValue (.fin (995/1000) : Fl ℚ) (1/20) = "p>0.99" ∧ formatPValue (.fin 0 : Fl ℚ) (1/20) = "p<0.001 (Significant)" := by
  decide +kernel

end Feedx
