import Verif.Spec.FormatTable
import Verif.Props.Format

/-!
Properties C90 and C91: the formatted results table.
-/

set_option linter.unusedSectionVars false

namespace Feedx

variable {K : Type} [Field K] [LinearOrder K] [IsStrictOrderedRing K] [FloorRing K]

/-- The number printed for `x` with `k` decimal places. -/
def printed (k : ℕ) (x : K) : K :=
  if x < 0 then -((roundHalfEven (-x * 10 ^ k) : K) / 10 ^ k) else (roundHalfEven (x * 10 ^ k) : K) / 10 ^ k

theorem printed_mono (k : ℕ) : Monotone (printed (K := K) k) := by
  intro x y h
  have hp : (0 : K) < 10 ^ k := by positivity
  have nn : ∀ {z : K}, 0 ≤ z → 0 ≤ (roundHalfEven (z * 10 ^ k) : K) / 10 ^ k := by
    intro z hz
    have : (0 : K) ≤ (roundHalfEven (z * 10 ^ k) : K) := by exact_mod_cast roundHalfEven_nonneg (x := z * 10 ^ k) (by positivity)
    positivity
  have mm : ∀ {z w : K}, z ≤ w → (roundHalfEven (z * 10 ^ k) : K) / 10 ^ k ≤ (roundHalfEven (w * 10 ^ k) : K) / 10 ^ k := by
    intro z w hzw
    have : (roundHalfEven (z * 10 ^ k) : K) ≤ (roundHalfEven (w * 10 ^ k) : K) := by
      exact_mod_cast roundHalfEven_mono (by gcongr)
    gcongr
  unfold printed
  split_ifs with h1 h2 h2
  · have := mm (z := -y) (w := -x) (by linarith)
    linarith
  · have a := nn (z := -x) (by linarith)
    have b := nn (z := y) (by linarith)
    linarith
  · exact absurd (h.trans_lt h2) h1
  · exact mm h

theorem printed_error (k : ℕ) (x : K) : |printed k x - x| ≤ 1 / 2 / 10 ^ k := by
  unfold printed
  split_ifs
  · have := fixed_error k (-x)
    rw [show -((roundHalfEven (-x * 10 ^ k) : K) / 10 ^ k) - x = -((roundHalfEven (-x * 10 ^ k) : K) / 10 ^ k - -x) by ring, abs_neg]
    exact this
  · exact fixed_error k x

theorem signed_text (commas : Bool) (k : ℕ) (x : Fl K) : Spec.SignedText (printed k) k x (signedChars commas k x) := by
  cases x with
  | fin x =>
    refine ⟨?_, printed_error k x, ?_⟩
    · unfold signedChars printed
      simp only
      split_ifs with h
      · exact ⟨_, _, reads_fixed commas k (x := -x) (by linarith), Or.inr ⟨rfl, rfl⟩⟩
      · exact ⟨_, _, reads_fixed commas k (x := x) (not_lt.mp h), Or.inl ⟨rfl, rfl⟩⟩
    · unfold signedChars
      simp only
      split_ifs with h <;> simp [h]
  | _ => rfl

/-! ### Commas -/

/-- The digits of the whole part of a text with separators are grouped. -/
theorem addCommas_grouped (l : List Char) (h1 : 1 ≤ l.length) (hd : ∀ c ∈ l, c ∈ "0123456789".toList) :
    Spec.Grouped (addCommas l).reverse := by
  fun_induction addCommas l with
  | case1 a b c d rest ih =>
    obtain ⟨first, others, e, l1, l2, l3, l4⟩ := ih (by simp) (fun x hx => hd x (by simp only [List.mem_cons] at hx ⊢; tauto))
    refine ⟨first, others ++ [[c, b, a]], ?_, l1, l2, ?_, ?_⟩
    · simp only [List.reverse_cons, e, List.append_assoc, List.map_append, List.flatten_append]
      simp
    · intro g hg
      rcases List.mem_append.mp hg with h | h
      · exact l3 g h
      · rw [List.mem_singleton.mp h]; rfl
    · intro x hx
      simp only [List.flatten_append, List.flatten_cons, List.flatten_nil, List.append_nil, ← List.append_assoc] at hx
      rcases List.mem_append.mp hx with h | h
      · exact l4 x h
      · exact hd x (by simp only [List.mem_cons, List.not_mem_nil, or_false] at h ⊢; tauto)
  | case2 l hl =>
    refine ⟨l.reverse, [], by simp, by simpa using h1, ?_, by simp, by simpa using hd⟩
    rcases l with _ | ⟨a, _ | ⟨b, _ | ⟨c, _ | ⟨d, r⟩⟩⟩⟩
    · simp
    · simp
    · simp
    · simp
    · exact absurd rfl (hl a b c d r)

theorem digitChar_mem_digits {d : ℕ} (h : d < 10) : Nat.digitChar d ∈ "0123456789".toList := by
  interval_cases d <;> decide

/-! ### C90 -/

/-- **C90, when it returns.**  The table is displayed for every list with at least one result and without two results of the same name, except that the
relative columns need a result that has them; without results the call raises `IndexError`, without relative effects `TypeError`, and otherwise results of
the same name make displaying it raise `KeyError`. -/
theorem C90_returns (R : Rounding K) (general : ℕ → Fl K → String) (o : FormatOptions) (rows : List (ResultRow K)) :
    ((formatResults R general o rows).Returns ↔ rows ≠ [] ∧ (rows.map (·.metric)).Nodup ∧ (o.relative = true →
      (∃ r ∈ rows, r.relativeDifference ≠ none) ∧ (∃ r ∈ rows, r.relativeLower ≠ none) ∧ ∃ r ∈ rows, r.relativeUpper ≠ none)) ∧
    (rows = [] → formatResults R general o rows = .error .indexError) ∧
    (rows ≠ [] → ¬ (o.relative = true →
      (∃ r ∈ rows, r.relativeDifference ≠ none) ∧ (∃ r ∈ rows, r.relativeLower ≠ none) ∧ ∃ r ∈ rows, r.relativeUpper ≠ none) →
      formatResults R general o rows = .error .typeError) ∧
    (rows ≠ [] → (o.relative = true →
      (∃ r ∈ rows, r.relativeDifference ≠ none) ∧ (∃ r ∈ rows, r.relativeLower ≠ none) ∧ ∃ r ∈ rows, r.relativeUpper ≠ none) →
      ¬ (rows.map (·.metric)).Nodup → formatResults R general o rows = .error .keyError) := by
  cases rows with
  | nil => exact ⟨⟨fun ⟨_, h⟩ => (by cases h), fun h => absurd rfl h.1⟩, fun _ => rfl, fun h => absurd rfl h, fun h => absurd rfl h⟩
  | cons first rest =>
    have key : ∀ f : ResultRow K → Option (Fl K), (first :: rest).all (fun r => (f r).isNone) = true ↔ ¬ ∃ r ∈ first :: rest, f r ≠ none := by
      intro f
      rw [List.all_eq_true]
      push Not
      simp only [Option.isNone_iff_eq_none]
    by_cases hc : (o.relative = true ∧ ((first :: rest).all (fun r => r.relativeDifference.isNone) = true ∨
      (first :: rest).all (fun r => r.relativeLower.isNone) = true ∨ (first :: rest).all (fun r => r.relativeUpper.isNone) = true))
    · have herr : formatResults R general o (first :: rest) = .error .typeError := by
        unfold formatResults
        simp only [raiseIf, if_pos hc]
        rfl
      have hno : ¬ (o.relative = true → (∃ r ∈ first :: rest, r.relativeDifference ≠ none) ∧ (∃ r ∈ first :: rest, r.relativeLower ≠ none) ∧
          ∃ r ∈ first :: rest, r.relativeUpper ≠ none) := by
        intro h
        obtain ⟨h1, h2, h3⟩ := h hc.1
        rcases hc.2 with c | c | c
        · exact absurd h1 ((key _).mp c)
        · exact absurd h2 ((key _).mp c)
        · exact absurd h3 ((key _).mp c)
      exact ⟨⟨fun ⟨_, h⟩ => (by rw [herr] at h; cases h), fun h => absurd h.2.2 hno⟩, fun h => (by cases h), fun _ _ => herr, fun _ h => absurd h hno⟩
    · have hyes : o.relative = true → (∃ r ∈ first :: rest, r.relativeDifference ≠ none) ∧ (∃ r ∈ first :: rest, r.relativeLower ≠ none) ∧
          ∃ r ∈ first :: rest, r.relativeUpper ≠ none := by
        intro hr
        refine ⟨?_, ?_, ?_⟩
        · by_contra hn; exact hc ⟨hr, Or.inl ((key _).mpr hn)⟩
        · by_contra hn; exact hc ⟨hr, Or.inr (Or.inl ((key _).mpr hn))⟩
        · by_contra hn; exact hc ⟨hr, Or.inr (Or.inr ((key _).mpr hn))⟩
      by_cases hd : ((first :: rest).map (·.metric)).Nodup
      · have hok : formatResults R general o (first :: rest) = .ok ((first :: rest).map (shownRow R general o (ciHeader R first.alpha))) := by
          unfold formatResults
          exact raiseIf_bind_ok.mpr ⟨hc, raiseIf_bind_ok.mpr ⟨not_not.mpr hd, rfl⟩⟩
        exact ⟨⟨fun _ => ⟨by simp, hd, hyes⟩, fun _ => ⟨_, hok⟩⟩, fun h => (by cases h), fun _ h => absurd hyes h, fun _ _ h => absurd hd h⟩
      · have herr : formatResults R general o (first :: rest) = .error .keyError := by
          unfold formatResults
          simp only [raiseIf, if_neg hc, if_pos hd]
          rfl
        exact ⟨⟨fun ⟨_, h⟩ => (by rw [herr] at h; cases h), fun h => absurd h.2.1 hd⟩, fun h => (by cases h), fun _ h => absurd hyes h, fun _ _ _ => herr⟩

/-- **C90, rows.**  One row per result in the same order, with the columns asked for, all under the same interval header. -/
theorem C90_rows (R : Rounding K) (general : ℕ → Fl K → String) (o : FormatOptions) (rows : List (ResultRow K)) (shown : List ShownRow)
    (h : formatResults R general o rows = .ok shown) :
    shown.map (·.metric) = rows.map (·.metric) ∧
    ∃ ci, ∀ row ∈ shown, row.cells.map Prod.fst =
      (if o.relative then [("Relative Effect Size", "Point Estimate"), ("Relative Effect Size", ci)] else []) ++
      (if o.absolute then [("Absolute Effect Size (per item per week)", "Point Estimate"), ("Absolute Effect Size (per item per week)", ci)]
        else []) ++
      (if o.yearly then [("Projected Effect Size (whole feed, per year)", "Point Estimate"),
        ("Projected Effect Size (whole feed, per year)", ci)] else []) ++ [("P-value", "")] := by
  cases rows with
  | nil => cases h
  | cons first rest =>
    unfold formatResults at h
    obtain ⟨-, h⟩ := raiseIf_bind_ok.mp h
    obtain ⟨-, h⟩ := raiseIf_bind_ok.mp h
    cases h
    refine ⟨by simp [shownRow], ciHeader R first.alpha, fun row hrow => ?_⟩
    obtain ⟨r, -, rfl⟩ := List.mem_map.mp hrow
    simp only [shownRow, List.map_append]
    congr 1
    congr 1
    · congr 1 <;> split <;> rfl
    · split <;> rfl

/-- **C90, numbers.**  Each shown relative effect is the value times 100 to the chosen number of decimal places with its sign and a percent sign, each
projected effect is 52 times the number of items times the absolute effect, and the text of a range has its two ends in order.  One monotone `printed`
function gives the shown values, so that a shown lower end is never above the shown upper end of an ordered interval. -/
theorem C90_numbers (R : Rounding K) (general : ℕ → Fl K → String) (o : FormatOptions) (ci : String) (r : ResultRow K) :
    ∃ printed : ℕ → K → K, (∀ k, Monotone (printed k)) ∧
    (o.relative = true → ∃ point lower upper,
      Spec.SignedText (printed o.relativePlaces) o.relativePlaces (Fl.rounded R (.fin 100 * (r.relativeDifference.getD .nan))) point ∧
      Spec.SignedText (printed o.relativePlaces) o.relativePlaces (Fl.rounded R (.fin 100 * (r.relativeLower.getD .nan))) lower ∧
      Spec.SignedText (printed o.relativePlaces) o.relativePlaces (Fl.rounded R (.fin 100 * (r.relativeUpper.getD .nan))) upper ∧
      (("Relative Effect Size", "Point Estimate"), String.ofList (point ++ ['%'])) ∈ (shownRow R general o ci r).cells ∧
      (("Relative Effect Size", ci), String.ofList (lower ++ "% to ".toList ++ upper ++ ['%'])) ∈ (shownRow R general o ci r).cells) ∧
    (o.yearly = true → ∃ point lower upper,
      Spec.SignedText (printed o.yearlyPlaces) o.yearlyPlaces (Fl.rounded R (.fin (52 * r.sampleSize) * r.absoluteDifference)) point ∧
      Spec.SignedText (printed o.yearlyPlaces) o.yearlyPlaces (Fl.rounded R (.fin (52 * r.sampleSize) * r.absoluteLower)) lower ∧
      Spec.SignedText (printed o.yearlyPlaces) o.yearlyPlaces (Fl.rounded R (.fin (52 * r.sampleSize) * r.absoluteUpper)) upper ∧
      (("Projected Effect Size (whole feed, per year)", "Point Estimate"), String.ofList point) ∈ (shownRow R general o ci r).cells ∧
      (("Projected Effect Size (whole feed, per year)", ci), String.ofList (lower ++ " to ".toList ++ upper)) ∈
        (shownRow R general o ci r).cells) := by
  refine ⟨printed, printed_mono, fun ho => ?_, fun ho => ?_⟩
  · refine ⟨_, _, _, signed_text false _ _, signed_text false _ _, signed_text false _ _, ?_, ?_⟩
    · simp [shownRow, ho, percentChars, orNan]
    · simp [shownRow, ho, percentChars, orNan, rangeText]
  · have e : (52 * (r.sampleSize : K)) = ((52 * r.sampleSize : ℕ) : K) := by push_cast; ring
    refine ⟨_, _, _, signed_text true _ _, signed_text true _ _, signed_text true _ _, ?_, ?_⟩
    · rw [e]; simp [shownRow, ho, yearlyOf]
    · rw [e]; simp [shownRow, ho, rangeText, yearlyOf]

/-- **C90, thousands.**  The whole part of a shown projected effect has a comma before every third digit from its end. -/
theorem C90_thousands (k : ℕ) (x : K) :
    ∃ (sign : Char) (whole decimals : List Char), signedChars true k (.fin x) = sign :: (whole ++ decimals) ∧ Spec.Grouped whole ∧
      (decimals = [] ∨ ∃ ds, decimals = '.' :: ds ∧ ds.length = k) := by
  have main : ∀ n : ℕ, ∃ whole decimals : List Char, decimalChars true k n = whole ++ decimals ∧ Spec.Grouped whole ∧
      (decimals = [] ∨ ∃ ds, decimals = '.' :: ds ∧ ds.length = k) := by
    intro n
    refine ⟨_, _, rfl, ?_, ?_⟩
    · simp only [if_true]
      have hd : ∀ c ∈ (digitChars (wholeDigits (n / 10 ^ k))).reverse, c ∈ "0123456789".toList := by
        intro c hc
        obtain ⟨d, hd, rfl⟩ := List.mem_map.mp (List.mem_reverse.mp hc)
        exact digitChar_mem_digits (wholeDigits_lt _ d (List.mem_reverse.mp hd))
      refine addCommas_grouped _ ?_ hd
      rw [List.length_reverse, digitChars, List.length_map, List.length_reverse]
      unfold wholeDigits
      split
      · simp
      · rename_i h
        exact List.length_pos_iff.mpr (Nat.digits_ne_nil_iff_ne_zero.mpr h)
    · split
      · exact Or.inl rfl
      · exact Or.inr ⟨_, rfl, by simp [digitChars, lastDigits_length]⟩
  unfold signedChars fixedChars
  simp only
  split
  · obtain ⟨w, d, e, h⟩ := main (roundHalfEven (-x * 10 ^ k)).toNat
    exact ⟨'-', w, d, by rw [e], h⟩
  · obtain ⟨w, d, e, h⟩ := main (roundHalfEven (x * 10 ^ k)).toNat
    exact ⟨'+', w, d, by rw [e], h⟩

theorem sum_neg_of_neg (l : List ℝ) (hne : l ≠ []) (h : ∀ x ∈ l, x < 0) : l.sum < 0 := by
  induction l with
  | nil => exact absurd rfl hne
  | cons a l ih =>
    rw [List.sum_cons]
    have ha := h a (by simp)
    rcases eq_or_ne l [] with rfl | hl
    · simpa using ha
    · linarith [ih hl fun x hx => h x (by simp [hx])]

/-- **C90, full statement for analysed experiments.**  The results of an analysis can be formatted with the default options. -/
def C90_default_options_full : Prop :=
  ∀ (R : Rounding ℝ) (argsort : List ℝ → List ℕ), ArgsortOk argsort → ∀ (D : TDist) (values1 values2 : List ℝ) (alpha : ℝ) (r : TestResult)
    (general : ℕ → Fl ℝ → String) (metric : String),
    pairedTest R argsort D values1 values2 0 none none "two-sided" alpha = .ok r →
    (formatResults R general {} [.ofTest (metric, r)]).Returns

/-- **C90: the code violates it.**  A metric that is negative on average in the control group (such as a profit) has no relative effect, and formatting a
table that has only such metrics raises `TypeError`. -/
theorem C90_no_relative_effect_false (general : ℕ → Fl ℝ → String) (metric : String) (D : TDist) (R : Rounding ℝ) (argsort : List ℝ → List ℕ)
    (ha : ArgsortOk argsort) :
    ¬ C90_default_options_full ∧
    ∀ (values1 values2 : List ℝ) (alpha : ℝ), 2 ≤ values1.length → values1.length ≤ 2 ^ 53 → values1.length = values2.length →
      (∀ v ∈ values2, v < 0) →
      ∃ r, pairedTest R argsort D values1 values2 0 none none "two-sided" alpha = .ok r ∧
        formatResults R general {} [.ofTest (metric, r)] = .error .typeError := by
  have main : ∀ (values1 values2 : List ℝ) (alpha : ℝ), 2 ≤ values1.length → values1.length ≤ 2 ^ 53 → values1.length = values2.length →
      (∀ v ∈ values2, v < 0) →
      ∃ r, pairedTest R argsort D values1 values2 0 none none "two-sided" alpha = .ok r ∧
        formatResults R general {} [.ofTest (metric, r)] = .error .typeError := by
    intro values1 values2 alpha h2 hn hlen hneg
    have h0 : ∀ values : List ℝ, ⌊R.rnd (0 * (values.length : ℝ))⌋ = 0 := by
      intro values
      rw [zero_mul]
      have := R.intFix 0 (by norm_num)
      simp only [Int.cast_zero] at this
      rw [this]; simp
    obtain ⟨r, hr⟩ := (C34_tests_return_partial R argsort ha D values1 values2 0 le_rfl (by norm_num) true "two-sided" (Or.inl rfl) alpha hn
      (hlen ▸ hn) (by rw [h0]; omega) (by rw [h0]; omega)).1 hlen
    refine ⟨r, hr, ?_⟩
    obtain ⟨g, kept, ss, hg, ht, hy, -, -, e3, -, e5, -, -, -, hnone⟩ := C83_paired_test_reports R argsort ha D values1 values2 0 _ alpha r hr
    have hg0 : g = 0 := by
      have := h0 values1
      rw [this] at hg
      exact_mod_cast hg
    have hk : kept ≠ [] := by
      obtain ⟨-, low, high, hperm, hl, hh, -⟩ := ht
      have := hperm.length_eq
      simp only [List.length_append, hl, hh, hg0, List.length_zip] at this
      intro hnil
      rw [hnil] at this
      simp only [List.length_nil] at this
      omega
    have hm : Spec.mean (kept.map Prod.snd) < 0 := by
      refine div_neg_of_neg_of_pos (sum_neg_of_neg _ (by simpa using hk) fun v hv => ?_) ?_
      · obtain ⟨p, hp, rfl⟩ := List.mem_map.mp hv
        exact hneg _ (List.of_mem_zip (a := p.1) (b := p.2) (ht.1.subset hp)).2
      · have : 0 < kept.length := List.length_pos_iff.mpr hk
        simpa using this
    have hr0 := hnone (fun h => absurd hm (not_lt.mpr h.2))
    refine (C90_returns R general {} [.ofTest (metric, r)]).2.2.1 (by simp) (fun h => ?_)
    obtain ⟨⟨x, hx, hxn⟩, -⟩ := h rfl
    rw [List.mem_singleton.mp hx] at hxn
    exact hxn hr0
  refine ⟨fun h => ?_, main⟩
  obtain ⟨r, hr, he⟩ := main [-1, -2] [-2, -3] (1/20) (by simp) (by norm_num) rfl (by simp)
  obtain ⟨_, h'⟩ := h R argsort ha D _ _ _ r general metric hr
  rw [he] at h'
  cases h'

/-- A table with two results. -/
def exRows : List (ResultRow ℚ) :=
  [{ metric := "clicks", isSignificant := true, alpha := 1/20, pValue := .fin (7/1000), absoluteDifference := .fin (12/10)
     absoluteLower := .fin (3/10), absoluteUpper := .fin (21/10), relativeDifference := some (.fin (123456/1000000))
     relativeLower := some (.fin (-1/800)), relativeUpper := some .pinf, sampleSize := 21345 },
   { metric := "profit", isSignificant := false, alpha := 1/20, pValue := .fin (4/10), absoluteDifference := .fin (-12/10)
     absoluteLower := .fin (-3), absoluteUpper := .fin (6/10), relativeDifference := none, relativeLower := none, relativeUpper := none
     sampleSize := 100 }]

example : formatResults (Rounding.exact ℚ) (fun _ _ => "") { absolute := false, yearly := true } exRows = .ok [
    { metric := "clicks", style := "background-color:lightgreen"
      cells := [(("Relative Effect Size", "Point Estimate"), "+12.35%"), (("Relative Effect Size", "95% CI"), "-0.12% to +inf%"),
        (("Projected Effect Size (whole feed, per year)", "Point Estimate"), "+1,331,928"),
        (("Projected Effect Size (whole feed, per year)", "95% CI"), "+332,982 to +2,330,874"), (("P-value", ""), "p=0.007 (Significant)")] },
    { metric := "profit", style := "color:grey"
      cells := [(("Relative Effect Size", "Point Estimate"), "+nan%"), (("Relative Effect Size", "95% CI"), "+nan% to +nan%"),
        (("Projected Effect Size (whole feed, per year)", "Point Estimate"), "-6,240"),
        (("Projected Effect Size (whole feed, per year)", "95% CI"), "-15,600 to +3,120"), (("P-value", ""), "p=0.40")] }] := by
  decide +kernel

/-- **C90, full statement for tables.**  Every non-empty table with relative effects can be displayed. -/
def C90_tables_full : Prop :=
  ∀ (R : Rounding ℚ) (general : ℕ → Fl ℚ → String) (rows : List (ResultRow ℚ)), rows ≠ [] →
    (∀ r ∈ rows, r.relativeDifference ≠ none ∧ r.relativeLower ≠ none ∧ r.relativeUpper ≠ none) → (formatResults R general {} rows).Returns

/-- **C90: the code violates it.**  Two results of the same name (one metric analysed with two trimming quantiles, say) cannot be displayed: `KeyError`. -/
theorem C90_same_name_false : ¬ C90_tables_full ∧
    ∀ (R : Rounding K) (general : ℕ → Fl K → String) (r r' : ResultRow K), r.metric = r'.metric →
      r.relativeDifference ≠ none → r.relativeLower ≠ none → r.relativeUpper ≠ none →
      formatResults R general {} [r, r'] = .error .keyError := by
  have main : ∀ {K : Type} [Field K] [LinearOrder K] [IsStrictOrderedRing K] [FloorRing K] (R : Rounding K) (general : ℕ → Fl K → String)
      (r r' : ResultRow K), r.metric = r'.metric →
      r.relativeDifference ≠ none → r.relativeLower ≠ none → r.relativeUpper ≠ none →
      formatResults R general {} [r, r'] = .error .keyError := by
    intro K _ _ _ _ R general r r' he h1 h2 h3
    exact (C90_returns R general {} [r, r']).2.2.2 (by simp) (fun _ => ⟨⟨r, by simp, h1⟩, ⟨r, by simp, h2⟩, r, by simp, h3⟩) (by simp [he])
  refine ⟨fun h => ?_, main⟩
  obtain ⟨r, hr⟩ : ∃ r : ResultRow ℚ, r = { metric := "clicks", isSignificant := true, alpha := 1/20, pValue := .fin (7/1000)
                                            absoluteDifference := .fin (12/10), absoluteLower := .fin (3/10), absoluteUpper := .fin (21/10)
                                            relativeDifference := some (.fin (1/10)), relativeLower := some (.fin (1/20))
                                            relativeUpper := some (.fin (3/20)), sampleSize := 100 } := ⟨_, rfl⟩
  obtain ⟨_, h'⟩ := h (Rounding.exact ℚ) (fun _ _ => "") [r, r] (by simp) (by simp [hr])
  rw [main _ _ r r rfl (by simp [hr]) (by simp [hr]) (by simp [hr])] at h'
  cases h'

/-! ### C91: the interval header -/

/-- **C91, full statement.**  The header states the confidence level: different levels have different headers. -/
def C91_full : Prop :=
  ∀ a b : ℚ, 0 < a → a < 1 → 0 < b → b < 1 → ciHeader (Rounding.exact ℚ) a = ciHeader (Rounding.exact ℚ) b → a = b

/-- **C91: the code violates it.**  Levels 0.995 and 0.999 are both shown as 100%. -/
theorem C91_level_rounded_away_false : ¬ C91_full ∧ ciHeader (Rounding.exact ℚ) (1/200) = "100% CI" ∧
    ciHeader (Rounding.exact ℚ) (1/1000) = "100% CI" := by
  have h1 : ciHeader (Rounding.exact ℚ) (1/200) = "100% CI" := by decide +kernel
  have h2 : ciHeader (Rounding.exact ℚ) (1/1000) = "100% CI" := by decide +kernel
  refine ⟨fun h => ?_, h1, h2⟩
  have := h (1/200) (1/1000) (by norm_num) (by norm_num) (by norm_num) (by norm_num) (h1.trans h2.symm)
  norm_num at this

/-- **C91, proved part.**  With a rounding that is accurate to one part in a million, the header of a level of `c` percent, `c` a whole number, is that
number. -/
theorem C91_whole_percent_partial (R : Rounding K) (hR : ∀ y, |R.rnd y - y| ≤ |y| / 10 ^ 6) (c : ℕ) (hc : c ≤ 100) :
    ciHeader R (1 - (c : K) / 100) = String.ofList ((wholeDigits c).reverse.map Nat.digitChar) ++ "% CI" ∧
    Spec.Reads ((wholeDigits c).reverse.map Nat.digitChar) 0 (c : K) := by
  have hc' : (c : K) ≤ 100 := by exact_mod_cast hc
  have hc0 : (0 : K) ≤ c := Nat.cast_nonneg c
  have e1 := hR ((c : K) / 100)
  rw [abs_of_nonneg (by positivity : (0 : K) ≤ (c : K) / 100)] at e1
  have e2 := hR (100 * R.rnd ((c : K) / 100))
  obtain ⟨l1, u1⟩ := abs_le.mp e1
  have hr0 : R.rnd ((c : K) / 100) ≤ 101 / 100 := by linarith
  have hr1 : (0 : K) ≤ R.rnd ((c : K) / 100) := by linarith
  rw [abs_of_nonneg (by positivity : (0 : K) ≤ 100 * R.rnd ((c : K) / 100))] at e2
  obtain ⟨l2, u2⟩ := abs_le.mp e2
  set y := R.rnd (100 * R.rnd ((c : K) / 100)) with hy
  have hlow : (c : K) - 1 / 4 ≤ y := by linarith
  have hhigh : y ≤ (c : K) + 1 / 4 := by linarith
  have hround : roundHalfEven y = c := by
    have he := abs_le.mp (roundHalfEven_error y)
    have a1 : ((roundHalfEven y : ℤ) : K) < ((c + 1 : ℤ) : K) := by push_cast; linarith
    have a2 : ((c - 1 : ℤ) : K) < ((roundHalfEven y : ℤ) : K) := by push_cast; linarith
    have b1 := Int.cast_lt.mp a1
    have b2 := Int.cast_lt.mp a2
    omega
  have htext : fixedChars false 0 y = (wholeDigits c).reverse.map Nat.digitChar := by
    unfold fixedChars decimalChars digitChars
    simp [hround]
  refine ⟨?_, ?_⟩
  · unfold ciHeader
    rw [sub_sub_cancel, ← hy, htext]
  · have := reads_decimal (K := K) false 0 c
    unfold decimalChars digitChars at this
    simpa using this

example : ciHeader (Rounding.exact ℚ) (1/20) = "95% CI" ∧ ciHeader (Rounding.exact ℚ) (1/10) = "90% CI" := by decide +kernel

end Feedx
