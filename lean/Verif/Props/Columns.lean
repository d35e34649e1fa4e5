import Verif.Proofs.Weeks
import Verif.Props.Weeks

/-!
C48 (downsampling), C54 (at-least-one metrics), C63 (standardised columns).
-/

set_option linter.unusedSectionVars false
set_option linter.unusedSimpArgs false

namespace Feedx

variable {K : Type}

/-! ### Downsampling -/

section
variable [Field K] [LinearOrder K] [IsStrictOrderedRing K] [FloorRing K]

theorem roundHalfEven_cases (x : K) : roundHalfEven x = ⌊x⌋ ∨ (roundHalfEven x = ⌊x⌋ + 1 ∧ (⌊x⌋ : K) < x) := by
  unfold roundHalfEven
  have h0 := Int.floor_le x
  split_ifs with h1 h2 h3
  · exact Or.inl rfl
  · right
    exact ⟨rfl, by linarith [show (0 : K) < 1 / 2 by norm_num]⟩
  · exact Or.inl rfl
  · right
    refine ⟨rfl, ?_⟩
    linarith [show (0 : K) < 1 / 2 by norm_num, not_lt.mp h1]

theorem roundHalfEven_bounds {R : Rounding K} {p : K} (h0 : 0 < p) (h1 : p ≤ 1) {n : ℕ} (hn : n ≤ 2 ^ 53) :
    0 ≤ roundHalfEven (R.rnd (p * ((n : ℤ) : K))) ∧ roundHalfEven (R.rnd (p * ((n : ℤ) : K))) ≤ n ∧
      (roundHalfEven (R.rnd (p * ((n : ℤ) : K))) : K) - 1 < p * n ∧ p * n < (roundHalfEven (R.rnd (p * ((n : ℤ) : K))) : K) + 1 := by
  set x : K := p * ((n : ℤ) : K) with hx
  have hxn : x = p * (n : K) := by rw [hx]; push_cast; rfl
  have hx0 : 0 ≤ x := by rw [hxn]; positivity
  have hxle : x ≤ n := by
    rw [hxn]
    have : (0 : K) ≤ n := Nat.cast_nonneg n
    nlinarith
  have hk0 : 0 ≤ ⌊x⌋ := Int.floor_nonneg.mpr hx0
  have hkn : ⌊x⌋ ≤ n := by
    have := Int.floor_mono hxle
    simpa using this
  have hk53 : |⌊x⌋| ≤ 2 ^ 53 := by rw [abs_of_nonneg hk0]; omega
  have e1 : (⌊x⌋ : K) ≤ R.rnd x := by
    rw [← R.intFix ⌊x⌋ hk53]; exact R.mono (Int.floor_le x)
  have hup : x ≤ (⌈x⌉ : K) := Int.le_ceil x
  have hcn : ⌈x⌉ ≤ n := by
    rw [Int.ceil_le]; simpa using hxle
  have hc0 : 0 ≤ ⌈x⌉ := Int.ceil_nonneg hx0
  have e2 : R.rnd x ≤ (⌈x⌉ : K) := by
    rw [← R.intFix ⌈x⌉ (by rw [abs_of_nonneg hc0]; omega)]
    exact R.mono hup
  have hf1 : ⌊x⌋ ≤ ⌊R.rnd x⌋ := Int.le_floor.mpr e1
  have hf2 : ⌊R.rnd x⌋ ≤ ⌈x⌉ := by
    have := Int.floor_mono e2
    simpa using this
  have hfl := Int.floor_le (R.rnd x)
  have hr1 : ⌊x⌋ ≤ roundHalfEven (R.rnd x) := by
    rcases roundHalfEven_cases (R.rnd x) with e | ⟨e, _⟩ <;> omega
  have hr2 : roundHalfEven (R.rnd x) ≤ ⌈x⌉ := by
    rcases roundHalfEven_cases (R.rnd x) with e | ⟨e, hlt⟩
    · omega
    · have : ((⌊R.rnd x⌋ : ℤ) : K) < (⌈x⌉ : K) := lt_of_lt_of_le hlt e2
      have := Int.cast_lt.mp this
      omega
  refine ⟨le_trans hk0 hr1, le_trans hr2 hcn, ?_, ?_⟩
  · rw [← hxn]
    have h3 : (roundHalfEven (R.rnd x) : K) ≤ (⌈x⌉ : K) := Int.cast_le.mpr hr2
    have := Int.ceil_lt_add_one x
    linarith
  · rw [← hxn]
    have h3 : (⌊x⌋ : K) ≤ (roundHalfEven (R.rnd x) : K) := Int.cast_le.mpr hr1
    have := Int.lt_floor_add_one x
    linarith

/-- **C48.**  Downsampling with a legal fraction below 1 returns, in order, all the rows of a set `S` of the data's items and no others;
`S` has `round(fraction * number of items)` items, which is within one of the exact product. -/
theorem C48_whole_items (R : Rounding K) (rng : Sampler (Cell K)) (f : Frame K) (fraction : K) (itemCol : String)
    (h0 : 0 < fraction) (h1 : fraction < 1) (hc : itemCol ∈ f.cols) (hsize : (f.col itemCol).toFinset.card ≤ 2 ^ 53) :
    ∃ (out : Frame K) (S : Finset (Cell K)), downsample R rng f fraction itemCol = .ok out ∧ out.cols = f.cols ∧
      (∀ i ∈ S, i ∈ f.col itemCol) ∧ out.rows = f.rows.filter (fun r => decide (r itemCol ∈ S)) ∧
      (out.col itemCol).toFinset = S ∧
      (S.card : ℤ) = roundHalfEven (R.rnd (fraction * ((((f.col itemCol).toFinset.card : ℕ) : ℤ) : K))) ∧
      (S.card : K) - 1 < fraction * (f.col itemCol).toFinset.card ∧ fraction * (f.col itemCol).toFinset.card < (S.card : K) + 1 := by
  have hlen : (dropDup (f.col itemCol)).length = (f.col itemCol).toFinset.card := by
    rw [← List.toFinset_card_of_nodup (nodup_dropDup _)]
    congr 1
    ext c
    simp [mem_dropDup]
  rw [← hlen] at hsize
  obtain ⟨b1, b2, b3, b4⟩ := roundHalfEven_bounds (R := R) h0 h1.le hsize
  set items := dropDup (f.col itemCol) with hitems
  set n := roundHalfEven (R.rnd (fraction * ((items.length : ℤ) : K))) with hn
  set S := rng.draw items n.toNat with hS
  have hSl : S.length = n.toNat := rng.length _ _ (by omega)
  have hSsub := rng.subperm items n.toNat
  have hSnd : S.Nodup := by
    obtain ⟨l, hl1, hl2⟩ := hSsub
    exact hl1.nodup_iff.mp ((nodup_dropDup _).sublist hl2)
  have hScard : S.toFinset.card = n.toNat := by rw [List.toFinset_card_of_nodup hSnd, hSl]
  have hret : downsample R rng f fraction itemCol = .ok (f.filterRows (fun r => decide (r itemCol ∈ S))) := by
    unfold downsample
    refine raiseIf_bind_ok.mpr ⟨by push Not; exact ⟨h0, h1.le⟩, raiseIf_bind_ok.mpr ⟨not_not.mpr hc, ?_⟩⟩
    rw [if_neg h1.ne]
    rfl
  have hmem : ∀ i ∈ S, i ∈ f.col itemCol := fun i hi => mem_dropDup.mp (hSsub.subset hi)
  refine ⟨_, S.toFinset, hret, rfl, fun i hi => hmem i (List.mem_toFinset.mp hi), ?_, ?_, ?_, ?_, ?_⟩
  · simp [Frame.filterRows]
  · ext c
    rw [List.mem_toFinset, List.mem_toFinset]
    unfold Frame.col Frame.filterRows
    rw [List.mem_map]
    constructor
    · rintro ⟨r, hr, rfl⟩
      simpa using (List.mem_filter.mp hr).2
    · intro hc
      obtain ⟨r, hr, rfl⟩ := List.mem_map.mp (hmem c hc)
      exact ⟨r, List.mem_filter.mpr ⟨hr, by simpa using hc⟩, rfl⟩
  · rw [hScard, Int.toNat_of_nonneg b1, ← hlen]
  all_goals
    have e : ((S.toFinset.card : ℕ) : K) = (n : K) := by
      rw [hScard, ← Int.cast_natCast, Int.toNat_of_nonneg b1]
    rw [e, ← hlen]
  · exact b3
  · exact b4

/-- **C48.**  Fraction 1 returns the data itself; fractions outside (0, 1] raise `ValueError`. -/
theorem C48_limits (R : Rounding K) (rng : Sampler (Cell K)) (f : Frame K) (fraction : K) (itemCol : String) :
    (itemCol ∈ f.cols → downsample R rng f 1 itemCol = .ok f) ∧
    (¬ (0 < fraction ∧ fraction ≤ 1) → downsample R rng f fraction itemCol = .error .valueError) := by
  unfold downsample
  constructor
  · intro hc
    refine raiseIf_bind_ok.mpr ⟨by push Not; exact ⟨zero_lt_one, le_refl _⟩, raiseIf_bind_ok.mpr ⟨not_not.mpr hc, ?_⟩⟩
    rw [if_pos rfl]
    rfl
  · intro h
    refine raiseIf_bind_err.mpr (Or.inl ⟨?_, rfl⟩)
    by_contra hc
    push Not at hc
    exact h hc

/-! ### At-least-one metrics -/

theorem positiveCell_eq (c : Cell K) :
    (Spec.IsPositive c → positiveCell c = .int 1) ∧ (¬ Spec.IsPositive c → positiveCell c = .int 0) := by
  unfold positiveCell Spec.IsPositive
  cases c with
  | int i => simp [Cell.toFl, Fl.lt_fin]
  | num x => simp [Cell.toFl, Fl.lt_fin]
  | inf b => cases b <;> simp [Cell.toFl, Fl.lt]
  | null => simp [Cell.toFl, Fl.lt]
  | str s => simp [Cell.toFl, Fl.lt]
  | time t => simp [Cell.toFl, Fl.lt]

/-- **C54.**  With distinct new names that are not source metrics, adding the at-least-one metrics keeps the rows in order and all other
columns, and each new column is 1 exactly where its source metric is greater than 0, and 0 elsewhere (also where it is missing). -/
theorem C54_indicators (metrics : List (String × String)) (f out : Frame K) (h : addAtLeastOne metrics f = .ok out)
    (hnd : (metrics.map Prod.snd).Nodup) (hdis : ∀ p ∈ metrics, p.1 ∉ metrics.map Prod.snd) :
    (∀ c, c ∈ out.cols ↔ c ∈ f.cols ∨ c ∈ metrics.map Prod.snd) ∧
    List.Forall₂ (fun r r' => (∀ p ∈ metrics, (Spec.IsPositive (r p.1) → r' p.2 = .int 1) ∧
        (¬ Spec.IsPositive (r p.1) → r' p.2 = .int 0)) ∧
      ∀ c, c ∉ metrics.map Prod.snd → r' c = r c) f.rows out.rows := by
  induction metrics generalizing f with
  | nil =>
    cases h
    refine ⟨by simp, ?_⟩
    rw [List.forall₂_same]
    intro r _
    simp
  | cons p metrics ih =>
    obtain ⟨m, new⟩ := p
    unfold addAtLeastOne at h
    obtain ⟨-, h⟩ := raiseIf_bind_ok.mp h
    obtain ⟨-, h⟩ := raiseIf_bind_ok.mp h
    simp only [List.map_cons, List.nodup_cons, List.mem_cons, forall_eq_or_imp, not_or] at hnd hdis
    obtain ⟨ih1, ih2⟩ := ih _ h hnd.2 (fun p hp => (hdis.2 p hp).2)
    constructor
    · intro c
      rw [ih1]
      unfold Frame.setCol
      simp only
      split <;> simp_all <;> aesop
    · unfold Frame.setCol at ih2
      simp only [List.forall₂_map_left_iff] at ih2
      refine ih2.imp ?_
      rintro r r' ⟨h1, h2⟩
      simp only [List.mem_cons, forall_eq_or_imp, List.map_cons, not_or]
      refine ⟨⟨?_, ?_⟩, ?_⟩
      · rw [h2 new hnd.1, Function.update_self]
        exact positiveCell_eq _
      · intro p hp
        have := h1 p hp
        rwa [Function.update_of_ne (hdis.2 p hp).1] at this
      · intro c hc
        rw [h2 c hc.2, Function.update_of_ne hc.1]

/-- Adding at-least-one metrics returns when every source is a numeric column. -/
theorem C54_returns (metrics : List (String × String)) (f : Frame K) (hnd : (metrics.map Prod.snd).Nodup)
    (hdis : ∀ p ∈ metrics, p.1 ∉ metrics.map Prod.snd) (hc : ∀ p ∈ metrics, p.1 ∈ f.cols)
    (hnum : ∀ p ∈ metrics, ∀ r ∈ f.rows, (r p.1).isNumeric = true) : ∃ out, addAtLeastOne metrics f = .ok out := by
  induction metrics generalizing f with
  | nil => exact ⟨f, rfl⟩
  | cons p metrics ih =>
    obtain ⟨m, new⟩ := p
    simp only [List.map_cons, List.nodup_cons, List.mem_cons, forall_eq_or_imp, not_or] at hnd hdis hc hnum
    obtain ⟨out, ho⟩ := ih (f.setCol new (fun r => positiveCell (r m))) hnd.2 (fun p hp => (hdis.2 p hp).2)
      (by
        intro p hp
        unfold Frame.setCol
        simp only
        split
        · exact hc.2 p hp
        · simp [hc.2 p hp])
      (by
        intro p hp r hr
        unfold Frame.setCol at hr
        obtain ⟨r0, hr0, rfl⟩ := List.mem_map.mp hr
        rw [Function.update_of_ne (hdis.2 p hp).1]
        exact hnum.2 p hp r0 hr0)
    refine ⟨out, ?_⟩
    unfold addAtLeastOne
    refine raiseIf_bind_ok.mpr ⟨not_not.mpr hc.1, raiseIf_bind_ok.mpr ⟨?_, ho⟩⟩
    rw [List.any_eq_true]
    rintro ⟨r, hr, hn⟩
    rw [hnum.1 r hr] at hn
    simp at hn

end

/-! ### Standardised columns -/

/-- The metric columns requested: standard name and input column. -/
def Spec.requestedMetrics (s : StdCols) : List (String × String) :=
  (s.clicks.toList.map (fun c => ("clicks", c))) ++ (s.impressions.toList.map (fun c => ("impressions", c))) ++
  (s.totalCost.toList.map (fun c => ("total_cost", c))) ++ (s.conversions.toList.map (fun c => ("conversions", c))) ++
  (s.totalConversionValue.toList.map (fun c => ("total_conversion_value", c)))

theorem columnNames_eq (itemCol dateCol : String) (s : StdCols) (custom : List (String × String)) :
    columnNames itemCol dateCol s custom = ("item_id", itemCol) :: ("date", dateCol) :: (Spec.requestedMetrics s ++ custom) := by
  unfold columnNames Spec.requestedMetrics
  rcases s with ⟨a, b, c, d, e⟩
  cases a <;> cases b <;> cases c <;> cases d <;> cases e <;> rfl

theorem requestedMetrics_names {s : StdCols} {p : String × String} (hp : p ∈ Spec.requestedMetrics s) :
    p.1 ∈ standardNames ∧ p.1 ≠ "item_id" ∧ p.1 ≠ "date" := by
  unfold Spec.requestedMetrics at hp
  rcases s with ⟨a, b, c, d, e⟩
  simp only [List.mem_append, List.mem_map] at hp
  rcases hp with (((⟨_, _, rfl⟩ | ⟨_, _, rfl⟩) | ⟨_, _, rfl⟩) | ⟨_, _, rfl⟩) | ⟨_, _, rfl⟩ <;> simp [standardNames]

theorem requestedMetrics_nodup (s : StdCols) : ((Spec.requestedMetrics s).map Prod.fst).Nodup := by
  unfold Spec.requestedMetrics
  rcases s with ⟨a, b, c, d, e⟩
  cases a <;> cases b <;> cases c <;> cases d <;> cases e <;> simp

theorem lookup_of_mem {α β : Type} [BEq α] [LawfulBEq α] {l : List (α × β)} (hnd : (l.map Prod.fst).Nodup) {p : α × β} (hp : p ∈ l) :
    l.lookup p.1 = some p.2 := by
  induction l with
  | nil => simp at hp
  | cons a l ih =>
    rw [List.map_cons, List.nodup_cons] at hnd
    rcases List.mem_cons.mp hp with rfl | hp
    · exact List.lookup_cons_self
    · rw [show a = (a.1, a.2) from rfl, List.lookup_cons]
      have : (p.1 == a.1) = false := by
        rw [beq_eq_false_iff_ne]
        intro e
        exact hnd.1 (e ▸ List.mem_map.mpr ⟨p, hp, rfl⟩)
      rw [this]
      exact ih hnd.2 hp

theorem forall₂_exists {α β : Type} {P : α → β → Prop} {l : List α} {m : List β} (h : List.Forall₂ P l m) {a : α} (ha : a ∈ l) :
    ∃ b ∈ m, P a b := by
  induction h with
  | nil => simp at ha
  | cons hab _ ih =>
    rcases List.mem_cons.mp ha with rfl | ha
    · exact ⟨_, by simp, hab⟩
    · obtain ⟨q, hq, e⟩ := ih ha
      exact ⟨q, by simp [hq], e⟩

/-- What standardising returns: each output column is the parsed input column. -/
theorem standardize_ok {E : Ext K} {f out : Frame K} {itemCol dateCol : String} {s : StdCols} {custom : List (String × String)}
    {customParse : List (String × (Cell K → Py (Cell K)))} (hcd : (custom.map Prod.fst).Nodup)
    (h : standardize E f itemCol dateCol s custom customParse = .ok out) :
    (∀ p ∈ custom, p.1 ∉ standardNames) ∧
    (∀ p ∈ customParse, p.1 ∉ standardNames ∧ p.1 ∈ custom.map Prod.fst) ∧
    (∀ p ∈ columnNames itemCol dateCol s custom, p.2 ∈ f.cols) ∧
    out.cols = (columnNames itemCol dateCol s custom).map Prod.fst ∧
    List.Forall₂ (fun r r' => ∀ p ∈ columnNames itemCol dateCol s custom, parseCell E customParse p.1 (r p.2) = .ok (r' p.1))
      f.rows out.rows := by
  unfold standardize at h
  obtain ⟨h1, h⟩ := raiseIf_bind_ok.mp h
  obtain ⟨h2, h⟩ := raiseIf_bind_ok.mp h
  simp only at h
  obtain ⟨h3, h⟩ := raiseIf_bind_ok.mp h
  obtain ⟨h4, h⟩ := raiseIf_bind_ok.mp h
  obtain ⟨cols, hcols, h⟩ := Py.bind_eq_ok.mp h
  have hF := Py.mapM_ok hcols
  have hfst : cols.map Prod.fst = (columnNames itemCol dateCol s custom).map Prod.fst := by
    clear hcols h h3 h4
    generalize columnNames itemCol dateCol s custom = names at hF
    induction hF with
    | nil => rfl
    | cons hab _ ih =>
      obtain ⟨l, _, e⟩ := Py.bind_eq_ok.mp hab
      cases e
      simp [ih]
  have c1 : ∀ p ∈ custom, p.1 ∉ standardNames := by
    intro p hp hs
    refine h1 ?_
    rw [List.any_eq_true]
    exact ⟨p, hp, by simpa using hs⟩
  have hnd : (cols.map Prod.fst).Nodup := by
    rw [hfst, columnNames_eq]
    simp only [List.map_cons, List.map_append]
    rw [List.nodup_cons, List.nodup_cons, List.nodup_append]
    have hm : ∀ x ∈ (Spec.requestedMetrics s).map Prod.fst, x ∈ standardNames ∧ x ≠ "item_id" ∧ x ≠ "date" := by
      intro x hx
      obtain ⟨p, hp, rfl⟩ := List.mem_map.mp hx
      exact requestedMetrics_names hp
    have hcu : ∀ x ∈ custom.map Prod.fst, x ∉ standardNames := by
      intro x hx
      obtain ⟨p, hp, rfl⟩ := List.mem_map.mp hx
      exact c1 p hp
    refine ⟨?_, ?_, requestedMetrics_nodup s, hcd, ?_⟩
    · rw [List.mem_cons, List.mem_append]
      rintro (e | e | e)
      · simp at e
      · exact (hm _ e).2.1 rfl
      · exact hcu _ e (by simp [standardNames])
    · rw [List.mem_append]
      rintro (e | e)
      · exact (hm _ e).2.2 rfl
      · exact hcu _ e (by simp [standardNames])
    · rintro a ha b hb rfl
      exact hcu a hb (hm a ha).1
  refine ⟨c1, ?_, ?_, ?_, ?_⟩
  · intro p hp
    by_contra hcon
    refine h2 ?_
    rw [List.any_eq_true]
    refine ⟨p, hp, ?_⟩
    rw [Bool.or_eq_true, decide_eq_true_eq, decide_eq_true_eq]
    tauto
  · intro p hp
    by_contra hcon
    refine h3 ?_
    rw [List.any_eq_true]
    exact ⟨p, hp, by simpa using hcon⟩
  · cases h
    exact hfst
  · cases h
    rw [List.forall₂_iff_get]
    refine ⟨by simp [ofColumns], ?_⟩
    intro i h1 h2 p hp
    obtain ⟨q, hq, hpq⟩ : ∃ q ∈ cols, (do
        let l ← (f.col p.2).mapM (parseCell E customParse p.1)
        pure (p.1, l)) = .ok q := by
      exact forall₂_exists hF hp
    obtain ⟨l, hl, e⟩ := Py.bind_eq_ok.mp hpq
    cases e
    have hl2 := List.forall₂_iff_get.mp (Py.mapM_ok hl)
    have hil : i < l.length := by rw [← hl2.1]; simpa [Frame.col] using h1
    have hp2 := hl2.2 i (by simpa [Frame.col] using h1) hil
    have hlook := lookup_of_mem hnd hq
    simp only at hlook
    simp only [ofColumns, List.get_eq_getElem, List.getElem_map, List.getElem_range, hlook, Option.bind_some,
      List.getElem?_eq_getElem hil, Option.getD_some]
    simpa [Frame.col] using hp2

/-- **C63.**  Standardised data has exactly the requested columns under their standard names, in order, and as many rows as the input;
item ids are the input as strings, dates the parsed dates, standard metrics the parsed numbers, and a custom column its parse
function's result, or the input itself if it has none. -/
theorem C63_requested_columns (E : Ext K) (f out : Frame K) (itemCol dateCol : String) (s : StdCols) (custom : List (String × String))
    (customParse : List (String × (Cell K → Py (Cell K)))) (hcd : (custom.map Prod.fst).Nodup)
    (hpd : (customParse.map Prod.fst).Nodup)
    (h : standardize E f itemCol dateCol s custom customParse = .ok out) :
    out.cols = "item_id" :: "date" :: (Spec.requestedMetrics s ++ custom).map Prod.fst ∧
    List.Forall₂ (fun r r' =>
      r' "item_id" = .str (E.toStr (r itemCol)) ∧
      (∃ t, E.toDate (r dateCol) = .ok t ∧ r' "date" = Cell.ofTime t) ∧
      (∀ p ∈ Spec.requestedMetrics s, ∃ x, E.toNumeric (r p.2) = .ok x ∧ r' p.1 = Cell.ofFl x) ∧
      (∀ p ∈ custom, (∀ g, (p.1, g) ∈ customParse → g (r p.2) = .ok (r' p.1)) ∧
        (p.1 ∉ customParse.map Prod.fst → r' p.1 = r p.2))) f.rows out.rows := by
  obtain ⟨c1, c2, -, hc, hr⟩ := standardize_ok hcd h
  rw [columnNames_eq] at hc hr
  refine ⟨by rw [hc]; rfl, hr.imp ?_⟩
  intro r r' hrr
  have hnone : ∀ n ∈ standardNames, customParse.lookup n = none := by
    intro n hn
    rw [List.lookup_eq_none_iff]
    intro p hp
    rw [bne_iff_ne, ne_eq]
    rintro rfl
    exact (c2 p hp).1 hn
  refine ⟨?_, ?_, ?_, ?_⟩
  · have := hrr ("item_id", itemCol) (by simp)
    unfold parseCell at this
    rw [hnone _ (by simp [standardNames])] at this
    simpa using this.symm
  · have := hrr ("date", dateCol) (by simp)
    unfold parseCell at this
    rw [hnone _ (by simp [standardNames])] at this
    simp only [String.reduceEq, if_false, if_true] at this
    cases hd : E.toDate (r dateCol) with
    | error e => rw [hd] at this; cases this
    | ok t => rw [hd] at this; exact ⟨t, rfl, (Except.ok.inj this).symm⟩
  · intro p hp
    have := hrr p (by simp [hp])
    obtain ⟨n1, n2, n3⟩ := requestedMetrics_names hp
    unfold parseCell at this
    rw [hnone _ n1] at this
    simp only [n1, n2, n3, if_false, if_true] at this
    cases hd : E.toNumeric (r p.2) with
    | error e => rw [hd] at this; cases this
    | ok t => rw [hd] at this; exact ⟨t, rfl, (Except.ok.inj this).symm⟩
  · intro p hp
    have := hrr p (by simp [hp])
    unfold parseCell at this
    constructor
    · intro g hg
      rw [lookup_of_mem hpd hg] at this
      exact this
    · intro hno
      have hl : customParse.lookup p.1 = none := by
        rw [List.lookup_eq_none_iff]
        intro q hq
        rw [bne_iff_ne, ne_eq]
        intro e
        exact hno (e ▸ List.mem_map.mpr ⟨q, hq, rfl⟩)
      rw [hl] at this
      have hns := c1 p hp
      have e1 : p.1 ≠ "item_id" := fun e => hns (by rw [e]; simp [standardNames])
      have e2 : p.1 ≠ "date" := fun e => hns (by rw [e]; simp [standardNames])
      simp only [e1, e2, hns, if_false] at this
      exact (Except.ok.inj this).symm

/-- **C63.**  A missing input column, a custom column with a standard name, and a parse function without a custom column each raise
`ValueError`. -/
theorem C63_bad_requests (E : Ext K) (f : Frame K) (itemCol dateCol : String) (s : StdCols) (custom : List (String × String))
    (customParse : List (String × (Cell K → Py (Cell K))))
    (h : (∃ p ∈ ("item_id", itemCol) :: ("date", dateCol) :: (Spec.requestedMetrics s ++ custom), p.2 ∉ f.cols) ∨
      (∃ p ∈ custom, p.1 ∈ standardNames) ∨ (∃ p ∈ customParse, p.1 ∉ custom.map Prod.fst)) :
    standardize E f itemCol dateCol s custom customParse = .error .valueError := by
  unfold standardize
  by_cases h1 : custom.any (fun p => decide (p.1 ∈ standardNames)) = true
  · exact raiseIf_bind_err.mpr (Or.inl ⟨h1, rfl⟩)
  refine raiseIf_bind_err.mpr (Or.inr ⟨h1, ?_⟩)
  by_cases h2 : customParse.any (fun p => decide (p.1 ∈ standardNames) || decide (p.1 ∉ custom.map Prod.fst)) = true
  · exact raiseIf_bind_err.mpr (Or.inl ⟨h2, rfl⟩)
  refine raiseIf_bind_err.mpr (Or.inr ⟨h2, ?_⟩)
  rcases h with h | h | h
  · refine raiseIf_bind_err.mpr (Or.inl ⟨?_, rfl⟩)
    rw [columnNames_eq, List.any_eq_true]
    obtain ⟨p, hp, hf⟩ := h
    exact ⟨p, hp, by simpa using hf⟩
  · exfalso
    obtain ⟨p, hp, hs⟩ := h
    exact h1 (List.any_eq_true.mpr ⟨p, hp, by simpa using hs⟩)
  · exfalso
    obtain ⟨p, hp, hs⟩ := h
    exact h2 (List.any_eq_true.mpr ⟨p, hp, by rw [Bool.or_eq_true]; right; simpa using hs⟩)

/-! ### Examples -/

/-- Takes the first `n` entries. -/
def takeSampler (α : Type) : Sampler α where
  draw := fun l n => l.take n
  subperm := fun l n => (List.take_sublist n l).subperm
  length := fun l n h => by simp [h]

/-- C48 is not vacuous: half of two items is one item, kept with both its rows. -/
example : (downsample (Rounding.exact ℚ) (takeSampler _)
    (⟨["item_id", "x"], [fun c => if c = "item_id" then .str "a" else .int 1, fun c => if c = "item_id" then .str "b" else .int 2,
      fun c => if c = "item_id" then .str "a" else .int 3]⟩ : Frame ℚ) (1 / 2) "item_id").map (fun o => o.table) =
    .ok [[.str "a", .int 1], [.str "a", .int 3]] := by decide +kernel

/-- C54 is not vacuous. -/
example : (addAtLeastOne [("clicks", "any_click")] nineDays).map (fun o => (o.cols, o.col "any_click")) =
    .ok (["item_id", "date", "clicks", "any_click"], [.int 0, .int 1, .int 1, .int 1, .int 1, .int 1, .int 1, .int 1, .int 1]) := by
  decide +kernel

/-- C63 is not vacuous: a standard metric and a custom column with a parse function. -/
example : (standardize exampleExt
    (⟨["id", "day", "c", "z"], [fun c => if c = "id" then .int 7 else if c = "day" then .time 5 else if c = "c" then .int 3 else .int 9]⟩ :
      Frame ℚ) "id" "day" { clicks := some "c" } [("z", "z")] [("z", fun c => .ok (Cell.ofFl c.toFl))]).map
      (fun o => (o.cols, o.table)) =
    .ok (["item_id", "date", "clicks", "z"], [[.str "7", .time 5, .num 3, .num 9]]) := by decide +kernel

end Feedx
