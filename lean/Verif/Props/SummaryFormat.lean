import Verif.Props.SummaryTable
import Verif.Props.FormatTable

/-!
Properties C81 and C94: the caption, the texts and the colours of the displayed summary table.
-/

set_option linter.unusedSectionVars false

namespace Feedx

section Caption
variable {K : Type} [Field K] [LinearOrder K] [IsStrictOrderedRing K] [FloorRing K]

theorem same_iff (v w : SVal K) : v.same w = true ↔ Spec.SameValue v w := by
  unfold Spec.SameValue Spec.Missing
  rcases v with _ | b | s | x | (_ | _ | _ | x) <;> rcases w with _ | b' | s' | x' | (_ | _ | _ | x') <;>
    simp [SVal.same, Spec.number, eq_comm]

theorem sameValue_symm {v w : SVal K} (h : Spec.SameValue v w) : Spec.SameValue w v := by
  rcases h with ⟨h1, h2⟩ | ⟨s, h1, h2⟩ | ⟨b, h1, h2⟩ | ⟨x, h0, h1, h2⟩
  · exact Or.inl ⟨h2, h1⟩
  · exact Or.inr (Or.inl ⟨s, h2, h1⟩)
  · exact Or.inr (Or.inr (Or.inl ⟨b, h2, h1⟩))
  · exact Or.inr (Or.inr (Or.inr ⟨x, h0, h2, h1⟩))

theorem sameValue_refl (v : SVal K) : Spec.SameValue v v := by
  rw [← same_iff]
  rcases v with _ | b | s | x | (_ | _ | _ | x) <;> simp [SVal.same]

theorem sameValue_trans {u v w : SVal K} (h : Spec.SameValue u v) (h' : Spec.SameValue v w) : Spec.SameValue u w := by
  rw [← same_iff] at h h' ⊢
  rcases u with _ | b | s | x | (_ | _ | _ | x) <;> rcases v with _ | b' | s' | x' | (_ | _ | _ | x') <;> simp [SVal.same] at h <;>
    rcases w with _ | b'' | s'' | x'' | (_ | _ | _ | x'') <;> simp [SVal.same] at h' ⊢ <;> simp [*]

theorem isConstant_iff (t : SummaryTable K) (col : String) : isConstant t col = true ↔ Spec.ConstantColumn t col := by
  unfold isConstant Spec.ConstantColumn
  rcases hr : t.rows with _ | ⟨first, rest⟩
  · simp
  · simp only [List.all_eq_true, same_iff]
    constructor
    · intro h
      have h' : ∀ r ∈ first :: rest, Spec.SameValue (first.2 col) (r.2 col) := by
        intro r hr
        rcases List.mem_cons.mp hr with rfl | hr
        · exact sameValue_refl _
        · exact h r hr
      exact ⟨by simp, fun r hr r' hr' => sameValue_trans (sameValue_symm (h' r hr)) (h' r' hr')⟩
    · rintro ⟨-, h⟩ r hr
      exact h first (by simp) r (by simp [hr])

/-- The design columns that can move to the caption: all except the washout. -/
def Spec.captionNames : List String := Spec.designNames.filter (fun n => decide (n ≠ "crossover_washout_weeks"))

theorem designAttributes_iff (n : String) : n ∈ designAttributes ↔ n ∈ Spec.captionNames := by
  have h1 : ∀ n ∈ designAttributes, n ∈ Spec.captionNames := by decide
  have h2 : ∀ n ∈ Spec.captionNames, n ∈ designAttributes := by decide
  exact ⟨h1 n, h2 n⟩

/-- **C81, full statement.**  Exactly the design columns with one distinct value are removed. -/
def C81_full (K : Type) [Field K] [LinearOrder K] [FloorRing K] : Prop :=
  ∀ (text : SVal K → String) (t t' : SummaryTable K) (caption : String), extractConstant text t = .ok (t', caption) →
    ∀ n, n ∈ t'.cols ↔ n ∈ t.cols ∧ ¬ (n ∈ Spec.designNames ∧ Spec.ConstantColumn t n)

/-- **C81, proved part: all design columns but the washout.**  The rows are kept; exactly the columns of the list with one distinct value are removed; and
the caption lists each of them, once, with the value of the first row, which is the value of every row. -/
theorem C81_listed_columns_partial (text : SVal K → String) (t t' : SummaryTable K) (caption : String)
    (h : extractConstant text t = .ok (t', caption)) :
    t'.rows = t.rows ∧ t'.cols.Sublist t.cols ∧
    (∀ n, n ∈ t'.cols ↔ n ∈ t.cols ∧ ¬ (n ∈ Spec.captionNames ∧ Spec.ConstantColumn t n)) ∧
    ∃ removed : List String, removed.Nodup ∧ (∀ n, n ∈ removed ↔ n ∈ Spec.captionNames ∧ Spec.ConstantColumn t n) ∧
      ∀ first rest, t.rows = first :: rest →
        caption = String.intercalate ", " (removed.map (fun n => n ++ " = " ++ text (first.2 n))) ∧
        ∀ n ∈ removed, ∀ r ∈ t.rows, Spec.SameValue (first.2 n) (r.2 n) := by
  unfold extractConstant at h
  obtain ⟨-, h⟩ := raiseIf_bind_ok.mp h
  cases h
  have hmem : ∀ n, n ∈ designAttributes.filter (isConstant t) ↔ n ∈ Spec.captionNames ∧ Spec.ConstantColumn t n := by
    intro n
    rw [List.mem_filter, isConstant_iff, designAttributes_iff]
  refine ⟨rfl, List.filter_sublist, fun n => ?_, designAttributes.filter (isConstant t), ?_, hmem, ?_⟩
  · rw [List.mem_filter, decide_eq_true_iff, hmem]
  · exact List.Nodup.filter _ (by decide)
  · intro first rest hr
    refine ⟨by simp only [hr], fun n hn r hrm => ?_⟩
    exact ((hmem n).mp hn).2.2 first (by rw [hr]; simp) r hrm

/-- **C81, when it returns.**  The caption is made for every table that has the listed columns, such as those of `make_analysis_summary_dataframe`. -/
theorem C81_returns (text : SVal K → String) (t : SummaryTable K) :
    ((extractConstant text t).Returns ↔ ∀ n ∈ Spec.captionNames, n ∈ t.cols) ∧
    (t.cols = Spec.designNames ++ Spec.effectNames ++ Spec.validationNames → (extractConstant text t).Returns) := by
  have h1 : (extractConstant text t).Returns ↔ ∀ n ∈ Spec.captionNames, n ∈ t.cols := by
    constructor
    · rintro ⟨x, h⟩ n hn
      unfold extractConstant at h
      obtain ⟨h, -⟩ := raiseIf_bind_ok.mp h
      push Not at h
      exact h n ((designAttributes_iff n).mpr hn)
    · intro h
      refine ⟨_, raiseIf_bind_ok.mpr ⟨?_, rfl⟩⟩
      push Not
      exact fun n hn => h n ((designAttributes_iff n).mp hn)
  refine ⟨h1, fun hc => h1.mpr ?_⟩
  rw [hc]
  decide

/-- **C81: the code violates it.**  The washout weeks are not in the list: in every summary table their column stays, also when it has one distinct value, as in the
table of a single analysis. -/
theorem C81_washout_stays_false (R : Rounding ℝ) (fr : ℝ → List Char) (printable : Char → Bool) (X : RobustnessTests) :
    ¬ C81_full ℝ ∧
    (∀ (text : SVal ℝ → String) (S : SummarySorter) (analyses : List (SimConfig × SimState)) (sortBy : String) (t t' : SummaryTable ℝ) (caption : String),
      makeSummary R fr printable X S analyses sortBy = .ok t → extractConstant text t = .ok (t', caption) →
      "crossover_washout_weeks" ∈ t'.cols) ∧
    ∃ S t, makeSummary R fr printable X S [(simConfig, simState)] "relative_minimum_detectable_effect" = .ok t ∧
      Spec.ConstantColumn t "crossover_washout_weeks" := by
  have h2 : ∀ (text : SVal ℝ → String) (S : SummarySorter) (analyses : List (SimConfig × SimState)) (sortBy : String) (t t' : SummaryTable ℝ)
      (caption : String), makeSummary R fr printable X S analyses sortBy = .ok t → extractConstant text t = .ok (t', caption) →
      "crossover_washout_weeks" ∈ t'.cols := by
    intro text S analyses sortBy t t' caption h h'
    rw [(C81_listed_columns_partial text t t' caption h').2.2.1]
    refine ⟨?_, fun hc => absurd hc.1 (by decide)⟩
    rw [(C93_rows S analyses sortBy t h).1]
    decide
  have h3 : ∃ S t, makeSummary R fr printable X S [(simConfig, simState)] "relative_minimum_detectable_effect" = .ok t ∧
      Spec.ConstantColumn t "crossover_washout_weeks" := by
    obtain ⟨id, hid⟩ := (C05_design_id_ignores_salt R fr printable simParams simDesign (simDesign_created R) simDesign.salt none).2
    obtain ⟨t, ht⟩ := (C93_returns (R := R) (fr := fr) (printable := printable) (X := X) insertionSorter [(simConfig, simState)]
      "relative_minimum_detectable_effect").1.mpr ⟨by simp, fun a ha => by
        rw [List.mem_singleton.mp ha]
        exact ⟨_, summary_unvalidated (c := simConfig) (id := id) hid rfl⟩, Or.inr (by decide)⟩
    refine ⟨_, t, ht, ?_⟩
    obtain ⟨-, ⟨dicts, hd, hp⟩, -⟩ := C93_rows insertionSorter _ _ t ht
    have hl := hp.length_eq
    rw [List.length_map, List.length_map, ← hd.length_eq, List.length_singleton] at hl
    obtain ⟨r, hr⟩ := List.length_eq_one_iff.mp hl
    rw [Spec.ConstantColumn, hr]
    refine ⟨by simp, fun r1 h1 r2 h2 => ?_⟩
    rw [List.mem_singleton.mp h1, List.mem_singleton.mp h2]
    exact sameValue_refl _
  refine ⟨fun hf => ?_, h2, h3⟩
  obtain ⟨S, t, ht, hc⟩ := h3
  obtain ⟨⟨t', caption⟩, he⟩ := (C81_returns (fun _ => "") t).2 (C93_rows S _ _ t ht).1
  exact ((hf _ t t' caption he "crossover_washout_weeks").mp (h2 _ S _ _ t t' caption ht he)).2 ⟨by decide, hc⟩

/-- A table of two designs that differ in their runtime. -/
def exSummary : SummaryTable ℚ :=
  { cols := Spec.designNames ++ Spec.effectNames ++ Spec.validationNames
    rows := [("a1", fun n => if n = "runtime_weeks" then .num (.int 4) else if n = "primary_metric" then .str "clicks"
        else if n = "is_crossover" then .bool false else if n = "crossover_washout_weeks" then .null
        else if n = "relative_minimum_detectable_effect" then .flt (.fin (12/100)) else if n = "simulated_false_positive_rate" then .flt (.fin (1/20))
        else if n = "simulated_power_at_minimum_detectable_effect" then .flt (.fin (81/100)) else if n ∈ Spec.validationNames then .bool true
        else .num (.float (1/4))),
      ("b2", fun n => if n = "runtime_weeks" then .num (.int 8) else if n = "primary_metric" then .str "clicks"
        else if n = "is_crossover" then .bool false else if n ∈ Spec.validationNames ∨ n = "crossover_washout_weeks" then .null
        else if n = "relative_minimum_detectable_effect" then .flt (.fin (31/100)) else .num (.float (1/4)))] }

/-- Printing the values of the example. -/
def exText : SVal ℚ → String
  | .str s => s
  | .bool b => if b then "True" else "False"
  | .num _ => "0.25"
  | _ => ""

example : ((extractConstant exText exSummary).map Prod.snd) = .ok
    ("primary_metric = clicks, alpha = 0.25, power = 0.25, n_items_before_trimming = 0.25, n_items_after_pre_trim = 0.25, " ++
      "n_items_after_post_trim = 0.25, pretest_weeks = 0.25, pre_trim_top_percentile = 0.25, pre_trim_bottom_percentile = 0.25, " ++
      "post_trim_percentile = 0.25, is_crossover = False") := by decide +kernel

end Caption

/-! ### C94 -/

section Display
variable {K : Type} [Field K] [LinearOrder K] [IsStrictOrderedRing K] [FloorRing K]

theorem percent_names (n : String) (hn : n ∈ Spec.summaryNames) : cleanName n ∈ percentColumns ↔ n ∈ Spec.percentNames := by
  have : ∀ n ∈ Spec.summaryNames, decide (cleanName n ∈ percentColumns) = decide (n ∈ Spec.percentNames) := by decide +kernel
  have := this n hn
  rwa [decide_eq_decide] at this

theorem check_names (n : String) (hn : n ∈ Spec.summaryNames) : " Pass".toList.isSuffixOf (cleanName n).toList = true ↔ n ∈ Spec.checkNames := by
  have : ∀ n ∈ Spec.summaryNames, " Pass".toList.isSuffixOf (cleanName n).toList = decide (n ∈ Spec.checkNames) := by decide +kernel
  rw [this n hn, decide_eq_true_iff]

theorem clean_nodup : (Spec.summaryNames.map cleanName).Nodup := by decide +kernel

theorem validation_names (n : String) (hn : n ∈ Spec.summaryNames) :
    ("_pass".toList.isSuffixOf n.toList || "simulated_".toList.isPrefixOf n.toList) = true ↔ n ∈ Spec.validationNames := by
  have : ∀ n ∈ Spec.summaryNames, ("_pass".toList.isSuffixOf n.toList || "simulated_".toList.isPrefixOf n.toList) =
    decide (n ∈ Spec.validationNames) := by decide +kernel
  rw [this n hn, decide_eq_true_iff]

theorem percentText_reads (y : K) : ∃ digits w, Spec.Reads digits 2 w ∧ |w - (|y|)| ≤ 1 / 200 ∧
    (plainPercent.percentText y).toList = (if y < 0 then ['-'] else []) ++ digits ++ ['%'] := by
  have e : (1 : K) / 2 / 10 ^ 2 = 1 / 200 := by norm_num
  unfold plainPercent.percentText
  rw [String.toList_ofList]
  split_ifs with h
  · refine ⟨_, _, reads_fixed false 2 (x := -y) (by linarith), ?_, rfl⟩
    rw [abs_of_neg h, ← e]
    exact fixed_error 2 (-y)
  · refine ⟨_, _, reads_fixed false 2 (x := y) (not_lt.mp h), ?_, rfl⟩
    rw [abs_of_nonneg (not_lt.mp h), ← e]
    exact fixed_error 2 y

theorem plainPercent_text (R : Rounding K) (v : SVal K) (s : String) (h : plainPercent R v = .ok s) : Spec.PercentText R v s := by
  rcases v with _ | b | t | x | (_ | _ | _ | x) <;> cases h <;>
    refine ⟨fun x' hx => ?_, fun hm => ?_⟩ <;> simp only [Spec.number, Spec.Missing, Option.some.injEq, Fl.fin.injEq, reduceCtorEq, or_self, SVal.flt.injEq] at *
  · subst hx; exact percentText_reads _
  · subst hx; exact percentText_reads _

/-- A displayed cell of a summary. -/
theorem shownCell_ok (R : Rounding K) (t : SummaryTable K) (n : String) (hn : n ∈ Spec.summaryNames) (v : SVal K) (cell : ShownCell K)
    (h : shownCell R t n v = .ok cell) : Spec.CellShown R n v cell := by
  unfold shownCell at h
  obtain ⟨text, ht, h⟩ := Py.bind_eq_ok.mp h
  unfold shownText at ht
  cases h
  have hstyle : ∀ b : Bool, (if " Pass".toList.isSuffixOf (cleanName n).toList then checkStyle v else "") =
      checkStyle (.bool b : SVal K) ↔ n ∈ Spec.checkNames ∧ v = .bool b := by
    intro b
    have hc := check_names n hn
    by_cases h1 : n ∈ Spec.checkNames
    · rw [if_pos (hc.mpr h1)]
      rcases v with _ | b' | s | x | x <;> cases b <;> (try cases b') <;> simp [checkStyle, h1]
    · rw [if_neg (fun h => h1 (hc.mp h))]
      cases b <;> simp [checkStyle, h1]
  refine ⟨rfl, ?_, hstyle true, hstyle false, fun hp => ?_, fun hp => ?_⟩
  · unfold Spec.Missing
    rcases v with _ | b | s | x | (_ | _ | _ | x) <;> simp [SVal.isMissing]
  · rw [if_pos ((percent_names n hn).mpr hp)] at ht
    cases hpp : plainPercent R (columnValue t n v) with
    | error e => rw [hpp] at ht; cases ht
    | ok s =>
      rw [hpp] at ht
      cases ht
      refine ⟨s, rfl, ?_⟩
      have := plainPercent_text R _ s hpp
      unfold columnValue at this
      split at this
      · rename_i hc
        refine ⟨fun x hx => ?_, fun _ => this.2 (Or.inr rfl)⟩
        rw [hc.1] at hx
        cases hx
      · exact this
  · rw [if_neg (fun h => hp ((percent_names n hn).mp h))] at ht
    cases ht
    rfl

/-- **C94, cells.**  The displayed table has the rows of the summary table in order and its columns, without the validation columns if so asked and
without the constant design columns, under distinct headers.  Every cell of a check is green exactly if the check passed and red exactly if it failed, the
shares are shown as percentages, and the missing values are exactly the invisible ones. -/
theorem C94_cells (R : Rounding K) (text : SVal K → String) (t : SummaryTable K) (hc : t.cols = Spec.designNames ++ Spec.effectNames ++ Spec.validationNames)
    (withValidation : Bool) (shown : ShownSummary K) (h : formatSummary R text t withValidation = .ok shown) :
    ∃ cols : List String, cols.Sublist t.cols ∧
      (∀ n ∈ t.cols, n ∈ cols ↔ (withValidation = true ∨ n ∉ Spec.validationNames) ∧ ¬ (n ∈ Spec.captionNames ∧ Spec.ConstantColumn t n)) ∧
      shown.cols.length = cols.length ∧ shown.cols.Nodup ∧
      List.Forall₂ (fun r row => row.1 = r.1 ∧ List.Forall₂ (fun n cell => Spec.CellShown R n (r.2 n) cell) cols row.2) t.rows shown.rows := by
  unfold formatSummary at h
  obtain ⟨⟨t', caption⟩, he, h⟩ := Py.bind_eq_ok.mp h
  obtain ⟨-, h⟩ := raiseIf_bind_ok.mp h
  obtain ⟨rows, hr, h⟩ := Py.bind_eq_ok.mp h
  cases h
  obtain ⟨h1, h2, h3, -⟩ := C81_listed_columns_partial text _ t' caption he
  have hsub : (if withValidation then t else dropValidation t).cols.Sublist t.cols := by
    split
    · exact List.Sublist.refl _
    · exact List.filter_sublist
  have hrows : (if withValidation then t else dropValidation t).rows = t.rows := by split <;> rfl
  have hconst : ∀ n, Spec.ConstantColumn (if withValidation then t else dropValidation t) n ↔ Spec.ConstantColumn t n := by
    intro n; unfold Spec.ConstantColumn; rw [hrows]
  have hsub' := h2.trans hsub
  have hmem : ∀ n ∈ t'.cols, n ∈ Spec.summaryNames := fun n hn => by
    have := hsub'.subset hn
    rwa [hc] at this
  refine ⟨t'.cols, hsub', fun n hn => ?_, by simp, ?_, ?_⟩
  · rw [h3, hconst]
    refine and_congr_left fun _ => ?_
    have hn' : n ∈ Spec.summaryNames := by rw [hc] at hn; exact hn
    cases withValidation with
    | true => simpa using hn
    | false =>
      simp only [Bool.false_eq_true, if_false, dropValidation, List.mem_filter, hn, true_and, false_or]
      rw [← validation_names n hn', Bool.not_eq_true', Bool.not_eq_true]
  · refine List.Nodup.sublist (hsub'.map cleanName) ?_
    rw [hc]
    exact clean_nodup
  · rw [h1, hrows] at hr
    refine (mapM_ok hr).imp fun r row hrow => ?_
    obtain ⟨cells, hcells, e⟩ := Py.bind_eq_ok.mp hrow
    cases e
    refine ⟨rfl, ?_⟩
    have := mapM_ok hcells
    clear hcells hrow
    have hm := hmem
    revert this hm
    generalize t'.cols = l
    intro this hm
    induction this with
    | nil => exact .nil
    | cons hx _ ih => exact .cons (shownCell_ok R t' _ (hm _ (by simp)) _ _ hx) (ih fun n hn => hm n (by simp [hn]))

/-- The percentage columns hold numbers or nothing. -/
def Spec.NumericPercents (t : SummaryTable K) : Prop := ∀ r ∈ t.rows, ∀ n ∈ Spec.percentNames, r.2 n = .null ∨ Spec.number (r.2 n) ≠ none

theorem plainPercent_number (R : Rounding K) (v : SVal K) (h : Spec.number v ≠ none) : ∃ s, plainPercent R v = .ok s := by
  rcases v with _ | b | t | x | (_ | _ | _ | x) <;> simp [Spec.number] at h <;> exact ⟨_, rfl⟩

/-- A cell cannot be displayed exactly if its column is a percentage and holds only `None`. -/
theorem shownCell_cases (R : Rounding K) (t : SummaryTable K) (hn : Spec.NumericPercents t) (n : String) (hs : n ∈ Spec.summaryNames)
    (r : String × (String → SVal K)) (hr : r ∈ t.rows) :
    (shownCell R t n (r.2 n) = .error .typeError ∧ n ∈ Spec.percentNames ∧ ∀ r' ∈ t.rows, r'.2 n = .null) ∨
    ((∃ cell, shownCell R t n (r.2 n) = .ok cell) ∧ ¬ (n ∈ Spec.percentNames ∧ ∀ r' ∈ t.rows, r'.2 n = .null)) := by
  unfold shownCell shownText
  by_cases hp : n ∈ Spec.percentNames
  · rw [if_pos ((percent_names n hs).mpr hp)]
    by_cases hall : ∀ r' ∈ t.rows, r'.2 n = .null
    · left
      refine ⟨?_, hp, hall⟩
      have : columnValue t n (r.2 n) = .null := by
        unfold columnValue
        rw [if_neg, hall r hr]
        rintro ⟨-, h⟩
        have : t.rows.all (fun r => decide (r.2 n = .null)) = true := by
          rw [List.all_eq_true]
          exact fun r hr => decide_eq_true (hall r hr)
        rw [this] at h
        cases h
      rw [this]
      rfl
    · right
      refine ⟨?_, fun h => hall h.2⟩
      have : Spec.number (columnValue t n (r.2 n)) ≠ none := by
        unfold columnValue
        split
        · simp [Spec.number]
        · rename_i h
          rcases hn r hr n hp with h' | h'
          · refine absurd ⟨h', ?_⟩ h
            rw [List.all_eq_false]
            push Not at hall
            obtain ⟨r', hr', hne⟩ := hall
            exact ⟨r', hr', by simpa using hne⟩
          · exact h'
      obtain ⟨s, hs⟩ := plainPercent_number R _ this
      rw [hs]
      exact ⟨_, rfl⟩
  · right
    rw [if_neg (fun h => hp ((percent_names n hs).mp h))]
    exact ⟨⟨_, rfl⟩, fun h => hp h.1⟩

theorem mapM_returns_iff {α β : Type} {f : α → Py β} {l : List α} : (l.mapM f).Returns ↔ ∀ a ∈ l, (f a).Returns := by
  constructor
  · rintro ⟨out, h⟩ a ha
    have := mapM_ok h
    clear h
    induction this with
    | nil => cases ha
    | cons hx _ ih =>
      rcases List.mem_cons.mp ha with rfl | ha
      · exact ⟨_, hx⟩
      · exact ih ha
  · exact fun h => mapM_total h

/-- **C94, when a table can be displayed.**  A table of numbers and missing values can be displayed exactly if no two rows have the same design id
(`KeyError` otherwise) and none of the shown percentage columns consists of `None`s only (`TypeError` otherwise). -/
theorem C94_displays_iff (R : Rounding K) (text : SVal K → String) (t : SummaryTable K)
    (hc : t.cols = Spec.designNames ++ Spec.effectNames ++ Spec.validationNames) (hne : t.rows ≠ []) (hn : Spec.NumericPercents t)
    (withValidation : Bool) :
    ((formatSummary R text t withValidation).Returns ↔ (t.rows.map Prod.fst).Nodup ∧
      ∀ n ∈ Spec.percentNames, (withValidation = true ∨ n ∉ Spec.validationNames) → ¬ (n ∈ Spec.captionNames ∧ Spec.ConstantColumn t n) →
        ∃ r ∈ t.rows, r.2 n ≠ .null) ∧
    (¬ (t.rows.map Prod.fst).Nodup → formatSummary R text t withValidation = .error .keyError) ∧
    ((t.rows.map Prod.fst).Nodup → ¬ (formatSummary R text t withValidation).Returns → formatSummary R text t withValidation = .error .typeError) := by
  have hrows : (if withValidation then t else dropValidation t).rows = t.rows := by split <;> rfl
  have hall : ∀ n ∈ Spec.captionNames, n ∈ (if withValidation then t else dropValidation t).cols := by
    have h1 : ∀ n ∈ Spec.captionNames, n ∈ Spec.summaryNames ∧ n ∉ Spec.validationNames := by decide
    intro n hn
    have hm : n ∈ t.cols := by rw [hc]; exact (h1 n hn).1
    split
    · exact hm
    · simp only [dropValidation, List.mem_filter, hm, true_and, Bool.not_eq_true']
      rw [← Bool.not_eq_true, validation_names n (h1 n hn).1]
      exact (h1 n hn).2
  obtain ⟨⟨t', caption⟩, he⟩ := (C81_returns text (if withValidation then t else dropValidation t)).1.mpr hall
  obtain ⟨h1, h2, h3, -⟩ := C81_listed_columns_partial text _ t' caption he
  have hconst : ∀ n, Spec.ConstantColumn (if withValidation then t else dropValidation t) n ↔ Spec.ConstantColumn t n := by
    intro n; unfold Spec.ConstantColumn; rw [hrows]
  have hmem : ∀ n, n ∈ t'.cols ↔ n ∈ Spec.summaryNames ∧ (withValidation = true ∨ n ∉ Spec.validationNames) ∧
      ¬ (n ∈ Spec.captionNames ∧ Spec.ConstantColumn t n) := by
    intro n
    rw [h3, hconst, ← and_assoc]
    refine and_congr_left fun _ => ?_
    have hn' : n ∈ t.cols ↔ n ∈ Spec.summaryNames := by rw [hc]; rfl
    cases withValidation with
    | true => simpa using hn'
    | false =>
      simp only [Bool.false_eq_true, if_false, dropValidation, List.mem_filter, hn', false_or]
      refine and_congr_right fun hn'' => ?_
      rw [← validation_names n hn'', Bool.not_eq_true', Bool.not_eq_true]
  have hrows' : t'.rows = t.rows := h1.trans hrows
  have hnum : Spec.NumericPercents t' := by unfold Spec.NumericPercents; rw [hrows']; exact hn
  have hform0 : formatSummary R text t withValidation = (do
      raiseIf .keyError (¬ (t'.rows.map Prod.fst).Nodup)
      let rows ← t'.rows.mapM (fun r => do
        let cells ← t'.cols.mapM (fun c => shownCell R t' c (r.2 c))
        return (r.1, cells))
      return { caption := "Analysis results of experiment designs where the following design attributes are constant for all designs: " ++ caption
               cols := t'.cols.map cleanName, rows := rows }) := by
    unfold formatSummary
    dsimp only
    rw [he]
    rfl
  by_cases hdup : (t.rows.map Prod.fst).Nodup
  swap
  · have herr : formatSummary R text t withValidation = .error .keyError := by
      rw [hform0, hrows']
      simp only [raiseIf, if_pos hdup]
      rfl
    exact ⟨⟨fun ⟨_, h⟩ => (by rw [herr] at h; cases h), fun h => absurd h.1 hdup⟩, fun _ => herr, fun h => absurd h hdup⟩
  have hform : formatSummary R text t withValidation = (do
      let rows ← t'.rows.mapM (fun r => do
        let cells ← t'.cols.mapM (fun c => shownCell R t' c (r.2 c))
        return (r.1, cells))
      return { caption := "Analysis results of experiment designs where the following design attributes are constant for all designs: " ++ caption
               cols := t'.cols.map cleanName, rows := rows }) := by
    rw [hform0, hrows']
    simp only [raiseIf, if_neg (not_not.mpr hdup)]
    rfl
  have hcell : ∀ r ∈ t'.rows, ∀ n ∈ t'.cols,
      ((shownCell R t' n (r.2 n)).Returns ↔ ¬ (n ∈ Spec.percentNames ∧ ∀ r' ∈ t'.rows, r'.2 n = .null)) ∧
      ∀ e, shownCell R t' n (r.2 n) = .error e → e = .typeError := by
    intro r hr n hnm
    rcases shownCell_cases R t' hnum n ((hmem n).mp hnm).1 r hr with ⟨h4, h5, h6⟩ | ⟨⟨cell, h4⟩, h5⟩
    · refine ⟨⟨fun ⟨_, h⟩ => (by rw [h4] at h; cases h), fun h => absurd ⟨h5, h6⟩ h⟩, fun e h => ?_⟩
      rw [h4] at h; cases h; rfl
    · exact ⟨⟨fun _ => h5, fun _ => ⟨cell, h4⟩⟩, fun e h => by rw [h4] at h; cases h⟩
  have hret : (formatSummary R text t withValidation).Returns ↔ ∀ r ∈ t'.rows, ∀ n ∈ t'.cols, (shownCell R t' n (r.2 n)).Returns := by
    rw [hform]
    constructor
    · rintro ⟨x, h⟩ r hr n hnm
      obtain ⟨rows, hrm, -⟩ := Py.bind_eq_ok.mp h
      obtain ⟨y, hy⟩ := mapM_returns_iff.mp ⟨_, hrm⟩ r hr
      obtain ⟨cells, hcs, -⟩ := Py.bind_eq_ok.mp hy
      exact mapM_returns_iff.mp ⟨_, hcs⟩ n hnm
    · intro h
      have hmap : Py.Returns (t'.rows.mapM (fun r : String × (String → SVal K) => do
          let cells ← t'.cols.mapM (fun c => shownCell R t' c (r.2 c))
          return (r.1, cells))) := by
        refine mapM_returns_iff.mpr fun r hr => ?_
        obtain ⟨cells, hcs⟩ := mapM_returns_iff.mpr (h r hr)
        exact ⟨_, Py.bind_eq_ok.mpr ⟨cells, hcs, rfl⟩⟩
      obtain ⟨rows, hrm⟩ := hmap
      exact ⟨_, Py.bind_eq_ok.mpr ⟨rows, hrm, rfl⟩⟩
  refine ⟨hret.trans ⟨fun h => ⟨hdup, fun n hp hv hk => ?_⟩, fun h r hr n hnm => ?_⟩, fun h => absurd hdup h, fun _ hnr => ?_⟩
  · by_contra hno
    push Not at hno
    obtain ⟨r, hr⟩ := List.exists_mem_of_ne_nil _ hne
    have hsn : n ∈ Spec.summaryNames := by
      have : ∀ n ∈ Spec.percentNames, n ∈ Spec.summaryNames := by decide
      exact this n hp
    have hr' : r ∈ t'.rows := by rw [hrows']; exact hr
    have hcol := (hmem n).mpr ⟨hsn, hv, hk⟩
    exact (hcell r hr' n hcol).1.mp (h r hr' n hcol) ⟨hp, by rw [hrows']; exact hno⟩
  · rw [(hcell r hr n hnm).1]
    rintro ⟨hp, hno⟩
    obtain ⟨-, hv, hk⟩ := (hmem n).mp hnm
    obtain ⟨r', hr', hx⟩ := h.2 n hp hv hk
    exact hx (hno r' (by rw [hrows']; exact hr'))
  · cases hf : formatSummary R text t withValidation with
    | ok x => exact absurd ⟨x, hf⟩ hnr
    | error e =>
      congr 1
      rw [hform] at hf
      rcases Py.bind_eq_error.mp hf with hf | ⟨_, _, hf⟩
      · obtain ⟨r, hr, hf⟩ := mapM_error hf
        rcases Py.bind_eq_error.mp hf with hf | ⟨_, _, hf⟩
        · obtain ⟨n, hnm, hf⟩ := mapM_error hf
          exact (hcell r hr n hnm).2 e hf
        · cases hf
      · cases hf

end Display

section Analyses
variable {R : Rounding ℝ} {fr : ℝ → List Char} {printable : Char → Bool} {X : RobustnessTests}

/-- The percentages in the summary of an analysis. -/
theorem summary_percents {c : SimConfig} {s : SimState} {id : String} {dict : List (String × SVal ℝ)}
    (h : summaryDict R fr printable X c s = .ok (id, dict)) :
    (∀ n ∈ Spec.percentNames, (dict.lookup n).getD .null = .null ∨ Spec.number ((dict.lookup n).getD .null) ≠ none) ∧
    ((dict.lookup "relative_minimum_detectable_effect").getD .null = .null ↔ s.relativeMde = none) ∧
    (∀ n ∈ ["simulated_false_positive_rate", "simulated_power_at_minimum_detectable_effect"],
      (dict.lookup n).getD .null = .null ↔ s.aa = none) ∧
    ∀ n ∈ ["pre_trim_top_percentile", "pre_trim_bottom_percentile", "post_trim_percentile"], (dict.lookup n).getD .null ≠ .null := by
  unfold summaryDict at h
  obtain ⟨i, -, h⟩ := Py.bind_eq_ok.mp h
  obtain ⟨x1, hx1, h⟩ := Py.bind_eq_ok.mp h
  obtain ⟨x2, hx2, h⟩ := Py.bind_eq_ok.mp h
  obtain ⟨x3, -, h⟩ := Py.bind_eq_ok.mp h
  obtain ⟨x4, -, h⟩ := Py.bind_eq_ok.mp h
  obtain ⟨x5, -, h⟩ := Py.bind_eq_ok.mp h
  obtain ⟨x6, -, h⟩ := Py.bind_eq_ok.mp h
  obtain ⟨x7, -, h⟩ := Py.bind_eq_ok.mp h
  obtain ⟨x8, -, h⟩ := Py.bind_eq_ok.mp h
  cases h
  have e1 : x1 = none ↔ s.aa = none := by
    unfold falsePositiveRate at hx1
    split at hx1
    · rename_i ha; cases hx1; simp [ha]
    · rename_i aa ha
      obtain ⟨k, -, hx1⟩ := Py.bind_eq_ok.mp hx1
      cases hx1; simp [ha]
  have e2 : x2 = none ↔ s.aa = none := by
    unfold simulatedPower at hx2
    split at hx2
    · rename_i ha; cases hx2; simp [ha]
    · rename_i aa ha
      obtain ⟨ab, -, hx2⟩ := Py.bind_eq_ok.mp hx2
      obtain ⟨k, -, hx2⟩ := Py.bind_eq_ok.mp hx2
      cases hx2; simp [ha]
  refine ⟨?_, ?_, ?_, ?_⟩
  · intro n hn
    simp only [Spec.percentNames, List.mem_cons, List.not_mem_nil, or_false] at hn
    rcases hn with rfl | rfl | rfl | rfl | rfl | rfl
    · cases hs : s.relativeMde <;> simp [designDict, List.lookup, SVal.ofOption, Spec.number]
    · simp [designDict, List.lookup, Spec.number]
    · simp [designDict, List.lookup, Spec.number]
    · simp [designDict, List.lookup, Spec.number]
    · cases x1 <;> simp [designDict, List.lookup, SVal.ofOption, Spec.number]
    · cases x2 <;> simp [designDict, List.lookup, SVal.ofOption, Spec.number]
  · cases hs : s.relativeMde <;> simp [designDict, List.lookup, SVal.ofOption]
  · intro n hn
    simp only [List.mem_cons, List.not_mem_nil, or_false] at hn
    rcases hn with rfl | rfl
    · rw [← e1]; cases x1 <;> simp [designDict, List.lookup, SVal.ofOption]
    · rw [← e2]; cases x2 <;> simp [designDict, List.lookup, SVal.ofOption]
  · intro n hn
    simp only [List.mem_cons, List.not_mem_nil, or_false] at hn
    rcases hn with rfl | rfl | rfl <;> simp [designDict, List.lookup]

/-- **C94, tables of analyses.**  The summary table of a list of analyses can be displayed exactly if their designs have different ids (`KeyError` otherwise),
one of them has been estimated and, unless the validation columns are left out, one has been validated (`TypeError` otherwise). -/
theorem C94_analyses_partial (S : SummarySorter) (analyses : List (SimConfig × SimState)) (sortBy : String) (t : SummaryTable ℝ)
    (h : makeSummary R fr printable X S analyses sortBy = .ok t) (R' : Rounding ℝ) (text : SVal ℝ → String) (withValidation : Bool) :
    ((formatSummary R' text t withValidation).Returns ↔ (analyses.map (fun a => designId R fr printable a.1.design)).Nodup ∧
      (∃ a ∈ analyses, a.2.relativeMde ≠ none) ∧ (withValidation = true → ∃ a ∈ analyses, a.2.aa ≠ none)) ∧
    (¬ (analyses.map (fun a => designId R fr printable a.1.design)).Nodup → formatSummary R' text t withValidation = .error .keyError) ∧
    ((analyses.map (fun a => designId R fr printable a.1.design)).Nodup → ¬ (formatSummary R' text t withValidation).Returns →
      formatSummary R' text t withValidation = .error .typeError) := by
  obtain ⟨dicts, hd, hne, hcols, -, hp, -⟩ := makeSummary_ok h
  have hf := mapM_ok hd
  have hdict : ∀ d ∈ dicts, ∃ a ∈ analyses, summaryDict R fr printable X a.1 a.2 = .ok (d.1, d.2) := fun d hd' => mapM_mem hd hd'
  have hana : ∀ a ∈ analyses, ∃ d ∈ dicts, summaryDict R fr printable X a.1 a.2 = .ok (d.1, d.2) := by
    intro a ha
    clear * - hf ha
    induction hf with
    | nil => cases ha
    | cons hx _ ih =>
      rcases List.mem_cons.mp ha with rfl | ha
      · exact ⟨_, by simp, hx⟩
      · obtain ⟨d, hd, e⟩ := ih ha
        exact ⟨d, by simp [hd], e⟩
  have hrow : ∀ r, r ∈ t.rows ↔ ∃ d ∈ dicts, r = (d.1, fun col => (d.2.lookup col).getD .null) := by
    intro r
    rw [hp.mem_iff, List.mem_map]
    simp only [eq_comm]
  have hnum : Spec.NumericPercents t := by
    intro r hr n hn
    obtain ⟨d, hd', rfl⟩ := (hrow r).mp hr
    obtain ⟨a, -, ha⟩ := hdict d hd'
    exact (summary_percents ha).1 n hn
  have hrne : t.rows ≠ [] := by
    intro hr
    have := hp.length_eq
    rw [hr, List.length_map, List.length_nil] at this
    exact hne (List.length_eq_zero_iff.mp this.symm)
  have hids : (t.rows.map Prod.fst).Nodup ↔ (analyses.map (fun a => designId R fr printable a.1.design)).Nodup := by
    rw [(hp.map Prod.fst).nodup_iff, List.map_map]
    have he : analyses.map (fun a => designId R fr printable a.1.design) = dicts.map (fun d => (.ok d.1.toList : Py (List Char))) := by
      clear * - hf
      induction hf with
      | nil => rfl
      | cons hx _ ih =>
        rw [List.map_cons, List.map_cons, ih]
        congr 1
        unfold summaryDict at hx
        obtain ⟨i, hi, hx⟩ := Py.bind_eq_ok.mp hx
        obtain ⟨x1, -, hx⟩ := Py.bind_eq_ok.mp hx
        obtain ⟨x2, -, hx⟩ := Py.bind_eq_ok.mp hx
        obtain ⟨x3, -, hx⟩ := Py.bind_eq_ok.mp hx
        obtain ⟨x4, -, hx⟩ := Py.bind_eq_ok.mp hx
        obtain ⟨x5, -, hx⟩ := Py.bind_eq_ok.mp hx
        obtain ⟨x6, -, hx⟩ := Py.bind_eq_ok.mp hx
        obtain ⟨x7, -, hx⟩ := Py.bind_eq_ok.mp hx
        obtain ⟨x8, -, hx⟩ := Py.bind_eq_ok.mp hx
        cases hx
        rw [hi, String.toList_ofList]
    have hinj : Function.Injective (fun s : String => (.ok s.toList : Py (List Char))) := by
      intro a b h
      exact String.toList_inj.mp (Except.ok.inj h)
    rw [he, show dicts.map (fun d => (.ok d.1.toList : Py (List Char))) =
      (dicts.map Prod.fst).map (fun s : String => (.ok s.toList : Py (List Char))) from (List.map_map).symm ▸ rfl, List.nodup_map_iff hinj]
    rfl
  obtain ⟨h1, h2⟩ := C94_displays_iff R' text t hcols hrne hnum withValidation
  rw [hids] at h1 h2
  refine ⟨h1.trans (and_congr_right fun _ => ⟨fun hh => ⟨?_, fun hv => ?_⟩, fun ⟨hm, hv⟩ n hn hshown _ => ?_⟩), h2⟩
  · obtain ⟨r, hr, hx⟩ := hh "relative_minimum_detectable_effect" (by decide) (Or.inr (by decide)) (fun hc => absurd hc.1 (by decide))
    obtain ⟨d, hd', rfl⟩ := (hrow r).mp hr
    obtain ⟨a, ha, hs⟩ := hdict d hd'
    exact ⟨a, ha, fun hn => hx ((summary_percents hs).2.1.mpr hn)⟩
  · obtain ⟨r, hr, hx⟩ := hh "simulated_false_positive_rate" (by decide) (Or.inl hv) (fun hc => absurd hc.1 (by decide))
    obtain ⟨d, hd', rfl⟩ := (hrow r).mp hr
    obtain ⟨a, ha, hs⟩ := hdict d hd'
    exact ⟨a, ha, fun hn => hx (((summary_percents hs).2.2.1 _ (by simp)).mpr hn)⟩
  · have hcases : n = "relative_minimum_detectable_effect" ∨ n ∈ ["simulated_false_positive_rate", "simulated_power_at_minimum_detectable_effect"] ∨
        n ∈ ["pre_trim_top_percentile", "pre_trim_bottom_percentile", "post_trim_percentile"] := by
      have key : ∀ n ∈ Spec.percentNames, n = "relative_minimum_detectable_effect" ∨
          n ∈ ["simulated_false_positive_rate", "simulated_power_at_minimum_detectable_effect"] ∨
          n ∈ ["pre_trim_top_percentile", "pre_trim_bottom_percentile", "post_trim_percentile"] := by decide
      exact key n hn
    rcases hcases with rfl | hn' | hn'
    · obtain ⟨a, ha, hx⟩ := hm
      obtain ⟨d, hd', hs⟩ := hana a ha
      exact ⟨_, (hrow _).mpr ⟨d, hd', rfl⟩, fun hc => hx ((summary_percents hs).2.1.mp hc)⟩
    · have hval : withValidation = true := by
        rcases hshown with h | h
        · exact h
        · exfalso
          have : ∀ n ∈ ["simulated_false_positive_rate", "simulated_power_at_minimum_detectable_effect"], n ∈ Spec.validationNames := by decide
          exact h (this n hn')
      obtain ⟨a, ha, hx⟩ := hv hval
      obtain ⟨d, hd', hs⟩ := hana a ha
      exact ⟨_, (hrow _).mpr ⟨d, hd', rfl⟩, fun hc => hx (((summary_percents hs).2.2.1 n hn').mp hc)⟩
    · obtain ⟨d, hd'⟩ := List.exists_mem_of_ne_nil _ hne
      obtain ⟨a, -, hs⟩ := hdict d hd'
      exact ⟨_, (hrow _).mpr ⟨d, hd', rfl⟩, (summary_percents hs).2.2.2 n hn'⟩

/-- **C94, full statement.**  Every summary table can be displayed with the default options. -/
def C94_full : Prop :=
  ∀ (R : Rounding ℝ) (fr : ℝ → List Char) (printable : Char → Bool) (X : RobustnessTests) (S : SummarySorter) (analyses : List (SimConfig × SimState))
    (t : SummaryTable ℝ), makeSummary R fr printable X S analyses "relative_minimum_detectable_effect" = .ok t →
    ∀ (R' : Rounding ℝ) (text : SVal ℝ → String), (formatSummary R' text t true).Returns

/-- **C94: the code violates it.**  The table of estimated analyses none of which has been validated cannot be displayed with the default options
(`TypeError`), but it can without the validation columns.  Such a table is reached by one estimate. -/
theorem C94_unvalidated_false (R : Rounding ℝ) (D : TDist) (σ : ℤ → Shuffle) (fr : ℝ → List Char) (printable : Char → Bool) (X : RobustnessTests)
    (R' : Rounding ℝ) (text : SVal ℝ → String) :
    ¬ C94_full ∧
    ∃ t, makeSummary R fr printable X insertionSorter [(simConfig, runSim R stableArgsort D simConfig simState [.estimate σ])]
        "relative_minimum_detectable_effect" = .ok t ∧
      formatSummary R' text t true = .error .typeError ∧ (formatSummary R' text t false).Returns := by
  have hex : ∃ t, makeSummary R fr printable X insertionSorter [(simConfig, runSim R stableArgsort D simConfig simState [.estimate σ])]
        "relative_minimum_detectable_effect" = .ok t ∧
      formatSummary R' text t true = .error .typeError ∧ (formatSummary R' text t false).Returns := by
    obtain ⟨id, dict, h1, -⟩ := C92_entries (R := R) (argsort := stableArgsort) (D := D) (c := simConfig) (fr := fr)
      (printable := printable) (X := X) _ _ _ _ _ _ _ _ simState simConfig_created simParams (simDesign_created R) [.estimate σ] (by simp)
    obtain ⟨t, ht⟩ := (C93_returns (R := R) (fr := fr) (printable := printable) (X := X) insertionSorter
      [(simConfig, runSim R stableArgsort D simConfig simState [.estimate σ])] "relative_minimum_detectable_effect").1.mpr
      ⟨by simp, fun a ha => by rw [List.mem_singleton.mp ha]; exact ⟨_, h1⟩, Or.inr (by decide)⟩
    have hest := (C71_estimation_succeeds (D := D) (c := simConfig) stableArgsort_ok simParams (simDesign_created R) (by decide)
      σ simState (by rw [simConfig_starts]; simp) simData_usable).1
    have hst : (runSim R stableArgsort D simConfig simState [.estimate σ]).relativeMde ≠ none ∧
        (runSim R stableArgsort D simConfig simState [.estimate σ]).aa = none := by
      show (estimateMde R stableArgsort D σ simConfig simState).2.relativeMde ≠ none ∧
        (estimateMde R stableArgsort D σ simConfig simState).2.aa = none
      rcases estimate_cases (R := R) (argsort := stableArgsort) (D := D) (c := simConfig) σ simState with
        ⟨-, data, m1, m2, a, sd, e⟩ | ⟨e', data, h, -⟩
      · rw [e]; exact ⟨by simp, rfl⟩
      · rw [hest] at h; cases h
    refine ⟨t, ht, ?_, ?_⟩
    · refine (C94_analyses_partial insertionSorter _ _ t ht R' text true).2.2 (by simp) fun hret => ?_
      obtain ⟨a, ha, hx⟩ := ((C94_analyses_partial insertionSorter _ _ t ht R' text true).1.mp hret).2.2 rfl
      rw [List.mem_singleton.mp ha] at hx
      exact hx hst.2
    · exact (C94_analyses_partial insertionSorter _ _ t ht R' text false).1.mpr ⟨by simp, ⟨_, List.mem_singleton.mpr rfl, hst.1⟩, by simp⟩
  refine ⟨fun hfull => ?_, hex⟩
  obtain ⟨t, ht, herr, -⟩ := hex
  obtain ⟨x, hx⟩ := hfull R fr printable X insertionSorter _ t ht R' text
  rw [herr] at hx
  cases hx

/-- **C94: the code violates it.**  The table of two analyses of the same design (with other data or another earliest start week, say) cannot be displayed at
all: `KeyError`.  Such a table is always made if the analyses have summaries. -/
theorem C94_same_design_false (R : Rounding ℝ) (D : TDist) (σ : ℤ → Shuffle) (fr : ℝ → List Char) (printable : Char → Bool) (X : RobustnessTests)
    (S : SummarySorter) (R' : Rounding ℝ) (text : SVal ℝ → String) :
    ¬ C94_full ∧
    (∃ t, makeSummary R fr printable X S (List.replicate 2 (simConfig, runSim R stableArgsort D simConfig simState [.estimate σ]))
        "relative_minimum_detectable_effect" = .ok t) ∧
    ∀ (a b : SimConfig × SimState), a.1.design = b.1.design → ∀ sortBy t, makeSummary R fr printable X S [a, b] sortBy = .ok t →
      ∀ withValidation, formatSummary R' text t withValidation = .error .keyError := by
  have main : ∀ (a b : SimConfig × SimState), a.1.design = b.1.design → ∀ sortBy t, makeSummary R fr printable X S [a, b] sortBy = .ok t →
      ∀ withValidation, formatSummary R' text t withValidation = .error .keyError := by
    intro a b he sortBy t ht w
    exact (C94_analyses_partial S [a, b] sortBy t ht R' text w).2.1 (by simp [he])
  have hex : ∃ t, makeSummary R fr printable X S (List.replicate 2 (simConfig, runSim R stableArgsort D simConfig simState [.estimate σ]))
      "relative_minimum_detectable_effect" = .ok t := by
    obtain ⟨id, dict, h1, -⟩ := C92_entries (R := R) (argsort := stableArgsort) (D := D) (c := simConfig) (fr := fr)
      (printable := printable) (X := X) _ _ _ _ _ _ _ _ simState simConfig_created simParams (simDesign_created R) [.estimate σ] (by simp)
    exact (C93_returns (R := R) (fr := fr) (printable := printable) (X := X) S _ "relative_minimum_detectable_effect").1.mpr
      ⟨by simp, fun a ha => by rw [List.eq_of_mem_replicate ha]; exact ⟨_, h1⟩, Or.inr (by decide)⟩
  refine ⟨fun hfull => ?_, hex, main⟩
  obtain ⟨t, ht⟩ := hex
  obtain ⟨x, hx⟩ := hfull R fr printable X S _ t ht R' text
  rw [main _ _ rfl _ t ht] at hx
  cases hx

end Analyses

example : (((formatSummary (Rounding.exact ℚ) exText exSummary true).map (fun s => (s.cols, s.rows.map (fun r => (r.1, r.2.map (·.text)))))) = .ok
    (["Runtime Weeks", "Crossover Washout Weeks", "Minimum Detectable Effect", "Relative Minimum Detectable Effect", "Simulated False Positive Rate",
      "Simulated Power At Minimum Detectable Effect", "Null P Value Robustness Check Pass", "Power Robustness Check Pass",
      "False Positive Rate Robustness Check Pass", "Aa Point Estimate Robustness Check Pass", "Ab Point Estimate Robustness Check Pass",
      "All Robustness Checks Pass"],
     [("a1", [none, none, none, some "12.00%", some "5.00%", some "81.00%", none, none, none, none, none, none]),
      ("b2", [none, none, none, some "31.00%", some "nan%", some "nan%", none, none, none, none, none, none])])) := by
  decide +kernel

end Feedx
