import Verif.Model.DesignStudy
import Verif.Model.AnalyseStudy
import Verif.Props.AnalyseStudyExample

/-!
Property C125: which columns of the loaded tables are read, and what they are called, makes no difference.
-/

set_option linter.unusedSectionVars false
set_option linter.unusedSimpArgs false

namespace Feedx

namespace Spec

/-- Column `a` of one table has the same cells, from top to bottom, as column `b` of the other. -/
def SameColumn {K : Type} (f : Frame K) (a : String) (g : Frame K) (b : String) : Prop :=
  a ∈ f.cols ∧ b ∈ g.cols ∧ f.rows.map (fun r => r a) = g.rows.map (fun r => r b)

/-- The same for a column that need not be given: the empty name stands for no column. -/
def SameIfGiven {K : Type} (f : Frame K) (a : String) (g : Frame K) (b : String) : Prop := (a = "" ∧ b = "") ∨ (a ≠ "" ∧ b ≠ "" ∧ SameColumn f a g b)

/-- Two forms of the designer, each with a table, that only differ in what the columns are called; the tables may have any other columns, too.  The name of a
metric that is not a standard one is also the name of the metric. -/
structure SameHistory (form : StudyForm) (raw : Frame ℝ) (form' : StudyForm) (raw' : Frame ℝ) : Prop where
  rest : form' = { form with itemCol := form'.itemCol, dateCol := form'.dateCol, primaryCol := form'.primaryCol }
  other : form.primary = "other" → form'.primaryCol = form.primaryCol
  item : SameColumn raw form.itemCol raw' form'.itemCol
  date : SameColumn raw form.dateCol raw' form'.dateCol
  metric : SameColumn raw form.primaryCol raw' form'.primaryCol
  different : [form.itemCol, form.dateCol, form.primaryCol].Nodup
  different' : [form'.itemCol, form'.dateCol, form'.primaryCol].Nodup

/-- The columns that a form of the analyser names in the performance data. -/
def namedColumns (form : AnalyserForm) : List String :=
  [form.itemCol, form.dateCol] ++ [form.clicks, form.impressions, form.totalCost, form.conversions, form.totalConversionValue].filter (fun c => decide (c ≠ "")) ++
    form.others

/-- The same for the analyser and the performance data; the names of the columns that the assignment table has, too, stay the same. -/
structure SamePerformance (form : AnalyserForm) (perf : Frame ℝ) (form' : AnalyserForm) (perf' : Frame ℝ) : Prop where
  rest : form' = { form with dateCol := form'.dateCol, clicks := form'.clicks, impressions := form'.impressions, totalCost := form'.totalCost
                             conversions := form'.conversions, totalConversionValue := form'.totalConversionValue }
  item : SameColumn perf form.itemCol perf' form'.itemCol
  date : SameColumn perf form.dateCol perf' form'.dateCol
  clicks : SameIfGiven perf form.clicks perf' form'.clicks
  impressions : SameIfGiven perf form.impressions perf' form'.impressions
  totalCost : SameIfGiven perf form.totalCost perf' form'.totalCost
  conversions : SameIfGiven perf form.conversions perf' form'.conversions
  totalConversionValue : SameIfGiven perf form.totalConversionValue perf' form'.totalConversionValue
  others : ∀ c ∈ form.others, SameColumn perf c perf' c
  different : (namedColumns form).Nodup
  different' : (namedColumns form').Nodup

end Spec

variable {K : Type}

theorem sameColumn_length {f g : Frame K} {a b : String} (h : Spec.SameColumn f a g b) : f.rows.length = g.rows.length := by
  have := congrArg List.length h.2.2
  simpa using this

/-- The standardized table only depends on the columns that are named. -/
theorem standardize_congr {E : Ext K} {f g : Frame K} {i j d e : String} {s t : StdCols} {custom : List (String × String)}
    {parse : List (String × (Cell K → Py (Cell K)))}
    (h : List.Forall₂ (fun p q => p.1 = q.1 ∧ Spec.SameColumn f p.2 g q.2) (columnNames i d s custom) (columnNames j e t custom))
    (h1 : ((columnNames i d s custom).map Prod.snd).Nodup) (h2 : ((columnNames j e t custom).map Prod.snd).Nodup) :
    standardize E f i d s custom parse = standardize E g j e t custom parse := by
  unfold standardize
  have hlen : f.rows.length = g.rows.length := by
    unfold columnNames at h
    cases h with
    | cons h _ => exact sameColumn_length h.2
  have hm1 : ¬ ((columnNames i d s custom).any (fun p => decide (p.2 ∉ f.cols)) = true) := by
    intro hany
    obtain ⟨p, hp, hp'⟩ := List.any_eq_true.mp hany
    have : p.2 ∈ f.cols := by
      clear * - h hp
      generalize columnNames i d s custom = l, columnNames j e t custom = l' at h hp
      induction h with
      | nil => simp at hp
      | cons h _ ih =>
        rcases List.mem_cons.mp hp with rfl | hp
        · exact h.2.1
        · exact ih hp
    simp [this] at hp'
  have hm2 : ¬ ((columnNames j e t custom).any (fun p => decide (p.2 ∉ g.cols)) = true) := by
    intro hany
    obtain ⟨p, hp, hp'⟩ := List.any_eq_true.mp hany
    have : p.2 ∈ g.cols := by
      clear * - h hp
      generalize columnNames i d s custom = l, columnNames j e t custom = l' at h hp
      induction h with
      | nil => simp at hp
      | cons h _ ih =>
        rcases List.mem_cons.mp hp with rfl | hp
        · exact h.2.2.1
        · exact ih hp
    simp [this] at hp'
  have hcols : ∀ {l l' : List (String × String)}, List.Forall₂ (fun p q => p.1 = q.1 ∧ Spec.SameColumn f p.2 g q.2) l l' →
      l.mapM (fun p => do let x ← (f.col p.2).mapM (parseCell E parse p.1); pure (p.1, x)) =
      l'.mapM (fun p => do let x ← (g.col p.2).mapM (parseCell E parse p.1); pure (p.1, x)) := by
    intro l l' hl
    induction hl with
    | nil => rfl
    | cons h _ ih =>
      rw [List.mapM_cons, List.mapM_cons, ih, h.1]
      have : f.col _ = g.col _ := h.2.2.2
      rw [this]
  unfold raiseIf
  simp only [bind, Except.bind, if_neg hm1, if_neg hm2, h1, h2, not_true_eq_false, if_false, hlen]
  have := hcols h
  simp only [bind, Except.bind, pure, Except.pure] at this ⊢
  rw [this]

theorem standard_columns {f g : Frame K} {i j d e : String} {s t : StdCols} {custom : List (String × String)} (hi : Spec.SameColumn f i g j)
    (hd : Spec.SameColumn f d g e) (hc : ∀ p ∈ custom, Spec.SameColumn f p.2 g p.2)
    (h : List.Forall₂ (fun a b => (a = none ∧ b = none) ∨ ∃ x y, a = some x ∧ b = some y ∧ Spec.SameColumn f x g y)
      [s.clicks, s.impressions, s.totalCost, s.conversions, s.totalConversionValue]
      [t.clicks, t.impressions, t.totalCost, t.conversions, t.totalConversionValue]) :
    List.Forall₂ (fun p q => p.1 = q.1 ∧ Spec.SameColumn f p.2 g q.2) (columnNames i d s custom) (columnNames j e t custom) := by
  unfold columnNames
  refine List.rel_append ?_ ?_
  · have key : ∀ {names : List String} {l l' : List (Option String)},
        List.Forall₂ (fun a b => (a = none ∧ b = none) ∨ ∃ x y, a = some x ∧ b = some y ∧ Spec.SameColumn f x g y) l l' →
        List.Forall₂ (fun p q => p.1 = q.1 ∧ Spec.SameColumn f p.2 g q.2)
          ((names.zip l).filterMap (fun p => p.2.map (fun c => (p.1, c)))) ((names.zip l').filterMap (fun p => p.2.map (fun c => (p.1, c)))) := by
      intro names l l' hl
      induction hl generalizing names with
      | nil => simp
      | cons h _ ih =>
        cases names with
        | nil => simp
        | cons a names =>
          rw [List.zip_cons_cons, List.zip_cons_cons]
          rcases h with ⟨rfl, rfl⟩ | ⟨x, y, rfl, rfl, h⟩
          · simpa using ih (names := names)
          · show List.Forall₂ _ ((a, x) :: (names.zip _).filterMap _) ((a, y) :: (names.zip _).filterMap _)
            exact .cons ⟨rfl, h⟩ ih
    have := key (names := ["item_id", "date", "clicks", "impressions", "total_cost", "conversions", "total_conversion_value"])
      (List.Forall₂.cons (Or.inr ⟨i, j, rfl, rfl, hi⟩) (List.Forall₂.cons (Or.inr ⟨d, e, rfl, rfl, hd⟩) h))
    exact this
  · induction custom with
    | nil => exact .nil
    | cons p custom ih => exact .cons ⟨rfl, hc p (by simp)⟩ (ih fun q hq => hc q (by simp [hq]))

/-- **C125, the designer.**  Two tables that agree in the columns named in the form, whatever these columns are called and whatever other columns there are,
give the same data, designs and estimates (and so everything after that is the same, too), or the same error. -/
theorem C125_history (V : StudyEnv) (form form' : StudyForm) (raw raw' : Frame ℝ) (h : Spec.SameHistory form raw form' raw') :
    openStudy V form' raw' = openStudy V form raw := by
  obtain ⟨hf, ho, hi, hd, hm, h1, h2⟩ := h
  have hmetric : form'.metric = form.metric := by
    unfold StudyForm.metric
    rw [show form'.primary = form.primary by rw [hf]]
    split
    · exact ho ‹_›
    · rfl
  have hprep : prepareHistorical V.R V.rng V.ext V.sorter raw' form'.itemCol form'.dateCol form'.primary form'.primaryCol form'.fraction form'.skip =
      prepareHistorical V.R V.rng V.ext V.sorter raw form.itemCol form.dateCol form.primary form.primaryCol form.fraction form.skip := by
    rw [show form'.primary = form.primary by rw [hf], show form'.fraction = form.fraction by rw [hf], show form'.skip = form.skip by rw [hf]]
    unfold prepareHistorical cleanHistorical
    by_cases hp : form.primary ∈ allowedPrimaryMetrics
    swap
    · unfold raiseIf
      simp only [bind, Except.bind, if_pos hp]
    by_cases hot : form.primary = "other"
    · simp only [if_pos hot, ho hot]
      rw [standardize_congr (f := raw') (g := raw) (j := form.itemCol) (e := form.dateCol) (t := stdColsOf form.primary form.primaryCol)]
      · refine standard_columns ⟨hi.2.1, hi.1, hi.2.2.symm⟩ ⟨hd.2.1, hd.1, hd.2.2.symm⟩ ?_ ?_
        · intro p hp
          rw [List.mem_singleton] at hp
          subst hp
          have := ho hot
          rw [this] at hm
          exact ⟨hm.2.1, hm.1, hm.2.2.symm⟩
        · rw [hot]
          unfold stdColsOf
          simp
      · rw [hot]
        rw [ho hot] at h2
        simpa [columnNames, stdColsOf] using h2
      · rw [hot]
        simpa [columnNames, stdColsOf] using h1
    · simp only [if_neg hot]
      rw [standardize_congr (f := raw') (g := raw) (j := form.itemCol) (e := form.dateCol) (t := stdColsOf form.primary form.primaryCol)]
      · refine standard_columns ⟨hi.2.1, hi.1, hi.2.2.symm⟩ ⟨hd.2.1, hd.1, hd.2.2.symm⟩ (by simp) ?_
        have : ∀ n : String, ((if form.primary = n then some form'.primaryCol else none) = none ∧ (if form.primary = n then some form.primaryCol else none) = none) ∨
            ∃ x y, (if form.primary = n then some form'.primaryCol else none) = some x ∧ (if form.primary = n then some form.primaryCol else none) = some y ∧
              Spec.SameColumn raw' x raw y := by
          intro n
          split
          · exact Or.inr ⟨_, _, rfl, rfl, hm.2.1, hm.1, hm.2.2.symm⟩
          · exact Or.inl ⟨rfl, rfl⟩
        exact .cons (this _) (.cons (this _) (.cons (this _) (.cons (this _) (.cons (this _) .nil))))
      · simp only [allowedPrimaryMetrics, List.mem_cons, List.not_mem_nil, or_false] at hp
        rcases hp with e | e | e | e | e | e <;> rw [e] <;> first | (exact absurd e hot) | simpa [columnNames, stdColsOf] using h2
      · simp only [allowedPrimaryMetrics, List.mem_cons, List.not_mem_nil, or_false] at hp
        rcases hp with e | e | e | e | e | e <;> rw [e] <;> first | (exact absurd e hot) | simpa [columnNames, stdColsOf] using h1
  unfold openStudy
  rw [hprep]
  have hcand : ∀ data, form'.candidates data = form.candidates data := by
    intro data
    unfold StudyForm.candidates
    rw [hmetric, hf]
  simp only [hcand, show form'.runtimes = form.runtimes by rw [hf], show form'.pretests = form.pretests by rw [hf],
    show form'.crossoverAllowed = form.crossoverAllowed by rw [hf], show form'.washout = form.washout by rw [hf]]

theorem missingRows_congr {E : Ext ℝ} {f g assign : Frame ℝ} {i d e : String} (hi : Spec.SameColumn f i g i) (hd : Spec.SameColumn f d g e) :
    missingRows E f assign i d = missingRows E g assign i e := by
  unfold missingRows
  have h1 : missingItems E f assign i = missingItems E g assign i := by
    unfold missingItems
    have : f.rows.map (fun r => (.str (E.toStr (r i)) : Cell ℝ)) = g.rows.map (fun r => (.str (E.toStr (r i)) : Cell ℝ)) := by
      have := congrArg (List.map (fun c => (.str (E.toStr c) : Cell ℝ))) hi.2.2
      rwa [List.map_map, List.map_map] at this
    rw [this]
  unfold raiseIf
  simp only [hi.1, hi.2.1, hd.1, hd.2.1, not_true_eq_false, if_false, h1]
  have hc := hd.2.2
  cases hf : f.rows with
  | nil =>
    cases hg : g.rows with
    | nil => rfl
    | cons r' t' => rw [hf, hg] at hc; simp at hc
  | cons r t =>
    cases hg : g.rows with
    | nil => rw [hf, hg] at hc; simp at hc
    | cons r' t' =>
      rw [hf, hg] at hc
      rw [List.map_cons, List.map_cons] at hc
      have := (List.cons.inj hc).1
      simp only [this]

theorem given_columns {f g : Frame K} {a b : String} (h : Spec.SameIfGiven f a g b) :
    (givenName a = none ∧ givenName b = none) ∨ ∃ x y, givenName a = some x ∧ givenName b = some y ∧ Spec.SameColumn f x g y := by
  unfold givenName
  rcases h with ⟨rfl, rfl⟩ | ⟨h1, h2, h⟩
  · exact Or.inl ⟨rfl, rfl⟩
  · exact Or.inr ⟨a, b, if_neg h1, if_neg h2, h⟩

theorem given_iff {f g : Frame K} {a b : String} (h : Spec.SameIfGiven f a g b) : a = "" ↔ b = "" := by
  rcases h with ⟨rfl, rfl⟩ | ⟨h1, h2, -⟩
  · simp
  · simp [h1, h2]

/-- The sources of the standardized columns are the named columns. -/
theorem sources_of_form (form : AnalyserForm) :
    (columnNames form.itemCol form.dateCol form.args.std (form.args.other.map (fun c => (c, c)))).map Prod.snd = Spec.namedColumns form := by
  unfold columnNames Spec.namedColumns AnalyserForm.args givenName
  rw [List.map_append, List.map_map]
  congr 1
  · by_cases h1 : form.clicks = "" <;> by_cases h2 : form.impressions = "" <;> by_cases h3 : form.totalCost = "" <;>
      by_cases h4 : form.conversions = "" <;> by_cases h5 : form.totalConversionValue = "" <;> simp [h1, h2, h3, h4, h5]
  · exact List.map_id _

/-- **C125, the analyser.**  Two tables of performance data that agree in the columns named in the form, whatever the columns of the date and the standard
metrics are called and whatever other columns there are, give the same prepared data (and so the same results), or the same error. -/
theorem C125_performance (R : Rounding ℝ) (dflt05 dflt08 : ℝ) (C : Checker ℝ) (form form' : AnalyserForm) (file : Dict (YVal ℝ))
    (perf perf' assign : Frame ℝ) (h : Spec.SamePerformance form perf form' perf') :
    prepareStudy R dflt05 dflt08 C form' file perf' assign = prepareStudy R dflt05 dflt08 C form file perf assign := by
  obtain ⟨hf, hi, hd, h1, h2, h3, h4, h5, ho, hnd, hnd'⟩ := h
  have ei : form'.itemCol = form.itemCol := by rw [hf]
  have eo : form'.args.other = form.args.other := by unfold AnalyserForm.args; rw [hf]
  have es : form'.args.skip = form.args.skip := by unfold AnalyserForm.args; rw [hf]
  have ec : form'.args.concluded = form.args.concluded := by unfold AnalyserForm.args; rw [hf]
  have en : form'.args.canBeNegative = form.args.canBeNegative := rfl
  have em : form'.metricNames = form.metricNames := by
    unfold AnalyserForm.metricNames
    rw [show form'.others = form.others by rw [hf]]
    simp only [ne_eq, given_iff h1, given_iff h2, given_iff h3, given_iff h4, given_iff h5]
  have ea : form'.args.atLeastOne = form.args.atLeastOne := by
    show form'.atLeastOne = form.atLeastOne
    unfold AnalyserForm.atLeastOne
    rw [em]
  have ep : preparedMetrics form'.args = preparedMetrics form.args := by
    unfold preparedMetrics
    rw [eo]
    congr 1
    have e : ∀ {a b : String} (n : String), Spec.SameIfGiven perf a perf' b → (givenName b).map (fun _ => n) = (givenName a).map (fun _ => n) := by
      intro a b n h
      rcases given_columns h with ⟨e1, e2⟩ | ⟨x, y, e1, e2, -⟩ <;> rw [e1, e2] <;> rfl
    have c1 : form'.args.std.clicks.map (fun _ => "clicks") = form.args.std.clicks.map (fun _ => "clicks") := e _ h1
    have c2 : form'.args.std.impressions.map (fun _ => "impressions") = form.args.std.impressions.map (fun _ => "impressions") := e _ h2
    have c3 : form'.args.std.totalCost.map (fun _ => "total_cost") = form.args.std.totalCost.map (fun _ => "total_cost") := e _ h3
    have c4 : form'.args.std.conversions.map (fun _ => "conversions") = form.args.std.conversions.map (fun _ => "conversions") := e _ h4
    have c5 : form'.args.std.totalConversionValue.map (fun _ => "total_conversion_value") =
      form.args.std.totalConversionValue.map (fun _ => "total_conversion_value") := e _ h5
    simp only [List.filterMap_cons, List.filterMap_nil, c1, c2, c3, c4, c5]
  have hstd : standardize C.ext perf' form'.itemCol form'.dateCol form'.args.std (form'.args.other.map (fun c => (c, c)))
      (form'.args.other.map (fun c => (c, floatParse C.ext))) = standardize C.ext perf form.itemCol form.dateCol form.args.std
      (form.args.other.map (fun c => (c, c))) (form.args.other.map (fun c => (c, floatParse C.ext))) := by
    rw [eo]
    refine (standardize_congr (standard_columns hi hd ?_ ?_) ?_ ?_).symm
    · intro p hp
      obtain ⟨c, hc, rfl⟩ := List.mem_map.mp hp
      exact ho c hc
    · exact .cons (given_columns h1) (.cons (given_columns h2) (.cons (given_columns h3) (.cons (given_columns h4) (.cons (given_columns h5) .nil))))
    · rw [sources_of_form]; exact hnd
    · rw [← eo, sources_of_form]; exact hnd'
  unfold prepareStudy prepareExperiment buildExperiment
  rw [ei] at hstd hi
  simp only [hstd, es, ec, en, ea, ep, ei, show form'.startDate = form.startDate by rw [hf], show form'.treatCol = form.treatCol by rw [hf],
    missingRows_congr hi hd]

/-- The table with the items in a column called "sku", and one more column. -/
def studyRawRenamed : Frame ℝ where
  cols := ["colour", "profit", "sku", "day"]
  rows := (studyRaw "profit").rows.map (fun r c => if c = "sku" then r "id" else if c = "colour" then .str "red" else if c = "id" then .null else r c)

/-- The study of C116 with the other table. -/
example (x : Bool) (V : StudyEnv) (hV : V.ext = studyExt) (ha : ArgsortOk V.argsort) :
    ∃ data s, openStudy V { oneForm x with itemCol := "sku" } studyRawRenamed = .ok (data, s) ∧ s ≠ [] := by
  obtain ⟨data, s, h, hs, -⟩ := oneForm_opened x V hV ha
  refine ⟨data, s, ?_, hs⟩
  rw [C125_history V (oneForm x) { oneForm x with itemCol := "sku" } (studyRaw "profit") studyRawRenamed ?_]
  · exact h
  refine ⟨rfl, fun _ => rfl, ⟨by simp [studyRaw, oneForm, studyForm], by simp [studyRawRenamed], ?_⟩,
    ⟨by simp [studyRaw, oneForm, studyForm], by simp [studyRawRenamed, oneForm, studyForm], ?_⟩,
    ⟨by simp [studyRaw, oneForm, studyForm], by simp [studyRawRenamed, oneForm, studyForm], ?_⟩,
    by simp [oneForm, studyForm], by simp [oneForm, studyForm]⟩ <;>
  · simp only [studyRawRenamed, List.map_map]
    exact List.map_congr_left fun r _ => by simp [oneForm, studyForm]

/-- The performance data with the clicks in a column called "klicks", and one more column. -/
def reportPerfRenamed : Frame ℝ where
  cols := ["id", "day", "profit", "klicks", "imp", "cost", "conv", "val", "colour"]
  rows := reportPerf.rows.map (fun r c => if c = "klicks" then r "clk" else if c = "colour" then .str "red" else if c = "clk" then .null else r c)

/-- The analysis of C119 with the other table. -/
example (argsort : List ℝ → List ℕ) (ha : ArgsortOk argsort) (D : TDist) :
    ∃ (V : StudyEnv) (data : Frame ℝ) (cells : List StudyCell) (C : Checker ℝ) (items : Frame ℝ) (file : Dict (YVal ℝ)) (rows : List (String × TestResult)),
    Spec.Exported V (oneForm true) (studyRaw "profit") data cells C.binom items file ∧
    prepareStudy V.R (1 / 20) (4 / 5) C { reportForm with clicks := "klicks" } file.reverse reportPerfRenamed (renamed items) >>=
      analyseData V.R argsort D notebookMetrics = .ok rows ∧ rows.length = 11 := by
  obtain ⟨V, data, cells, C, items, file, d, h1, h2, h3, h4, h5, h6, h7, h8, -, -, -, h9⟩ := oneForm_run true
  obtain ⟨rows, hr, hn⟩ := C119_crossover_analysed V (oneForm true) (studyRaw "profit") data cells C h1 items file h3 rfl h4 file.reverse file.reverse_perm (1 / 20)
    (4 / 5) d h5 h6 reportForm reportPerf (renamed items) 0 h9 argsort ha D notebookMetrics (notebookMetrics_fit reportForm_given) (by
      intro m hm q hq
      rw [notebook_override hm hq, h8]
      exact enoughLeft_zero V.R (by norm_num))
  refine ⟨V, data, cells, C, items, file, rows, h3, ?_, ?_⟩
  · rw [C125_performance V.R (1 / 20) (4 / 5) C reportForm { reportForm with clicks := "klicks" } file.reverse reportPerf reportPerfRenamed (renamed items) ?_]
    · exact hr
    have key : ∀ c ∈ ["id", "day", "profit", "imp", "cost", "conv", "val"], Spec.SameColumn reportPerf c reportPerfRenamed c := by
      intro c hc
      refine ⟨?_, ?_, ?_⟩
      · revert hc c; decide
      · revert hc c; decide
      · simp only [reportPerfRenamed, List.map_map]
        refine List.map_congr_left fun r _ => ?_
        have : c ≠ "klicks" ∧ c ≠ "colour" ∧ c ≠ "clk" := by revert hc c; decide
        simp [this]
    refine ⟨rfl, key _ (by decide), key _ (by decide), Or.inr ⟨by decide, by decide, by decide, by decide, ?_⟩, Or.inr ⟨by decide, by decide, key _ (by decide)⟩,
      Or.inr ⟨by decide, by decide, key _ (by decide)⟩, Or.inr ⟨by decide, by decide, key _ (by decide)⟩, Or.inr ⟨by decide, by decide, key _ (by decide)⟩, ?_, by decide, by decide⟩
    · simp only [reportPerfRenamed, List.map_map]
      exact List.map_congr_left fun r _ => by simp [reportForm]
    · intro c hc
      exact key c (by revert hc c; decide)
  · have := congrArg List.length hn
    simpa [notebookMetrics] using this

end Feedx
