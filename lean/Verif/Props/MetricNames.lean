import Verif.Props.SimulateValidate

/-!
Properties C68, C86: a primary metric whose name has a double underscore, or an underscore at an end, can never be validated.
-/

set_option linter.unusedSectionVars false
set_option linter.unusedSimpArgs false

namespace Feedx

/-- The first piece of a split text: the text up to the first double underscore. -/
theorem splitScores_head (s acc : List Char) : ∃ t rest, splitScores acc s = (acc.reverse ++ t) :: rest ∧
    (t = s ∧ ¬ Spec.HasDoubleScore s ∨ ∃ u, s = t ++ '_' :: '_' :: u ∧ ¬ Spec.HasDoubleScore (t ++ ['_'])) := by
  have cons : ∀ {a b : Char} {l : List Char}, ¬ (a = '_' ∧ b = '_') → ¬ Spec.HasDoubleScore (b :: l) → ¬ Spec.HasDoubleScore (a :: b :: l) := by
    rintro a b l hab h ⟨x, y, e⟩
    cases x with
    | nil =>
      simp only [List.nil_append, List.cons_append, List.cons.injEq] at e
      exact hab ⟨e.1, e.2.1⟩
    | cons c x =>
      simp only [List.cons_append, List.cons.injEq] at e
      exact h ⟨x, y, by simpa using e.2⟩
  have single : ∀ a : Char, ¬ Spec.HasDoubleScore [a] := by
    rintro a ⟨x, y, e⟩
    have := congrArg List.length e
    simp at this
    omega
  induction s generalizing acc with
  | nil =>
    refine ⟨[], [], by simp [splitScores], Or.inl ⟨rfl, ?_⟩⟩
    rintro ⟨x, y, e⟩
    simp at e
  | cons a s ih =>
    cases s with
    | nil => exact ⟨[a], [], by simp [splitScores], Or.inl ⟨rfl, single a⟩⟩
    | cons b s =>
      by_cases hab : a = '_' ∧ b = '_'
      · refine ⟨[], splitScores [] s, by rw [splitScores, if_pos hab]; simp, Or.inr ⟨s, by simp [hab.1, hab.2], ?_⟩⟩
        exact single _
      · obtain ⟨t, rest, h1, h2⟩ := ih (a :: acc)
        refine ⟨a :: t, rest, by rw [splitScores, if_neg hab, h1]; simp, ?_⟩
        rcases h2 with ⟨h2, h3⟩ | ⟨u, h2, h3⟩
        · exact Or.inl ⟨by rw [h2], cons hab h3⟩
        · refine Or.inr ⟨u, by rw [h2]; rfl, ?_⟩
          cases t with
          | nil =>
            have hb : b = '_' := by simpa using congrArg List.head? h2
            simpa using cons (a := a) (b := '_') (l := []) (by rw [hb] at hab; exact hab) (single _)
          | cons c t =>
            have hc : b = c := by simpa using congrArg List.head? h2
            exact cons (a := a) (b := c) (l := t ++ ['_']) (by rw [← hc]; exact hab) h3

theorem stripScores_outer (s : List Char) : Spec.NoOuterScore (stripScores s) := by
  have hd : ∀ l : List Char, (l.dropWhile (fun c => c = '_')).head? ≠ some '_' := by
    intro l h
    have := List.head?_dropWhile_not (fun c => decide (c = '_')) l
    rw [h] at this
    simp at this
  constructor
  · intro h
    unfold stripScores at h
    rw [List.head?_reverse] at h
    have hsuf : (((s.dropWhile (fun c => c = '_')).reverse.dropWhile (fun c => c = '_'))).IsSuffix (s.dropWhile (fun c => c = '_')).reverse :=
      List.dropWhile_suffix _
    obtain ⟨p, hp⟩ := hsuf
    have hne : (s.dropWhile (fun c => c = '_')).reverse.dropWhile (fun c => c = '_') ≠ [] := by
      intro e; rw [e] at h; simp at h
    have : (s.dropWhile (fun c => c = '_')).reverse.getLast? = some '_' := by
      rw [← hp, List.getLast?_append_of_ne_nil _ hne, h]
    rw [List.getLast?_reverse] at this
    exact hd s this
  · intro h
    unfold stripScores at h
    rw [List.getLast?_reverse] at h
    exact hd _ h

/-- The first level of a label that was flattened and restored is never a name with a double underscore or an underscore at an end. -/
theorem restored_head {m : String} (hm : Spec.HasDoubleScore m.toList ∨ ¬ Spec.NoOuterScore m.toList) (l : List String) :
    (unflatName (flatName l)).headD "" ≠ m ∧ (unflatName (flatName l)).head? ≠ some m := by
  have key : (unflatName (flatName l)).head? ≠ some m := by
    intro h
    unfold unflatName flatName at h
    rw [String.toList_ofList] at h
    have ho := stripScores_outer (joinScores l).toList
    obtain ⟨s, hs⟩ : ∃ s, s = stripScores (joinScores l).toList := ⟨_, rfl⟩
    rw [← hs] at h ho
    obtain ⟨t, rest, h1, h2⟩ := splitScores_head s []
    rw [h1] at h
    simp only [List.reverse_nil, List.nil_append, List.map_cons, List.head?_cons, Option.some.injEq] at h
    have ht : m.toList = t := by rw [← h, String.toList_ofList]
    rw [ht] at hm
    rcases h2 with ⟨rfl, h2⟩ | ⟨u, h2, h3⟩
    · rcases hm with hm | hm
      · exact h2 hm
      · exact hm ho
    · rcases hm with ⟨a, b, hab⟩ | hm
      · exact h3 ⟨a, b ++ ['_'], by rw [hab]; simp⟩
      · refine hm ⟨?_, ?_⟩
        · intro hh
          refine ho.1 ?_
          rw [h2]
          cases t with
          | nil => simp at hh
          | cons c t => simpa using hh
        · intro hh
          obtain ⟨t', rfl⟩ : ∃ t', t = t' ++ ['_'] := by
            obtain ⟨t', e⟩ := List.getLast?_eq_some_iff.mp hh
            exact ⟨t', e⟩
          exact h3 ⟨t', [], by simp⟩
  refine ⟨?_, key⟩
  intro h
  cases hl : unflatName (flatName l) with
  | nil =>
    unfold unflatName at hl
    obtain ⟨t, rest, h1, -⟩ := splitScores_head (flatName l).toList []
    rw [h1] at hl
    simp at hl
  | cons a x =>
    rw [hl] at h key
    simp only [List.headD_cons] at h
    simp only [List.head?_cons, ne_eq, Option.some.injEq] at key
    exact key h

variable {R : Rounding ℝ} {argsort : List ℝ → List ℕ} {D : TDist} {c : SimConfig}

/-- After the random assignment such a metric cannot be found. -/
theorem analyze_restored {m : String} (hm : Spec.HasDoubleScore m.toList ∨ ¬ Spec.NoOuterScore m.toList) {coins : List Bool} {w aa : Wide ℝ}
    {item treat : String} (h : randomAssign coins w item treat = .ok aa) (d : DesignParams ℝ) :
    analyzeWide R argsort D aa d m treat = .error .keyError ∨
      (¬ (aa.rows.map WideRow.key).Nodup ∧ analyzeWide R argsort D aa d m treat = .error .outOfModel) := by
  have hcols : ∀ l ∈ aa.cols, ∃ l', l = unflatName (flatName l') := by
    unfold randomAssign at h
    obtain ⟨-, h⟩ := raiseIf_bind_ok.mp h
    obtain ⟨-, h⟩ := raiseIf_bind_ok.mp h
    obtain ⟨-, h⟩ := raiseIf_bind_ok.mp h
    obtain ⟨-, h⟩ := raiseIf_bind_ok.mp h
    obtain ⟨-, h⟩ := raiseIf_bind_ok.mp h
    obtain ⟨-, h⟩ := raiseIf_bind_ok.mp h
    cases h
    intro l hl
    obtain ⟨s, hs, rfl⟩ := List.mem_map.mp hl
    obtain ⟨l', -, rfl⟩ := List.mem_map.mp hs
    exact ⟨l', rfl⟩
  have hany : aa.cols.any (fun l => decide (l.head? = some m ∧ l.length ≠ 2)) = false := by
    rw [List.any_eq_false]
    intro l hl
    obtain ⟨l', rfl⟩ := hcols l hl
    simp [(restored_head hm l').2]
  have hnot : m ∉ aa.cols.map (fun l => l.headD "") := by
    intro hin
    obtain ⟨l, hl, e⟩ := List.mem_map.mp hin
    obtain ⟨l', rfl⟩ := hcols l hl
    exact (restored_head hm l').1 e
  unfold analyzeWide
  by_cases hnd : (aa.rows.map WideRow.key).Nodup
  · left
    refine raiseIf_bind_err.mpr (Or.inr ⟨by rw [hany]; simpa using hnd, ?_⟩)
    unfold analyzeSingleMetric metricSubset
    exact Py.bind_eq_error.mpr (Or.inl (raiseIf_bind_err.mpr (Or.inl ⟨hnot, rfl⟩)))
  · exact Or.inr ⟨hnd, raiseIf_bind_err.mpr (Or.inl ⟨Or.inl hnd, rfl⟩)⟩

/-- **C68, C86: names that never work.**  If the name of the primary metric has a double underscore, or starts or ends with an underscore, then
validating fails, whatever the data, the design, the random choices and the calls before: no validation with one or more simulations ever
returns. -/
theorem C86_metric_name_never (hm : Spec.HasDoubleScore c.design.primaryMetric.toList ∨ ¬ Spec.NoOuterScore c.design.primaryMetric.toList)
    (draws : List SimDraw) (hd : draws ≠ []) (s : SimState) : (validateSim R argsort D c draws s).1 ≠ .ok () := by
  have once : ∀ e r f x f', simulateOnce R argsort D c e r f ≠ (.ok x, f') := by
    intro e r f x f' h
    unfold simulateOnce at h
    split at h
    · cases h
    · rename_i w f1 hw
      simp only [Prod.mk.injEq] at h
      obtain ⟨aa, haa, h⟩ := Py.bind_eq_ok.mp h.1
      obtain ⟨r1, hr1, -⟩ := Py.bind_eq_ok.mp h
      rcases analyze_restored hm haa c.design.toDesignParams with h' | ⟨-, h'⟩ <;> rw [h'] at hr1 <;> cases hr1
  intro h
  unfold validateSim at h
  split at h
  · cases h
  · rename_i effect _
    split at h
    · cases h
    · rename_i l f1 hl
      cases draws with
      | nil => exact hd rfl
      | cons r rest =>
        unfold simulateAll at hl
        split_ifs at hl
        · cases hl
        · split at hl
          · cases hl
          · rename_i x f2 hx
            exact once _ _ _ _ _ hx

/-! ### The exact outcome -/

theorem stripScores_join {m p : List Char} (hp : Spec.NoOuterScore p) (hpe : p ≠ []) :
    stripScores (m ++ '_' :: '_' :: p) =
      if m.dropWhile (fun c => c = '_') = [] then p else m.dropWhile (fun c => c = '_') ++ '_' :: '_' :: p := by
  have hr : ∀ x : List Char, (x ++ p).reverse.dropWhile (fun c => c = '_') = (x ++ p).reverse := by
    intro x
    refine dropWhile_of_head ?_
    rw [List.head?_reverse, List.getLast?_append_of_ne_nil _ hpe]
    exact hp.2
  unfold stripScores
  rw [List.dropWhile_append]
  by_cases h : m.dropWhile (fun c => c = '_') = []
  · rw [if_pos h, h]
    simp only [List.isEmpty_nil, if_true]
    rw [List.dropWhile_cons_of_pos (by simp), List.dropWhile_cons_of_pos (by simp), dropWhile_of_head hp.1]
    have := hr []
    simp only [List.nil_append] at this
    rw [this, List.reverse_reverse]
  · rw [if_neg h]
    have he : (m.dropWhile (fun c => c = '_')).isEmpty = false := by simpa using h
    rw [he]
    simp only [Bool.false_eq_true, if_false]
    have e : m.dropWhile (fun c => c = '_') ++ '_' :: '_' :: p = (m.dropWhile (fun c => c = '_') ++ ['_', '_']) ++ p := by simp
    rw [e, hr, List.reverse_reverse]

/-- A flattened label is the period, or some text, a double underscore and the period. -/
theorem flatName_period (m : String) {p : String} (hp : p ∈ Spec.periodNames) :
    flatName [m, p] = p ∨ ∃ x, flatName [m, p] = x ++ "__" ++ p := by
  obtain ⟨h1, -, h3⟩ := plain_period hp
  unfold flatName
  rw [joinScores_two, stripScores_join h3 h1]
  split_ifs with h
  · exact Or.inl String.ofList_toList
  · refine Or.inr ⟨String.ofList (m.toList.dropWhile (fun c => c = '_')), ?_⟩
    rw [← String.toList_inj]
    simp

theorem flatName_inj (m : String) {p q : String} (hp : p ∈ Spec.periodNames) (hq : q ∈ Spec.periodNames) (h : flatName [m, p] = flatName [m, q]) :
    p = q := by
  obtain ⟨h1, -, h3⟩ := plain_period hp
  obtain ⟨g1, -, g3⟩ := plain_period hq
  unfold flatName at h
  rw [joinScores_two, stripScores_join h3 h1, joinScores_two, stripScores_join g3 g1, ← String.toList_inj] at h
  rw [← String.toList_inj]
  split_ifs at h with hc
  · simpa using h
  · simpa using h

/-- A metric without an ordinary name is not found after the flattening, also when its name is empty. -/
theorem restored_period {m p : String} (hm : ¬ Spec.PlainName m) (hp : p ∈ Spec.periodNames) :
    (unflatName (flatName [m, p])).headD "" ≠ m ∧ (unflatName (flatName [m, p])).head? ≠ some m := by
  by_cases he : m.toList = []
  · obtain ⟨h1, h2, h3⟩ := plain_period hp
    have e : unflatName (flatName [m, p]) = [p] := by
      unfold unflatName flatName
      rw [joinScores_two, stripScores_join h3 h1, he]
      simp [splitScores_plain h2]
    have hpm : p ≠ m := by rintro rfl; exact h1 he
    rw [e]
    exact ⟨by simpa using hpm, by simpa using hpm⟩
  · refine restored_head ?_ _
    by_contra hc
    push Not at hc
    exact hm ⟨he, hc.1, hc.2⟩

/-- Item and treatment columns that cannot be confused with a flattened column of any metric: the item column has no underscore at an end,
neither is called like a period, and neither ends with a double underscore and a period. -/
structure Spec.FreeNames (metric item treat : String) : Prop where
  plainItem : Spec.NoOuterScore item.toList
  different : item ≠ treat ∧ metric ≠ treat
  free : item ∉ Spec.periodNames ∧ treat ∉ Spec.periodNames
  flat : ∀ p ∈ Spec.periodNames, ∀ x : String, item ≠ x ++ "__" ++ p ∧ treat ≠ x ++ "__" ++ p

theorem Spec.FreeNames.simulation {m item treat : String} (h : Spec.FreeNames m item treat) (hm : Spec.PlainName m) :
    Spec.SimulationNames m item treat := ⟨hm, h.plainItem, h.different, h.free, fun p hp => h.flat p hp m⟩

theorem analyze_missing {w : Wide ℝ} {m treat : String} {d : DesignParams ℝ} (hk : (w.rows.map WideRow.key).Nodup)
    (h : ∀ l ∈ w.cols, l.headD "" ≠ m ∧ l.head? ≠ some m) : analyzeWide R argsort D w d m treat = .error .keyError := by
  unfold analyzeWide
  refine raiseIf_bind_err.mpr (Or.inr ⟨?_, ?_⟩)
  · rintro (h' | h')
    · exact h' hk
    · obtain ⟨l, hl, h'⟩ := List.any_eq_true.mp h'
      exact (h l hl).2 (of_decide_eq_true h').1
  · unfold analyzeSingleMetric metricSubset
    refine Py.bind_eq_error.mpr (Or.inl (raiseIf_bind_err.mpr (Or.inl ⟨?_, rfl⟩)))
    intro hin
    obtain ⟨l, hl, e⟩ := List.mem_map.mp hin
    exact (h l hl).1 e

theorem assigned_labels {w : Wide ℝ} {m item treat : String} (hfree : Spec.FreeNames m item treat) (hnames : w.names = [item])
    (hklen : ∀ r ∈ w.rows, r.key.length = 1) (hknd : (w.rows.map WideRow.key).Nodup) (hcnd : w.cols.Nodup)
    (hcols' : ∀ l ∈ w.cols, ∃ q ∈ Spec.periodNames, l = [m, q]) (coins : List Bool) :
    ∃ aa, randomAssign coins w item treat = .ok aa ∧ (aa.rows.map WideRow.key).Nodup ∧
      ∀ l ∈ aa.cols, ∃ q ∈ Spec.periodNames, l = unflatName (flatName [m, q]) := by
  have hflat : ∀ s ∈ w.cols.map flatName, s ∈ Spec.periodNames ∨ ∃ q ∈ Spec.periodNames, ∃ x, s = x ++ "__" ++ q := by
    intro s hs
    obtain ⟨l, hl, rfl⟩ := List.mem_map.mp hs
    obtain ⟨q, hq, rfl⟩ := hcols' l hl
    rcases flatName_period m hq with h | ⟨x, h⟩
    · exact Or.inl (by rw [h]; exact hq)
    · exact Or.inr ⟨q, hq, x, h⟩
  have hitem : item ∉ w.cols.map flatName := by
    intro h
    rcases hflat _ h with h | ⟨q, hq, x, h⟩
    · exact hfree.free.1 h
    · exact (hfree.flat q hq x).1 h
  have htreat : treat ∉ w.cols.map flatName := by
    intro h
    rcases hflat _ h with h | ⟨q, hq, x, h⟩
    · exact hfree.free.2 h
    · exact (hfree.flat q hq x).2 h
  have hnd : (w.cols.map flatName).Nodup := by
    refine hcnd.map_on ?_
    intro a ha b hb hab
    obtain ⟨q, hq, rfl⟩ := hcols' a ha
    obtain ⟨q', hq', rfl⟩ := hcols' b hb
    rw [flatName_inj m hq hq' hab]
  have hit : flatName [item, ""] = item := flatName_item hfree.plainItem
  have hass : ∃ aa, randomAssign coins w item treat = .ok aa := by
    unfold randomAssign
    refine ⟨_, raiseIf_bind_ok.mpr ⟨?_, raiseIf_bind_ok.mpr ⟨?_, raiseIf_bind_ok.mpr ⟨?_, raiseIf_bind_ok.mpr ⟨?_,
      raiseIf_bind_ok.mpr ⟨?_, raiseIf_bind_ok.mpr ⟨htreat, rfl⟩⟩⟩⟩⟩⟩⟩
    · rw [hnames]
      simp only [List.mem_append, List.mem_singleton, List.mem_map, not_or, not_exists, not_and]
      refine ⟨fun h => hfree.different.1 h.symm, ?_⟩
      intro l hl
      obtain ⟨q, -, rfl⟩ := hcols' l hl
      exact hfree.different.2
    · rw [hnames]; simp
    · rw [hnames]; simp
    · rw [hit]
      simp only [not_or, not_not]
      exact ⟨hitem, hitem, hnd⟩
    · rw [hit]; simp
  obtain ⟨aa, haa⟩ := hass
  refine ⟨aa, haa, ?_⟩
  have hkeys : (aa.rows.map WideRow.key).Nodup ∧ ∀ l ∈ aa.cols, ∃ q ∈ Spec.periodNames, l = unflatName (flatName [m, q]) := by
    unfold randomAssign at haa
    obtain ⟨-, haa⟩ := raiseIf_bind_ok.mp haa
    obtain ⟨-, haa⟩ := raiseIf_bind_ok.mp haa
    obtain ⟨-, haa⟩ := raiseIf_bind_ok.mp haa
    obtain ⟨-, haa⟩ := raiseIf_bind_ok.mp haa
    obtain ⟨-, haa⟩ := raiseIf_bind_ok.mp haa
    obtain ⟨-, haa⟩ := raiseIf_bind_ok.mp haa
    cases haa
    constructor
    · refine List.Nodup.of_map (fun k : List (Cell ℝ) => k.take 1) ?_
      rw [List.map_map, List.map_map]
      refine Eq.mp (congrArg List.Nodup (List.map_congr_left ?_)) hknd
      intro r hr
      obtain ⟨i, hi⟩ := List.length_eq_one_iff.mp (hklen r hr)
      simp [hi]
    · intro l hl
      obtain ⟨s, hs, rfl⟩ := List.mem_map.mp hl
      obtain ⟨l', hl', rfl⟩ := List.mem_map.mp hs
      obtain ⟨q, hq, rfl⟩ := hcols' l' hl'
      exact ⟨q, hq, rfl⟩
  exact hkeys

theorem simulateOnce_bad_name {p : DesignParams ℝ} (hd : mkDesign R p = .ok c.design) (hn : c.design.nBefore ≤ 2 ^ 51)
    (hfree : Spec.FreeNames c.design.primaryMetric c.itemCol c.treatCol) (hm : ¬ Spec.PlainName c.design.primaryMetric) {f : Frame ℝ}
    (hu : Spec.UsableHistory c.design c.itemCol c.weekCol c.periodCol c.starts f) {r : SimDraw} (hr : Spec.FairDraw c r) (e : Fl ℝ) :
    (simulateOnce R argsort D c e r f).1 = .error .keyError := by
  obtain ⟨piv, w, f', -, hhist, -, hnames, -, hklen, hknd, hcnd, hcols, -⟩ := simulated_table hd hn hu hr
  obtain ⟨aa, haa, hk, hl⟩ := assigned_labels hfree hnames hklen hknd hcnd (fun l hl => by
    obtain ⟨q, lo, hi, e, ht, -⟩ := hcols l hl
    exact ⟨q, period_of_timeline ht, e⟩) r.coins
  have han : analyzeWide R argsort D aa c.design.toDesignParams c.design.primaryMetric c.treatCol = .error .keyError := by
    refine analyze_missing hk ?_
    intro l hl'
    obtain ⟨q, hq, e⟩ := hl l hl'
    rw [e]
    exact restored_period hm hq
  unfold simulateOnce
  rw [hhist]
  simp only
  rw [haa]
  refine Py.bind_eq_error.mpr (Or.inr ⟨aa, rfl, Py.bind_eq_error.mpr (Or.inl han)⟩)

/-- **C68, C86: the exact outcome for such names.**  On usable historical data, with a metric whose name is empty, has a double underscore or
has an underscore at an end, validating raises `KeyError` as soon as one simulation is asked for, whatever was estimated and whatever is drawn
for the first simulation. -/
theorem C86_metric_name_error {p : DesignParams ℝ} (hd : mkDesign R p = .ok c.design) (hn : c.design.nBefore ≤ 2 ^ 51)
    (hfree : Spec.FreeNames c.design.primaryMetric c.itemCol c.treatCol) (hm : ¬ Spec.PlainName c.design.primaryMetric) (s : SimState) (e : Fl ℝ)
    (hs : s.mde = some e) (hu : Spec.UsableHistory c.design c.itemCol c.weekCol c.periodCol c.starts s.data) (r : SimDraw) (hr : Spec.FairDraw c r)
    (rest : List SimDraw) : (validateSim R argsort D c (r :: rest) s).1 = .error .keyError := by
  have h1 := simulateOnce_bad_name (argsort := argsort) (D := D) hd hn hfree hm hu hr e
  have hne : c.starts ≠ [] := by intro h; have := hr.start; rw [h] at this; simp at this
  unfold validateSim
  rw [hs]
  simp only
  unfold simulateAll
  rw [if_neg hne]
  rcases hx : simulateOnce R argsort D c e r s.data with ⟨x, f'⟩
  rw [hx] at h1
  simp only at h1
  rw [h1]

/-- **C86, which names work** (crossover designs): on usable data, after a finite estimate, validating succeeds exactly if the name of the
primary metric is ordinary. -/
theorem C86_metric_name_iff (ha : ArgsortOk argsort) {p : DesignParams ℝ} (hd : mkDesign R p = .ok c.design) (hn : c.design.nBefore ≤ 2 ^ 51)
    (hx : c.design.isCrossover = true) (hfree : Spec.FreeNames c.design.primaryMetric c.itemCol c.treatCol) (s : SimState) (e : ℝ)
    (hs : s.mde = some (.fin e)) (hu : Spec.UsableHistory c.design c.itemCol c.weekCol c.periodCol c.starts s.data) (draws : List SimDraw)
    (hne : draws ≠ []) (hr : ∀ r ∈ draws, Spec.FairDraw c r) :
    (validateSim R argsort D c draws s).1 = .ok () ↔ Spec.PlainName c.design.primaryMetric := by
  constructor
  · intro h
    by_contra hm
    cases draws with
    | nil => exact hne rfl
    | cons r rest =>
      rw [C86_metric_name_error hd hn hfree hm s _ hs hu r (hr r (by simp)) rest] at h
      cases h
  · intro hm
    exact (C86_validation_succeeds_partial ha p hd hn (hfree.simulation hm) s e hs hu (Or.inl hx) draws
      (fun r h => ⟨hr r h, fun h' => by rw [hx] at h'; cases h'⟩)).1

/-! ### A concrete case -/

/-- The 100 items in two weeks of `twoWeekData`, with another name for the clicks. -/
noncomputable def renamedData (m : String) : Frame ℝ :=
  ⟨["item_id", "week_id", m], twoWeekData.rows.map (fun r col => if col = m then r "clicks" else r col)⟩

/-- The two-week crossover design for it. -/
noncomputable def renamedConfig (m : String) : SimConfig :=
  { twoWeekConfig true with design := { twoWeekDesign true with primaryMetric := m } }

theorem renamed_created (R : Rounding ℝ) (m : String) : mkDesign R { twoWeekParams true with primaryMetric := m } = .ok (renamedConfig m).design := by
  obtain ⟨h1, h2⟩ := (mkDesign_ok_iff R _ _).mp (twoWeekDesign_created R true)
  refine (mkDesign_ok_iff R _ _).mpr ⟨?_, ?_⟩
  · show ({ twoWeekDesign true with primaryMetric := m } : Design ℝ) = { deriveCounts R (twoWeekParams true) with primaryMetric := m }
    rw [← h1]
  · exact h2

theorem renamed_usable {m : String} (hm : m ≠ "item_id" ∧ m ≠ "week_id" ∧ m ≠ "time_period") :
    Spec.UsableHistory (renamedConfig m).design "item_id" "week_id" "time_period" (renamedConfig m).starts (renamedData m) := by
  obtain ⟨⟨h1, h2, h3⟩, -, h5⟩ := twoWeekData_usable true
  refine ⟨⟨?_, ?_, ?_⟩, ?_, ?_⟩
  · intro r hr
    obtain ⟨r0, hr0, rfl⟩ := List.mem_map.mp hr
    simpa [hm.2.1.symm] using h1 r0 hr0
  · intro r hr
    obtain ⟨r0, hr0, rfl⟩ := List.mem_map.mp hr
    show ((if m = m then r0 "clicks" else _ : Cell ℝ)).toFl = .nan ∨ ∃ x, ((if m = m then r0 "clicks" else _ : Cell ℝ)).toFl = .fin x
    rw [if_pos rfl]
    exact h2 r0 hr0
  · intro start hs
    obtain ⟨items, a, b, h⟩ := h3 start hs
    refine ⟨items, a, b, fun x => (h x).trans (and_congr_right fun _ => ?_)⟩
    constructor
    · rintro ⟨r, hr, e1, w, e2, rest⟩
      exact ⟨_, List.mem_map.mpr ⟨r, hr, rfl⟩, by simpa [hm.1.symm] using e1, w, by simpa [hm.2.1.symm] using e2, rest⟩
    · rintro ⟨r, hr, e1, w, e2, rest⟩
      obtain ⟨r0, hr0, rfl⟩ := List.mem_map.mp hr
      exact ⟨r0, hr0, by simpa [hm.1.symm] using e1, w, by simpa [hm.2.1.symm] using e2, rest⟩
  · refine ⟨by simp [renamedData], by simp [renamedData], by show m ∈ _; simp [renamedData], ?_⟩
    simp [renamedData, hm.2.2.symm]
  · intro start hs label lo hi hl hlt
    obtain ⟨r, hr, e1, w, e2, rest⟩ := h5 start hs label lo hi hl hlt
    exact ⟨_, List.mem_map.mpr ⟨r, hr, rfl⟩, by simpa [hm.1.symm] using e1, w, by simpa [hm.2.1.symm] using e2, rest⟩

theorem renamed_free {m : String} (hm : m ≠ "treatment_assignment") : Spec.FreeNames m "item_id" "treatment_assignment" := by
  refine ⟨by constructor <;> decide, ⟨by decide, hm⟩, by decide, ?_⟩
  intro p _ x
  have key : ∀ s : List Char, (∀ i < s.length, ¬ (s[i]? = some '_' ∧ s[i + 1]? = some '_')) → s ≠ (x ++ "__" ++ p).toList := by
    rintro s hs rfl
    refine hs x.toList.length (by simp) ⟨?_, ?_⟩ <;> simp [List.getElem?_append]
  exact ⟨fun h => key "item_id".toList (by decide) (by rw [← h]),
    fun h => key "treatment_assignment".toList (by decide) (by rw [← h])⟩

/-- **C86 fails for some names**: with the metric called `_clicks` (or `clicks_`, or `ad__clicks`), estimating the minimum detectable effect
succeeds, and then validating with one simulation raises `KeyError`; with the same data under the name `clicks` both succeed. -/
theorem C86_metric_name_false (R : Rounding ℝ) (D : TDist) (σ : ℤ → Shuffle) (τ : Shuffle) :
    ∀ m ∈ ["_clicks", "clicks_", "ad__clicks", "clicks"],
      (estimateMde R stableArgsort D σ (renamedConfig m) ⟨renamedData m, none, none, none, none, none, none⟩).1 = .ok () ∧
      ((validateSim R stableArgsort D (renamedConfig m) [hundredDraw 0 τ]
        (estimateMde R stableArgsort D σ (renamedConfig m) ⟨renamedData m, none, none, none, none, none, none⟩).2).1 =
          if m = "clicks" then .ok () else .error .keyError) := by
  intro m hmem
  have hm : (m ≠ "item_id" ∧ m ≠ "week_id" ∧ m ≠ "time_period") ∧ m ≠ "treatment_assignment" := by
    revert m
    decide
  have hsmall : (renamedConfig m).design.nBefore ≤ 2 ^ 51 := by show (100 : ℤ) ≤ 2 ^ 51; decide
  have hpost : 2 < (renamedConfig m).design.nAfterPost := by show (2 : ℤ) < 96; decide
  have hst : (renamedConfig m).starts = [0] := twoWeek_starts true
  obtain ⟨h1, h2⟩ := C71_estimation_succeeds (D := D) (c := renamedConfig m) stableArgsort_ok _ (renamed_created R m) hsmall
    σ ⟨renamedData m, none, none, none, none, none, none⟩ (by rw [hst]; simp) (renamed_usable hm.1)
  obtain ⟨e, he⟩ := estimate_finite (D := D) (c := renamedConfig m) stableArgsort_ok (renamed_created R m) hsmall (Or.inl rfl)
    (by show (0 : ℝ) < 8 / 10 ∧ (8 / 10 : ℝ) < 1; norm_num)
    (by show (0 : ℝ) < 1 / 10 ∧ (1 / 10 : ℝ) < 1; norm_num) hpost (s := ⟨renamedData m, none, none, none, none, none, none⟩)
    (renamed_usable hm.1) h1
  have hdraw : Spec.FairDraw (renamedConfig m) (hundredDraw 0 τ) := by
    have := (hundredDraw_valid R true τ).1
    exact ⟨this.start, this.boot, this.coins⟩
  refine ⟨h1, ?_⟩
  have hbad : ∀ s : List Char, (s.head? = some '_' ∨ s.getLast? = some '_') → ¬ Spec.NoOuterScore s := by
    rintro s (h | h) ⟨g1, g2⟩
    · exact g1 h
    · exact g2 h
  by_cases hc : m = "clicks"
  · rw [if_pos hc]
    refine (C86_metric_name_iff stableArgsort_ok (renamed_created R m) hsmall rfl (renamed_free hm.2) _ e he h2 _ (by simp) ?_).mpr ?_
    · intro r hr
      rw [List.mem_singleton.mp hr]
      exact hdraw
    · show Spec.PlainName m
      rw [hc]
      exact clicks_names.plainMetric
  · rw [if_neg hc]
    refine C86_metric_name_error (renamed_created R m) hsmall (renamed_free hm.2) ?_ _ _ he h2 _ hdraw []
    show ¬ Spec.PlainName m
    simp only [List.mem_cons, List.not_mem_nil, or_false] at hmem
    rcases hmem with rfl | rfl | rfl | rfl
    · exact fun h => hbad _ (by decide) h.2.2
    · exact fun h => hbad _ (by decide) h.2.2
    · exact fun h => h.2.1 ⟨"ad".toList, "clicks".toList, by decide⟩
    · exact absurd rfl hc

end Feedx
