import Verif.Proofs.RowOrderChecks
import Verif.Model.DesignStudy

/-!
Reordering the rows of the historical data does not change what the simulations give.
-/

set_option linter.unusedSectionVars false

namespace Feedx

section rel
variable {α β γ δ : Type}

/-- Both return related values, or both raise the same error. -/
def RelPy (P : α → β → Prop) : Py α → Py β → Prop
  | .ok a, .ok b => P a b
  | .error e, .error e' => e' = e
  | _, _ => False

theorem RelPy.bind {P : α → β → Prop} {Q : γ → δ → Prop} {x : Py α} {x' : Py β} {k : α → Py γ} {k' : β → Py δ} (h : RelPy P x x')
    (hk : ∀ a a', P a a' → RelPy Q (k a) (k' a')) : RelPy Q (x >>= k) (x' >>= k') := by
  cases x with
  | error e =>
    cases x' with
    | error e' => exact h
    | ok a' => exact h.elim
  | ok a =>
    cases x' with
    | error e' => exact h.elim
    | ok a' => exact hk a a' h

theorem RelPy.raiseIf {Q : γ → δ → Prop} {e : PyErr} {p p' : Prop} [Decidable p] [Decidable p'] {x : Py γ} {x' : Py δ} (hp : p' ↔ p)
    (h : RelPy Q x x') : RelPy Q (raiseIf e p >>= fun _ => x) (raiseIf e p' >>= fun _ => x') := by
  unfold Feedx.raiseIf
  by_cases hc : p
  · rw [if_pos hc, if_pos (hp.mpr hc)]
    exact rfl
  · rw [if_neg hc, if_neg (fun h' => hc (hp.mp h'))]
    exact h

theorem RelPy.raiseIf' {Q : γ → δ → Prop} {e : PyErr} {p p' : Prop} [Decidable p] [Decidable p'] {x : Py γ} {x' : Py δ} (hp : p' ↔ p)
    (h : ¬ p → RelPy Q x x') : RelPy Q (Feedx.raiseIf e p >>= fun _ => x) (Feedx.raiseIf e p' >>= fun _ => x') := by
  unfold Feedx.raiseIf
  by_cases hc : p
  · rw [if_pos hc, if_pos (hp.mpr hc)]
    exact rfl
  · rw [if_neg hc, if_neg (fun h' => hc (hp.mp h'))]
    exact h hc

theorem RelPy.of_eq {x x' : Py α} (h : x' = x) : RelPy (fun a b => b = a) x x' := by
  subst h
  cases x' <;> exact rfl

theorem RelPy.eq {x x' : Py α} (h : RelPy (fun a b => b = a) x x') : x' = x := by
  cases x with
  | error e =>
    cases x' with
    | error e' => rw [show e' = e from h]
    | ok a' => exact h.elim
  | ok a =>
    cases x' with
    | error e' => exact h.elim
    | ok a' => rw [show a' = a from h]

end rel

/-- The same tables, up to the order of the columns. -/
structure SameWide (w w' : Wide ℝ) : Prop where
  names : w'.names = w.names
  cols : w'.cols.Perm w.cols
  rows : w'.rows = w.rows

theorem pivotTimeAssignment_left {K : Type} [Field K] [LinearOrder K] {d : DesignParams K} {start : ℤ} {metrics : List String} {itemCol weekCol : String}
    {treatmentCol : Option String} {periodCol : String} {f f' : Frame K} (hs : Spec.SameRows f f') :
    Spec.SameRows (pivotTimeAssignment d start metrics itemCol weekCol treatmentCol periodCol f).2
      (pivotTimeAssignment d start metrics itemCol weekCol treatmentCol periodCol f').2 := by
  unfold pivotTimeAssignment
  rw [hs.cols]
  split_ifs
  · exact hs
  · exact hs
  · have hl := labelRows_sameRows (d := d) (start := start) (weekCol := weekCol) (periodCol := periodCol) hs
    cases e : labelRows d start weekCol periodCol f with
    | error x =>
      cases e' : labelRows d start weekCol periodCol f' with
      | error x' => exact hs
      | ok g' => rw [e, e'] at hl; exact hl.elim
    | ok g =>
      cases e' : labelRows d start weekCol periodCol f' with
      | error x' => rw [e, e'] at hl; exact hl.elim
      | ok g' =>
        rw [e, e'] at hl
        simp only at hl ⊢
        have hp := pivotTable_sameRows (d := d) (indexCols := indexColumns itemCol treatmentCol) (periodCol := periodCol) hl.rows
        by_cases hc : d.isCrossover = false ∧ Cell.str "test" ∉ (pivotTable d (indexColumns itemCol treatmentCol) periodCol g.rows).periods
        · rw [if_pos hc, if_pos ⟨hc.1, fun h => hc.2 (hp.periods.mem_iff.mp h)⟩]
          exact hl
        · rw [if_neg hc, if_neg fun h => hc ⟨h.1, fun h' => h.2 (hp.periods.mem_iff.mpr h')⟩]
          exact hl.dropCol _

theorem SamePivot.wide {p p' : Pivoted ℝ} (h : SamePivot p p') (metrics : List String) (itemCol : String) :
    SameWide (p.wide metrics itemCol) (p'.wide metrics itemCol) where
  names := rfl
  cols := by
    unfold Pivoted.wide
    simp only
    induction metrics with
    | nil => exact List.Perm.refl _
    | cons m l ih => exact (h.periods.map _).append ih
  rows := by
    unfold Pivoted.wide
    simp only [h.index, h.value]

theorem bootstrap_same {w w' : Wide ℝ} (h : SameWide w w') (draws : List ℕ) (itemCol : String) :
    RelPy SameWide (bootstrap draws w itemCol) (bootstrap draws w' itemCol) := by
  unfold bootstrap
  refine RelPy.raiseIf (by rw [h.cols.mem_iff, h.cols.mem_iff]) ?_
  exact ⟨by simp only [h.names], h.cols, by simp only [h.names, h.rows]⟩

theorem trimWide_same {R : Rounding ℝ} {σ : Shuffle} {w w' : Wide ℝ} (h : SameWide w w') (label : List String) (top bottom : ℝ) :
    RelPy SameWide (trimWide R σ w label top bottom) (trimWide R σ w' label top bottom) := by
  unfold trimWide
  refine RelPy.bind (P := fun a b => b = a) (RelPy.of_eq ?_) ?_
  · simp only [h.cols.mem_iff, h.rows]
  · rintro a a' rfl
    exact ⟨h.names, h.cols, by simp only [h.rows]⟩

theorem trimHistorical_same {R : Rounding ℝ} {σ : Shuffle} {c : SimConfig} {boot : Option (List ℕ)} {w w' : Wide ℝ} (h : SameWide w w') :
    RelPy SameWide (trimHistorical R σ c boot w) (trimHistorical R σ c boot w') := by
  unfold trimHistorical
  refine RelPy.bind (P := SameWide) ?_ ?_
  · cases boot with
    | none => exact h
    | some draws => exact bootstrap_same h draws _
  · intro a a' ha
    refine RelPy.raiseIf (by rw [ha.rows]) (RelPy.bind (P := SameWide) ?_ ?_)
    · split
      · exact trimWide_same ha _ _ _
      · exact ha
    · intro b b' hb
      exact RelPy.raiseIf (by rw [hb.rows]) hb

theorem historicalTable_same {R : Rounding ℝ} {σ : Shuffle} {c : SimConfig} {boot : Option (List ℕ)} {start : ℤ} {f f' : Frame ℝ}
    (hs : Spec.SameRows f f') :
    RelPy SameWide (historicalTable R σ c boot start f).1 (historicalTable R σ c boot start f').1 ∧
      Spec.SameRows (historicalTable R σ c boot start f).2 (historicalTable R σ c boot start f').2 := by
  have h1 := pivotTimeAssignment_sameRows (d := c.design.toDesignParams) (start := start) (metrics := [c.design.primaryMetric]) (itemCol := c.itemCol)
    (weekCol := c.weekCol) (treatmentCol := none) (periodCol := c.periodCol) hs
  have h2 := pivotTimeAssignment_left (d := c.design.toDesignParams) (start := start) (metrics := [c.design.primaryMetric]) (itemCol := c.itemCol)
    (weekCol := c.weekCol) (treatmentCol := none) (periodCol := c.periodCol) hs
  unfold historicalTable
  generalize pivotTimeAssignment c.design.toDesignParams start [c.design.primaryMetric] c.itemCol c.weekCol none c.periodCol f = x at h1 h2 ⊢
  generalize pivotTimeAssignment c.design.toDesignParams start [c.design.primaryMetric] c.itemCol c.weekCol none c.periodCol f' = x' at h1 h2 ⊢
  obtain ⟨a, g⟩ := x
  obtain ⟨a', g'⟩ := x'
  cases a with
  | error e =>
    cases a' with
    | error e' => exact ⟨h1, h2⟩
    | ok p' => exact h1.elim
  | ok p =>
    cases a' with
    | error e' => exact h1.elim
    | ok p' => exact ⟨trimHistorical_same (SamePivot.wide h1 _ _), h2⟩

theorem primaryStats_same {R : Rounding ℝ} {argsort : List ℝ → List ℕ} {d : Design ℝ} {w w' : Wide ℝ} (h : SameWide w w') :
    primaryStats R argsort d w' = primaryStats R argsort d w := by
  have hv : ∀ label, wideValues w' label = wideValues w label := by
    intro label
    unfold wideValues
    simp only [h.cols.mem_iff, h.rows]
  unfold primaryStats
  simp only [hv, h.cols.mem_iff]

theorem statsOfWeeks_sameRows {R : Rounding ℝ} {argsort : List ℝ → List ℕ} {σ : ℤ → Shuffle} {c : SimConfig} (l : List ℤ) {f f' : Frame ℝ}
    (hs : Spec.SameRows f f') :
    (statsOfWeeks R argsort σ c l f').1 = (statsOfWeeks R argsort σ c l f).1 ∧
      Spec.SameRows (statsOfWeeks R argsort σ c l f).2 (statsOfWeeks R argsort σ c l f').2 := by
  induction l generalizing f f' with
  | nil => exact ⟨rfl, hs⟩
  | cons start rest ih =>
    have h := historicalTable_same (R := R) (σ := σ start) (c := c) (boot := none) (start := start) hs
    unfold statsOfWeeks
    generalize historicalTable R (σ start) c none start f = x at h ⊢
    generalize historicalTable R (σ start) c none start f' = x' at h ⊢
    obtain ⟨a, g⟩ := x
    obtain ⟨a', g'⟩ := x'
    obtain ⟨h1, h2⟩ := h
    simp only at h1 h2
    cases a with
    | error e =>
      cases a' with
      | error e' => exact ⟨by rw [show e' = e from h1], h2⟩
      | ok p' => exact h1.elim
    | ok w =>
      cases a' with
      | error e' => exact h1.elim
      | ok w' =>
        simp only [primaryStats_same h1]
        cases primaryStats R argsort c.design w with
        | error e => exact ⟨rfl, h2⟩
        | ok s =>
          have h3 := ih h2
          generalize statsOfWeeks R argsort σ c rest g = y at h3 ⊢
          generalize statsOfWeeks R argsort σ c rest g' = y' at h3 ⊢
          obtain ⟨b, k⟩ := y
          obtain ⟨b', k'⟩ := y'
          obtain ⟨rfl, h4⟩ := h3
          cases b' with
          | error e => exact ⟨rfl, h4⟩
          | ok l => exact ⟨rfl, h4⟩

/-- The same states of an analysis, up to the order of the rows of its data. -/
structure SameState (s s' : SimState) : Prop where
  data : Spec.SameRows s.data s'.data
  mde : s'.mde = s.mde
  relativeMde : s'.relativeMde = s.relativeMde
  average : s'.average = s.average
  sd : s'.sd = s.sd
  aa : s'.aa = s.aa
  ab : s'.ab = s.ab

theorem estimateMde_same {R : Rounding ℝ} {argsort : List ℝ → List ℕ} {D : TDist} {σ : ℤ → Shuffle} {c : SimConfig} {s s' : SimState}
    (h : SameState s s') :
    (estimateMde R argsort D σ c s').1 = (estimateMde R argsort D σ c s).1 ∧
      SameState (estimateMde R argsort D σ c s).2 (estimateMde R argsort D σ c s').2 := by
  have h3 := statsOfWeeks_sameRows (R := R) (argsort := argsort) (σ := σ) (c := c) c.starts h.data
  unfold estimateMde
  generalize statsOfWeeks R argsort σ c c.starts s.data = y at h3 ⊢
  generalize statsOfWeeks R argsort σ c c.starts s'.data = y' at h3 ⊢
  obtain ⟨b, k⟩ := y
  obtain ⟨b', k'⟩ := y'
  obtain ⟨rfl, h4⟩ := h3
  simp only at h4
  cases b' with
  | error e => exact ⟨rfl, h4, h.mde, h.relativeMde, h.average, h.sd, h.aa, h.ab⟩
  | ok l =>
    simp only
    cases averageStats l with
    | error e => exact ⟨rfl, h4, h.mde, h.relativeMde, h.average, h.sd, h.aa, h.ab⟩
    | ok a =>
      simp only
      cases mdeOf D c.design a.1 a.2.1 a.2.2 with
      | error e => exact ⟨rfl, h4, h.mde, h.relativeMde, h.average, h.sd, h.aa, h.ab⟩
      | ok m => exact ⟨rfl, h4, rfl, rfl, rfl, rfl, h.aa, h.ab⟩

theorem Wide.pivoted_same {w w' : Wide ℝ} (h : SameWide w w') (m : String) : SamePivot (w.pivoted m) (w'.pivoted m) where
  index := by unfold Wide.pivoted; rw [h.rows]
  periods := h.cols.filterMap _
  value := by unfold Wide.pivoted; rw [h.rows]
  whole := rfl

theorem analyzeSingleMetric_names {R : Rounding ℝ} {argsort : List ℝ → List ℕ} {D : TDist} {piv : Pivoted ℝ} {metrics metrics' : List String}
    (h : ∀ m, m ∈ metrics' ↔ m ∈ metrics) (indexNames : List String) (d : DesignParams ℝ) (metric : String) (denominator : Option String)
    (treatmentName : String) (override : Option ℝ) :
    analyzeSingleMetric R argsort D piv metrics' indexNames d metric denominator treatmentName override =
      analyzeSingleMetric R argsort D piv metrics indexNames d metric denominator treatmentName override := by
  have hm : ∀ m, metricSubset piv metrics' indexNames m = metricSubset piv metrics indexNames m := by
    intro m
    unfold metricSubset
    simp only [h]
  unfold analyzeSingleMetric
  simp only [hm]

theorem analyzeWide_same {R : Rounding ℝ} {argsort : List ℝ → List ℕ} {D : TDist} {w w' : Wide ℝ} (h : SameWide w w') (d : DesignParams ℝ)
    (metric treatName : String) : analyzeWide R argsort D w' d metric treatName = analyzeWide R argsort D w d metric treatName := by
  unfold analyzeWide
  rw [h.rows, h.cols.any_eq, h.names, analyzeSingleMetric_same (Wide.pivoted_same h metric)]
  rw [analyzeSingleMetric_names (metrics := w.cols.map (fun l => l.headD "")) (fun m => (h.cols.map _).mem_iff)]

theorem analyzeNan_same {R : Rounding ℝ} {argsort : List ℝ → List ℕ} {D : TDist} {w w' : Wide ℝ} (h : SameWide w w') (d : DesignParams ℝ)
    (treatName : String) : analyzeNan R argsort D w' d treatName = analyzeNan R argsort D w d treatName := by
  unfold analyzeNan
  rw [h.rows, h.names]

/-- Splitting and joining gives the characters back. -/
theorem intercalate_splitScores : ∀ (s acc : List Char),
    List.intercalate "__".toList (splitScores acc s) = acc.reverse ++ s
  | [], acc => by simp [splitScores, List.intercalate]
  | [c], acc => by simp [splitScores, List.intercalate]
  | a :: b :: s, acc => by
    unfold splitScores
    split
    · rename_i h
      obtain ⟨rfl, rfl⟩ := h
      have ih := intercalate_splitScores s []
      cases hs : splitScores [] s with
      | nil =>
        rw [hs] at ih
        cases s with
        | nil => simp [splitScores] at hs
        | cons c t =>
          simp [List.intercalate] at ih
      | cons x l =>
        rw [hs] at ih
        rw [List.intercalate_cons_cons, ih]
        simp
    · rw [intercalate_splitScores (b :: s) (a :: acc)]
      simp

theorem unflatName_injective : Function.Injective unflatName := by
  intro a b h
  unfold unflatName at h
  have h' : splitScores [] a.toList = splitScores [] b.toList :=
    List.map_injective_iff.mpr (fun x y e => by simpa using congrArg String.toList e) h
  have e := congrArg (List.intercalate "__".toList) h'
  rw [intercalate_splitScores, intercalate_splitScores] at e
  exact String.toList_injective (by simpa using e)

/-- Looking for something that is there at most once does not depend on the order. -/
theorem find?_perm {α : Type} {p : α → Bool} {l l' : List α} (h : l'.Perm l) (hu : ∀ a ∈ l, ∀ b ∈ l, p a = true → p b = true → a = b) :
    l'.find? p = l.find? p := by
  cases e : l.find? p with
  | none =>
    rw [List.find?_eq_none] at e ⊢
    exact fun x hx => e x (h.mem_iff.mp hx)
  | some a =>
    have ha := List.mem_of_find?_eq_some e
    have hpa := List.find?_some e
    cases e' : l'.find? p with
    | none =>
      rw [List.find?_eq_none] at e'
      exact absurd hpa (e' a (h.mem_iff.mpr ha))
    | some b =>
      rw [hu b (h.mem_iff.mp (List.mem_of_find?_eq_some e')) a ha (List.find?_some e') hpa]

theorem randomAssign_same {w w' : Wide ℝ} (h : SameWide w w') (coins : List Bool) (itemCol treatCol : String) :
    RelPy SameWide (randomAssign coins w itemCol treatCol) (randomAssign coins w' itemCol treatCol) := by
  have hf := h.cols.map flatName
  have hc : ∀ c, c ∈ w'.names ++ w'.cols.map (fun l => l.headD "") ↔ c ∈ w.names ++ w.cols.map (fun l => l.headD "") := by
    intro c
    rw [List.mem_append, List.mem_append, h.names, (h.cols.map _).mem_iff]
  unfold randomAssign
  refine RelPy.raiseIf (hc _) (RelPy.raiseIf (not_congr (hc _)) (RelPy.raiseIf (by rw [h.names]) ?_))
  refine RelPy.raiseIf' (by rw [hf.mem_iff, hf.mem_iff, hf.nodup_iff]) fun hbad => ?_
  have hnd : (w.cols.map flatName).Nodup := by
    push Not at hbad
    exact hbad.2.2
  refine RelPy.raiseIf Iff.rfl (RelPy.raiseIf hf.mem_iff ?_)
  refine ⟨rfl, hf.map _, ?_⟩
  rw [h.rows]
  refine List.map_congr_left fun r _ => ?_
  congr 1
  funext l
  rw [find?_perm h.cols]
  intro a ha b hb ea eb
  have e : unflatName (flatName a) = unflatName (flatName b) := by
    rw [of_decide_eq_true ea, of_decide_eq_true eb]
  exact List.inj_on_of_nodup_map hnd ha hb (unflatName_injective e)

theorem applyEffect_same {w w' : Wide ℝ} (h : SameWide w w') (metric : String) (isCrossover : Bool) (effect : Fl ℝ) (treatName : String) :
    RelPy SameWide (applyEffect w metric isCrossover effect treatName) (applyEffect w' metric isCrossover effect treatName) := by
  unfold applyEffect
  refine RelPy.raiseIf (by rw [h.names]) (RelPy.raiseIf (by simp only [h.cols.mem_iff]) ?_)
  have ha : ∀ {v v' : Wide ℝ}, SameWide v v' → ∀ mask label, SameWide (addWhere v mask label effect) (addWhere v' mask label effect) := by
    intro v v' hv mask label
    exact ⟨hv.names, hv.cols, by unfold addWhere; simp only [hv.rows]⟩
  rw [h.names]
  cases isCrossover
  · exact ha h _ _
  · exact ha (ha h _ _) _ _

theorem simulateOnce_sameRows {R : Rounding ℝ} {argsort : List ℝ → List ℕ} {D : TDist} {c : SimConfig} {effect : Fl ℝ} (r : SimDraw) {f f' : Frame ℝ}
    (hs : Spec.SameRows f f') :
    (simulateOnce R argsort D c effect r f').1 = (simulateOnce R argsort D c effect r f).1 ∧
      Spec.SameRows (simulateOnce R argsort D c effect r f).2 (simulateOnce R argsort D c effect r f').2 := by
  have h := historicalTable_same (R := R) (σ := r.shuffle) (c := c) (boot := some r.boot) (start := r.start) hs
  unfold simulateOnce
  generalize historicalTable R r.shuffle c (some r.boot) r.start f = x at h ⊢
  generalize historicalTable R r.shuffle c (some r.boot) r.start f' = x' at h ⊢
  obtain ⟨a, g⟩ := x
  obtain ⟨a', g'⟩ := x'
  obtain ⟨h1, h2⟩ := h
  simp only at h1 h2
  cases a with
  | error e =>
    cases a' with
    | error e' => exact ⟨by rw [show e' = e from h1], h2⟩
    | ok p' => exact h1.elim
  | ok w =>
    cases a' with
    | error e' => exact h1.elim
    | ok w' =>
      refine ⟨RelPy.eq ?_, h2⟩
      refine RelPy.bind (randomAssign_same h1 r.coins c.itemCol c.treatCol) fun aa aa' haa => ?_
      refine RelPy.bind (P := fun a b => b = a) (RelPy.of_eq (analyzeWide_same haa _ _ _)) ?_
      rintro r1 _ rfl
      refine RelPy.bind (applyEffect_same haa _ _ _ _) fun ab ab' hab => ?_
      refine RelPy.bind (P := fun a b => b = a) (RelPy.of_eq ?_) ?_
      · split_ifs
        · exact analyzeNan_same hab _ _
        · exact analyzeWide_same hab _ _ _
      rintro r2 _ rfl
      exact rfl

theorem simulateAll_sameRows {R : Rounding ℝ} {argsort : List ℝ → List ℕ} {D : TDist} {c : SimConfig} {effect : Fl ℝ} (l : List SimDraw) {f f' : Frame ℝ}
    (hs : Spec.SameRows f f') :
    (simulateAll R argsort D c effect l f').1 = (simulateAll R argsort D c effect l f).1 ∧
      Spec.SameRows (simulateAll R argsort D c effect l f).2 (simulateAll R argsort D c effect l f').2 := by
  induction l generalizing f f' with
  | nil => exact ⟨rfl, hs⟩
  | cons r rest ih =>
    unfold simulateAll
    split_ifs
    · exact ⟨rfl, hs⟩
    · have h := simulateOnce_sameRows (R := R) (argsort := argsort) (D := D) (c := c) (effect := effect) r hs
      generalize simulateOnce R argsort D c effect r f = x at h ⊢
      generalize simulateOnce R argsort D c effect r f' = x' at h ⊢
      obtain ⟨a, g⟩ := x
      obtain ⟨a', g'⟩ := x'
      obtain ⟨rfl, h2⟩ := h
      simp only at h2
      cases a' with
      | error e => exact ⟨rfl, h2⟩
      | ok x =>
        have h3 := ih h2
        simp only
        generalize simulateAll R argsort D c effect rest g = y at h3 ⊢
        generalize simulateAll R argsort D c effect rest g' = y' at h3 ⊢
        obtain ⟨b, k⟩ := y
        obtain ⟨b', k'⟩ := y'
        obtain ⟨rfl, h4⟩ := h3
        cases b' with
        | error e => exact ⟨rfl, h4⟩
        | ok l => exact ⟨rfl, h4⟩

theorem validateSim_same {R : Rounding ℝ} {argsort : List ℝ → List ℕ} {D : TDist} {c : SimConfig} (draws : List SimDraw) {s s' : SimState}
    (h : SameState s s') :
    (validateSim R argsort D c draws s').1 = (validateSim R argsort D c draws s).1 ∧
      SameState (validateSim R argsort D c draws s).2 (validateSim R argsort D c draws s').2 := by
  unfold validateSim
  rw [h.mde]
  cases hm : s.mde with
  | none => exact ⟨rfl, h⟩
  | some effect =>
    have h3 := simulateAll_sameRows (R := R) (argsort := argsort) (D := D) (c := c) (effect := effect) draws h.data
    simp only
    generalize simulateAll R argsort D c effect draws s.data = y at h3 ⊢
    generalize simulateAll R argsort D c effect draws s'.data = y' at h3 ⊢
    obtain ⟨b, k⟩ := y
    obtain ⟨b', k'⟩ := y'
    obtain ⟨rfl, h4⟩ := h3
    simp only at h4
    cases b' with
    | error e => exact ⟨rfl, h4, rfl, h.relativeMde, h.average, h.sd, h.aa, h.ab⟩
    | ok l => exact ⟨rfl, h4, rfl, h.relativeMde, h.average, h.sd, rfl, rfl⟩

theorem intMax?_perm {l l' : List ℤ} (hp : l'.Perm l) : l'.max? = l.max? := by
  cases h1 : l.max? with
  | none =>
    rw [List.max?_eq_none_iff] at h1
    rw [h1] at hp
    rw [hp.eq_nil]
    rfl
  | some m =>
    rw [List.max?_eq_some_iff] at h1 ⊢
    exact ⟨hp.mem_iff.mpr h1.1, fun b hb => h1.2 b (hp.mem_iff.mp hb)⟩

theorem mkSimulation_same {f f' : Frame ℝ} (hs : Spec.SameRows f f') (d : Design ℝ) (itemCol weekCol periodCol treatCol : String) (minStart : ℤ)
    (threshold : ℝ) :
    RelPy (fun a a' => a'.1 = a.1 ∧ SameState a.2 a'.2) (mkSimulation d f itemCol weekCol periodCol treatCol minStart threshold)
      (mkSimulation d f' itemCol weekCol periodCol treatCol minStart threshold) := by
  have hcol := hs.col weekCol
  unfold mkSimulation
  refine RelPy.raiseIf (by rw [hs.cols]) (RelPy.raiseIf (by rw [hcol.all_eq]) ?_)
  have hp : (ints (f'.col weekCol)).Perm (ints (f.col weekCol)) := hcol.filterMap _
  have hmax : (ints (f'.col weekCol)).max? = (ints (f.col weekCol)).max? := intMax?_perm hp
  rw [hmax]
  cases (ints (f.col weekCol)).max? with
  | none => exact rfl
  | some last => exact ⟨rfl, hs, rfl, rfl, rfl, rfl, rfl, rfl⟩

end Feedx
