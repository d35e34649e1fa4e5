import Verif.Model.Plotting
import Verif.Props.Fieller

/-!
Property C77: the plot of the effects.
-/

set_option linter.unusedSectionVars false

namespace Feedx

variable {K : Type} [Field K] [LinearOrder K] [IsStrictOrderedRing K]

namespace Spec

/-- The place where a result is drawn: its estimate, or 0 if the estimate is not a finite number. -/
def DrawnAt (value : Fl K) (x : K) : Prop := value = .fin x ∨ (∀ y, value ≠ .fin y) ∧ x = 0

/-- A group of results that can be drawn: some lower and some upper bound is finite, every result is drawn between its finite bounds, a result
without finite lower bound is not drawn left of all finite lower bounds, and a result without finite upper bound not right of all finite upper
bounds. -/
def Drawable (rows : List (BarRow K)) : Prop :=
  rows = [] ∨ (∃ r ∈ rows, ∃ l, r.lower = .fin l) ∧ (∃ r ∈ rows, ∃ u, r.upper = .fin u) ∧
    ∀ r ∈ rows, ∀ x, DrawnAt r.value x →
      (∀ l, r.lower = .fin l → l ≤ x) ∧ (∀ u, r.upper = .fin u → x ≤ u) ∧
      ((∀ l, r.lower ≠ .fin l) → ∃ r' ∈ rows, ∃ l, r'.lower = .fin l ∧ l ≤ x) ∧
      ((∀ u, r.upper ≠ .fin u) → ∃ r' ∈ rows, ∃ u, r'.upper = .fin u ∧ x ≤ u)

end Spec

theorem drawnAt_iff {r : BarRow K} {x : K} : Spec.DrawnAt r.value x ↔ x = r.centre := by
  unfold Spec.DrawnAt BarRow.centre
  cases h : r.value <;> simp [Fl.toOption, eq_comm]

theorem toOption_eq_some {v : Fl K} {x : K} : v.toOption = some x ↔ v = .fin x := by cases v <;> simp [Fl.toOption]

theorem isFinite_eq_false {v : Fl K} : (!v.isFinite) = true ↔ ∀ x, v ≠ .fin x := by cases v <;> simp [Fl.isFinite]

theorem drawBars_ok {l l' : List (Bar K)} : drawBars l = .ok l' ↔ l' = l ∧ ∀ b ∈ l, 0 ≤ b.left ∧ 0 ≤ b.right := by
  unfold drawBars
  rw [raiseIf_bind_ok]
  simp only [List.any_eq_true, decide_eq_true_eq, not_exists, not_and, not_or, not_lt]
  constructor
  · rintro ⟨h, h'⟩; cases h'; exact ⟨rfl, h⟩
  · rintro ⟨rfl, h⟩; exact ⟨h, rfl⟩

theorem minFin {rows : List (BarRow K)} {g : BarRow K → Fl K} {m : K} (h : (rows.filterMap (fun r => (g r).toOption)).min? = some m) :
    (∃ r ∈ rows, g r = .fin m) ∧ ∀ r ∈ rows, ∀ x, g r = .fin x → m ≤ x := by
  have := List.min?_eq_some_iff.mp h
  simp only [List.mem_filterMap, toOption_eq_some] at this
  exact ⟨this.1, fun r hr x hx => this.2 x ⟨r, hr, hx⟩⟩

theorem maxFin {rows : List (BarRow K)} {g : BarRow K → Fl K} {m : K} (h : (rows.filterMap (fun r => (g r).toOption)).max? = some m) :
    (∃ r ∈ rows, g r = .fin m) ∧ ∀ r ∈ rows, ∀ x, g r = .fin x → x ≤ m := by
  have := List.max?_eq_some_iff.mp h
  simp only [List.mem_filterMap, toOption_eq_some] at this
  exact ⟨this.1, fun r hr x hx => this.2 x ⟨r, hr, hx⟩⟩

/-- Either the group is drawable and the bars are these, or `ValueError`. -/
theorem errorBars_cases (rows : List (BarRow K)) :
    (Spec.Drawable rows ∧ ∃ B, errorBars rows = .ok B ∧ (rows ≠ [] → ∃ least greatest,
      (∃ r ∈ rows, r.lower = .fin least) ∧ (∀ r ∈ rows, ∀ x, r.lower = .fin x → least ≤ x) ∧
      (∃ r ∈ rows, r.upper = .fin greatest) ∧ (∀ r ∈ rows, ∀ x, r.upper = .fin x → x ≤ greatest) ∧
      B.plain = rows.map (fun r =>
        ⟨r.position, r.centre, (r.lower.toOption.map (fun x => r.centre - x)).getD 0, (r.upper.toOption.map (fun x => x - r.centre)).getD 0⟩) ∧
      B.leftArrows = (rows.filter (fun r => !r.lower.isFinite)).map (fun r => ⟨r.position, r.centre, r.centre - least, 0⟩) ∧
      B.rightArrows = (rows.filter (fun r => !r.upper.isFinite)).map (fun r => ⟨r.position, r.centre, 0, greatest - r.centre⟩))) ∨
    (¬ Spec.Drawable rows ∧ errorBars rows = .error .valueError) := by
  by_cases h0 : rows = []
  · left
    exact ⟨Or.inl h0, ⟨[], [], []⟩, by unfold errorBars; rw [if_pos h0], fun h => absurd h0 h⟩
  unfold errorBars
  rw [if_neg h0]
  rcases hmin : (rows.filterMap (fun r => r.lower.toOption)).min? with _ | least
  · right
    refine ⟨?_, by rw [hmin]⟩
    rintro (h | ⟨⟨r, hr, l, hl⟩, -⟩)
    · exact h0 h
    · rw [List.min?_eq_none_iff, List.filterMap_eq_nil_iff] at hmin
      have := hmin r hr
      rw [hl] at this
      cases this
  rcases hmax : (rows.filterMap (fun r => r.upper.toOption)).max? with _ | greatest
  · right
    refine ⟨?_, by rw [hmin, hmax]⟩
    rintro (h | ⟨-, ⟨r, hr, l, hl⟩, -⟩)
    · exact h0 h
    · rw [List.max?_eq_none_iff, List.filterMap_eq_nil_iff] at hmax
      have := hmax r hr
      rw [hl] at this
      cases this
  obtain ⟨l1, l2⟩ := minFin (g := BarRow.lower) hmin
  obtain ⟨u1, u2⟩ := maxFin (g := BarRow.upper) hmax
  rw [hmin, hmax]
  simp only
  have hiff : Spec.Drawable rows ↔ ∀ r ∈ rows,
      (0 ≤ (r.lower.toOption.map (fun x => r.centre - x)).getD 0 ∧ 0 ≤ (r.upper.toOption.map (fun x => x - r.centre)).getD 0) ∧
      ((!r.lower.isFinite) = true → 0 ≤ r.centre - least) ∧ ((!r.upper.isFinite) = true → 0 ≤ greatest - r.centre) := by
    constructor
    · rintro (h | ⟨-, -, h⟩) r hr
      · exact absurd h h0
      · obtain ⟨a, b, c, d⟩ := h r hr r.centre (drawnAt_iff.mpr rfl)
        refine ⟨⟨?_, ?_⟩, fun h => ?_, fun h => ?_⟩
        · cases hl : r.lower <;> simp [Fl.toOption]
          exact a _ hl
        · cases hl : r.upper <;> simp [Fl.toOption]
          exact b _ hl
        · obtain ⟨r', hr', l, hl, hle⟩ := c (isFinite_eq_false.mp h)
          have := l2 r' hr' l hl
          linarith
        · obtain ⟨r', hr', l, hl, hle⟩ := d (isFinite_eq_false.mp h)
          have := u2 r' hr' l hl
          linarith
    · intro h
      right
      refine ⟨l1.imp fun r h => ⟨h.1, _, h.2⟩, u1.imp fun r h => ⟨h.1, _, h.2⟩, fun r hr x hx => ?_⟩
      rw [drawnAt_iff.mp hx]
      obtain ⟨⟨a, b⟩, c, d⟩ := h r hr
      refine ⟨fun l hl => ?_, fun l hl => ?_, fun hn => ?_, fun hn => ?_⟩
      · rw [hl] at a; simpa [Fl.toOption] using a
      · rw [hl] at b; simpa [Fl.toOption] using b
      · have := c (isFinite_eq_false.mpr hn)
        obtain ⟨r', hr', hl⟩ := l1
        exact ⟨r', hr', least, hl, by linarith⟩
      · have := d (isFinite_eq_false.mpr hn)
        obtain ⟨r', hr', hl⟩ := u1
        exact ⟨r', hr', greatest, hl, by linarith⟩
  by_cases hd : Spec.Drawable rows
  · left
    refine ⟨hd, ?_⟩
    rw [hiff] at hd
    refine ⟨_, Py.bind_eq_ok.mpr ⟨_, drawBars_ok.mpr ⟨rfl, ?_⟩, Py.bind_eq_ok.mpr ⟨_, drawBars_ok.mpr ⟨rfl, ?_⟩,
      Py.bind_eq_ok.mpr ⟨_, drawBars_ok.mpr ⟨rfl, ?_⟩, rfl⟩⟩⟩, fun _ => ⟨least, greatest, l1, l2, u1, u2, rfl, rfl, rfl⟩⟩
    · simp only [List.forall_mem_map]
      exact fun r hr => (hd r hr).1
    · simp only [List.forall_mem_map, List.mem_filter]
      exact fun r hr => ⟨(hd r hr.1).2.1 hr.2, le_rfl⟩
    · simp only [List.forall_mem_map, List.mem_filter]
      exact fun r hr => ⟨le_rfl, (hd r hr.1).2.2 hr.2⟩
  · right
    refine ⟨hd, ?_⟩
    have herr : ∀ l : List (Bar K), drawBars l = .ok l ∧ (∀ b ∈ l, 0 ≤ b.left ∧ 0 ≤ b.right) ∨ drawBars l = .error .valueError := by
      intro l
      by_cases h : ∀ b ∈ l, 0 ≤ b.left ∧ 0 ≤ b.right
      · exact Or.inl ⟨drawBars_ok.mpr ⟨rfl, h⟩, h⟩
      · right
        unfold drawBars raiseIf
        rw [if_pos]
        · rfl
        · push Not at h
          obtain ⟨b, hb, h⟩ := h
          simp only [List.any_eq_true, decide_eq_true_eq]
          refine ⟨b, hb, ?_⟩
          by_contra hc
          push Not at hc
          exact absurd (h hc.1) (not_lt.mpr hc.2)
    rcases herr (rows.map (fun r => (⟨r.position, r.centre, (r.lower.toOption.map (fun x => r.centre - x)).getD 0,
      (r.upper.toOption.map (fun x => x - r.centre)).getD 0⟩ : Bar K))) with ⟨e1, h1⟩ | e1
    · rw [e1]
      rcases herr ((rows.filter (fun r => !r.lower.isFinite)).map (fun r => (⟨r.position, r.centre, r.centre - least, 0⟩ : Bar K))) with
        ⟨e2, h2⟩ | e2
      · rcases herr ((rows.filter (fun r => !r.upper.isFinite)).map (fun r => (⟨r.position, r.centre, 0, greatest - r.centre⟩ : Bar K))) with
          ⟨e3, h3⟩ | e3
        · exfalso
          apply hd
          rw [hiff]
          simp only [List.forall_mem_map, List.mem_filter] at h1 h2 h3
          exact fun r hr => ⟨h1 r hr, fun h => (h2 r ⟨hr, h⟩).1, fun h => (h3 r ⟨hr, h⟩).2⟩
        · simp only [Bind.bind, Except.bind, e2, e3]
      · simp only [Bind.bind, Except.bind, e2]
    · rw [e1]; rfl

/-- **C77, full statement.**  Every table with exactly one row for the primary metric is drawn. -/
def C77_full (K : Type) [Field K] [LinearOrder K] : Prop := ∀ (lower : String → String) (primary : String) (table : List (EffectRow K)),
  table.countP (fun r => decide (lower r.metric = lower primary)) = 1 → (plotEffects lower primary table).Returns

/-- The three groups of a results table: the primary metric, the significant and the other secondary metrics. -/
def Spec.effectGroups (lower : String → String) (primary : String) (table : List (EffectRow K)) : List (List (EffectRow K)) :=
  [table.filter (fun r => decide (lower r.metric = lower primary)),
   table.filter (fun r => decide (lower r.metric ≠ lower primary) && r.significant),
   table.filter (fun r => decide (lower r.metric ≠ lower primary) && !r.significant)]

theorem drawable_position {rows : List (EffectRow K)} (p : EffectRow K → ℕ) :
    Spec.Drawable (rows.map (fun r => r.bar (p r))) ↔ Spec.Drawable (rows.map (EffectRow.bar 0)) := by
  unfold Spec.Drawable
  simp [EffectRow.bar]

theorem effectGroups_eq (lower : String → String) (primary : String) (table : List (EffectRow K)) :
    (table.filter (fun r => !decide (lower r.metric = lower primary))).filter (fun r => r.significant) =
      table.filter (fun r => decide (lower r.metric ≠ lower primary) && r.significant) ∧
    (table.filter (fun r => !decide (lower r.metric = lower primary))).filter (fun r => !r.significant) =
      table.filter (fun r => decide (lower r.metric ≠ lower primary) && !r.significant) := by
  constructor
  all_goals
    rw [List.filter_filter]
    refine List.filter_congr fun r _ => ?_
    rw [Bool.and_comm]
    congr 1
    simp

/-- **C77 (part): when the plot is drawn.**  The plot returns exactly if one row is for the primary metric and each of the three groups of results
can be drawn (`Spec.Drawable`), and raises `ValueError` otherwise.  Missing: tables with infinite bounds that are not drawable
(`C77_infinite_primary_bound_false`, `C77_reachable_result_false`). -/
theorem C77_drawn_iff_partial (lower : String → String) (primary : String) (table : List (EffectRow K)) :
    ((plotEffects lower primary table).Returns ↔ table.countP (fun r => decide (lower r.metric = lower primary)) = 1 ∧
      ∀ g ∈ Spec.effectGroups lower primary table, Spec.Drawable (g.map (EffectRow.bar 0))) ∧
    (¬ (plotEffects lower primary table).Returns → plotEffects lower primary table = .error .valueError) := by
  obtain ⟨g1, g2⟩ := effectGroups_eq lower primary table
  unfold plotEffects Spec.effectGroups
  simp only [List.forall_mem_cons, List.not_mem_nil, false_implies, implies_true, and_true]
  rw [g1, g2]
  by_cases hc : table.countP (fun r => decide (lower r.metric = lower primary)) = 1
  · have hr : raiseIf PyErr.valueError (table.countP (fun r => decide (lower r.metric = lower primary)) ≠ 1) = .ok () := by
      rw [raiseIf_ok]; simpa using hc
    rw [hr]
    simp only [hc, true_and]
    set names := (table.filter (fun r => !decide (lower r.metric = lower primary))).map (fun r => r.metric)
    have p2 := drawable_position (rows := table.filter (fun r => decide (lower r.metric ≠ lower primary) && r.significant))
      (fun r => categoryCode names r.metric)
    have p3 := drawable_position (rows := table.filter (fun r => decide (lower r.metric ≠ lower primary) && !r.significant))
      (fun r => categoryCode names r.metric)
    rcases errorBars_cases ((table.filter (fun r => decide (lower r.metric = lower primary))).map (EffectRow.bar 0)) with
      ⟨h1, A, e1, -⟩ | ⟨h1, e1⟩
    · rcases errorBars_cases ((table.filter (fun r => decide (lower r.metric ≠ lower primary) && r.significant)).map
        (fun r => r.bar (categoryCode names r.metric))) with ⟨h2, B, e2, -⟩ | ⟨h2, e2⟩
      · rcases errorBars_cases ((table.filter (fun r => decide (lower r.metric ≠ lower primary) && !r.significant)).map
          (fun r => r.bar (categoryCode names r.metric))) with ⟨h3, C, e3, -⟩ | ⟨h3, e3⟩
        · simp only [e1, e2, e3]
          exact ⟨⟨fun _ => ⟨h1, p2.mp h2, p3.mp h3⟩, fun _ => ⟨_, rfl⟩⟩, fun h => absurd ⟨_, rfl⟩ h⟩
        · simp only [e1, e2, e3]
          exact ⟨⟨fun ⟨_, h⟩ => (by cases h), fun h => absurd (p3.mpr h.2.2) h3⟩, fun _ => rfl⟩
      · simp only [e1, e2]
        exact ⟨⟨fun ⟨_, h⟩ => (by cases h), fun h => absurd (p2.mpr h.2.1) h2⟩, fun _ => rfl⟩
    · simp only [e1]
      exact ⟨⟨fun ⟨_, h⟩ => (by cases h), fun h => absurd h.1 h1⟩, fun _ => rfl⟩
  · have hr : raiseIf PyErr.valueError (table.countP (fun r => decide (lower r.metric = lower primary)) ≠ 1) = .error .valueError := by
      rw [raiseIf_err]; exact ⟨hc, rfl⟩
    rw [hr]
    exact ⟨⟨fun ⟨_, h⟩ => (by cases h), fun h => absurd h.1 hc⟩, fun _ => rfl⟩

/-- **C77 (part): finite bounds.**  A table with one row for the primary metric whose bounds are all finite and enclose the estimates is drawn. -/
theorem C77_finite_bounds_partial (lower : String → String) (primary : String) (table : List (EffectRow K))
    (h1 : table.countP (fun r => decide (lower r.metric = lower primary)) = 1)
    (hb : ∀ r ∈ table, ∃ l v u, r.lower = .fin l ∧ r.value = .fin v ∧ r.upper = .fin u ∧ l ≤ v ∧ v ≤ u) :
    (plotEffects lower primary table).Returns := by
  rw [(C77_drawn_iff_partial lower primary table).1]
  refine ⟨h1, fun g hg => ?_⟩
  have hsub : ∀ r ∈ g, r ∈ table := by
    intro r hr
    unfold Spec.effectGroups at hg
    simp only [List.mem_cons, List.not_mem_nil, or_false] at hg
    rcases hg with rfl | rfl | rfl <;> exact (List.mem_filter.mp hr).1
  rcases hg0 : g with _ | ⟨r0, g'⟩
  · left; rfl
  right
  rw [← hg0]
  have hr0 : r0 ∈ g := by simp [hg0]
  obtain ⟨l, v, u, e1, e2, e3, -⟩ := hb r0 (hsub r0 hr0)
  refine ⟨⟨_, List.mem_map.mpr ⟨r0, hr0, rfl⟩, l, e1⟩, ⟨_, List.mem_map.mpr ⟨r0, hr0, rfl⟩, u, e3⟩, ?_⟩
  rintro r hr x hx
  obtain ⟨q, hq, rfl⟩ := List.mem_map.mp hr
  obtain ⟨l, v, u, e1, e2, e3, h4, h5⟩ := hb q (hsub q hq)
  have hx : x = v := by
    have := drawnAt_iff.mp hx
    rw [this]
    show q.value.toOption.getD 0 = v
    rw [e2]; rfl
  subst hx
  refine ⟨fun l' hl' => ?_, fun u' hu' => ?_, fun hn => absurd e1 (hn l), fun hn => absurd e3 (hn u)⟩
  · have : q.lower = .fin l' := hl'
    rw [e1] at this; cases this; exact h4
  · have : q.upper = .fin u' := hu'
    rw [e3] at this; cases this; exact h5

/-- The bars of one group of results: each finite bound is the end of its bar, and each infinite bound an arrow as far as the most extreme finite
bound of the group. -/
structure Spec.BarsOf (rows : List (BarRow K)) (B : Bars K) : Prop where
  bars : List.Forall₂ (fun r b => b.position = r.position ∧ Spec.DrawnAt r.value b.centre ∧
    (∀ l, r.lower = .fin l → b.centre - b.left = l) ∧ ((∀ l, r.lower ≠ .fin l) → b.left = 0) ∧
    (∀ u, r.upper = .fin u → b.centre + b.right = u) ∧ ((∀ u, r.upper ≠ .fin u) → b.right = 0)) rows B.plain
  left : List.Forall₂ (fun r b => b.position = r.position ∧ Spec.DrawnAt r.value b.centre ∧ b.right = 0 ∧
    IsLeast {l | ∃ r' ∈ rows, r'.lower = .fin l} (b.centre - b.left)) (rows.filter (fun r => !r.lower.isFinite)) B.leftArrows
  right : List.Forall₂ (fun r b => b.position = r.position ∧ Spec.DrawnAt r.value b.centre ∧ b.left = 0 ∧
    IsGreatest {u | ∃ r' ∈ rows, r'.upper = .fin u} (b.centre + b.right)) (rows.filter (fun r => !r.upper.isFinite)) B.rightArrows

theorem barsOf {rows : List (BarRow K)} {B : Bars K} (h : errorBars rows = .ok B) : Spec.BarsOf rows B := by
  rcases errorBars_cases rows with ⟨-, B', hB', hall⟩ | ⟨-, he⟩
  · rw [h] at hB'
    cases hB'
    by_cases h0 : rows = []
    · subst h0
      unfold errorBars at h
      rw [if_pos rfl] at h
      cases h
      exact ⟨.nil, .nil, .nil⟩
    obtain ⟨least, greatest, l1, l2, u1, u2, e1, e2, e3⟩ := hall h0
    refine ⟨?_, ?_, ?_⟩
    · rw [e1, List.forall₂_map_right_iff, List.forall₂_same]
      intro r _
      refine ⟨rfl, drawnAt_iff.mpr rfl, fun l hl => ?_, fun hn => ?_, fun u hu => ?_, fun hn => ?_⟩
      · simp [hl, Fl.toOption]
      · cases hl : r.lower <;> simp [Fl.toOption]
        exact absurd hl (hn _)
      · simp [hu, Fl.toOption]
      · cases hl : r.upper <;> simp [Fl.toOption]
        exact absurd hl (hn _)
    · rw [e2, List.forall₂_map_right_iff, List.forall₂_same]
      intro r _
      refine ⟨rfl, drawnAt_iff.mpr rfl, rfl, ?_⟩
      simp only [sub_sub_cancel]
      exact ⟨l1, fun x ⟨r', hr', hx⟩ => l2 r' hr' x hx⟩
    · rw [e3, List.forall₂_map_right_iff, List.forall₂_same]
      intro r _
      refine ⟨rfl, drawnAt_iff.mpr rfl, rfl, ?_⟩
      simp only [add_sub_cancel]
      exact ⟨u1, fun x ⟨r', hr', hx⟩ => u2 r' hr' x hx⟩
  · rw [h] at he; cases he

/-- Secondary metrics are placed in alphabetical order, different metrics at different places. -/
theorem categoryCode_lt {names : List String} {a b : String} (ha : a ∈ names) (hab : a < b) : categoryCode names a < categoryCode names b := by
  unfold categoryCode
  have hsub : List.Sublist ((dropDup names).filter (fun n => decide (n < a))) ((dropDup names).filter (fun n => decide (n < b))) := by
    refine List.monotone_filter_right _ fun n h => ?_
    simp only [decide_eq_true_eq] at *
    exact String.lt_trans h hab
  refine lt_of_le_of_ne hsub.length_le fun h => ?_
  have := hsub.eq_of_length h
  have hm : a ∈ (dropDup names).filter (fun n => decide (n < b)) := List.mem_filter.mpr ⟨mem_dropDup.mpr ha, by simpa using hab⟩
  rw [← this] at hm
  simpa using (List.mem_filter.mp hm).2

/-- **C77 (part): what is drawn.**  If the plot is drawn, it shows the bars of the three groups (`Spec.BarsOf`), the primary metric alone with both
bounds finite, and the secondary metrics at places `place` in alphabetical order. -/
theorem C77_geometry_partial (lower : String → String) (primary : String) (table : List (EffectRow K)) (A B C : Bars K)
    (h : plotEffects lower primary table = .ok (A, B, C)) :
    ∃ place : String → ℕ, (∀ r ∈ table, ∀ r' ∈ table, lower r.metric ≠ lower primary → lower r'.metric ≠ lower primary →
        r.metric < r'.metric → place r.metric < place r'.metric) ∧
      List.Forall₂ Spec.BarsOf ((Spec.effectGroups lower primary table).map (fun g => g.map (fun r =>
        r.bar (if lower r.metric = lower primary then 0 else place r.metric)))) [A, B, C] ∧
      ∃ r ∈ table, lower r.metric = lower primary ∧ ∃ x l u, Spec.DrawnAt r.value x ∧ r.lower = .fin l ∧ r.upper = .fin u ∧ l ≤ x ∧ x ≤ u ∧
        A = ⟨[⟨0, x, x - l, u - x⟩], [], []⟩ := by
  obtain ⟨g1, g2⟩ := effectGroups_eq lower primary table
  unfold plotEffects at h
  simp only at h
  rw [g1, g2] at h
  obtain ⟨hc, h⟩ := raiseIf_bind_ok.mp h
  obtain ⟨A', e1, h⟩ := Py.bind_eq_ok.mp h
  obtain ⟨B', e2, h⟩ := Py.bind_eq_ok.mp h
  obtain ⟨C', e3, h⟩ := Py.bind_eq_ok.mp h
  cases h
  set names := (table.filter (fun r => !decide (lower r.metric = lower primary))).map (fun r => r.metric) with hnames
  refine ⟨categoryCode names, fun r hr r' _ hn _ hlt => ?_, ?_, ?_⟩
  · refine categoryCode_lt (List.mem_map.mpr ⟨r, List.mem_filter.mpr ⟨hr, by simpa using hn⟩, rfl⟩) hlt
  · unfold Spec.effectGroups
    simp only [List.map_cons, List.map_nil, List.forall₂_cons, List.Forall₂.nil, and_true]
    refine ⟨?_, ?_, ?_⟩
    · rw [List.map_congr_left (g := EffectRow.bar 0)]
      · exact barsOf e1
      · intro r hr; rw [if_pos (by simpa using (List.mem_filter.mp hr).2)]
    · rw [List.map_congr_left (g := fun r => r.bar (categoryCode names r.metric))]
      · exact barsOf e2
      · intro r hr
        have := (List.mem_filter.mp hr).2
        simp only [Bool.and_eq_true, decide_eq_true_eq] at this
        rw [if_neg this.1]
    · rw [List.map_congr_left (g := fun r => r.bar (categoryCode names r.metric))]
      · exact barsOf e3
      · intro r hr
        have := (List.mem_filter.mp hr).2
        simp only [Bool.and_eq_true, decide_eq_true_eq] at this
        rw [if_neg this.1]
  · simp only [not_not] at hc
    rw [List.countP_eq_length_filter, List.length_eq_one_iff] at hc
    obtain ⟨r, hr⟩ := hc
    rw [hr] at e1
    have hrm : r ∈ table.filter (fun r => decide (lower r.metric = lower primary)) := by rw [hr]; simp
    refine ⟨r, (List.mem_filter.mp hrm).1, by simpa using (List.mem_filter.mp hrm).2, ?_⟩
    have hd : Spec.Drawable [r.bar 0] := by
      rcases errorBars_cases [r.bar 0] with h | ⟨-, he⟩
      · exact h.1
      · have : errorBars [r.bar 0] = .ok A := e1
        rw [he] at this; cases this
    have hb := barsOf (show errorBars [r.bar 0] = .ok A from e1)
    rcases hd with hd | ⟨⟨_, h1, l, hl⟩, ⟨_, h2, u, hu⟩, h3⟩
    · simp at hd
    simp only [List.mem_singleton] at h1 h2
    subst h1 h2
    have hl : r.lower = .fin l := hl
    have hu : r.upper = .fin u := hu
    obtain ⟨a, b, -, -⟩ := h3 _ (by simp) (r.bar 0).centre (drawnAt_iff.mpr rfl)
    refine ⟨(r.bar 0).centre, l, u, drawnAt_iff (r := r.bar 0).mpr rfl, hl, hu, a l hl, b u hu, ?_⟩
    have hfl : List.filter (fun q : BarRow K => !q.lower.isFinite) [r.bar 0] = [] := by simp [EffectRow.bar, hl, Fl.isFinite]
    have hfu : List.filter (fun q : BarRow K => !q.upper.isFinite) [r.bar 0] = [] := by simp [EffectRow.bar, hu, Fl.isFinite]
    obtain ⟨b1, b2, b3⟩ := hb
    rw [hfl, List.forall₂_nil_left_iff] at b2
    rw [hfu, List.forall₂_nil_left_iff] at b3
    obtain ⟨plain, la, ra⟩ := A
    simp only at b1 b2 b3
    subst b2 b3
    rw [List.forall₂_cons_left_iff] at b1
    obtain ⟨bar, rest, hh, hrest, rfl⟩ := b1
    rw [List.forall₂_nil_left_iff] at hrest
    subst hrest
    obtain ⟨p, c, lft, rgt⟩ := bar
    obtain ⟨k1, k2, k3, -, k4, -⟩ := hh
    have k2 := drawnAt_iff.mp k2
    have k3 := k3 l hl
    have k4 := k4 u hu
    simp only at k1 k2 k3 k4
    have e4 : lft = (r.bar 0).centre - l := by rw [← k2]; linarith
    have e5 : rgt = u - (r.bar 0).centre := by rw [← k2]; linarith
    rw [k1, e4, e5, k2]
    rfl

/-- **C77: the code violates it.**  If a bound of the primary metric is infinite (or missing), the plot raises `ValueError`, whatever else is in
the table. -/
theorem C77_infinite_primary_bound_false (lower : String → String) (primary : String) (table : List (EffectRow K)) (r : EffectRow K)
    (hr : r ∈ table) (hp : lower r.metric = lower primary) (hb : (∀ l, r.lower ≠ .fin l) ∨ ∀ u, r.upper ≠ .fin u) :
    plotEffects lower primary table = .error .valueError := by
  refine (C77_drawn_iff_partial lower primary table).2 fun ⟨⟨A, B, C⟩, h⟩ => ?_
  have hc := ((C77_drawn_iff_partial lower primary table).1.mp ⟨_, h⟩).1
  obtain ⟨-, -, -, q, hq, hqp, x, l, u, -, hl, hu, -⟩ := C77_geometry_partial lower primary table A B C h
  have : q = r := by
    rw [List.countP_eq_length_filter, List.length_eq_one_iff] at hc
    obtain ⟨s, hs⟩ := hc
    have m1 : q ∈ [s] := hs ▸ List.mem_filter.mpr ⟨hq, by simpa using hqp⟩
    have m2 : r ∈ [s] := hs ▸ List.mem_filter.mpr ⟨hr, by simpa using hp⟩
    simp only [List.mem_singleton] at m1 m2
    rw [m1, m2]
  subst this
  rcases hb with hb | hb
  · exact hb l hl
  · exact hb u hu

/-- **C77: a reachable result that is not drawn.**  Some confidence interval computed by the analysis has an infinite upper bound, and a table with
this result for the primary metric raises `ValueError`. -/
theorem C77_reachable_result_false (D : TDist) (df : ℝ) (hdf : 0 < df) :
    (∃ alpha, 0 < alpha ∧ alpha < 1 ∧ ∃ l u : Fl ℝ,
      relativeCI D (.fin 10) (.fin 1) (.fin 1) (.fin 1) (.fin 0) (.fin df) "two-sided" alpha = .ok (l, u) ∧
      ∀ significant, plotEffects id "clicks" [⟨"clicks", .fin 9, l, u, significant⟩] = .error .valueError) ∧ ¬ C77_full ℝ := by
  obtain ⟨alpha, h0, h1, l, -, -, -, -, h, -⟩ := C33_false D df hdf
  have hall : ∀ significant, plotEffects id "clicks" [⟨"clicks", .fin 9, .fin l, .pinf, significant⟩] = .error .valueError := fun significant =>
    C77_infinite_primary_bound_false id "clicks" _ ⟨"clicks", .fin 9, .fin l, .pinf, significant⟩ (by simp) rfl (Or.inr fun u h => by cases h)
  refine ⟨⟨alpha, h0, h1, _, _, h, hall⟩, fun hf => ?_⟩
  obtain ⟨x, hx⟩ := hf id "clicks" [⟨"clicks", .fin 9, .fin l, .pinf, false⟩] rfl
  rw [hall] at hx
  cases hx

/-- The theorems are not vacuous: a table with an infinite bound among the secondary metrics that is drawn, and one that is not because no other
upper bound is as large as the estimate. -/
def effectTable (upper : Fl ℚ) : List (EffectRow ℚ) :=
  [⟨"clicks", .fin (1/10), .fin (-1/10), .fin (3/10), false⟩, ⟨"orders", .fin (2/10), .fin (-1), .pinf, false⟩,
   ⟨"impressions", .fin (1/10), .fin (1/20), upper, false⟩]

example : (plotEffects id "clicks" (effectTable (.fin (4/10)))).map (fun p => (p.1.plain, p.2.2.plain, p.2.2.leftArrows, p.2.2.rightArrows)) =
    .ok ([⟨0, 1/10, 2/10, 2/10⟩], [⟨1, 2/10, 12/10, 0⟩, ⟨0, 1/10, 1/20, 3/10⟩], [], [⟨1, 2/10, 0, 2/10⟩]) := by decide +kernel
example : (plotEffects id "clicks" (effectTable (.fin (15/100)))).map (fun p => p.1.plain) = .error .valueError := by decide +kernel
example : (effectTable (.fin (4/10))).countP (fun r => decide (id r.metric = id "clicks")) = 1 := by decide +kernel

end Feedx
