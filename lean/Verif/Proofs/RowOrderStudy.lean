import Verif.Proofs.RowOrderSim

/-!
Reordering the rows of the historical data does not change what the designer notebook shows.
-/

set_option linter.unusedSectionVars false

namespace Feedx

/-- The same analyses under the same ids, up to the order of the rows of their data. -/
def SameStudy : Study → Study → Prop :=
  List.Forall₂ (fun p p' => p'.1 = p.1 ∧ p'.2.1 = p.2.1 ∧ SameState p.2.2 p'.2.2)

theorem SameStudy.dictSet {s s' : Study} (h : SameStudy s s') (id : List Char) {a a' : SimConfig × SimState} (h1 : a'.1 = a.1) (h2 : SameState a.2 a'.2) :
    SameStudy (dictSet id a s) (dictSet id a' s') := by
  unfold SameStudy at *
  induction h with
  | nil => exact .cons ⟨rfl, h1, h2⟩ .nil
  | @cons p p' l l' hp hl ih =>
    unfold Feedx.dictSet
    rw [hp.1]
    split
    · exact .cons ⟨rfl, h1, h2⟩ hl
    · exact .cons ⟨rfl, hp.2⟩ ih

theorem SameStudy.get {s s' : Study} (h : SameStudy s s') (id : List Char) :
    RelPy (fun a a' => a'.1 = a.1 ∧ SameState a.2 a'.2) (s.get id) (s'.get id) := by
  unfold Study.get
  unfold SameStudy at h
  induction h with
  | nil => exact rfl
  | @cons p p' l l' hp hl ih =>
    obtain ⟨k, v⟩ := p
    obtain ⟨k', v'⟩ := p'
    obtain ⟨h1, h2⟩ := hp
    simp only at h1 h2
    subst h1
    rw [List.lookup_cons, List.lookup_cons]
    by_cases hk : id = k'
    · subst hk
      simpa [RelPy] using h2
    · simp only [beq_eq_false_iff_ne.mpr hk]
      exact ih

theorem mapM_rel {α β γ : Type} {P : β → γ → Prop} {f : α → Py β} {g : α → Py γ} (l : List α) (h : ∀ a ∈ l, RelPy P (f a) (g a)) :
    RelPy (List.Forall₂ P) (l.mapM f) (l.mapM g) := by
  induction l with
  | nil => exact List.Forall₂.nil
  | cons a l ih =>
    rw [List.mapM_cons, List.mapM_cons]
    refine RelPy.bind (h a List.mem_cons_self) fun b c hbc => ?_
    refine RelPy.bind (ih fun x hx => h x (List.mem_cons_of_mem _ hx)) fun m m' hm => ?_
    exact List.Forall₂.cons hbc hm

theorem dictOf_same {l l' : List (List Char × (SimConfig × SimState))}
    (h : List.Forall₂ (fun p p' => p'.1 = p.1 ∧ p'.2.1 = p.2.1 ∧ SameState p.2.2 p'.2.2) l l') : SameStudy (dictOf l) (dictOf l') := by
  unfold dictOf
  have key : ∀ (acc acc' : Study), SameStudy acc acc' → SameStudy (l.foldl (fun acc p => dictSet p.1 p.2 acc) acc) (l'.foldl (fun acc p => dictSet p.1 p.2 acc) acc') := by
    induction h with
    | nil => exact fun _ _ h => h
    | @cons p p' l l' hp hl ih =>
      intro acc acc' hacc
      refine ih _ _ ?_
      simp only [hp.1]
      exact hacc.dictSet _ hp.2.1 hp.2.2
  exact key [] [] .nil

theorem analyseDesign_same {V : StudyEnv} {f f' : Frame ℝ} (hs : Spec.SameRows f f') (minStart : ℤ) (σ : ℤ → Shuffle) (d : Design ℝ) :
    RelPy (fun a a' => a'.1 = a.1 ∧ SameState a.2 a'.2) (analyseDesign V f minStart σ d) (analyseDesign V f' minStart σ d) := by
  unfold analyseDesign
  refine RelPy.bind (mkSimulation_same hs d _ _ _ _ _ _) ?_
  rintro ⟨c, s⟩ ⟨c', s'⟩ ⟨h1, h2⟩
  simp only at h1 h2
  subst h1
  have h := estimateMde_same (R := V.R) (argsort := V.argsort) (D := V.tdist) (σ := σ) (c := c') h2
  refine RelPy.bind (P := fun a b => b = a) (RelPy.of_eq h.1) ?_
  rintro u _ rfl
  exact ⟨rfl, h.2⟩

theorem estimateDesigns_same {V : StudyEnv} {f f' : Frame ℝ} (hs : Spec.SameRows f f') (minStart : ℤ) (designs : List (Design ℝ)) :
    RelPy SameStudy (estimateDesigns V f minStart designs) (estimateDesigns V f' minStart designs) := by
  unfold estimateDesigns
  refine RelPy.bind (mapM_rel _ fun p _ => ?_) fun l l' hl => dictOf_same hl
  refine RelPy.bind (analyseDesign_same hs _ _ _) ?_
  rintro ⟨c, s⟩ ⟨c', s'⟩ ⟨h1, h2⟩
  simp only at h1 h2
  subst h1
  refine RelPy.bind (P := fun a b => b = a) (RelPy.of_eq rfl) ?_
  rintro id _ rfl
  exact ⟨rfl, rfl, h2⟩

theorem summaryDict_same {R : Rounding ℝ} {fr : ℝ → List Char} {printable : Char → Bool} {X : RobustnessTests} {c : SimConfig} {s s' : SimState}
    (h : SameState s s') : summaryDict R fr printable X c s' = summaryDict R fr printable X c s := by
  obtain ⟨data', mde', rel', av', sd', aa', ab'⟩ := s'
  obtain ⟨data, mde, rel, av, sd, aa, ab⟩ := s
  obtain ⟨-, h1, h2, h3, h4, h5, h6⟩ := h
  simp only at h1 h2 h3 h4 h5 h6
  subst h1 h2 h3 h4 h5 h6
  rfl

theorem allChecksPass_same {X : RobustnessTests} {c : SimConfig} {s s' : SimState} (h : SameState s s') : allChecksPass X c s' = allChecksPass X c s := by
  obtain ⟨data', mde', rel', av', sd', aa', ab'⟩ := s'
  obtain ⟨data, mde, rel, av, sd, aa, ab⟩ := s
  obtain ⟨-, h1, h2, h3, h4, h5, h6⟩ := h
  simp only at h1 h2 h3 h4 h5 h6
  subst h1 h2 h3 h4 h5 h6
  rfl

theorem falsePositiveRate_same {d : Design ℝ} {s s' : SimState} (h : SameState s s') : falsePositiveRate d s' = falsePositiveRate d s := by
  unfold falsePositiveRate
  rw [h.aa]

theorem showStudy_same {V : StudyEnv} {S : SummarySorter} {text : SVal ℝ → String} {b : Bool} {s s' : Study} (h : SameStudy s s') :
    showStudy V S text b s' = showStudy V S text b s := by
  have hm : (s'.map Prod.snd).mapM (fun a => summaryDict V.R V.fr V.printable V.tests a.1 a.2) =
      (s.map Prod.snd).mapM (fun a => summaryDict V.R V.fr V.printable V.tests a.1 a.2) := by
    unfold SameStudy at h
    induction h with
    | nil => rfl
    | @cons p p' l l' hp hl ih =>
      rw [List.map_cons, List.map_cons, List.mapM_cons, List.mapM_cons, ih, hp.2.1, summaryDict_same hp.2.2]
  unfold showStudy makeSummary
  rw [hm]

theorem validateOne_same {V : StudyEnv} {force : Bool} {draws : List SimDraw} {id : List Char} {s s' : Study} (h : SameStudy s s') :
    (validateOne V force draws id s').1 = (validateOne V force draws id s).1 ∧
      SameStudy (validateOne V force draws id s).2 (validateOne V force draws id s').2 := by
  have hg := h.get id
  unfold validateOne
  cases e : s.get id with
  | error x =>
    cases e' : s'.get id with
    | error x' => rw [e, e'] at hg; exact ⟨by rw [show x' = x from hg], h⟩
    | ok a' => rw [e, e'] at hg; exact hg.elim
  | ok a =>
    cases e' : s'.get id with
    | error x' => rw [e, e'] at hg; exact hg.elim
    | ok a' =>
      rw [e, e'] at hg
      obtain ⟨h1, h2⟩ := hg
      simp only [h1, falsePositiveRate_same h2]
      cases falsePositiveRate a.1.design a.2 with
      | error x => exact ⟨rfl, h⟩
      | ok rate =>
        simp only
        have hv := validateSim_same (R := V.R) (argsort := V.argsort) (D := V.tdist) (c := a.1) draws h2
        split
        · exact ⟨rfl, h⟩
        · exact ⟨hv.1, h.dictSet id (by rfl) hv.2⟩

theorem validateStudy_same {V : StudyEnv} {force : Bool} (targets : List (List Char × List SimDraw)) {s s' : Study} (h : SameStudy s s') :
    (validateStudy V force targets s').1 = (validateStudy V force targets s).1 ∧
      SameStudy (validateStudy V force targets s).2 (validateStudy V force targets s').2 := by
  induction targets generalizing s s' with
  | nil => exact ⟨rfl, h⟩
  | cons t rest ih =>
    obtain ⟨id, draws⟩ := t
    have h1 := validateOne_same (V := V) (force := force) (draws := draws) (id := id) h
    unfold validateStudy
    generalize validateOne V force draws id s = x at h1 ⊢
    generalize validateOne V force draws id s' = x' at h1 ⊢
    obtain ⟨a, g⟩ := x
    obtain ⟨a', g'⟩ := x'
    obtain ⟨rfl, h2⟩ := h1
    simp only at h2
    cases a' with
    | error e => exact ⟨rfl, h2⟩
    | ok u => exact ih h2

theorem eligibleItems_sameRows {K : Type} [Field K] [LinearOrder K] [FloorRing K] {R : Rounding K} {σ : Shuffle} {f f' : Frame K} (hs : Spec.SameRows f f')
    (d : Design K) (itemCol : String) (weekCol : Option String) :
    RelPy (fun l l' => l'.Perm l) (eligibleItems R σ f d itemCol weekCol) (eligibleItems R σ f' d itemCol weekCol) := by
  unfold eligibleItems
  split
  · have ht : pretestTotals f' d itemCol (weekCol.getD "") = pretestTotals f d itemCol (weekCol.getD "") := by
      have hr : (pretestRows f' (weekCol.getD "") d.pretest).Perm (pretestRows f (weekCol.getD "") d.pretest) := by
        unfold pretestRows
        have hi : (ints (f'.col (weekCol.getD ""))).Perm (ints (f.col (weekCol.getD ""))) := (hs.col _).filterMap _
        rw [intMax?_perm hi]
        cases (ints (f.col (weekCol.getD ""))).max? with
        | none => exact List.Perm.refl _
        | some w => exact hs.rows.filter _
      have hw : weekRow (pretestRows f' (weekCol.getD "") d.pretest) [itemCol] = weekRow (pretestRows f (weekCol.getD "") d.pretest) [itemCol] :=
        by
          funext k c
          unfold weekRow
          rw [sumCell_perm (groupRows_perm hr _ _)]
      unfold pretestTotals
      simp only [(hs.col _).all_eq, hs.cols, hs.rows.any_eq, groupKeys_perm hr, hw]
    rw [ht]
    cases h : (do
      let totals ← pretestTotals f d itemCol (weekCol.getD "")
      let trimmed ← trimOutliers R σ totals d.primaryMetric d.preTop.val d.preBottom.val
      return trimmed.col itemCol : Py (List (Cell K))) with
    | error e => exact rfl
    | ok l => exact List.Perm.refl _
  · exact dropDup_perm (hs.col _)

theorem performAssignment_sameRows {K : Type} [Field K] [LinearOrder K] [FloorRing K] {R : Rounding K} {σ : Shuffle} {E : Ext K}
    {binom : ℕ → ℕ → Py K} {bytes : List ℕ} {f f' : Frame K} (hs : Spec.SameRows f f') (d : Design K) (itemCol : String) (weekCol : Option String)
    (treatCol : String) :
    (performAssignment R σ E binom bytes f' d itemCol weekCol treatCol).1 = (performAssignment R σ E binom bytes f d itemCol weekCol treatCol).1 ∧
    RelPy Spec.SameRows (performAssignment R σ E binom bytes f d itemCol weekCol treatCol).2
      (performAssignment R σ E binom bytes f' d itemCol weekCol treatCol).2 := by
  unfold performAssignment
  rw [hs.cols]
  split_ifs
  · exact ⟨rfl, rfl⟩
  · exact ⟨rfl, rfl⟩
  · exact ⟨rfl, rfl⟩
  · cases chooseCoin d bytes with
    | error e => exact ⟨rfl, rfl⟩
    | ok coin =>
      refine ⟨rfl, RelPy.bind (eligibleItems_sameRows hs d itemCol weekCol) fun l l' hl => ?_⟩
      have ha : Spec.SameRows (assignedFrame E coin itemCol treatCol l) (assignedFrame E coin itemCol treatCol l') := ⟨rfl, hl.map _⟩
      refine RelPy.bind (P := fun a b => b = a) (RelPy.of_eq ?_) ?_
      · rw [checkRatio_sameRows ha]
      · rintro u _ rfl
        exact ha

theorem exportStudy_same {V : StudyEnv} {binom : ℕ → ℕ → Py ℝ} {σ : Shuffle} {bytes : List ℕ} {data data' : Frame ℝ} (hs : Spec.SameRows data data')
    {id : List Char} {fileName : String} {s s' : Study} (h : SameStudy s s') :
    RelPy (fun a a' => Spec.SameRows a.1 a'.1 ∧ a'.2 = a.2) (exportStudy V binom σ bytes data id fileName s).1
        (exportStudy V binom σ bytes data' id fileName s').1 ∧
      SameStudy (exportStudy V binom σ bytes data id fileName s).2 (exportStudy V binom σ bytes data' id fileName s').2 := by
  have hg := h.get id
  unfold exportStudy
  cases e : s.get id with
  | error x =>
    cases e' : s'.get id with
    | error x' => rw [e, e'] at hg; exact ⟨hg, h⟩
    | ok a' => rw [e, e'] at hg; exact hg.elim
  | ok a =>
    cases e' : s'.get id with
    | error x' => rw [e, e'] at hg; exact hg.elim
    | ok a' =>
      rw [e, e'] at hg
      obtain ⟨h1, h2⟩ := hg
      simp only [h1, falsePositiveRate_same h2, allChecksPass_same h2]
      cases (falsePositiveRate a.1.design a.2 >>= fun rate => raiseIf .valueError (rate = none) >>= fun _ =>
          allChecksPass V.tests a.1 a.2 >>= fun pass => raiseIf .valueError (pass ≠ some true)) with
      | error x => exact ⟨rfl, h⟩
      | ok u =>
        have hp := performAssignment_sameRows (R := V.R) (σ := σ) (E := V.ext) (binom := binom) (bytes := bytes) hs a.1.design "item_id"
          (some "week_id") "treatment_assignment"
        simp only [hp.1]
        refine ⟨RelPy.bind hp.2 fun t t' ht => RelPy.raiseIf Iff.rfl ⟨ht, rfl⟩, h.dictSet id (by rfl) h2⟩

theorem runCells_same {V : StudyEnv} {data data' : Frame ℝ} (hs : Spec.SameRows data data') (cells : List StudyCell) {s s' : Study} (h : SameStudy s s') :
    SameStudy (runCells V data s cells) (runCells V data' s' cells) := by
  unfold runCells
  induction cells generalizing s s' with
  | nil => exact h
  | cons c l ih =>
    refine ih ?_
    cases c with
    | validate force targets => exact (validateStudy_same targets h).2
    | assign binom σ bytes id fileName => exact (exportStudy_same hs h).2

theorem intMin?_perm {l l' : List ℤ} (hp : l'.Perm l) : l'.min? = l.min? := by
  cases h1 : l.min? with
  | none =>
    rw [List.min?_eq_none_iff] at h1
    rw [h1] at hp
    rw [hp.eq_nil]
    rfl
  | some m =>
    rw [List.min?_eq_some_iff] at h1 ⊢
    exact ⟨hp.mem_iff.mpr h1.1, fun b hb => h1.2 b (hp.mem_iff.mp hb)⟩

theorem minStartWeek_perm (runtimes pretests : List ℤ) {l l' : List ℤ} (h : l'.Perm l) :
    minStartWeek runtimes pretests l' = minStartWeek runtimes pretests l := by
  have h1 : pyMin l' = pyMin l := by unfold pyMin; rw [intMin?_perm h]
  have h2 : pyMax l' = pyMax l := by unfold pyMax; rw [intMax?_perm h]
  unfold minStartWeek
  rw [h1, h2]

end Feedx
