import Verif.Props.DesignStudy
import Verif.Props.Assign

/-!
Working with the designer's analyses: validating, showing and exporting them in any order (C117).
-/

set_option linter.unusedSectionVars false
set_option linter.unusedSimpArgs false

namespace Feedx

/-- The five robustness checks of a validation with the level 5% and the power 80%: no p-value is below 1/10000. -/
def Spec.PassesChecks (X : RobustnessTests) (mde : Fl ℝ) (aa ab : List TestResult) : Prop :=
  Spec.AtLeast (1 / 10000) (X.ks (aa.map TestResult.pValue)) ∧
  Spec.AtLeast (1 / 10000) (X.binom (ab.countP (fun r => Fl.lt r.pValue (.fin (1 / 20)))) ab.length (4 / 5) "less") ∧
  Spec.AtLeast (1 / 10000) (X.binom (aa.countP (fun r => Fl.lt r.pValue (.fin (1 / 20)))) aa.length (1 / 20) "greater") ∧
  Spec.AtLeast (1 / 10000) (X.t1 (aa.map TestResult.absoluteDifference) (.fin 0)) ∧
  Spec.AtLeast (1 / 10000) (X.t1 (ab.map TestResult.absoluteDifference) mde)

theorem Spec.Later.refl (e : List Char × (SimConfig × SimState)) : Spec.Later e e := ⟨rfl, rfl, rfl, rfl, rfl, rfl, fun h => h, fun _ _ h => h⟩

theorem Spec.Later.trans {a b c : List Char × (SimConfig × SimState)} (h : Spec.Later a b) (h' : Spec.Later b c) : Spec.Later a c where
  id := h'.id.trans h.id
  design := by rw [h'.design, h.design]
  mde := h'.mde.trans h.mde
  relativeMde := h'.relativeMde.trans h.relativeMde
  average := h'.average.trans h.average
  sd := h'.sd.trans h.sd
  validated := fun x => h'.validated (h.validated x)
  salt := fun s hs x => h'.salt s hs (h.salt s hs x)

/-- Replacing the value that is found. -/
theorem dictSet_related {α β : Type} [DecidableEq α] [BEq α] [LawfulBEq α] {P : α × β → α × β → Prop} (hrefl : ∀ e, P e e) {k : α} {v v' : β} {l : List (α × β)}
    (h : l.lookup k = some v) (hv : P (k, v) (k, v')) : List.Forall₂ P l (dictSet k v' l) := by
  induction l with
  | nil => cases h
  | cons q l ih =>
    obtain ⟨k0, v0⟩ := q
    unfold dictSet
    by_cases e : k = k0
    · subst e
      rw [List.lookup_cons, beq_self_eq_true] at h
      cases h
      rw [if_pos rfl]
      exact .cons hv (List.forall₂_same.mpr fun e _ => hrefl e)
    · rw [if_neg e]
      refine .cons (hrefl _) (ih ?_)
      rwa [List.lookup_cons, beq_eq_false_iff_ne.mpr e] at h

theorem get_ok {s : Study} {id : List Char} {a : SimConfig × SimState} (h : s.get id = .ok a) : s.lookup id = some a := by
  unfold Study.get at h
  split at h
  · cases h
  · rename_i e; cases h; exact e

theorem study_lookup_mem {β : Type} {l : List (List Char × β)} {k : List Char} {v : β} (h : l.lookup k = some v) : (k, v) ∈ l := by
  induction l with
  | nil => cases h
  | cons q l ih =>
    obtain ⟨k', v'⟩ := q
    rw [List.lookup_cons] at h
    by_cases e : k = k'
    · subst e
      rw [beq_self_eq_true] at h
      cases h
      simp
    · rw [beq_eq_false_iff_ne.mpr e] at h
      exact List.mem_cons_of_mem _ (ih h)

theorem study_mem_lookup {β : Type} {l : List (List Char × β)} (hnd : (l.map Prod.fst).Nodup) {e : List Char × β} (he : e ∈ l) :
    l.lookup e.1 = some e.2 := by
  induction l with
  | nil => cases he
  | cons q l ih =>
    obtain ⟨k', v'⟩ := q
    rw [List.map_cons, List.nodup_cons] at hnd
    rw [List.lookup_cons]
    rcases List.mem_cons.mp he with rfl | he
    · rw [beq_self_eq_true]
    · rw [beq_eq_false_iff_ne.mpr (fun hk : e.1 = k' => hnd.1 (by rw [← hk]; exact List.mem_map.mpr ⟨e, he, rfl⟩))]
      exact ih hnd.2 he

theorem forall₂_chain {α : Type} {P : α → α → Prop} (ht : ∀ a b c, P a b → P b c → P a c) {l m n : List α} (h : List.Forall₂ P l m)
    (h' : List.Forall₂ P m n) : List.Forall₂ P l n := by
  induction h generalizing n with
  | nil => exact h'
  | cons hx _ ih =>
    cases h' with
    | cons hy hys => exact .cons (ht _ _ _ hx hy) (ih hys)

/-- What one round of the validation does: nothing, or the analysis is replaced after calling `validate_design`. -/
theorem validateOne_cases (V : StudyEnv) (force : Bool) (draws : List SimDraw) (id : List Char) (s : Study) :
    (validateOne V force draws id s).2 = s ∨ ∃ a, s.lookup id = some a ∧ (force = true ∨ a.2.aa = none) ∧
      validateOne V force draws id s = ((validateSim V.R V.argsort V.tdist a.1 draws a.2).1,
        dictSet id (a.1, (validateSim V.R V.argsort V.tdist a.1 draws a.2).2) s) := by
  unfold validateOne
  rcases hg : s.get id with e | a
  · exact Or.inl rfl
  · rcases hr : falsePositiveRate a.1.design a.2 with e | rate
    · simp only [hr]; exact Or.inl trivial
    · simp only [hr]
      split
      · exact Or.inl rfl
      · rename_i hf
        refine Or.inr ⟨a, get_ok hg, ?_, rfl⟩
        rcases force with _ | _
        · right
          have hn : rate = none := by
            by_contra hc; exact hf ⟨rfl, hc⟩
          rcases haa : a.2.aa with _ | aa
          · rfl
          · unfold falsePositiveRate at hr
            rw [haa, hn] at hr
            obtain ⟨k, -, hr⟩ := Py.bind_eq_ok.mp hr
            cases hr
        · exact Or.inl rfl

/-- The relations that hold between an analysis and itself, and between an analysis before and after `validate_design`, hold after the validation cell. -/
theorem validateStudy_related (V : StudyEnv) (force : Bool) {P : List Char × (SimConfig × SimState) → List Char × (SimConfig × SimState) → Prop}
    (hrefl : ∀ e, P e e) (htrans : ∀ a b c, P a b → P b c → P a c) (targets : List (List Char × List SimDraw))
    (hstep : ∀ id a, ∀ t ∈ targets, t.1 = id → (force = true ∨ a.2.aa = none) →
      P (id, a) (id, (a.1, (validateSim V.R V.argsort V.tdist a.1 t.2 a.2).2))) (s : Study) :
    List.Forall₂ P s (validateStudy V force targets s).2 := by
  induction targets generalizing s with
  | nil => exact List.forall₂_same.mpr fun e _ => hrefl e
  | cons t rest ih =>
    obtain ⟨id, draws⟩ := t
    have h1 : List.Forall₂ P s (validateOne V force draws id s).2 := by
      rcases validateOne_cases V force draws id s with h | ⟨a, h1, h2, h3⟩
      · rw [h]; exact List.forall₂_same.mpr fun e _ => hrefl e
      · rw [h3]
        exact dictSet_related hrefl h1 (hstep id a (id, draws) (by simp) rfl h2)
    have ih := ih (fun id a t ht => hstep id a t (by simp [ht]))
    unfold validateStudy
    rcases hv : validateOne V force draws id s with ⟨e | u, s'⟩
    · rw [hv] at h1; exact h1
    · rw [hv] at h1
      exact (forall₂_chain htrans h1 (ih s'))

theorem later_validate (V : StudyEnv) (id : List Char) (a : SimConfig × SimState) (draws : List SimDraw) :
    Spec.Later (id, a) (id, (a.1, (validateSim V.R V.argsort V.tdist a.1 draws a.2).2)) := by
  rcases validate_cases (R := V.R) (argsort := V.argsort) (D := V.tdist) (c := a.1) draws a.2 with ⟨-, -, data, aa, ab, -, -, e⟩ | ⟨e', data, -, e⟩
  · rw [e]
    exact ⟨rfl, rfl, rfl, rfl, rfl, rfl, fun _ => by simp, fun _ _ h => h⟩
  · rw [e]
    exact ⟨rfl, rfl, rfl, rfl, rfl, rfl, fun h => h, fun _ _ h => h⟩

/-- What the export does: nothing, or the salt of the selected design is set. -/
theorem exportStudy_cases (V : StudyEnv) (binom : ℕ → ℕ → Py ℝ) (σ : Shuffle) (bytes : List ℕ) (data : Frame ℝ) (id : List Char) (fileName : String)
    (s : Study) :
    (∃ e, exportStudy V binom σ bytes data id fileName s = (.error e, s)) ∨
    ∃ a rate d res, s.lookup id = some a ∧ falsePositiveRate a.1.design a.2 = .ok (some rate) ∧ allChecksPass V.tests a.1 a.2 = .ok (some true) ∧
      performAssignment V.R σ V.ext binom bytes data a.1.design "item_id" (some "week_id") "treatment_assignment" = (d, res) ∧
      exportStudy V binom σ bytes data id fileName s = (do
        let items ← res
        raiseIf .valueError (".yaml".toList.isSuffixOf fileName.toList = false)
        return (items, d.asDict), dictSet id ({ a.1 with design := d }, a.2) s) := by
  unfold exportStudy
  rcases hg : s.get id with e | a
  · exact Or.inl ⟨e, rfl⟩
  · simp only
    split
    · rename_i e he
      exact Or.inl ⟨e, rfl⟩
    · rename_i he
      obtain ⟨rate, h1, he⟩ := Py.bind_eq_ok.mp he
      obtain ⟨h2, he⟩ := raiseIf_bind_ok.mp he
      obtain ⟨pass, h3, he⟩ := Py.bind_eq_ok.mp he
      have h4 := raiseIf_ok.mp he
      push Not at h4
      obtain ⟨x, rfl⟩ := Option.ne_none_iff_exists'.mp h2
      exact Or.inr ⟨a, x, _, _, get_ok hg, h1, by rw [h3, h4], rfl, rfl⟩

theorem later_cell (V : StudyEnv) (data : Frame ℝ) (s : Study) (cell : StudyCell) : List.Forall₂ Spec.Later s (runCell V data s cell) := by
  cases cell with
  | validate force targets =>
    exact validateStudy_related V force Spec.Later.refl (fun _ _ _ => Spec.Later.trans) targets (fun id a t _ _ _ => later_validate V id a t.2) s
  | assign binom σ bytes id fileName =>
    show List.Forall₂ Spec.Later s (exportStudy V binom σ bytes data id fileName s).2
    rcases exportStudy_cases V binom σ bytes data id fileName s with ⟨e, h⟩ | ⟨a, rate, d, res, h1, -, -, h4, h5⟩
    · rw [h]
      exact List.forall₂_same.mpr fun e _ => Spec.Later.refl e
    · rw [h5]
      refine dictSet_related Spec.Later.refl h1 ?_
      have hd : d = (performAssignment V.R σ V.ext binom bytes data a.1.design "item_id" (some "week_id") "treatment_assignment").1 := by rw [h4]
      rcases perform_design V.R σ V.ext binom bytes data a.1.design "item_id" (some "week_id") "treatment_assignment" with ⟨h6, -⟩ | ⟨coin, h6, h7⟩
      · rw [h6] at hd
        rw [hd]
        exact Spec.Later.refl _
      · rw [h7] at hd
        rw [hd]
        refine ⟨rfl, rfl, rfl, rfl, rfl, rfl, fun h => h, fun salt hs h => ?_⟩
        have := (chooseCoin_ok h6).2.1 (by rw [show a.1.design.salt = some salt from h]; exact hs)
        rw [show a.1.design.salt = some salt from h] at this
        show some coin.salt = some salt
        rw [this]
        rfl

/-- **C117.**  Whatever cells the user runs after the estimates, in any order and whether they raise or not: the analyses stay the same ones in the same
order, with the ids, designs (except the salt) and estimates they had; validated analyses stay validated; and a salt is never changed. -/
theorem C117_history (V : StudyEnv) (data : Frame ℝ) (s : Study) (cells : List StudyCell) :
    List.Forall₂ Spec.Later s (runCells V data s cells) := by
  induction cells generalizing s with
  | nil => exact List.forall₂_same.mpr fun e _ => Spec.Later.refl e
  | cons cell cells ih => exact forall₂_chain (P := Spec.Later) (fun _ _ _ => Spec.Later.trans) (later_cell V data s cell) (ih _)

/-- **C117.**  The validation cell without `force_revalidate` leaves every validated analysis as it is; with or without, it leaves every analysis that is not
in the list as it is, and never changes a design. -/
theorem C117_validated_kept (V : StudyEnv) (force : Bool) (targets : List (List Char × List SimDraw)) (s : Study) :
    List.Forall₂ (fun old new => new.1 = old.1 ∧ new.2.1 = old.2.1 ∧ (force = false → old.2.2.aa ≠ none → new = old) ∧
      (old.1 ∉ targets.map Prod.fst → new = old)) s (validateStudy V force targets s).2 := by
  refine validateStudy_related V force (P := fun old new => new.1 = old.1 ∧ new.2.1 = old.2.1 ∧ (force = false → old.2.2.aa ≠ none → new = old) ∧
      (old.1 ∉ targets.map Prod.fst → new = old)) (fun e => ⟨rfl, rfl, fun _ _ => rfl, fun _ => rfl⟩) ?_ targets ?_ s
  · rintro a b c ⟨h1, h2, h3, h4⟩ ⟨k1, k2, k3, k4⟩
    refine ⟨k1.trans h1, k2.trans h2, fun hf ha => ?_, fun ha => ?_⟩
    · have := h3 hf ha
      subst this
      exact k3 hf ha
    · have := h4 ha
      subst this
      exact k4 ha
  · rintro id a t ht rfl hf
    refine ⟨rfl, rfl, fun h1 h2 => ?_, fun h => absurd (List.mem_map.mpr ⟨t, ht, rfl⟩) h⟩
    rcases hf with hf | hf
    · rw [h1] at hf; cases hf
    · exact absurd hf h2

theorem forall₂_lookup {β : Type} {P : List Char × β → List Char × β → Prop} (hP : ∀ a b, P a b → b.1 = a.1) {l m : List (List Char × β)}
    (h : List.Forall₂ P l m) (k : List Char) :
    (l.lookup k = none ∧ m.lookup k = none) ∨ ∃ a b, l.lookup k = some a ∧ m.lookup k = some b ∧ P (k, a) (k, b) := by
  induction h with
  | nil => exact Or.inl ⟨rfl, rfl⟩
  | @cons a b l m hx _ ih =>
    obtain ⟨k1, v1⟩ := a
    obtain ⟨k2, v2⟩ := b
    have e : k2 = k1 := hP _ _ hx
    subst e
    rw [List.lookup_cons, List.lookup_cons]
    by_cases hk : k = k2
    · subst hk
      rw [beq_self_eq_true]
      exact Or.inr ⟨v1, v2, rfl, rfl, hx⟩
    · rw [beq_eq_false_iff_ne.mpr hk]
      exact ih

theorem validateOne_validates {V : StudyEnv} {force : Bool} {draws : List SimDraw} {id : List Char} {s s' : Study}
    (h : validateOne V force draws id s = (.ok (), s')) : ∃ a, s'.lookup id = some a ∧ a.2.aa ≠ none := by
  unfold validateOne at h
  rcases hg : s.get id with e | a
  · rw [hg] at h; cases h
  · rw [hg] at h
    simp only at h
    rcases hr : falsePositiveRate a.1.design a.2 with e | rate
    · rw [hr] at h; cases h
    · rw [hr] at h
      simp only at h
      split at h
      · rename_i hf
        cases h
        refine ⟨a, get_ok hg, fun hn => ?_⟩
        unfold falsePositiveRate at hr
        rw [hn] at hr
        cases hr
        exact hf.2 rfl
      · obtain ⟨h1, rfl⟩ := Prod.mk.inj h
        refine ⟨(a.1, (validateSim V.R V.argsort V.tdist a.1 draws a.2).2), ?_, ?_⟩
        · have := dictSet_lookup id (a.1, (validateSim V.R V.argsort V.tdist a.1 draws a.2).2) s id
          rw [if_pos rfl] at this
          convert this
        · rcases validate_cases (R := V.R) (argsort := V.argsort) (D := V.tdist) (c := a.1) draws a.2 with ⟨-, -, data, aa, ab, -, -, e⟩ | ⟨e', data, he, -⟩
          · rw [e]; simp
          · rw [h1] at he; cases he

/-- **C117.**  Once the validation cell ran without an error, every analysis in its list is validated. -/
theorem C117_all_validated (V : StudyEnv) (force : Bool) (targets : List (List Char × List SimDraw)) (s s' : Study)
    (h : validateStudy V force targets s = (.ok (), s')) : ∀ t ∈ targets, ∃ a, s'.lookup t.1 = some a ∧ a.2.aa ≠ none := by
  induction targets generalizing s with
  | nil => intro t ht; cases ht
  | cons t rest ih =>
    obtain ⟨id, draws⟩ := t
    unfold validateStudy at h
    rcases hv : validateOne V force draws id s with ⟨e | u, s1⟩
    · rw [hv] at h; cases h
    · rw [hv] at h
      simp only at h
      intro t ht
      rcases List.mem_cons.mp ht with rfl | ht
      · obtain ⟨a, ha, hn⟩ := validateOne_validates hv
        have hl := validateStudy_related V force Spec.Later.refl (fun _ _ _ => Spec.Later.trans) rest (fun id a t _ _ _ => later_validate V id a t.2) s1
        rw [h] at hl
        rcases forall₂_lookup (fun _ _ h => h.id) hl id with ⟨h1, -⟩ | ⟨a', b', h1, h2, h3⟩
        · rw [ha] at h1; cases h1
        · rw [ha] at h1
          cases h1
          exact ⟨b', h2, h3.validated hn⟩
      · exact ih s1 h t ht

/-- An analysis directly after the estimates. -/
theorem opened_entry {V : StudyEnv} {form : StudyForm} {raw data : Frame ℝ} {s : Study} (h : openStudy V form raw = .ok (data, s)) :
    prepareHistorical V.R V.rng V.ext V.sorter raw form.itemCol form.dateCol form.primary form.primaryCol form.fraction form.skip = .ok data ∧
    (s.map Prod.fst).Nodup ∧ ∃ designs, generateDesigns V.R (form.candidates data) = .ok designs ∧ (designs ≠ [] → s ≠ []) ∧
      ∀ e ∈ s, e.2.1.design ∈ designs ∧ designId V.R V.fr V.printable e.2.1.design = .ok e.1 ∧ e.2.1.threshold = 1 / 10000 ∧
        e.2.2.mde ≠ none ∧ e.2.2.relativeMde ≠ none ∧ e.2.2.aa = none ∧ e.2.2.ab = none := by
  unfold openStudy at h
  obtain ⟨data', hd, h⟩ := Py.bind_eq_ok.mp h
  obtain ⟨-, h⟩ := raiseIf_bind_ok.mp h
  obtain ⟨designs, hg, h⟩ := Py.bind_eq_ok.mp h
  obtain ⟨minStart, -, h⟩ := Py.bind_eq_ok.mp h
  obtain ⟨st, he, h⟩ := Py.bind_eq_ok.mp h
  cases h
  unfold estimateDesigns at he
  obtain ⟨l, hl, he⟩ := Py.bind_eq_ok.mp he
  cases he
  refine ⟨hd, by rw [dictOf_keys]; exact nodup_dropDup _, designs, hg, fun hne hs => ?_, fun e he => ?_⟩
  · obtain ⟨d, hd⟩ := List.exists_mem_of_ne_nil _ hne
    obtain ⟨i, hi, rfl⟩ := List.mem_iff_getElem.mp hd
    obtain ⟨b, hb, -⟩ := mapM_image hl (a := (designs[i], i)) (by rw [List.mem_zipIdx_iff_getElem?]; simp [hi])
    have : b.1 ∈ (dictOf l).map Prod.fst := by
      rw [dictOf_keys, mem_dropDup]; exact List.mem_map.mpr ⟨b, hb, rfl⟩
    rw [hs] at this
    cases this
  · obtain ⟨p, hp, hpe⟩ := mapM_mem hl (dictOf_mem he)
    obtain ⟨a, ha, hpe⟩ := Py.bind_eq_ok.mp hpe
    obtain ⟨id, hid, hpe⟩ := Py.bind_eq_ok.mp hpe
    cases hpe
    unfold analyseDesign at ha
    obtain ⟨a0, hs0, ha⟩ := Py.bind_eq_ok.mp ha
    obtain ⟨u, hu, ha⟩ := Py.bind_eq_ok.mp ha
    cases ha
    have hdes : a0.1.design = p.1 ∧ a0.1.threshold = 1 / 10000 := by
      unfold mkSimulation at hs0
      obtain ⟨-, hs0⟩ := raiseIf_bind_ok.mp hs0
      obtain ⟨-, hs0⟩ := raiseIf_bind_ok.mp hs0
      split at hs0
      · cases hs0
      · cases hs0; exact ⟨rfl, rfl⟩
    obtain ⟨-, -, -, -, -, n1, n2⟩ := new_object (c := a0.1) (s := a0.2) hs0
    refine ⟨by rw [hdes.1]; exact List.fst_mem_of_mem_zipIdx hp, hid, hdes.2, ?_⟩
    rcases estimate_cases (R := V.R) (argsort := V.argsort) (D := V.tdist) (c := a0.1) (V.shuffle p.2) a0.2 with ⟨-, data, m1, m2, a, sd, e⟩ | ⟨e', data, h, -⟩
    · rw [e]
      exact ⟨by simp, by simp, n1, n2⟩
    · rw [hu] at h; cases h

/-- Relations that hold between an analysis and itself, before and after `validate_design`, and before and after a salt is set, hold after any cells. -/
theorem cells_related (V : StudyEnv) (data : Frame ℝ) {P : List Char × (SimConfig × SimState) → List Char × (SimConfig × SimState) → Prop}
    (hrefl : ∀ e, P e e) (htrans : ∀ a b c, P a b → P b c → P a c) (cells : List StudyCell)
    (hstep : ∀ id a draws, (∃ force targets, StudyCell.validate force targets ∈ cells ∧ ∃ t ∈ targets, t.2 = draws) →
      P (id, a) (id, (a.1, (validateSim V.R V.argsort V.tdist a.1 draws a.2).2)))
    (hsalt : ∀ id (a : SimConfig × SimState) d, P (id, a) (id, ({ a.1 with design := d }, a.2))) (s : Study) :
    List.Forall₂ P s (runCells V data s cells) := by
  induction cells generalizing s with
  | nil => exact List.forall₂_same.mpr fun e _ => hrefl e
  | cons cell cells ih =>
    refine forall₂_chain htrans (m := runCell V data s cell) ?_
      (ih (fun id a draws ⟨force, targets, h, t, ht, e⟩ => hstep id a draws ⟨force, targets, by simp [h], t, ht, e⟩) _)
    cases cell with
    | validate force targets =>
      exact validateStudy_related V force hrefl htrans targets (fun id a t ht _ _ => hstep id a t.2 ⟨force, targets, by simp, t, ht, rfl⟩) s
    | assign binom σ bytes id fileName =>
      show List.Forall₂ P s (exportStudy V binom σ bytes data id fileName s).2
      rcases exportStudy_cases V binom σ bytes data id fileName s with ⟨e, h⟩ | ⟨a, rate, d, res, h1, -, -, h4, h5⟩
      · rw [h]
        exact List.forall₂_same.mpr fun e _ => hrefl e
      · rw [h5]
        exact dictSet_related hrefl h1 (hsalt id a d)

/-- Both results of the simulations or none. -/
def simsPaired (s : SimState) : Prop := (s.aa = none ∧ s.ab = none) ∨ ∃ aa ab, s.aa = some aa ∧ s.ab = some ab ∧ aa.length = ab.length

/-- An analysis after any cells. -/
theorem reached_entry {V : StudyEnv} {form : StudyForm} {raw data : Frame ℝ} {s : Study} (h : openStudy V form raw = .ok (data, s))
    (cells : List StudyCell) {e : List Char × (SimConfig × SimState)} (he : e ∈ runCells V data s cells) :
    ∃ e0 ∈ s, Spec.Later e0 e ∧ simsPaired e.2.2 ∧
      ((∀ force targets, StudyCell.validate force targets ∈ cells → ∀ t ∈ targets, t.2 ≠ []) → ∀ aa, e.2.2.aa = some aa → aa ≠ []) := by
  obtain ⟨-, -, designs, -, -, hs⟩ := opened_entry h
  have h1 := C117_history V data s cells
  have h2 := cells_related V data (P := fun a b => simsPaired a.2.2 → simsPaired b.2.2) (fun _ h => h) (fun _ _ _ h h' x => h' (h x)) cells
    (fun id a draws _ hp => by
      rcases validate_cases (R := V.R) (argsort := V.argsort) (D := V.tdist) (c := a.1) draws a.2 with ⟨-, -, data, aa, ab, l1, l2, e⟩ | ⟨e', data, -, e⟩
      · show simsPaired (validateSim V.R V.argsort V.tdist a.1 draws a.2).2
        rw [e]
        exact Or.inr ⟨aa, ab, rfl, rfl, l1.trans l2.symm⟩
      · show simsPaired (validateSim V.R V.argsort V.tdist a.1 draws a.2).2
        rw [e]
        exact hp) (fun _ _ _ h => h) s
  have h3 : (∀ force targets, StudyCell.validate force targets ∈ cells → ∀ t ∈ targets, t.2 ≠ []) →
      List.Forall₂ (fun a b : List Char × (SimConfig × SimState) => (∀ aa, a.2.2.aa = some aa → aa ≠ []) → ∀ aa, b.2.2.aa = some aa → aa ≠ [])
        s (runCells V data s cells) := fun hne =>
    cells_related V data (P := fun a b : List Char × (SimConfig × SimState) => (∀ aa, a.2.2.aa = some aa → aa ≠ []) → ∀ aa, b.2.2.aa = some aa → aa ≠ [])
      (fun _ h => h) (fun _ _ _ h h' x => h' (h x)) cells
      (fun id a draws hd hp => by
        obtain ⟨force, targets, hc, t, ht, rfl⟩ := hd
        have hne := hne force targets hc t ht
        show ∀ aa, (validateSim V.R V.argsort V.tdist a.1 t.2 a.2).2.aa = some aa → aa ≠ []
        rcases validate_cases (R := V.R) (argsort := V.argsort) (D := V.tdist) (c := a.1) t.2 a.2 with ⟨-, -, data, aa, ab, l1, l2, e⟩ | ⟨e', data, -, e⟩
        · rw [e]
          intro aa' he hn
          cases he
          rw [hn] at l1
          exact hne (List.length_eq_zero_iff.mp l1.symm)
        · rw [e]
          exact hp) (fun _ _ _ h => h) s
  obtain ⟨e0, he0, k1, k2, k3⟩ : ∃ e0 ∈ s, Spec.Later e0 e ∧ (simsPaired e0.2.2 → simsPaired e.2.2) ∧
      ((∀ force targets, StudyCell.validate force targets ∈ cells → ∀ t ∈ targets, t.2 ≠ []) →
        (∀ aa, e0.2.2.aa = some aa → aa ≠ []) → ∀ aa, e.2.2.aa = some aa → aa ≠ []) := by
    obtain ⟨i, hi, rfl⟩ := List.mem_iff_getElem.mp he
    have hl := h1.length_eq
    refine ⟨s[i], List.getElem_mem _, h1.get (by omega) hi, h2.get (by omega) hi, fun hne => (h3 hne).get (by omega) hi⟩
  obtain ⟨-, -, -, -, -, n1, n2⟩ := hs e0 he0
  exact ⟨e0, he0, k1, k2 (Or.inl ⟨n1, n2⟩), fun hne => k3 hne (fun aa h => by rw [n1] at h; cases h)⟩

/-- **C117.**  What is exported, after any cells.  The selected analysis has been validated, and all five robustness checks pass; the file loads back
(whatever the order of its entries) as the design of that analysis with a salt, has its id, and is what the analysis now has; the table has the
different items, each with the coinflip of that salt: those of the data or, if the design trims them, what is left of the items of the last pretest
weeks after cutting the highest and lowest totals. -/
theorem C117_export (V : StudyEnv) (form : StudyForm) (raw data : Frame ℝ) (s : Study) (h : openStudy V form raw = .ok (data, s))
    (cells : List StudyCell) (binom : ℕ → ℕ → Py ℝ) (σ : Shuffle) (bytes : List ℕ) (id : List Char) (fileName : String)
    (items : Frame ℝ) (file : Dict (YVal ℝ)) (s' : Study)
    (hsize : data.rows.length ≤ 2 ^ 51)
    (he : exportStudy V binom σ bytes data id fileName (runCells V data s cells) = (.ok (items, file), s')) :
    ∃ e ∈ runCells V data s cells, e.1 = id ∧
      (∃ mde aa ab, e.2.2.mde = some mde ∧ e.2.2.aa = some aa ∧ e.2.2.ab = some ab ∧ aa ≠ [] ∧ Spec.PassesChecks V.tests mde aa ab) ∧
      ".yaml".toList.isSuffixOf fileName.toList = true ∧
      ∃ salt, salt ≠ "" ∧ s'.lookup id = some ({ e.2.1 with design := { e.2.1.design with salt := some salt } }, e.2.2) ∧
        (∀ dflt05 dflt08 m, m.Perm file → loadFromDict V.R dflt05 dflt08 m = .ok { e.2.1.design with salt := some salt }) ∧
        designId V.R V.fr V.printable { e.2.1.design with salt := some salt } = .ok id ∧
        items.cols = ["item_id", "treatment_assignment"] ∧ (items.col "item_id").Nodup ∧
        (∀ r ∈ items.rows, r "treatment_assignment" = .int ((Coinflip.mk salt).flip (V.ext.toStr (r "item_id")))) ∧
        (e.2.1.design.preTop.val ≤ 0 ∧ e.2.1.design.preBottom.val ≤ 0 → ∀ i, i ∈ items.col "item_id" ↔ i ∈ data.col "item_id") ∧
        (0 < e.2.1.design.preTop.val ∨ 0 < e.2.1.design.preBottom.val → ∃ all : List (Cell ℝ), all.Nodup ∧
          (∀ i, i ∈ all ↔ i ≠ .null ∧ ∃ r ∈ data.rows, r "item_id" = i ∧ Spec.InLastWeeks data "week_id" e.2.1.design.pretest r) ∧
          Spec.CutsExtremesOrMissing (Spec.lastWeeksTotal data "week_id" e.2.1.design.pretest "item_id" e.2.1.design.primaryMetric)
            ⌊V.R.rnd (e.2.1.design.preTop.val * all.length)⌋ ⌊V.R.rnd (e.2.1.design.preBottom.val * all.length)⌋ all (items.col "item_id")) := by
  rcases exportStudy_cases V binom σ bytes data id fileName (runCells V data s cells) with ⟨e, hx⟩ | ⟨a, rate, d, res, h1, h2, h3, h4, h5⟩
  · rw [hx] at he; cases he
  rw [h5] at he
  obtain ⟨he1, rfl⟩ := Prod.mk.inj he
  clear he
  rename' he1 => he
  obtain ⟨items', hres, he⟩ := Py.bind_eq_ok.mp he
  obtain ⟨hy, he⟩ := raiseIf_bind_ok.mp he
  cases he
  rw [hres] at h4
  have hmem : (id, a) ∈ runCells V data s cells := study_lookup_mem h1
  obtain ⟨e0, he0, hlat, hpair, -⟩ := reached_entry h cells hmem
  obtain ⟨-, -, designs, hg, -, hs⟩ := opened_entry h
  obtain ⟨hd, hid, hth, hm, -⟩ := hs e0 he0
  obtain ⟨hmk, -, -, hal, hpw, -⟩ := (C64_members V.R _ designs hg e0.2.1.design).mp hd
  obtain ⟨salt, hsalt, hd'⟩ := C58_salt_set V.R σ V.ext binom bytes data items a.1.design d "item_id" (some "week_id") "treatment_assignment" h4
  have hda : a.1.design = { e0.2.1.design with salt := a.1.design.salt } := by
    have := hlat.design
    exact congrArg SimConfig.design this
  have hdd : ({ a.1.design with salt := some salt } : Design ℝ) = { e0.2.1.design with salt := some salt } := by rw [hda]
  refine ⟨(id, a), hmem, rfl, ?_, by simpa using hy, salt, hsalt, ?_, ?_, ?_, ?_⟩
  · obtain ⟨m, hm⟩ := Option.ne_none_iff_exists'.mp hm
    have hm' : a.2.mde = some m := hlat.mde.trans hm
    rcases hpair with ⟨n1, -⟩ | ⟨aa, ab, ha1, ha2, hl⟩
    · unfold falsePositiveRate at h2
      rw [show a.2.aa = none from n1] at h2
      cases h2
    · have hne : aa ≠ [] := by
        rintro rfl
        unfold falsePositiveRate at h2
        rw [show a.2.aa = some [] from ha1] at h2
        simp [significant, resultColumn, raiseIf, bind, Except.bind] at h2
      have hne' : ab ≠ [] := by
        rintro rfl
        exact hne (List.length_eq_zero_iff.mp hl)
      obtain ⟨b, hb, hiff⟩ := C73_true_iff_five_checks (c := a.1) V.tests a.2 aa ab m ha1 ha2 hm' hne hne'
      rw [h3] at hb
      cases hb
      have halpha : a.1.design.alpha.val = 1 / 20 := by rw [hda]; show e0.2.1.design.alpha.val = _; rw [hal]; rfl
      have hpower : a.1.design.power.val = 4 / 5 := by rw [hda]; show e0.2.1.design.power.val = _; rw [hpw]; rfl
      have hthr : a.1.threshold = 1 / 10000 := by
        rw [congrArg SimConfig.threshold hlat.design]; exact hth
      have := hiff.mp rfl
      rw [halpha, hpower, hthr] at this
      exact ⟨m, aa, ab, hm', ha1, ha2, hne, this⟩
  · have := dictSet_lookup id (({ a.1 with design := d } : SimConfig), a.2) (runCells V data s cells) id
    rw [if_pos rfl, hd'] at this
    rw [hd']
    convert this
  · intro dflt05 dflt08 m hp
    rw [hd', hdd] at hp
    show loadFromDict V.R dflt05 dflt08 m = .ok { a.1.design with salt := some salt }
    rw [hdd]
    exact C03_yaml_round_trip V.R _ _ hmk (some salt) dflt05 dflt08 m hp
  · show designId V.R V.fr V.printable { a.1.design with salt := some salt } = .ok id
    rw [hdd, (C05_design_id_ignores_salt V.R V.fr V.printable _ _ hmk (some salt) e0.2.1.design.salt).1]
    rw [show id = e0.1 from hlat.id]
    exact hid
  · obtain ⟨⟨salt', hs1, -, hflip⟩, hcols, hnd, hall, htrim⟩ := C57_each_eligible_item_once V.R σ V.ext binom bytes data items a.1.design d "item_id"
      (some "week_id") "treatment_assignment" hsize h4
    rw [hd'] at hs1
    cases hs1
    refine ⟨hcols, hnd, hflip, hall, fun ht => ?_⟩
    obtain ⟨w, hw, all, h6, h7, h8⟩ := htrim ht
    cases hw
    exact ⟨all, h6, h7, h8⟩

/-- **C117.**  Exporting a design again, after any other cells and with whatever random values, gives the same file, and every item that is in both tables
has the same group in them. -/
theorem C117_same_export (V : StudyEnv) (data : Frame ℝ) (s : Study) (binom : ℕ → ℕ → Py ℝ) (σ : Shuffle) (bytes : List ℕ) (id : List Char)
    (fileName : String) (items : Frame ℝ) (file : Dict (YVal ℝ)) (s1 : Study)
    (h1 : exportStudy V binom σ bytes data id fileName s = (.ok (items, file), s1)) (cells : List StudyCell)
    (binom' : ℕ → ℕ → Py ℝ) (σ' : Shuffle) (bytes' : List ℕ) (fileName' : String) (items' : Frame ℝ) (file' : Dict (YVal ℝ)) (s2 : Study)
    (h2 : exportStudy V binom' σ' bytes' data id fileName' (runCells V data s1 cells) = (.ok (items', file'), s2)) :
    file' = file ∧ ∀ r ∈ items.rows, ∀ r' ∈ items'.rows, r "item_id" = r' "item_id" → r "treatment_assignment" = r' "treatment_assignment" := by
  rcases exportStudy_cases V binom σ bytes data id fileName s with ⟨e, hx⟩ | ⟨a, rate, d, res, -, -, -, h4, h5⟩
  · rw [hx] at h1; cases h1
  rcases exportStudy_cases V binom' σ' bytes' data id fileName' (runCells V data s1 cells) with ⟨e, hx⟩ | ⟨a', rate', d', res', h6, -, -, h7, h8⟩
  · rw [hx] at h2; cases h2
  rw [h5] at h1
  rw [h8] at h2
  obtain ⟨k1, rfl⟩ := Prod.mk.inj h1
  obtain ⟨k2, -⟩ := Prod.mk.inj h2
  obtain ⟨_, hres, k1⟩ := Py.bind_eq_ok.mp k1
  obtain ⟨-, k1⟩ := raiseIf_bind_ok.mp k1
  cases k1
  obtain ⟨_, hres', k2⟩ := Py.bind_eq_ok.mp k2
  obtain ⟨-, k2⟩ := raiseIf_bind_ok.mp k2
  cases k2
  rw [hres] at h4
  rw [hres'] at h7
  obtain ⟨-, -, hne, coin, its, hc, hd, -, rfl⟩ := performAssignment_ok h4
  obtain ⟨-, -, -, coin', its', hc', hd', -, rfl⟩ := performAssignment_ok h7
  have hl : (dictSet id (({ a.1 with design := d } : SimConfig), a.2) s).lookup id = some (({ a.1 with design := d } : SimConfig), a.2) := by
    have := dictSet_lookup id (({ a.1 with design := d } : SimConfig), a.2) s id
    rw [if_pos rfl] at this
    convert this
  have hsalt := (chooseCoin_ok hc).1
  rcases forall₂_lookup (fun _ _ h => h.id) (C117_history V data (dictSet id (({ a.1 with design := d } : SimConfig), a.2) s) cells) id with
    ⟨n, -⟩ | ⟨b, b', m1, m2, m3⟩
  · rw [hl] at n; cases n
  · rw [hl] at m1
    cases m1
    rw [h6] at m2
    cases m2
    have hs' : a'.1.design.salt = some coin.salt := m3.salt coin.salt hsalt (by rw [hd])
    have hcs : coin'.salt = coin.salt := by
      have := (chooseCoin_ok hc').2.1 (by rw [hs']; exact hsalt)
      rw [this, hs']
      rfl
    have hcc : coin' = coin := by
      cases coin; cases coin'; exact congrArg _ hcs
    have hdd : d' = d := by
      have hx : a'.1.design = { d with salt := a'.1.design.salt } := congrArg SimConfig.design m3.design
      rw [hd', hx, hd, hcs]
    refine ⟨by rw [hdd], fun r hr r' hr' e => ?_⟩
    rw [(assignedFrame_cols V.ext coin hne its).2 r hr, (assignedFrame_cols V.ext coin' hne its').2 r' hr', hcc, e]

/-- **C117.**  After any cells (with at least one simulation in every validation), the table without the validation is displayed if there is a design at
all, and the one with the validation exactly if one of the designs is validated; with no design both raise `KeyError`. -/
theorem C117_shown (V : StudyEnv) (form : StudyForm) (raw data : Frame ℝ) (s : Study) (h : openStudy V form raw = .ok (data, s))
    (cells : List StudyCell) (hdraws : ∀ force targets, StudyCell.validate force targets ∈ cells → ∀ t ∈ targets, t.2 ≠ [])
    (S : SummarySorter) (text : SVal ℝ → String) :
    (s ≠ [] → (showStudy V S text false (runCells V data s cells)).Returns ∧
      ((showStudy V S text true (runCells V data s cells)).Returns ↔ ∃ e ∈ runCells V data s cells, e.2.2.aa ≠ none)) ∧
    (s = [] → ∀ withValidation, showStudy V S text withValidation (runCells V data s cells) = .error .keyError) := by
  obtain ⟨-, hnd, designs, hg, -, hs⟩ := opened_entry h
  have hhist := C117_history V data s cells
  obtain ⟨t, ht⟩ : ∃ t, t = runCells V data s cells := ⟨_, rfl⟩
  have hreach : ∀ e ∈ t, _ := fun e he => reached_entry h cells (by rw [← ht]; exact he)
  rw [← ht] at hhist ⊢
  have hids : ∀ e ∈ t, designId V.R V.fr V.printable e.2.1.design = .ok e.1 ∧ e.2.2.relativeMde ≠ none ∧
      (summaryDict V.R V.fr V.printable V.tests e.2.1 e.2.2).Returns := by
    intro e he
    obtain ⟨e0, he0, hlat, hpair, hne⟩ := hreach e he
    obtain ⟨hd, hid, -, hm, hr, -⟩ := hs e0 he0
    obtain ⟨hmk, -⟩ := (C64_members V.R _ designs hg e0.2.1.design).mp hd
    have hde : e.2.1.design = { e0.2.1.design with salt := e.2.1.design.salt } := congrArg SimConfig.design hlat.design
    have hid' : designId V.R V.fr V.printable e.2.1.design = .ok e.1 := by
      rw [hde, (C05_design_id_ignores_salt V.R V.fr V.printable _ _ hmk e.2.1.design.salt e0.2.1.design.salt).1, hlat.id]
      exact hid
    refine ⟨hid', by rw [hlat.relativeMde]; exact hr, ?_⟩
    obtain ⟨m, hm⟩ := Option.ne_none_iff_exists'.mp hm
    rcases hpair with ⟨n1, -⟩ | ⟨aa, ab, ha1, ha2, hl⟩
    · exact ⟨_, summary_unvalidated hid' n1⟩
    · have hne1 := hne hdraws aa ha1
      have hne2 : ab ≠ [] := by
        rintro rfl
        exact hne1 (List.length_eq_zero_iff.mp hl)
      obtain ⟨b, hb, -⟩ := C73_true_iff_five_checks (c := e.2.1) V.tests e.2.2 aa ab m ha1 ha2 (hlat.mde.trans hm) hne1 hne2
      exact ⟨_, summary_validated hid' ha1 ha2 (hlat.mde.trans hm) hne1 hne2 hb⟩
  have hkeys : t.map Prod.fst = s.map Prod.fst := by
    clear * - hhist
    induction hhist with
    | nil => rfl
    | cons hx _ ih => rw [List.map_cons, List.map_cons, ih, hx.id]
  have hnodup : ((t.map Prod.snd).map (fun a => designId V.R V.fr V.printable a.1.design)).Nodup := by
    rw [List.map_map]
    have : t.map ((fun a : SimConfig × SimState => designId V.R V.fr V.printable a.1.design) ∘ Prod.snd) =
        (t.map Prod.fst).map (fun i => (.ok i : Py (List Char))) := by
      rw [List.map_map]
      exact List.map_congr_left fun e he => (hids e he).1
    rw [this, hkeys]
    exact hnd.map (fun a b h => Except.ok.inj h)
  refine ⟨fun hne => ?_, fun hn w => ?_⟩
  · have hne' : t ≠ [] := by
      intro hn
      rw [hn] at hkeys
      exact hne (List.map_eq_nil_iff.mp hkeys.symm)
    obtain ⟨tab, htab⟩ := (C93_returns (R := V.R) (fr := V.fr) (printable := V.printable) (X := V.tests) S (t.map Prod.snd)
      "relative_minimum_detectable_effect").1.mpr ⟨by simpa using hne', fun a ha => by
        obtain ⟨e, he, rfl⟩ := List.mem_map.mp ha
        exact (hids e he).2.2, Or.inr (by decide)⟩
    have hshow : ∀ w, showStudy V S text w t = formatSummary V.R text tab w := by
      intro w
      unfold showStudy
      rw [htab]
      rfl
    obtain ⟨e, he⟩ := List.exists_mem_of_ne_nil _ hne'
    have hrel : ∃ a ∈ t.map Prod.snd, a.2.relativeMde ≠ none := ⟨e.2, List.mem_map.mpr ⟨e, he, rfl⟩, (hids e he).2.1⟩
    refine ⟨?_, ?_⟩
    · rw [hshow]
      exact (C94_analyses_partial S _ _ tab htab V.R text false).1.mpr ⟨hnodup, hrel, by simp⟩
    · rw [hshow, (C94_analyses_partial S _ _ tab htab V.R text true).1]
      constructor
      · rintro ⟨-, -, hv⟩
        obtain ⟨a, ha, hx⟩ := hv rfl
        obtain ⟨e, he, rfl⟩ := List.mem_map.mp ha
        exact ⟨e, he, hx⟩
      · rintro ⟨e, he, hx⟩
        exact ⟨hnodup, hrel, fun _ => ⟨e.2, List.mem_map.mpr ⟨e, he, rfl⟩, hx⟩⟩
  · have hn' : t = [] := by
      rw [hn] at hkeys
      exact List.map_eq_nil_iff.mp hkeys
    unfold showStudy
    rw [hn', List.map_nil, (C93_returns (R := V.R) (fr := V.fr) (printable := V.printable) (X := V.tests) S []
      "relative_minimum_detectable_effect").2.1 rfl]
    rfl

end Feedx
