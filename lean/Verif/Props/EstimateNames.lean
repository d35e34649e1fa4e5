import Verif.Proofs.EstimateNames
import Verif.Spec.EstimateNames
import Verif.Props.AnyNames
import Verif.Props.RawEstimateExample
import Verif.Props.DesignExportExample

/-!
C140: the estimates of designs that trim nothing, or only values of traditional designs without pretest after the experiment, do not depend on what the items are called, in whatever order the names are.
-/

set_option linter.unusedSectionVars false

namespace Feedx

theorem sameRows_renamed {K : Type} {ρ : String → String} {f f' : Frame K} (h : Spec.SameRows (namedFrame ρ f) f') : Spec.TableRenamed ρ f f' := by
  refine ⟨h.cols, (namedFrame ρ f).rows, h.rows.symm, ?_⟩
  show List.Forall₂ _ f.rows (f.rows.map _)
  rw [List.forall₂_map_right_iff, List.forall₂_same]
  exact fun r _ x _ => rfl

theorem sameStudy_renamed {ρ : String → String} {s s' : Study} (h : SameStudy (namedStudy ρ s) s') : Spec.SessionRenamed ρ s s' := by
  unfold SameStudy namedStudy at h
  rw [List.forall₂_map_left_iff] at h
  exact h.imp fun e e' k => ⟨k.1, k.2.1, sameRows_renamed k.2.2.data, k.2.2.mde, k.2.2.relativeMde, k.2.2.average, k.2.2.sd⟩

/-- **C140, the data.**  Give the items of the history any new names, different ones to different items.  If the history is not sampled, both histories are prepared
and accepted, or both are refused; and the prepared tables have the same rows except for the names, in some order. -/
theorem C140_prepared_data {K : Type} [Field K] [LinearOrder K] [IsStrictOrderedRing K] [FloorRing K] (ρ : String → String) (hρ : Function.Injective ρ)
    (R : Rounding K) (rng : Sampler (Cell K)) (E : Ext K) (D : DateSorter K) (raw raw' : Frame K) (itemCol dateCol primary primaryCol : String)
    (skip : List String) (h : Spec.RawNamed E itemCol ρ raw raw') :
    Spec.BothReturn (Spec.TableRenamed ρ) (prepareHistorical R rng E D raw itemCol dateCol primary primaryCol 1 skip)
      (prepareHistorical R rng E D raw' itemCol dateCol primary primaryCol 1 skip) :=
  (prepareHistorical_renamed hρ h).imp fun _ _ _ _ k => sameRows_renamed k

/-- **C140.**  Take two raw tables that are the same except that the items of the second one have other names, in whatever order these are.  If the history is not
sampled, nothing is trimmed before the experiment, and nothing is trimmed after it or all designs are traditional ones without pretest, the designer opens a session for both or for none of them; the prepared histories are the same except for the names and the order of the
rows; and the designs, their settings and all their estimates are the same, as is the table that is shown. -/
theorem C140_estimates (ρ : String → String) (hρ : Function.Injective ρ) (V : StudyEnv) (ha : ArgsortOk V.argsort) (form : StudyForm)
    (hform : Spec.OrderFreeForm form) {raw raw' : Frame ℝ} (hraw : Spec.RawNamed V.ext form.itemCol ρ raw raw') :
    Spec.BothReturn (fun (S S' : Frame ℝ × Study) => Spec.TableRenamed ρ S.1 S'.1 ∧ Spec.SessionRenamed ρ S.2 S'.2 ∧
        ∀ sorter text withValidation, showStudy V sorter text withValidation S'.2 = showStudy V sorter text withValidation S.2)
      (openStudy V form raw) (openStudy V form raw') :=
  (openStudy_renamed hρ V ha form hform.whole hform.top hform.bottom hform.post hraw).imp fun _ _ _ _ k =>
    ⟨sameRows_renamed k.1, sameStudy_renamed k.2, fun sorter text b => (showStudy_same k.2).trans (showStudy_named V sorter text b _)⟩

/-- C140 for a session that is opened. -/
theorem estimates_ok (ρ : String → String) (hρ : Function.Injective ρ) (V : StudyEnv) (ha : ArgsortOk V.argsort) (form : StudyForm)
    (hform : Spec.OrderFreeForm form) {raw raw' : Frame ℝ} (hraw : Spec.RawNamed V.ext form.itemCol ρ raw raw') {data : Frame ℝ} {s : Study}
    (h : openStudy V form raw = .ok (data, s)) : ∃ data' s', openStudy V form raw' = .ok (data', s') ∧ Spec.SessionRenamed ρ s s' := by
  have key := C140_estimates ρ hρ V ha form hform hraw
  rw [h] at key
  cases h' : openStudy V form raw' with
  | error e => rw [h'] at key; exact key.elim
  | ok S' =>
    rw [h'] at key
    exact ⟨S'.1, S'.2, rfl, key.2.1⟩

theorem Spec.SessionRenamed.effects {ρ : String → String} {s s' : Study} (h : Spec.SessionRenamed ρ s s') :
    s'.map (fun e => e.2.2.mde) = s.map (fun e => e.2.2.mde) := by
  unfold Spec.SessionRenamed at h
  induction h with
  | nil => rfl
  | cons e _ ih => rw [List.map_cons, List.map_cons, ih, e.2.2.2.1]

/-- `C140_estimates` is not vacuous: the study of sixty items over five weeks with one week of pretest is opened, and with the names of all items read backwards it is
opened too, with the same minimum detectable effects. -/
example (V : StudyEnv) (hV : V.ext = studyExt) (ha : ArgsortOk V.argsort) : Spec.OrderFreeForm oneWeekForm ∧ ∃ data s data' s',
    openStudy V oneWeekForm (studyRaw "profit") = .ok (data, s) ∧ s ≠ [] ∧
    openStudy V oneWeekForm (renamedRaw studyExt "id" backwards (studyRaw "profit")) = .ok (data', s') ∧
    s'.map (fun e => e.2.2.mde) = s.map (fun e => e.2.2.mde) ∧ ∀ e ∈ s, e.2.2.mde = some (.fin 0) := by
  have hform : Spec.OrderFreeForm oneWeekForm := ⟨rfl, by simp [oneWeekForm, oneForm, studyForm], by simp [oneWeekForm, oneForm, studyForm],
    .inl (by simp [oneWeekForm, oneForm, studyForm])⟩
  refine ⟨hform, ?_⟩
  obtain ⟨data, s, h, hne, hall⟩ := study_cuped_estimate V hV ha
  have k : Spec.RawNamed V.ext oneWeekForm.itemCol backwards (studyRaw "profit") (renamedRaw studyExt "id" backwards (studyRaw "profit")) := by
    rw [hV]
    exact renamedRaw_named _ _ _ _
  obtain ⟨data', s', h', hs⟩ := estimates_ok backwards backwards_injective V ha oneWeekForm hform k h
  exact ⟨data, s, data', s', h, hne, h', hs.effects, fun e he => (hall e he).2⟩

/-- Only one design: a regular one over two weeks without pretest, trimmed after the experiment. -/
noncomputable def trimmedAfterForm : StudyForm := { studyForm "profit" with runtimes := [2], postTrims := [1 / 20], crossoverAllowed := false }

/-- `C140_estimates` is not vacuous for designs with trimming after the experiment: with the names of all items read backwards, a session with such a design is opened
too, with the same minimum detectable effects. -/
example : Spec.OrderFreeForm trimmedAfterForm ∧ ∃ (V : StudyEnv) (data : Frame ℝ) (s : Study) (data' : Frame ℝ) (s' : Study), ArgsortOk V.argsort ∧
    openStudy V trimmedAfterForm (studyRaw "profit") = .ok (data, s) ∧ (∃ e ∈ s, e.2.1.design.postTrim.val = 1 / 20) ∧
    openStudy V trimmedAfterForm (renamedRaw studyExt "id" backwards (studyRaw "profit")) = .ok (data', s') ∧
    s'.map (fun e => e.2.2.mde) = s.map (fun e => e.2.2.mde) := by
  have hform : Spec.OrderFreeForm trimmedAfterForm := ⟨rfl, by simp [trimmedAfterForm, studyForm], by simp [trimmedAfterForm, studyForm],
    .inr ⟨rfl, by simp [trimmedAfterForm, studyForm]⟩⟩
  refine ⟨hform, ?_⟩
  obtain ⟨V, hV, ha, hR⟩ : ∃ V : StudyEnv, V.ext = studyExt ∧ ArgsortOk V.argsort ∧ V.R = Rounding.exact ℝ :=
    ⟨⟨Rounding.exact ℝ, takeSampler _, studyExt, stableSorter ℝ, stableArgsort, TDist.logistic, fun _ => [], fun _ => true,
      ⟨fun _ => .pinf, fun _ _ _ _ => .pinf, fun _ _ => .pinf⟩, fun _ _ => noShuffle⟩, rfl, stableArgsort_ok, rfl⟩
  obtain ⟨data, hdata, hw, hn, -⟩ := studyRaw_accepted V hV (name := "profit") (by decide)
  obtain ⟨designs, hd⟩ := (((C64_returns_iff V.R (trimmedAfterForm.candidates data) (by
      intro t ht b hb
      simp only [StudyForm.candidates, trimmedAfterForm, studyForm, List.map_cons, List.map_nil, List.mem_singleton] at ht hb
      subst ht; subst hb
      rw [hR]
      exact id)).1 1 rfl).1).mpr (by
    intro p hp
    simp only [Spec.wanted, Spec.wantedFor, StudyForm.candidates, trimmedAfterForm, studyForm, List.map_cons, List.map_nil, List.flatMap_cons, List.flatMap_nil,
      List.append_nil, List.mem_append, PyNum.val, hn, Spec.designOf] at hp
    norm_num at hp
    subst hp
    rw [hR]
    refine ⟨⟨by norm_num, by norm_num, by simp [PyNum.val], by simp [PyNum.val], by simp [PyNum.val], ?_,
      by simp only [PyNum.val]; norm_num, by simp only [PyNum.val]; norm_num, fun h => by cases h⟩, ?_⟩
    · simp only [PyNum.val, Rounding.exact, id]
      norm_num
    · simp only [Spec.itemsAfterPost, Spec.itemsAfterPre, PyNum.val, Rounding.exact, id]
      norm_num)
  obtain ⟨s, h, -⟩ := C116_every_design_estimated_partial V ha trimmedAfterForm (studyRaw "profit") data hdata rfl
    (by rintro ⟨-, h⟩; exact absurd (show "profit" = "time_period" from h) (by decide)) (by rw [hn]; norm_num) (fun h => by cases h) designs hd 0 4 hw
    (by simp [trimmedAfterForm]) (by simp [trimmedAfterForm, studyForm]) (by simp [trimmedAfterForm, studyForm])
  have hpost : ∃ e ∈ s, e.2.1.design.postTrim.val = 1 / 20 := by
    obtain ⟨-, -, designs', hd', hne', hall⟩ := opened_entry h
    rw [hd] at hd'
    obtain rfl := Except.ok.inj hd'
    obtain ⟨e, he⟩ := List.exists_mem_of_ne_nil _ (hne' (by
      rintro rfl
      have := (C64_exactly_the_wanted_designs V.R _ _ hd).1
      simp [Spec.wanted, Spec.wantedFor, StudyForm.candidates, trimmedAfterForm, studyForm, PyNum.val] at this))
    refine ⟨e, he, ?_⟩
    obtain ⟨-, -, -, -, -, -, -, -, -, -, k, -⟩ := (C64_members V.R _ designs hd _).mp (hall e he).1
    simp only [StudyForm.candidates, trimmedAfterForm, studyForm, List.map_cons, List.map_nil, List.mem_singleton] at k
    rw [k]
    rfl
  have k : Spec.RawNamed V.ext trimmedAfterForm.itemCol backwards (studyRaw "profit") (renamedRaw studyExt "id" backwards (studyRaw "profit")) := by
    rw [hV]
    exact renamedRaw_named _ _ _ _
  obtain ⟨data', s', h', hs⟩ := estimates_ok backwards backwards_injective V ha trimmedAfterForm hform k h
  exact ⟨V, data, s, data', s', ha, h, hpost, h', hs.effects⟩

end Feedx
