import Verif.Proofs.OtherDesigns
import Verif.Spec.OtherDesigns
import Verif.Props.RawEstimateExample

/-!
C141: the estimates of a design do not depend on which other designs are considered.
-/

set_option linter.unusedSectionVars false

namespace Feedx

/-- **C141.**  Open a session for the same raw data with two forms that prepare the history in the same way and have the same longest pretest, but may differ in all
other candidates.  The prepared data is the same.  A design that is in both sessions has the same id, the same settings, the same start weeks and the same estimates
in both, if it trims nothing before the experiment, or if the random order of equal values does not depend on the design's place in the list. -/
theorem C141_same_design_same_estimate (V : StudyEnv) (form form' : StudyForm) (hs : Spec.SamePreparation form form') (hp : Spec.SameLongestPretest form form')
    (raw data data' : Frame ℝ) (s s' : Study) (h : openStudy V form raw = .ok (data, s)) (h' : openStudy V form' raw = .ok (data', s')) :
    data' = data ∧ ∀ e ∈ s, ∀ e' ∈ s', e'.2.1.design = e.2.1.design →
      ((e.2.1.design.preTop.val = 0 ∧ e.2.1.design.preBottom.val = 0) ∨ ∀ i j, V.shuffle i = V.shuffle j) → e' = e := by
  obtain ⟨hd, -, designs, m, -, hm, he⟩ := openStudy_parts h
  obtain ⟨hd', -, designs', m', -, hm', he'⟩ := openStudy_parts h'
  rw [hs.item, hs.date, hs.primary, hs.column, hs.fraction, hs.skip, hd] at hd'
  obtain rfl := Except.ok.inj hd'
  obtain rfl := minStart_eq hp hm hm'
  exact ⟨rfl, fun e hel e' hel' hdes hz => same_entry he he' hel hel' hdes hz⟩

/-- **C141, fewer designs.**  If a session is opened for a form, then it is also opened for a form that asks for some of these designs, with the same longest pretest and
without trimming before the experiment.  Its ids are among the ids of the large session, and an analysis with the same id and the same design is the same. -/
theorem C141_fewer_designs (V : StudyEnv) (form form' : StudyForm) (hs : Spec.SamePreparation form form') (hp : Spec.SameLongestPretest form form')
    (hl : Spec.AsksForLess form form') (hz : ((∀ q ∈ form.preTops, q = 0) ∧ ∀ q ∈ form.preBottoms, q = 0))
    (raw data : Frame ℝ) (s' : Study) (h' : openStudy V form' raw = .ok (data, s')) :
    ∃ s, openStudy V form raw = .ok (data, s) ∧ ∀ e ∈ s, ∃ e' ∈ s', e'.1 = e.1 ∧ (e'.2.1.design = e.2.1.design → e' = e) := by
  obtain ⟨s, h, hids⟩ := openStudy_less hs hp hl hz h'
  refine ⟨s, h, fun e he => ?_⟩
  obtain ⟨e', he', hid⟩ := List.mem_map.mp (hids e he)
  refine ⟨e', he', hid, fun hd => (C141_same_design_same_estimate V form form' hs hp raw data data s s' h h').2 e he e' he' hd (.inl ?_)⟩
  obtain ⟨-, -, designs, hg, -, hall⟩ := opened_entry h
  obtain ⟨-, -, -, -, -, -, -, -, k1, k2, -⟩ := (C64_members V.R _ _ hg _).mp (hall e he).1
  obtain ⟨q1, m1, e1⟩ := List.mem_map.mp k1
  obtain ⟨q2, m2, e2⟩ := List.mem_map.mp k2
  rw [← e1, ← e2]
  exact ⟨hz.1 _ m1, hz.2 _ m2⟩

/-- **C141, the order of the candidates.**  If two forms have the same candidates, in any order and with any repetitions, trim nothing before the experiment, and one
session is opened, then so is the other; and unless two different designs have the same id, both sessions have the same analyses, in some order. -/
theorem C141_order_of_candidates (V : StudyEnv) (form form' : StudyForm) (hs : Spec.SamePreparation form form') (hl : Spec.AsksForLess form form')
    (hl' : Spec.AsksForLess form' form) (hz : ((∀ q ∈ form.preTops, q = 0) ∧ ∀ q ∈ form.preBottoms, q = 0))
    (raw data : Frame ℝ) (s' : Study) (h' : openStudy V form' raw = .ok (data, s')) :
    ∃ s, openStudy V form raw = .ok (data, s) ∧ ((∀ e ∈ s, ∀ e' ∈ s', e'.1 = e.1 → e'.2.1.design = e.2.1.design) → s.Perm s') := by
  have hp : Spec.SameLongestPretest form form' := ⟨fun p hp => ⟨p, hl.pretests hp, le_refl _⟩, fun p hp => ⟨p, hl'.pretests hp, le_refl _⟩⟩
  obtain ⟨s, h, hsub⟩ := C141_fewer_designs V form form' hs hp hl hz raw data s' h'
  refine ⟨s, h, fun hids => ?_⟩
  have hs' : Spec.SamePreparation form' form := ⟨hs.item.symm, hs.date.symm, hs.primary.symm, hs.column.symm, hs.fraction.symm, hs.skip.symm⟩
  obtain ⟨s2, h2, hsub'⟩ := C141_fewer_designs V form' form hs' ⟨hp.2, hp.1⟩ hl' ⟨fun q hq => hz.1 q (hl'.tops hq), fun q hq => hz.2 q (hl'.bottoms hq)⟩ raw data s h
  rw [h'] at h2
  obtain rfl : s' = s2 := congrArg Prod.snd (Except.ok.inj h2)
  refine (List.perm_ext_iff_of_nodup (opened_entry h).2.1.of_map (opened_entry h').2.1.of_map).mpr fun e => ⟨fun he => ?_, fun he => ?_⟩
  · obtain ⟨e', he', hid, k⟩ := hsub e he
    rw [← k (hids e he e' he' hid)]
    exact he'
  · obtain ⟨e', he', hid, k⟩ := hsub' e he
    rw [← k (hids e' he' e he hid.symm).symm]
    exact he'

/-- The form with one traditional design, with a number of washout weeks that is not used. -/
noncomputable def otherWashout : StudyForm := { oneForm false with washout := 7 }

/-- `C141_same_design_same_estimate` is not vacuous: the study of sixty items is opened with both forms, and the one analysis in both sessions has the same design. -/
example (V : StudyEnv) (hV : V.ext = studyExt) (ha : ArgsortOk V.argsort) : ∃ data s s', openStudy V (oneForm false) (studyRaw "profit") = .ok (data, s) ∧
    openStudy V otherWashout (studyRaw "profit") = .ok (data, s') ∧ s ≠ [] ∧ ∀ e ∈ s, e ∈ s' := by
  obtain ⟨data, s, h, hne, -, hall⟩ := oneForm_opened false V hV ha
  have hl : Spec.AsksForLess otherWashout (oneForm false) :=
    ⟨List.Subset.refl _, List.Subset.refl _, List.Subset.refl _, List.Subset.refl _, List.Subset.refl _, id, id, by simp [otherWashout, oneForm],
      by simp [otherWashout, oneForm]⟩
  have hl' : Spec.AsksForLess (oneForm false) otherWashout :=
    ⟨List.Subset.refl _, List.Subset.refl _, List.Subset.refl _, List.Subset.refl _, List.Subset.refl _, id, id, by simp [oneForm], by simp [oneForm]⟩
  have hs : Spec.SamePreparation otherWashout (oneForm false) := ⟨rfl, rfl, rfl, rfl, rfl, rfl⟩
  have hs' : Spec.SamePreparation (oneForm false) otherWashout := ⟨rfl, rfl, rfl, rfl, rfl, rfl⟩
  have hp : Spec.SameLongestPretest otherWashout (oneForm false) := ⟨fun p hp => ⟨p, hp, le_refl _⟩, fun p hp => ⟨p, hp, le_refl _⟩⟩
  have hp' : Spec.SameLongestPretest (oneForm false) otherWashout := ⟨fun p hp => ⟨p, hp, le_refl _⟩, fun p hp => ⟨p, hp, le_refl _⟩⟩
  have hz : (∀ q ∈ otherWashout.preTops, q = 0) ∧ ∀ q ∈ otherWashout.preBottoms, q = 0 := by simp [otherWashout, oneForm, studyForm]
  obtain ⟨s', h', -⟩ := C141_fewer_designs V otherWashout (oneForm false) hs hp hl hz _ _ _ h
  refine ⟨data, s, s', h, h', hne, fun e he => ?_⟩
  obtain ⟨s2, h2, hsub⟩ := C141_fewer_designs V (oneForm false) otherWashout hs' hp' hl' hz _ _ _ h'
  rw [h] at h2
  obtain rfl : s = s2 := congrArg Prod.snd (Except.ok.inj h2)
  obtain ⟨e', he', -, hsame⟩ := hsub e he
  obtain ⟨-, -, designs, hg, -, hd⟩ := opened_entry h
  obtain ⟨-, -, designs', hg', -, hd'⟩ := opened_entry h'
  have hone : ∀ form, (form = oneForm false ∨ form = otherWashout) → Spec.wanted (form.candidates data) =
      [Spec.designOf ((oneForm false).candidates data) 4 0 (.float 0) (.float 0) (.float 0) none] := by
    rintro form (rfl | rfl) <;>
      simp [Spec.wanted, Spec.wantedFor, Spec.designOf, StudyForm.candidates, StudyForm.metric, otherWashout, oneForm, studyForm, PyNum.val]
  obtain ⟨w1, w2⟩ := C64_exactly_the_wanted_designs V.R _ designs hg
  obtain ⟨w1', w2'⟩ := C64_exactly_the_wanted_designs V.R _ designs' hg'
  have p1 : e.2.1.design.toDesignParams ∈ designs.map Design.toDesignParams := List.mem_map.mpr ⟨_, (hd e he).1, rfl⟩
  have p2 : e'.2.1.design.toDesignParams ∈ designs'.map Design.toDesignParams := List.mem_map.mpr ⟨_, (hd' e' he').1, rfl⟩
  rw [w1, hone _ (.inl rfl), List.mem_singleton] at p1
  rw [w1', hone _ (.inr rfl), List.mem_singleton] at p2
  have q1 := (w2 _ (hd e he).1).1
  have q2 := (w2' _ (hd' e' he').1).1
  rw [p2, ← p1, q1] at q2
  rw [← hsame (Except.ok.inj q2).symm]
  exact he'

/-- `C141_fewer_designs` is not vacuous: the session with runtimes of two and four weeks, traditional and crossover designs, is opened, and so is the one with the
traditional design of four weeks only. -/
example (V : StudyEnv) (hV : V.ext = studyExt) (ha : ArgsortOk V.argsort) : ∃ data s s', openStudy V (studyForm "profit") (studyRaw "profit") = .ok (data, s') ∧
    openStudy V (oneForm false) (studyRaw "profit") = .ok (data, s) ∧ s ≠ [] ∧
    ∀ e ∈ s, ∃ e' ∈ s', e'.1 = e.1 ∧ (e'.2.1.design = e.2.1.design → e' = e) := by
  obtain ⟨data, hdata, hw, hn, designs, hd, hne, hpre⟩ := studyRaw_accepted V hV (name := "profit") (by decide)
  obtain ⟨s', h', -⟩ := C116_every_design_estimated_partial V ha (studyForm "profit") (studyRaw "profit") data hdata rfl
    (by rintro ⟨-, h⟩; revert h; decide) (by rw [hn]; norm_num) (fun _ => le_refl _) designs hd 0 4 hw
    (by simp [studyForm]) (by simp [studyForm]) (by simp [studyForm])
  obtain ⟨s, h, k⟩ := C141_fewer_designs V (oneForm false) (studyForm "profit") ⟨rfl, rfl, rfl, rfl, rfl, rfl⟩
    ⟨fun p hp => ⟨p, hp, le_refl _⟩, fun p hp => ⟨p, hp, le_refl _⟩⟩
    ⟨by simp [oneForm, studyForm], List.Subset.refl _, List.Subset.refl _, List.Subset.refl _, List.Subset.refl _, fun _ => rfl, fun _ => rfl,
      by simp [oneForm], by simp [oneForm]⟩ (by simp [oneForm, studyForm]) _ _ _ h'
  obtain ⟨data2, s2, h2, hne2, -⟩ := oneForm_opened false V hV ha
  rw [h] at h2
  obtain rfl : s = s2 := congrArg Prod.snd (Except.ok.inj h2)
  exact ⟨data, s, s', h', h, hne2, k⟩

/-- `C141_order_of_candidates` is not vacuous: the session is also opened with the runtimes the other way round and one of them twice. -/
example (V : StudyEnv) (hV : V.ext = studyExt) (ha : ArgsortOk V.argsort) : ∃ data s s', openStudy V (studyForm "profit") (studyRaw "profit") = .ok (data, s') ∧
    s' ≠ [] ∧ openStudy V { studyForm "profit" with runtimes := [4, 2, 4] } (studyRaw "profit") = .ok (data, s) ∧
    ((∀ e ∈ s, ∀ e' ∈ s', e'.1 = e.1 → e'.2.1.design = e.2.1.design) → s.Perm s') := by
  obtain ⟨data, hdata, hw, hn, designs, hd, hne, hpre⟩ := studyRaw_accepted V hV (name := "profit") (by decide)
  obtain ⟨s', h', -⟩ := C116_every_design_estimated_partial V ha (studyForm "profit") (studyRaw "profit") data hdata rfl
    (by rintro ⟨-, h⟩; revert h; decide) (by rw [hn]; norm_num) (fun _ => le_refl _) designs hd 0 4 hw
    (by simp [studyForm]) (by simp [studyForm]) (by simp [studyForm])
  have hs' : s' ≠ [] := by
    obtain ⟨-, -, designs', hd', hne', -⟩ := opened_entry h'
    rw [hd] at hd'
    cases hd'
    exact hne' hne
  obtain ⟨s, h, k⟩ := C141_order_of_candidates V { studyForm "profit" with runtimes := [4, 2, 4] } (studyForm "profit") ⟨rfl, rfl, rfl, rfl, rfl, rfl⟩
    ⟨by simp [studyForm], List.Subset.refl _, List.Subset.refl _, List.Subset.refl _, List.Subset.refl _, id, id, fun _ => rfl, by simp⟩
    ⟨by simp [studyForm], List.Subset.refl _, List.Subset.refl _, List.Subset.refl _, List.Subset.refl _, id, id, fun _ => rfl, by simp [studyForm]⟩
    (by simp [studyForm]) _ _ _ h'
  exact ⟨data, s, s', h', hs', h, k⟩

end Feedx
