import Verif.Proofs.EstimateNames
import Verif.Spec.OtherDesigns

/-!
Proofs for C141.
-/

set_option linter.unusedSectionVars false

namespace Feedx

theorem trimHistorical_shuffle (R : Rounding ℝ) (σ σ' : Shuffle) {c : SimConfig} (h1 : c.design.preTop.val = 0) (h2 : c.design.preBottom.val = 0) (w : Wide ℝ) :
    trimHistorical R σ' c none w = trimHistorical R σ c none w := by
  unfold trimHistorical
  simp only [h1, h2, trimWide_nothing]

theorem historicalTable_shuffle (R : Rounding ℝ) (σ σ' : Shuffle) {c : SimConfig} (h1 : c.design.preTop.val = 0) (h2 : c.design.preBottom.val = 0) (start : ℤ)
    (data : Frame ℝ) : historicalTable R σ' c none start data = historicalTable R σ c none start data := by
  unfold historicalTable
  simp only [trimHistorical_shuffle R σ σ' h1 h2]

theorem statsOfWeeks_shuffle (R : Rounding ℝ) (argsort : List ℝ → List ℕ) (σ σ' : ℤ → Shuffle) {c : SimConfig} (h1 : c.design.preTop.val = 0)
    (h2 : c.design.preBottom.val = 0) (starts : List ℤ) (data : Frame ℝ) :
    statsOfWeeks R argsort σ' c starts data = statsOfWeeks R argsort σ c starts data := by
  induction starts generalizing data with
  | nil => rfl
  | cons start rest ih =>
    unfold statsOfWeeks
    rw [historicalTable_shuffle R (σ start) (σ' start) h1 h2]
    simp only [ih]

theorem estimateMde_shuffle (R : Rounding ℝ) (argsort : List ℝ → List ℕ) (D : TDist) (σ σ' : ℤ → Shuffle) {c : SimConfig} (h1 : c.design.preTop.val = 0)
    (h2 : c.design.preBottom.val = 0) (s : SimState) : estimateMde R argsort D σ' c s = estimateMde R argsort D σ c s := by
  unfold estimateMde
  rw [statsOfWeeks_shuffle R argsort σ σ' h1 h2]

/-- The random tie-breaking does not matter for a design without trimming before the experiment. -/
theorem analyseDesign_shuffle (V : StudyEnv) (data : Frame ℝ) (minStart : ℤ) (σ σ' : ℤ → Shuffle) {d : Design ℝ} (h1 : d.preTop.val = 0)
    (h2 : d.preBottom.val = 0) : analyseDesign V data minStart σ' d = analyseDesign V data minStart σ d := by
  unfold analyseDesign
  cases e : mkSimulation d data "item_id" "week_id" "time_period" "treatment" minStart (1 / 10000) with
  | error x => simp only [bind, Except.bind]
  | ok a =>
    have k := estimateMde_shuffle V.R V.argsort V.tdist σ σ' (c := a.1) (by rw [mkSimulation_design e]; exact h1) (by rw [mkSimulation_design e]; exact h2) a.2
    simp only [bind, Except.bind, k]

/-- What an entry of a new session comes from. -/
theorem estimated_entry {V : StudyEnv} {data : Frame ℝ} {minStart : ℤ} {designs : List (Design ℝ)} {s : Study}
    (h : estimateDesigns V data minStart designs = .ok s) {e : List Char × (SimConfig × SimState)} (he : e ∈ s) :
    ∃ i, analyseDesign V data minStart (V.shuffle i) e.2.1.design = .ok e.2 ∧ designId V.R V.fr V.printable e.2.1.design = .ok e.1 := by
  unfold estimateDesigns at h
  obtain ⟨l, hl, h⟩ := Py.bind_eq_ok.mp h
  cases h
  obtain ⟨p, hp, hpe⟩ := mapM_mem hl (dictOf_mem he)
  obtain ⟨a, ha, hpe⟩ := Py.bind_eq_ok.mp hpe
  obtain ⟨id, hid, hpe⟩ := Py.bind_eq_ok.mp hpe
  cases hpe
  have hd : a.1.design = p.1 := by
    unfold analyseDesign at ha
    obtain ⟨a0, h0, ha⟩ := Py.bind_eq_ok.mp ha
    obtain ⟨u, -, ha⟩ := Py.bind_eq_ok.mp ha
    obtain rfl := Except.ok.inj ha
    show a0.1.design = p.1
    exact mkSimulation_design h0
  refine ⟨p.2, ?_, hid⟩
  simp only
  rw [hd]
  exact ha

/-- The steps of an opened session. -/
theorem openStudy_parts {V : StudyEnv} {form : StudyForm} {raw data : Frame ℝ} {s : Study} (h : openStudy V form raw = .ok (data, s)) :
    prepareHistorical V.R V.rng V.ext V.sorter raw form.itemCol form.dateCol form.primary form.primaryCol form.fraction form.skip = .ok data ∧
    ¬ (form.crossoverAllowed = true ∧ form.washout < 1) ∧ ∃ designs minStart, generateDesigns V.R (form.candidates data) = .ok designs ∧
      minStartWeek form.runtimes form.pretests (ints (dropDup (data.col "week_id"))) = .ok minStart ∧ estimateDesigns V data minStart designs = .ok s := by
  unfold openStudy at h
  obtain ⟨data', hd, h⟩ := Py.bind_eq_ok.mp h
  obtain ⟨hx, h⟩ := raiseIf_bind_ok.mp h
  obtain ⟨designs, hg, h⟩ := Py.bind_eq_ok.mp h
  obtain ⟨minStart, hm, h⟩ := Py.bind_eq_ok.mp h
  obtain ⟨st, he, h⟩ := Py.bind_eq_ok.mp h
  cases h
  exact ⟨hd, hx, designs, minStart, hg, hm, he⟩

theorem pyMax_ok_iff {l : List ℤ} {x : ℤ} : pyMax l = .ok x ↔ x ∈ l ∧ ∀ y ∈ l, y ≤ x := by
  unfold pyMax
  rw [← List.max?_eq_some_iff]
  cases l.max? with
  | none => simp
  | some y => simp

theorem minStartWeek_ok {runtimes pretests weeks : List ℤ} {m : ℤ} :
    minStartWeek runtimes pretests weeks = .ok m ↔ ∃ r p first last, pyMax runtimes = .ok r ∧ pyMax pretests = .ok p ∧ pyMin weeks = .ok first ∧
      pyMax weeks = .ok last ∧ r + p ≤ last - first + 1 ∧ m = first + p := by
  unfold minStartWeek
  constructor
  · intro h
    obtain ⟨r, h1, h⟩ := Py.bind_eq_ok.mp h
    obtain ⟨p, h2, h⟩ := Py.bind_eq_ok.mp h
    obtain ⟨f, h3, h⟩ := Py.bind_eq_ok.mp h
    obtain ⟨l, h4, h⟩ := Py.bind_eq_ok.mp h
    obtain ⟨h5, h⟩ := raiseIf_bind_ok.mp h
    cases h
    exact ⟨r, p, f, l, h1, h2, h3, h4, not_lt.mp h5, rfl⟩
  · rintro ⟨r, p, f, l, h1, h2, h3, h4, h5, rfl⟩
    rw [h1, h2, h3, h4]
    simp only [bind, Except.bind, raiseIf, not_lt.mpr h5, if_false]
    rfl

theorem longest_eq {form form' : StudyForm} (h : Spec.SameLongestPretest form form') {p p' : ℤ} (hp : pyMax form.pretests = .ok p)
    (hp' : pyMax form'.pretests = .ok p') : p' = p := by
  rw [pyMax_ok_iff] at hp hp'
  obtain ⟨q, hq, hle⟩ := h.1 p hp.1
  obtain ⟨q', hq', hle'⟩ := h.2 p' hp'.1
  have := hp.2 q' hq'
  have := hp'.2 q hq
  omega

theorem minStart_eq {form form' : StudyForm} (h : Spec.SameLongestPretest form form') {weeks : List ℤ} {m m' : ℤ}
    (hm : minStartWeek form.runtimes form.pretests weeks = .ok m) (hm' : minStartWeek form'.runtimes form'.pretests weeks = .ok m') : m' = m := by
  obtain ⟨r, p, f, l, -, h2, h3, -, -, rfl⟩ := minStartWeek_ok.mp hm
  obtain ⟨r', p', f', l', -, h2', h3', -, -, rfl⟩ := minStartWeek_ok.mp hm'
  rw [longest_eq h h2 h2']
  rw [h3] at h3'
  cases h3'
  rfl

/-- Two sessions on the same prepared data. -/
theorem same_entry {V : StudyEnv} {data : Frame ℝ} {m : ℤ} {designs designs' : List (Design ℝ)} {s s' : Study} (h : estimateDesigns V data m designs = .ok s)
    (h' : estimateDesigns V data m designs' = .ok s') {e e' : List Char × (SimConfig × SimState)} (he : e ∈ s) (he' : e' ∈ s')
    (hd : e'.2.1.design = e.2.1.design) (hz : (e.2.1.design.preTop.val = 0 ∧ e.2.1.design.preBottom.val = 0) ∨ ∀ i j, V.shuffle i = V.shuffle j) : e' = e := by
  obtain ⟨i, ha, hid⟩ := estimated_entry h he
  obtain ⟨j, ha', hid'⟩ := estimated_entry h' he'
  rw [hd] at ha' hid'
  have h1 : e'.1 = e.1 := by
    rw [hid] at hid'
    exact (Except.ok.inj hid').symm
  have h2 : e'.2 = e.2 := by
    rcases hz with ⟨z1, z2⟩ | hz
    · rw [analyseDesign_shuffle V data m (V.shuffle i) (V.shuffle j) z1 z2, ha] at ha'
      exact (Except.ok.inj ha').symm
    · rw [hz j i, ha] at ha'
      exact (Except.ok.inj ha').symm
  exact Prod.ext h1 h2

theorem wanted_less {form form' : StudyForm} (hl : Spec.AsksForLess form form') (hm : form'.metric = form.metric) (data : Frame ℝ) :
    Spec.wanted (form.candidates data) ⊆ Spec.wanted (form'.candidates data) := by
  intro p hp
  unfold Spec.wanted at hp ⊢
  simp only [List.mem_flatMap] at hp ⊢
  obtain ⟨r, hr, q, hq, t, ht, b, hb, u, hu, hp⟩ := hp
  refine ⟨r, hl.runtimes hr, q, hl.pretests hq, t, List.map_subset _ hl.tops ht, b, List.map_subset _ hl.bottoms hb, u, List.map_subset _ hl.posts hu, ?_⟩
  unfold Spec.wantedFor at hp ⊢
  by_cases h0 : q = 0 ∧ 0 < t.val + b.val
  · rw [if_pos h0] at hp
    cases hp
  · rw [if_neg h0] at hp ⊢
    have hdes : ∀ w, Spec.designOf (form'.candidates data) r q t b u w = Spec.designOf (form.candidates data) r q t b u w := by
      intro w
      unfold Spec.designOf StudyForm.candidates
      simp only [hm]
    rw [List.mem_append] at hp ⊢
    rcases hp with hp | hp
    · left
      by_cases h1 : (form.candidates data).traditionalAllowed = true
      · rw [if_pos h1] at hp
        rw [if_pos (show (form'.candidates data).traditionalAllowed = true from hl.traditional h1), hdes]
        exact hp
      · rw [if_neg h1] at hp
        cases hp
    · right
      replace hp : p ∈ if form.crossoverAllowed = true ∧ 2 * form.washout < r ∧ Even r then
        [Spec.designOf (form.candidates data) r q t b u (some form.washout)] else [] := hp
      show p ∈ if form'.crossoverAllowed = true ∧ 2 * form'.washout < r ∧ Even r then
        [Spec.designOf (form'.candidates data) r q t b u (some form'.washout)] else []
      by_cases h1 : form.crossoverAllowed = true ∧ 2 * form.washout < r ∧ Even r
      · rw [if_pos h1] at hp
        rw [hl.washout h1.1, hdes, if_pos ⟨hl.crossover h1.1, h1.2⟩]
        exact hp
      · rw [if_neg h1] at hp
        cases hp

/-- A session with some of the candidates of another session is opened too. -/
theorem openStudy_less {V : StudyEnv} {form form' : StudyForm} (hs : Spec.SamePreparation form form') (hp : Spec.SameLongestPretest form form')
    (hl : Spec.AsksForLess form form') (hz : ((∀ q ∈ form.preTops, q = 0) ∧ ∀ q ∈ form.preBottoms, q = 0))
    {raw data : Frame ℝ} {s' : Study} (h : openStudy V form' raw = .ok (data, s')) :
    ∃ s, openStudy V form raw = .ok (data, s) ∧ ∀ e ∈ s, e.1 ∈ s'.map Prod.fst := by
  obtain ⟨hd, hx, designs', m, hg, hm, he⟩ := openStudy_parts h
  have hmet : form'.metric = form.metric := by
    unfold StudyForm.metric
    rw [hs.primary, hs.column]
  have hsub := wanted_less hl hmet data
  obtain ⟨w1, w2⟩ := C64_exactly_the_wanted_designs V.R _ designs' hg
  have hret : (generateDesigns V.R (form.candidates data)).Returns := by
    refine (((C64_returns_iff V.R (form.candidates data) ?_).1 form.washout rfl).1).mpr fun p hpw => ?_
    · intro t0 ht b0 hb
      obtain ⟨t, ht', rfl⟩ := List.mem_map.mp ht
      obtain ⟨b, hb', rfl⟩ := List.mem_map.mp hb
      rw [hz.1 t ht', hz.2 b hb']
      simp [PyNum.val]
    · have := hsub hpw
      rw [← w1] at this
      obtain ⟨d, hd, rfl⟩ := List.mem_map.mp this
      exact (w2 d hd).2
  obtain ⟨designs, hg0⟩ := hret
  have hdes : ∀ d ∈ designs, d ∈ designs' ∧ d.preTop.val = 0 ∧ d.preBottom.val = 0 := by
    intro d hdm
    have k := (C64_members V.R _ _ hg0 d).mp hdm
    refine ⟨?_, ?_⟩
    · obtain ⟨v1, v2⟩ := C64_exactly_the_wanted_designs V.R _ designs hg0
      have := hsub (v1 ▸ List.mem_map.mpr ⟨d, hdm, rfl⟩)
      rw [← w1] at this
      obtain ⟨d', hd', e⟩ := List.mem_map.mp this
      have q1 := (w2 d' hd').1
      rw [e, k.1] at q1
      cases q1
      exact hd'
    · obtain ⟨-, -, -, -, -, -, -, -, k1, k2, -⟩ := k
      obtain ⟨q1, m1, e1⟩ := List.mem_map.mp k1
      obtain ⟨q2, m2, e2⟩ := List.mem_map.mp k2
      rw [← e1, ← e2]
      exact ⟨hz.1 _ m1, hz.2 _ m2⟩
  have hm0 : minStartWeek form.runtimes form.pretests (ints (dropDup (data.col "week_id"))) = .ok m := by
    obtain ⟨r, p, f, l, h1, h2, h3, h4, h5, h6⟩ := minStartWeek_ok.mp hm
    obtain ⟨r0, hr0⟩ : ∃ r0, pyMax form.runtimes = .ok r0 := by
      unfold pyMax
      cases e : form.runtimes.max? with
      | none => exact absurd (List.max?_eq_none_iff.mp e) hl.some
      | some x => exact ⟨x, rfl⟩
    have hp0 : pyMax form.pretests = .ok p := by
      rw [pyMax_ok_iff] at h2 ⊢
      obtain ⟨q, hq, hle⟩ := hp.2 p h2.1
      have := h2.2 q (hl.pretests hq)
      obtain rfl : p = q := by omega
      exact ⟨hq, fun y hy => h2.2 y (hl.pretests hy)⟩
    refine minStartWeek_ok.mpr ⟨r0, p, f, l, hr0, hp0, h3, h4, ?_, h6⟩
    have := (pyMax_ok_iff.mp h1).2 r0 (hl.runtimes (pyMax_ok_iff.mp hr0).1)
    omega
  have he0 := he
  unfold estimateDesigns at he0
  obtain ⟨l', hl', he0⟩ := Py.bind_eq_ok.mp he0
  cases he0
  have hone : ∀ d ∈ designs, ∀ i, ∃ a id, analyseDesign V data m (V.shuffle i) d = .ok a ∧ designId V.R V.fr V.printable a.1.design = .ok id ∧
      (id, a) ∈ l' := by
    intro d hdm i
    obtain ⟨hd', z1, z2⟩ := hdes d hdm
    obtain ⟨j, hj, rfl⟩ := List.mem_iff_getElem.mp hd'
    obtain ⟨b, hb, hpe⟩ := mapM_image hl' (a := (designs'[j], j)) (by rw [List.mem_zipIdx_iff_getElem?]; simp [hj])
    obtain ⟨a, ha, hpe⟩ := Py.bind_eq_ok.mp hpe
    obtain ⟨id, hid, hpe⟩ := Py.bind_eq_ok.mp hpe
    cases hpe
    exact ⟨a, id, by rw [analyseDesign_shuffle V data m (V.shuffle j) (V.shuffle i) z1 z2]; exact ha, hid, hb⟩
  obtain ⟨l, hl0⟩ := Py.mapM_returns (l := designs.zipIdx) (f := fun p : Design ℝ × ℕ => (do
      let a ← analyseDesign V data m (V.shuffle p.2) p.1
      let id ← designId V.R V.fr V.printable a.1.design
      return (id, a) : Py (List Char × (SimConfig × SimState)))) (by
    intro p hpm
    obtain ⟨a, id, ha, hid, -⟩ := hone p.1 (List.fst_mem_of_mem_zipIdx hpm) p.2
    exact ⟨(id, a), by rw [ha]; simp only [bind, Except.bind]; rw [hid]; rfl⟩)
  refine ⟨dictOf l, ?_, fun e hel => ?_⟩
  · unfold openStudy
    rw [← hs.item, ← hs.date, ← hs.primary, ← hs.column, ← hs.fraction, ← hs.skip, hd]
    have hx0 : ¬ (form.crossoverAllowed = true ∧ form.washout < 1) := fun k => hx ⟨hl.crossover k.1, by rw [hl.washout k.1]; exact k.2⟩
    simp only [bind, Except.bind, raiseIf, hx0, if_false, hg0, hm0]
    have : estimateDesigns V data m designs = .ok (dictOf l) := by
      unfold estimateDesigns
      rw [hl0]
      rfl
    rw [this]
    rfl
  · obtain ⟨p, hpm, hpe⟩ := mapM_mem hl0 (dictOf_mem hel)
    obtain ⟨a, id, ha, hid, hmem⟩ := hone p.1 (List.fst_mem_of_mem_zipIdx hpm) p.2
    rw [ha] at hpe
    simp only [bind, Except.bind] at hpe
    rw [hid] at hpe
    cases hpe
    rw [dictOf_keys, mem_dropDup]
    exact List.mem_map.mpr ⟨_, hmem, rfl⟩

end Feedx
