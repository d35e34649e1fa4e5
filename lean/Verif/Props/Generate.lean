import Verif.Spec.Generate
import Verif.Spec.Design
import Verif.Proofs.Design
import Verif.Props.Design
import Verif.Props.Validate
import Mathlib.Algebra.Ring.Parity
import Mathlib.Data.List.MinMax

/-!
Generated designs (C64, C65) and start weeks (C66).
-/

set_option linter.unusedSectionVars false
set_option linter.unusedSimpArgs false

namespace Feedx

variable {K : Type} [Field K] [LinearOrder K] [IsStrictOrderedRing K] [FloorRing K]

/-- The wanted designs of a combination. -/
def Combo.wanted (c : Candidates K) (k : Combo K) : List (DesignParams K) :=
  Spec.wantedFor c k.runtime k.pretest k.preTop k.preBottom k.postTrim

theorem wanted_eq (c : Candidates K) : Spec.wanted c = (combos c).flatMap (Combo.wanted c) := by
  unfold Spec.wanted combos Combo.wanted
  simp [List.flatMap_assoc, List.flatMap_map]

theorem mapM_flatten {α β γ : Type} {f : α → Py (List β)} {g : α → List γ} {h : β → γ} {l : List α}
    (hf : ∀ a ∈ l, ∀ bs, f a = .ok bs → bs.map h = g a) {out : List (List β)} (ho : l.mapM f = .ok out) :
    out.flatten.map h = l.flatMap g := by
  induction l generalizing out with
  | nil => cases ho; rfl
  | cons a l ih =>
    rw [List.mapM_cons] at ho
    obtain ⟨bs, hb, ho⟩ := Py.bind_eq_ok.mp ho
    obtain ⟨rest, hr, ho⟩ := Py.bind_eq_ok.mp ho
    cases ho
    simp [hf a (by simp) bs hb, ih (fun a ha => hf a (by simp [ha])) hr]

theorem mapM_mem {α β : Type} {f : α → Py β} {l : List α} {out : List β} (ho : l.mapM f = .ok out) {b : β} (hb : b ∈ out) :
    ∃ a ∈ l, f a = .ok b := by
  induction l generalizing out with
  | nil => cases ho; simp at hb
  | cons a l ih =>
    rw [List.mapM_cons] at ho
    obtain ⟨x, hx, ho⟩ := Py.bind_eq_ok.mp ho
    obtain ⟨rest, hr, ho⟩ := Py.bind_eq_ok.mp ho
    cases ho
    rcases List.mem_cons.mp hb with rfl | hb
    · exact ⟨a, by simp, hx⟩
    · obtain ⟨a', ha', e⟩ := ih hr hb
      exact ⟨a', by simp [ha'], e⟩

theorem mapM_total {α β : Type} {f : α → Py β} {l : List α} (h : ∀ a ∈ l, ∃ b, f a = .ok b) : ∃ out, l.mapM f = .ok out := by
  induction l with
  | nil => exact ⟨[], rfl⟩
  | cons a l ih =>
    obtain ⟨b, hb⟩ := h a (by simp)
    obtain ⟨out, ho⟩ := ih (fun a ha => h a (by simp [ha]))
    exact ⟨b :: out, by rw [List.mapM_cons, hb, ho]; rfl⟩

theorem mapM_error {α β : Type} {f : α → Py β} {l : List α} {e : PyErr} (h : l.mapM f = .error e) : ∃ a ∈ l, f a = .error e := by
  induction l with
  | nil => cases h
  | cons a l ih =>
    rw [List.mapM_cons] at h
    rcases Py.bind_eq_error.mp h with h | ⟨b, hb, h⟩
    · exact ⟨a, by simp, h⟩
    · rcases Py.bind_eq_error.mp h with h | ⟨out, -, h⟩
      · obtain ⟨a', ha', e'⟩ := ih h
        exact ⟨a', by simp [ha'], e'⟩
      · cases h

theorem map_singleton_ok {R : Rounding K} {p : DesignParams K} {ds : List (Design K)}
    (h : (mkDesign R p).map (fun d => [d]) = .ok ds) : ∃ d, mkDesign R p = .ok d ∧ ds = [d] := by
  cases hm : mkDesign R p with
  | error e => rw [hm] at h; cases h
  | ok d => rw [hm] at h; cases h; exact ⟨d, rfl, rfl⟩

theorem params_of_ok {R : Rounding K} {p : DesignParams K} {d : Design K} (h : mkDesign R p = .ok d) : d.toDesignParams = p :=
  C01_constructor_keeps_parameters R p d h

/-- A design without pretest weeks that can be created has no trimming before the experiment. -/
theorem no_pretrim {R : Rounding K} {p : DesignParams K} {d : Design K} (h : mkDesign R p = .ok d) (h0 : p.pretest = 0) :
    p.preTop.val + p.preBottom.val = 0 := by
  have := ((C01_constructor_accepts_iff R p).mp ⟨d, h⟩).1.no_pretrim_without_pretest h0
  rw [this.1, this.2, add_zero]

theorem rnd_pos {R : Rounding K} {x : K} (h : 0 < R.rnd x) : 0 < x := by
  by_contra hc
  have := R.mono (not_lt.mp hc)
  rw [R.zero] at this
  exact absurd h (not_lt.mpr this)

theorem even_iff (n : ℤ) : n % 2 = 0 ↔ Even n := (Int.even_iff).symm

theorem comboParams_eq (c : Candidates K) (k : Combo K) (w : Option ℤ) :
    comboParams c k w.isSome w = Spec.designOf c k.runtime k.pretest k.preTop k.preBottom k.postTrim w := rfl

/-- The designs generated for one combination are the wanted ones, and each is created by the constructor. -/
theorem comboDesigns_ok {R : Rounding K} {c : Candidates K} {k : Combo K} {ds : List (Design K)} (h : comboDesigns R c k = .ok ds) :
    ds.map Design.toDesignParams = k.wanted c ∧ ∀ d ∈ ds, mkDesign R d.toDesignParams = .ok d := by
  unfold comboDesigns at h
  unfold Combo.wanted Spec.wantedFor
  split at h
  · rename_i hs
    cases h
    rw [if_pos ⟨hs.2, rnd_pos hs.1⟩]
    simp
  · rename_i hs
    obtain ⟨trad, ht, h⟩ := Py.bind_eq_ok.mp h
    split at h
    · cases h
    rename_i w hw
    obtain ⟨cross, hc, h⟩ := Py.bind_eq_ok.mp h
    cases h
    have t1 : (trad.map Design.toDesignParams =
        if c.traditionalAllowed then [Spec.designOf c k.runtime k.pretest k.preTop k.preBottom k.postTrim none] else []) ∧
        (∀ d ∈ trad, mkDesign R d.toDesignParams = .ok d) ∧ (trad ≠ [] → k.pretest = 0 → k.preTop.val + k.preBottom.val = 0) := by
      split at ht
      · rename_i ha
        obtain ⟨d, hd, rfl⟩ := map_singleton_ok ht
        have := params_of_ok hd
        simp only [ha, if_true, List.map_cons, List.map_nil, List.mem_singleton, forall_eq, this]
        exact ⟨by rw [← comboParams_eq]; rfl, hd, fun _ h0 => no_pretrim hd h0⟩
      · rename_i ha
        cases ht
        simp [ha]
    have c1 : (cross.map Design.toDesignParams =
        if c.crossoverAllowed = true ∧ 2 * w < k.runtime ∧ Even k.runtime then
          [Spec.designOf c k.runtime k.pretest k.preTop k.preBottom k.postTrim (some w)] else []) ∧
        (∀ d ∈ cross, mkDesign R d.toDesignParams = .ok d) ∧ (cross ≠ [] → k.pretest = 0 → k.preTop.val + k.preBottom.val = 0) := by
      split at hc
      · rename_i ha
        rw [even_iff] at ha
        obtain ⟨d, hd, rfl⟩ := map_singleton_ok hc
        have := params_of_ok hd
        rw [if_pos ha]
        simp only [List.map_cons, List.map_nil, List.mem_singleton, forall_eq, this]
        exact ⟨by rw [← comboParams_eq]; rfl, hd, fun _ h0 => no_pretrim hd h0⟩
      · rename_i ha
        rw [even_iff] at ha
        cases hc
        rw [if_neg ha]
        simp
    refine ⟨?_, ?_⟩
    · split
      · rename_i hz
        have e1 : trad = [] := by
          by_contra hne
          exact absurd (t1.2.2 hne hz.1) hz.2.ne'
        have e2 : cross = [] := by
          by_contra hne
          exact absurd (c1.2.2 hne hz.1) hz.2.ne'
        simp [e1, e2]
      · rw [List.map_append, t1.1, c1.1, hw]
    · intro d hd
      rcases List.mem_append.mp hd with hd | hd
      · exact t1.2.1 d hd
      · exact c1.2.1 d hd

/-- **C64.**  When the generation returns, the parameters of the designs are exactly the wanted ones in the order of the nested loops, and
each design is a valid one, created by the constructor. -/
theorem C64_exactly_the_wanted_designs (R : Rounding K) (c : Candidates K) (ds : List (Design K)) (h : generateDesigns R c = .ok ds) :
    ds.map Design.toDesignParams = Spec.wanted c ∧
    ∀ d ∈ ds, mkDesign R d.toDesignParams = .ok d ∧
      Spec.LegalParams d.toDesignParams (R.rnd (d.preTop.val + d.preBottom.val)) ∧ 50 < Spec.itemsAfterPost R.rnd d.toDesignParams := by
  unfold generateDesigns at h
  obtain ⟨-, h⟩ := raiseIf_bind_ok.mp h
  obtain ⟨l, hl, h⟩ := Py.bind_eq_ok.mp h
  cases h
  refine ⟨?_, ?_⟩
  · rw [wanted_eq]
    exact mapM_flatten (fun k _ ds hd => (comboDesigns_ok hd).1) hl
  · intro d hd
    obtain ⟨bs, hb, hd⟩ := List.mem_flatten.mp hd
    obtain ⟨k, -, hk⟩ := mapM_mem hl hb
    have := (comboDesigns_ok hk).2 d hd
    exact ⟨this, (C01_constructor_accepts_iff R _).mp ⟨d, this⟩⟩

/-- **C64** (membership).  A design is in the result exactly if it is created from candidates: a traditional design if these are allowed, a
crossover design if these are allowed and the runtime is even and more than twice the washout; and never with trimming before the
experiment but without pretest weeks. -/
theorem C64_members (R : Rounding K) (c : Candidates K) (ds : List (Design K)) (h : generateDesigns R c = .ok ds) (d : Design K) :
    d ∈ ds ↔ mkDesign R d.toDesignParams = .ok d ∧
      d.nBefore = c.nBefore ∧ d.primaryMetric = c.primaryMetric ∧ d.alpha = .float (1 / 20) ∧ d.power = .float (4 / 5) ∧ d.salt = none ∧
      d.runtime ∈ c.runtimes ∧ d.pretest ∈ c.pretests ∧ d.preTop ∈ c.preTops ∧ d.preBottom ∈ c.preBottoms ∧ d.postTrim ∈ c.postTrims ∧
      ¬ (d.pretest = 0 ∧ 0 < d.preTop.val + d.preBottom.val) ∧
      ((d.isCrossover = false ∧ d.washout = none ∧ c.traditionalAllowed = true) ∨
       (d.isCrossover = true ∧ d.washout = c.washout ∧ c.crossoverAllowed = true ∧
          ∃ w, c.washout = some w ∧ 2 * w < d.runtime ∧ Even d.runtime)) := by
  obtain ⟨h1, h2⟩ := C64_exactly_the_wanted_designs R c ds h
  have hmem : d ∈ ds ↔ mkDesign R d.toDesignParams = .ok d ∧ d.toDesignParams ∈ Spec.wanted c := by
    constructor
    · intro hd
      refine ⟨(h2 d hd).1, ?_⟩
      rw [← h1]
      exact List.mem_map.mpr ⟨d, hd, rfl⟩
    · rintro ⟨hd, hw⟩
      rw [← h1] at hw
      obtain ⟨d', hd', e⟩ := List.mem_map.mp hw
      have := (h2 d' hd').1
      rw [e, hd] at this
      rw [Except.ok.inj this]
      exact hd'
  rw [hmem]
  refine and_congr_right fun _ => ?_
  obtain ⟨⟨n, r, m, p, cr, t, b, q, w, al, po, s⟩, n1, n2⟩ := d
  simp only [Spec.wanted, List.mem_flatMap, Spec.wantedFor, Spec.designOf]
  constructor
  · rintro ⟨r', hr, p', hp, t', ht, b', hb, q', hq, hmem⟩
    split at hmem
    · simp at hmem
    rename_i hno
    rcases List.mem_append.mp hmem with hm | hm
    · split at hm
      · rename_i ha
        simp only [List.mem_singleton, DesignParams.mk.injEq] at hm
        obtain ⟨rfl, rfl, rfl, rfl, rfl, rfl, rfl, rfl, rfl, rfl, rfl, rfl⟩ := hm
        exact ⟨rfl, rfl, rfl, rfl, rfl, hr, hp, ht, hb, hq, hno, Or.inl ⟨rfl, rfl, ha⟩⟩
      · simp at hm
    · cases hw : c.washout with
      | none => rw [hw] at hm; simp at hm
      | some w' =>
        rw [hw] at hm
        simp only at hm
        split at hm
        · rename_i ha
          simp only [List.mem_singleton, DesignParams.mk.injEq] at hm
          obtain ⟨rfl, rfl, rfl, rfl, rfl, rfl, rfl, rfl, rfl, rfl, rfl, rfl⟩ := hm
          exact ⟨rfl, rfl, rfl, rfl, rfl, hr, hp, ht, hb, hq, hno, Or.inr ⟨rfl, rfl, ha.1, w', rfl, ha.2⟩⟩
        · simp at hm
  · rintro ⟨rfl, rfl, rfl, rfl, rfl, hr, hp, ht, hb, hq, hno, hkind⟩
    refine ⟨r, hr, p, hp, t, ht, b, hb, q, hq, ?_⟩
    rw [if_neg hno]
    rcases hkind with ⟨rfl, rfl, ha⟩ | ⟨rfl, rfl, ha, w', hw, ha'⟩
    · simp [ha]
    · refine List.mem_append.mpr (Or.inr ?_)
      rw [hw]
      simp only
      rw [if_pos ⟨ha, ha'⟩]
      simp

theorem comboDesigns_returns {R : Rounding K} {c : Candidates K} {k : Combo K} {w : ℤ} (hw : c.washout = some w)
    (hsum : 0 < k.preTop.val + k.preBottom.val → 0 < R.rnd (k.preTop.val + k.preBottom.val)) :
    (∀ p ∈ k.wanted c, (mkDesign R p).Returns) → ∃ ds, comboDesigns R c k = .ok ds := by
  intro h
  unfold comboDesigns
  split
  · exact ⟨[], rfl⟩
  rename_i hs
  unfold Combo.wanted Spec.wantedFor at h
  rw [if_neg (fun hc => hs ⟨hsum hc.2, hc.1⟩), hw] at h
  have h1 : ∃ trad, (if c.traditionalAllowed then (mkDesign R (comboParams c k false none)).map (fun d => [d]) else .ok []) = .ok trad := by
    split
    · rename_i ha
      obtain ⟨d, hd⟩ := h _ (List.mem_append.mpr (Or.inl (by rw [if_pos ha]; exact List.mem_singleton.mpr rfl)))
      exact ⟨[d], by rw [show comboParams c k false none = _ from rfl]; exact congrArg (fun x => Except.map (fun d => [d]) x) hd⟩
    · exact ⟨[], rfl⟩
  have h2 : ∃ cross, (if c.crossoverAllowed = true ∧ 2 * w < k.runtime ∧ k.runtime % 2 = 0
        then (mkDesign R (comboParams c k true (some w))).map (fun d => [d]) else .ok []) = .ok cross := by
    split
    · rename_i ha
      rw [even_iff] at ha
      obtain ⟨d, hd⟩ := h _ (List.mem_append.mpr (Or.inr (by simp only; rw [if_pos ha]; exact List.mem_singleton.mpr rfl)))
      exact ⟨[d], congrArg (fun x => Except.map (fun d => [d]) x) hd⟩
    · exact ⟨[], rfl⟩
  obtain ⟨trad, ht⟩ := h1
  obtain ⟨cross, hc⟩ := h2
  refine ⟨trad ++ cross, ?_⟩
  rw [ht, hw]
  simp only [bind, Except.bind, hc]
  rfl

/-- **C64** (when it returns).  With washout weeks given, the generation returns exactly if every wanted design is valid, and raises
`ValueError` otherwise; allowing crossovers without giving washout weeks always raises `ValueError`.  (Adding two fractions does not round
a positive sum to zero.) -/
theorem C64_returns_iff (R : Rounding K) (c : Candidates K)
    (hsum : ∀ t ∈ c.preTops, ∀ b ∈ c.preBottoms, 0 < t.val + b.val → 0 < R.rnd (t.val + b.val)) :
    (∀ w, c.washout = some w →
      ((generateDesigns R c).Returns ↔ ∀ p ∈ Spec.wanted c,
        Spec.LegalParams p (R.rnd (p.preTop.val + p.preBottom.val)) ∧ 50 < Spec.itemsAfterPost R.rnd p) ∧
      (¬ (generateDesigns R c).Returns → generateDesigns R c = .error .valueError)) ∧
    (c.crossoverAllowed = true → c.washout = none → generateDesigns R c = .error .valueError) := by
  refine ⟨?_, ?_⟩
  · intro w hw
    refine ⟨⟨?_, ?_⟩, ?_⟩
    · rintro ⟨ds, h⟩ p hp
      obtain ⟨h1, h2⟩ := C64_exactly_the_wanted_designs R c ds h
      rw [← h1] at hp
      obtain ⟨d, hd, rfl⟩ := List.mem_map.mp hp
      exact (h2 d hd).2
    · intro h
      have : ∃ l, (combos c).mapM (comboDesigns R c) = .ok l := by
        refine mapM_total fun k hk => comboDesigns_returns hw ?_ ?_
        · simp only [combos, List.mem_flatMap, List.mem_map] at hk
          obtain ⟨r, hr, p, hp, t, ht, b, hb, q, hq, rfl⟩ := hk
          exact hsum t ht b hb
        · intro p hp
          rw [C01_constructor_accepts_iff]
          exact h p (by rw [wanted_eq]; exact List.mem_flatMap.mpr ⟨k, hk, hp⟩)
      obtain ⟨l, hl⟩ := this
      refine ⟨l.flatten, ?_⟩
      unfold generateDesigns
      refine raiseIf_bind_ok.mpr ⟨by simp [hw], ?_⟩
      rw [hl]
      rfl
    · intro hn
      cases hg : generateDesigns R c with
      | ok ds => exact absurd ⟨ds, hg⟩ hn
      | error e =>
        unfold generateDesigns at hg
        rcases raiseIf_bind_err.mp hg with ⟨-, rfl⟩ | ⟨-, hg⟩
        · rfl
        rcases Py.bind_eq_error.mp hg with hg | ⟨l, -, hg⟩
        · obtain ⟨k, -, hk⟩ := mapM_error hg
          unfold comboDesigns at hk
          have hmk : ∀ (p : DesignParams K) (b : Bool) (e : PyErr),
              (if b = true then (mkDesign R p).map (fun d => [d]) else .ok []) = .error e → e = .valueError := by
            intro p b e h
            split at h
            · cases hm : mkDesign R p with
              | ok d => rw [hm] at h; cases h
              | error e' =>
                rw [hm] at h
                cases h
                exact mkDesign_err R p _ hm
            · cases h
          split at hk
          · cases hk
          rcases Py.bind_eq_error.mp hk with hk | ⟨trad, -, hk⟩
          · rw [hmk _ _ _ hk]
          · rw [hw] at hk
            simp only at hk
            rcases Py.bind_eq_error.mp hk with hk | ⟨cross, -, hk⟩
            · have := hmk (comboParams c k true (some w)) (decide (c.crossoverAllowed = true ∧ 2 * w < k.runtime ∧ k.runtime % 2 = 0)) e
                (by simpa using hk)
              rw [this]
            · cases hk
        · cases hg
  · intro ha hw
    unfold generateDesigns
    exact raiseIf_bind_err.mpr (Or.inl ⟨⟨ha, hw⟩, rfl⟩)

/-! ### C65 -/

/-- **C65 fails.**  Without washout weeks the generation of traditional designs never returns, unless every combination is skipped because
it would trim items without pretest weeks. -/
theorem C65_traditional_only_false (R : Rounding K) (c : Candidates K) (hw : c.washout = none) (r p : ℤ) (t b q : PyNum K)
    (hr : r ∈ c.runtimes) (hp : p ∈ c.pretests) (ht : t ∈ c.preTops) (hb : b ∈ c.preBottoms) (hq : q ∈ c.postTrims)
    (hno : ¬ (p = 0 ∧ 0 < t.val + b.val)) : ¬ (generateDesigns R c).Returns := by
  rintro ⟨ds, h⟩
  unfold generateDesigns at h
  obtain ⟨-, h⟩ := raiseIf_bind_ok.mp h
  obtain ⟨l, hl, -⟩ := Py.bind_eq_ok.mp h
  have hk : (⟨r, p, t, b, q⟩ : Combo K) ∈ combos c := by
    simp only [combos, List.mem_flatMap, List.mem_map]
    exact ⟨r, hr, p, hp, t, ht, b, hb, q, hq, rfl⟩
  have hall : ∀ k ∈ combos c, ∃ ds, comboDesigns R c k = .ok ds := by
    intro k hk
    by_contra hc
    push Not at hc
    cases hx : comboDesigns R c k with
    | ok ds => exact hc ds hx
    | error e =>
      have : ∀ (l : List (Combo K)) (out : List (List (Design K))), k ∈ l → l.mapM (comboDesigns R c) = .ok out → False := by
        intro l
        induction l with
        | nil => intro out hk _; simp at hk
        | cons a l ih =>
          intro out hk ho
          rw [List.mapM_cons] at ho
          obtain ⟨x, hx', ho⟩ := Py.bind_eq_ok.mp ho
          obtain ⟨rest, hr, ho⟩ := Py.bind_eq_ok.mp ho
          rcases List.mem_cons.mp hk with rfl | hk
          · rw [hx] at hx'; cases hx'
          · exact ih rest hk hr
      exact this _ _ hk hl
  obtain ⟨ds', hd⟩ := hall _ hk
  unfold comboDesigns at hd
  split at hd
  · rename_i hs
    exact hno ⟨hs.2, rnd_pos hs.1⟩
  · obtain ⟨_, -, hd⟩ := Py.bind_eq_ok.mp hd
    rw [hw] at hd
    cases hd

/-- The candidates of the example: two runtimes, with and without pretest weeks and trimming, traditional designs only. -/
def someCandidates : Candidates ℚ where
  nBefore := 100
  crossoverAllowed := false
  traditionalAllowed := true
  runtimes := [4, 7]
  pretests := [0, 2]
  preTops := [.float 0, .float (1 / 10)]
  preBottoms := [.float 0]
  postTrims := [.float (1 / 20)]
  primaryMetric := "clicks"

/-- **C65 fails**, concretely: traditional designs only, no washout weeks: `TypeError`; with irrelevant washout weeks it works. -/
theorem C65_type_error_false :
    generateDesigns (Rounding.exact ℚ) someCandidates = .error .typeError ∧
    (generateDesigns (Rounding.exact ℚ) { someCandidates with washout := some 1 }).map (fun l => l.length) = .ok 6 := by
  decide +kernel

/-- **C65** (what holds).  If any number of washout weeks is given, a generation of traditional designs only that returns gives exactly the
traditional designs. -/
theorem C65_with_washout_partial (R : Rounding K) (c : Candidates K) (hcross : c.crossoverAllowed = false)
    (htrad : c.traditionalAllowed = true) (w : ℤ) (hw : c.washout = some w)
    (hsum : ∀ t ∈ c.preTops, ∀ b ∈ c.preBottoms, 0 < t.val + b.val → 0 < R.rnd (t.val + b.val))
    (hvalid : ∀ p ∈ Spec.wanted c, Spec.LegalParams p (R.rnd (p.preTop.val + p.preBottom.val)) ∧ 50 < Spec.itemsAfterPost R.rnd p) :
    ∃ ds, generateDesigns R c = .ok ds ∧ ∀ d, d ∈ ds ↔ mkDesign R d.toDesignParams = .ok d ∧
      d.nBefore = c.nBefore ∧ d.primaryMetric = c.primaryMetric ∧ d.alpha = .float (1 / 20) ∧ d.power = .float (4 / 5) ∧ d.salt = none ∧
      d.runtime ∈ c.runtimes ∧ d.pretest ∈ c.pretests ∧ d.preTop ∈ c.preTops ∧ d.preBottom ∈ c.preBottoms ∧ d.postTrim ∈ c.postTrims ∧
      ¬ (d.pretest = 0 ∧ 0 < d.preTop.val + d.preBottom.val) ∧ d.isCrossover = false ∧ d.washout = none := by
  obtain ⟨ds, h⟩ := ((C64_returns_iff R c hsum).1 w hw).1.mpr hvalid
  refine ⟨ds, h, fun d => ?_⟩
  rw [C64_members R c ds h d]
  simp [hcross, htrad]

/-- C64 is not vacuous: traditional and crossover designs; trimming without pretest weeks and the odd runtime are skipped. -/
example : (generateDesigns (Rounding.exact ℚ) { someCandidates with crossoverAllowed := true, washout := some 1 }).map
    (fun l => l.map (fun d => (d.runtime, d.pretest, d.preTop, d.isCrossover))) =
    .ok [(4, 0, .float 0, false), (4, 0, .float 0, true), (4, 2, .float 0, false), (4, 2, .float 0, true),
      (4, 2, .float (1 / 10), false), (4, 2, .float (1 / 10), true), (7, 0, .float 0, false), (7, 2, .float 0, false),
      (7, 2, .float (1 / 10), false)] := by
  decide +kernel

example : ∀ t ∈ someCandidates.preTops, ∀ b ∈ someCandidates.preBottoms, 0 < t.val + b.val →
    0 < (Rounding.exact ℚ).rnd (t.val + b.val) := fun _ _ _ _ h => h

/-! ### C66 -/

theorem pyMax_ok {l : List ℤ} {x : ℤ} (h : pyMax l = .ok x) : x ∈ l ∧ ∀ y ∈ l, y ≤ x := by
  unfold pyMax at h
  split at h
  · rename_i y hy
    cases h
    exact (List.max?_eq_some_iff).mp hy
  · cases h

theorem pyMin_ok {l : List ℤ} {x : ℤ} (h : pyMin l = .ok x) : x ∈ l ∧ ∀ y ∈ l, x ≤ y := by
  unfold pyMin at h
  split at h
  · rename_i y hy
    cases h
    exact (List.min?_eq_some_iff).mp hy
  · cases h

theorem mem_weekRange {a b x : ℤ} : x ∈ weekRange a b ↔ a ≤ x ∧ x < b := by
  unfold weekRange
  simp only [List.mem_map, List.mem_range]
  constructor
  · rintro ⟨i, hi, rfl⟩
    constructor <;> omega
  · rintro ⟨h1, h2⟩
    exact ⟨(x - a).toNat, by omega, by omega⟩

/-- **C66.**  If the earliest start week is found, then for every candidate runtime and pretest and historical data with these weeks there
is a valid start week, and from every valid start week all pretest weeks and all runtime weeks lie between the first and the last
historical week. -/
theorem C66_windows_inside_the_data (runtimes pretests weeks : List ℤ) (s : ℤ) (h : minStartWeek runtimes pretests weeks = .ok s)
    (last : ℤ) (hlast : last ∈ weeks ∧ ∀ w ∈ weeks, w ≤ last) (runtime pretest : ℤ) (hr : runtime ∈ runtimes) (hp : pretest ∈ pretests) :
    validStarts s last runtime ≠ [] ∧
    ∀ start ∈ validStarts s last runtime, ∀ w, start - pretest ≤ w → w < start + runtime →
      (∃ first ∈ weeks, first ≤ w) ∧ w ≤ last := by
  unfold minStartWeek at h
  obtain ⟨mr, h1, h⟩ := Py.bind_eq_ok.mp h
  obtain ⟨mp, h2, h⟩ := Py.bind_eq_ok.mp h
  obtain ⟨f, h3, h⟩ := Py.bind_eq_ok.mp h
  obtain ⟨l, h4, h⟩ := Py.bind_eq_ok.mp h
  obtain ⟨h5, h⟩ := raiseIf_bind_ok.mp h
  cases h
  have h1 := (pyMax_ok h1).2 runtime hr
  have h2 := (pyMax_ok h2).2 pretest hp
  have h3 := pyMin_ok h3
  have h4 := pyMax_ok h4
  have hl : l = last := le_antisymm (hlast.2 l h4.1) (h4.2 last hlast.1)
  subst hl
  refine ⟨?_, ?_⟩
  · apply List.ne_nil_of_mem (a := f + mp)
    unfold validStarts
    rw [mem_weekRange]
    omega
  · intro start hs w hw1 hw2
    unfold validStarts at hs
    rw [mem_weekRange] at hs
    exact ⟨⟨f, h3.1, by omega⟩, by omega⟩

/-- **C66** (when it raises).  The earliest start week is found exactly if no collection is empty and the historical data spans at least the
longest pretest and the longest runtime together; otherwise `ValueError` is raised.  Then it is the first week plus the longest
pretest. -/
theorem C66_earliest_start (runtimes pretests weeks : List ℤ) :
    (∀ s, minStartWeek runtimes pretests weeks = .ok s → ∃ first longest, first ∈ weeks ∧ (∀ w ∈ weeks, first ≤ w) ∧
      longest ∈ pretests ∧ (∀ p ∈ pretests, p ≤ longest) ∧ s = first + longest) ∧
    ((minStartWeek runtimes pretests weeks).Returns ↔ runtimes ≠ [] ∧ pretests ≠ [] ∧ weeks ≠ [] ∧
      ∃ first ∈ weeks, ∃ last ∈ weeks, ∀ r ∈ runtimes, ∀ p ∈ pretests, r + p ≤ last - first + 1) ∧
    (¬ (minStartWeek runtimes pretests weeks).Returns → minStartWeek runtimes pretests weeks = .error .valueError) := by
  have hmax : ∀ l : List ℤ, (∃ x, pyMax l = .ok x) ∨ (l = [] ∧ pyMax l = .error .valueError) := by
    intro l
    unfold pyMax
    cases h : l.max? with
    | some x => exact Or.inl ⟨x, rfl⟩
    | none => exact Or.inr ⟨List.max?_eq_none_iff.mp h, rfl⟩
  have hmin : ∀ l : List ℤ, (∃ x, pyMin l = .ok x) ∨ (l = [] ∧ pyMin l = .error .valueError) := by
    intro l
    unfold pyMin
    cases h : l.min? with
    | some x => exact Or.inl ⟨x, rfl⟩
    | none => exact Or.inr ⟨List.min?_eq_none_iff.mp h, rfl⟩
  refine ⟨?_, ?_⟩
  · intro s h
    unfold minStartWeek at h
    obtain ⟨mr, h1, h⟩ := Py.bind_eq_ok.mp h
    obtain ⟨mp, h2, h⟩ := Py.bind_eq_ok.mp h
    obtain ⟨f, h3, h⟩ := Py.bind_eq_ok.mp h
    obtain ⟨l, h4, h⟩ := Py.bind_eq_ok.mp h
    obtain ⟨h5, h⟩ := raiseIf_bind_ok.mp h
    cases h
    have h2 := pyMax_ok h2
    have h3 := pyMin_ok h3
    exact ⟨f, mp, h3.1, h3.2, h2.1, h2.2, rfl⟩
  · unfold minStartWeek Py.Returns
    rcases hmax runtimes with ⟨mr, e1⟩ | ⟨rfl, e1⟩
    · rcases hmax pretests with ⟨mp, e2⟩ | ⟨rfl, e2⟩
      · rcases hmin weeks with ⟨f, e3⟩ | ⟨rfl, e3⟩
        · rcases hmax weeks with ⟨l, e4⟩ | ⟨rfl, e4⟩
          · have m1 := pyMax_ok e1
            have m2 := pyMax_ok e2
            have m3 := pyMin_ok e3
            have m4 := pyMax_ok e4
            rw [e1, e2, e3, e4]
            simp only [bind, Except.bind]
            by_cases hc : l - f + 1 < mr + mp
            · rw [show raiseIf .valueError (l - f + 1 < mr + mp) = .error .valueError from raiseIf_err.mpr ⟨hc, rfl⟩]
              refine ⟨⟨by simp, ?_⟩, fun _ => rfl⟩
              rintro ⟨-, -, -, a, ha, b, hb, hab⟩
              have := hab mr m1.1 mp m2.1
              have := m3.2 a ha
              have := m4.2 b hb
              omega
            · rw [show raiseIf .valueError (l - f + 1 < mr + mp) = .ok () from raiseIf_ok.mpr hc]
              refine ⟨⟨fun _ => ?_, fun _ => ⟨_, rfl⟩⟩, fun hn => absurd ⟨_, rfl⟩ hn⟩
              refine ⟨List.ne_nil_of_mem m1.1, List.ne_nil_of_mem m2.1, List.ne_nil_of_mem m3.1, f, m3.1, l, m4.1, ?_⟩
              intro r hr p hp
              have := m1.2 r hr
              have := m2.2 p hp
              omega
          · exact absurd (pyMin_ok e3).1 (by simp)
        · rw [e1, e2, e3]
          simp [bind, Except.bind]
      · rw [e1, e2]
        simp [bind, Except.bind]
    · rw [e1]
      simp [bind, Except.bind]

/-- C66 is not vacuous: ten weeks, at most two pretest and six runtime weeks; the start weeks of a four week experiment. -/
example : minStartWeek [4, 6] [0, 2] [3, 4, 5, 6, 7, 8, 9, 10, 11, 12] = .ok 5 ∧ validStarts 5 12 4 = [5, 6, 7, 8, 9] ∧
    minStartWeek [4, 6] [0, 5] [3, 4, 5, 6, 7, 8, 9, 10, 11, 12] = .error .valueError := by
  decide +kernel

end Feedx
