import Verif.Proofs.Design
import Mathlib.Tactic.NormNum
import Mathlib.Tactic.Ring

/-!
Properties C01-C04: which designs can be created, their item counts, and the YAML round trip.
All of them hold for every float rounding `R` and every ordered field `K` of float values.
-/

set_option linter.unusedSectionVars false

namespace Feedx

variable {K : Type} [Field K] [LinearOrder K] [IsStrictOrderedRing K] [FloorRing K]

/-- **C01.**  `ExperimentDesign(...)` returns a design iff the parameters are legal and more than 50
items are left after all trimming. -/
theorem C01_constructor_accepts_iff (R : Rounding K) (p : DesignParams K) :
    (mkDesign R p).Returns ↔
      Spec.LegalParams p (R.rnd (p.preTop.val + p.preBottom.val)) ∧
        50 < Spec.itemsAfterPost R.rnd p := by
  unfold Py.Returns
  simp only [mkDesign_ok_iff, exists_eq_left]
  rw [validateDesign_ok_iff]
  rfl

/-- **C01.**  If the constructor does not return, it raises `ValueError`. -/
theorem C01_constructor_only_raises_valueError (R : Rounding K) (p : DesignParams K) (e : PyErr)
    (h : mkDesign R p = .error e) : e = .valueError := mkDesign_err R p e h

/-- **C01.**  The created design has exactly the given parameters. -/
theorem C01_constructor_keeps_parameters (R : Rounding K) (p : DesignParams K) (d : Design K)
    (h : mkDesign R p = .ok d) : d.toDesignParams = p := by
  rw [mkDesign_ok_iff] at h
  rw [h.1, deriveCounts_params]

/-- The design of the repository's own unit test (experiment_design_test.py), over `ℚ`. -/
def exampleParams : DesignParams ℚ where
  nBefore := 1000
  runtime := 8
  primaryMetric := "clicks"
  pretest := 4
  isCrossover := false
  preTop := .float (1 / 100)
  preBottom := .float (2 / 100)
  postTrim := .float (1 / 100)
  washout := some 2
  alpha := .float (5 / 100)
  power := .float (8 / 10)
  salt := none

/-- A crossover variant. -/
def exampleCrossover : DesignParams ℚ := { exampleParams with isCrossover := true }

/-- C01/C02 hypotheses are met: both example designs can be created; counts are 970 and 952. -/
example : mkDesign (.exact ℚ) exampleParams =
    .ok { exampleParams with nAfterPre := 970, nAfterPost := 952 } := by decide +kernel
example : mkDesign (.exact ℚ) exampleCrossover =
    .ok { exampleCrossover with nAfterPre := 970, nAfterPost := 952 } := by decide +kernel
/-- ... and illegal ones are refused. -/
example : mkDesign (.exact ℚ) { exampleCrossover with runtime := 4 } = .error .valueError := by
  decide +kernel
example : mkDesign (.exact ℚ) { exampleParams with nBefore := 51 } = .error .valueError := by
  decide +kernel
example : mkDesign (.exact ℚ) { exampleParams with pretest := 0 } = .error .valueError := by
  decide +kernel

/-- **C02.**  Item counts of a created design: the documented formulas, ordered, and more than 50 items
left; the post-trimming removes the same number of items at both ends. -/
theorem C02_item_counts (R : Rounding K) (p : DesignParams K) (d : Design K)
    (h : mkDesign R p = .ok d) (hn : 0 ≤ p.nBefore) (hn' : p.nBefore ≤ 2 ^ 53) :
    d.nAfterPre = Spec.itemsAfterPre R.rnd p ∧ d.nAfterPost = Spec.itemsAfterPost R.rnd p ∧
      50 < d.nAfterPost ∧ d.nAfterPost ≤ d.nAfterPre ∧ d.nAfterPre ≤ d.nBefore ∧
      ∃ k, 0 ≤ k ∧ d.nAfterPre - k - k = d.nAfterPost := by
  obtain ⟨rfl, hv⟩ := (mkDesign_ok_iff R p d).mp h
  obtain ⟨hl, h50⟩ := (validateDesign_ok_iff R _).mp hv
  have htop : 0 ≤ R.floorMul p.preTop.val p.nBefore := floorMul_nonneg R hl.top_nonneg hn
  have hbot : 0 ≤ R.floorMul p.preBottom.val p.nBefore := floorMul_nonneg R hl.bottom_nonneg hn
  have hlt : p.preTop.val + p.preBottom.val < 1 := by
    by_contra hc
    have := R.mono (not_lt.mp hc)
    have h1 := R.intFix 1 (by norm_num)
    rw [Int.cast_one] at h1
    rw [h1] at this
    exact absurd hl.pre_lt_one (not_lt.mpr this)
  have habs : |p.nBefore| ≤ 2 ^ 53 := abs_le.mpr ⟨by linarith, hn'⟩
  have hnK : (0 : K) ≤ p.nBefore := by exact_mod_cast hn
  have htop' : R.floorMul p.preTop.val p.nBefore ≤ p.nBefore := by
    apply floorMul_le_of_le R _ habs
    have : p.preTop.val ≤ 1 := by linarith [show 0 ≤ p.preBottom.val from hl.bottom_nonneg]
    nlinarith
  have hbot' : R.floorMul p.preBottom.val p.nBefore ≤ p.nBefore := by
    apply floorMul_le_of_le R _ habs
    have : p.preBottom.val ≤ 1 := by linarith [show 0 ≤ p.preTop.val from hl.top_nonneg]
    nlinarith
  have hpre : (deriveCounts R p).nAfterPre = p.nBefore - R.floorMul p.preTop.val p.nBefore
      - R.floorMul p.preBottom.val p.nBefore := rfl
  have hpost : (deriveCounts R p).nAfterPost = (deriveCounts R p).nAfterPre
      - 2 * R.floorMul p.postTrim.val (deriveCounts R p).nAfterPre := rfl
  have hb : (deriveCounts R p).nBefore = p.nBefore := rfl
  have hpt : (deriveCounts R p).postTrim = p.postTrim := rfl
  have p0 := hl.post_nonneg
  have p1 := hl.post_lt_half
  rw [deriveCounts_params] at p0 p1
  generalize deriveCounts R p = d at *
  have hk : 0 ≤ R.floorMul p.postTrim.val d.nAfterPre := by
    by_cases hneg : 0 ≤ d.nAfterPre
    · exact floorMul_nonneg R p0 hneg
    · exfalso
      have hdiv : |d.nAfterPre / 2| ≤ 2 ^ 53 := abs_le.mpr ⟨by omega, by omega⟩
      have hle : d.nAfterPre / 2 ≤ R.floorMul p.postTrim.val d.nAfterPre := by
        apply le_floorMul_of_le R _ hdiv
        have h1 : ((d.nAfterPre / 2 : ℤ) : K) * 2 ≤ d.nAfterPre := by
          exact_mod_cast Int.ediv_mul_le _ (by norm_num)
        have h2 : (d.nAfterPre : K) < 0 := by exact_mod_cast (not_le.mp hneg)
        nlinarith
      omega
  refine ⟨hpre, ?_, h50, by omega, by omega, _, hk, by omega⟩
  rw [hpost, hpre]; rfl

/-- **C03.**  Writing a design (after any salt was stored in it) and loading the file gives back the
same design.  YAML is trusted to return the mapping that was dumped, in any key order. -/
theorem C03_yaml_round_trip (R : Rounding K) (p : DesignParams K) (d : Design K)
    (h : mkDesign R p = .ok d) (salt : Option String) (dflt05 dflt08 : K) (m : Dict (YVal K))
    (hm : m.Perm ({ d with salt := salt } : Design K).asDict) :
    loadFromDict R dflt05 dflt08 m = .ok { d with salt := salt } := by
  have hkeys : ((({ d with salt := salt } : Design K).asDict).map Prod.fst).Nodup := by
    simp [Design.asDict]
  obtain ⟨rfl, hv⟩ := (mkDesign_ok_iff R p d).mp h
  have hmk : mkDesign R { p with salt := salt } = .ok { deriveCounts R p with salt := salt } := by
    rw [mkDesign_ok_iff]
    refine ⟨rfl, ?_⟩
    rw [validateDesign_ok_iff] at hv ⊢
    exact ⟨⟨hv.1.1, hv.1.2, hv.1.3, hv.1.4, hv.1.5, hv.1.6, hv.1.7, hv.1.8, hv.1.9⟩, hv.2⟩
  have key : ∀ d : Design K, ∀ m : Dict (YVal K), m.Perm d.asDict →
      mkDesign R d.toDesignParams = .ok d → loadFromDict R dflt05 dflt08 m = .ok d := by
    clear * - 
    intro d m hm hd
    have hkeys : (d.asDict.map Prod.fst).Nodup := by simp [Design.asDict]
    have hpop1 : d.asDict.pop "n_items_after_pre_trim" = .ok (.int d.nAfterPre,
        d.asDict.filter (fun e => e.1 ≠ "n_items_after_pre_trim")) := pop_eq_ok.mpr ⟨by
          simp [Design.asDict, List.lookup_cons], rfl⟩
    obtain ⟨m1, e1, q1, k1⟩ := pop_perm hm.symm hkeys hpop1
    have hpop2 : Dict.pop (d.asDict.filter (fun e => e.1 ≠ "n_items_after_pre_trim"))
        "n_items_after_post_trim" = .ok (.int d.nAfterPost, _) := pop_eq_ok.mpr ⟨by
          simp [Design.asDict, List.lookup_cons], rfl⟩
    obtain ⟨m2, e2, q2, k2⟩ := pop_perm q1 k1 hpop2
    have hpar : paramsOfDict dflt05 dflt08 m2 = .ok d.toDesignParams := by
      rw [← paramsOfDict_perm q2 k2]
      have t1 : ∀ t : PyNum K, t.toY.asNum = .ok t := by rintro (_ | _) <;> rfl
      have t2 : ∀ t : Option ℤ, (optIntToY t : YVal K).asOptInt = .ok t := by
        rintro (_ | _) <;> rfl
      have t3 : ∀ t : Option String, (optStrToY t : YVal K).asOptStr = .ok t := by
        rintro (_ | _) <;> rfl
      unfold paramsOfDict
      rw [if_neg (by simp [Design.asDict, initNames])]
      simp only [required, lookup_filter_ne, ne_eq, String.reduceEq, not_false_eq_true,
        Design.asDict, List.lookup_cons, String.reduceBEq, bind, Except.bind, YVal.asInt,
        YVal.asStr, YVal.asBool, t1, t2, t3, Option.getD_some, pure, Except.pure]
    unfold loadFromDict
    simp only [e1, e2, hpar, hd, bind, Except.bind, YVal.eqInt, pure, Except.pure]
    simp
  exact key _ m hm hmk

/-- C03 hypotheses are met: the example design with a salt, dumped with reversed keys, loads back. -/
example : loadFromDict (.exact ℚ) (5 / 100) (8 / 10)
    ({ exampleCrossover with salt := some "abc", nAfterPre := 970, nAfterPost := 952 } :
      Design ℚ).asDict.reverse =
    .ok { exampleCrossover with salt := some "abc", nAfterPre := 970, nAfterPost := 952 } := by
  decide +kernel

/-- Python's comparison of a loaded count with a computed one. -/
theorem eqInt_iff (v : YVal K) (n : ℤ) : v.eqInt n = true ↔ Spec.StoresInt n v := by
  constructor
  · intro h
    match v with
    | .int i => obtain rfl : i = n := by simpa [YVal.eqInt] using h
                exact .int
    | .float x => obtain rfl : x = (n : K) := by simpa [YVal.eqInt] using h
                  exact .float
    | .bool false => exact .no (of_decide_eq_true (h : decide ((0 : ℤ) = n) = true)).symm
    | .bool true => exact .yes (of_decide_eq_true (h : decide ((1 : ℤ) = n) = true)).symm
    | .str _ => cases h
    | .null => cases h
  · rintro (_ | _ | rfl | rfl) <;> simp [YVal.eqInt]

/-- **C04.**  `load_from_yaml` returns `d` only if `d` can be created with the constructor; the file
stores both item counts of `d`, has no unknown key, has all eight required keys, every
constructor argument in the file is the one of `d`, and arguments that are not in the file have their
defaults. -/
theorem C04_load_only_consistent (R : Rounding K) (dflt05 dflt08 : K) (m : Dict (YVal K))
    (d : Design K) (h : loadFromDict R dflt05 dflt08 m = .ok d) :
    mkDesign R d.toDesignParams = .ok d ∧
      (∃ v, m.lookup "n_items_after_pre_trim" = some v ∧ Spec.StoresInt d.nAfterPre v) ∧
      (∃ v, m.lookup "n_items_after_post_trim" = some v ∧ Spec.StoresInt d.nAfterPost v) ∧
      (∀ e ∈ m, e.1 ∈ d.asDict.map Prod.fst) ∧
      (∀ k ∈ initNames.take 8, (m.lookup k).isSome) ∧
      (∀ k ∈ initNames, ∀ v, m.lookup k = some v → d.asDict.lookup k = some v) ∧
      (m.lookup "crossover_washout_weeks" = none → d.washout = none) ∧ (m.lookup "alpha" = none → d.alpha = .float dflt05) ∧
      (m.lookup "power" = none → d.power = .float dflt08) ∧ (m.lookup "coinflip_salt" = none → d.salt = none) := by
  unfold loadFromDict at h
  simp only [Py.bind_eq_ok, Prod.exists] at h
  obtain ⟨pre, m1, h1, post, m2, h2, p, hp, d', hd, hlast⟩ := h
  obtain ⟨l1, rfl⟩ := pop_eq_ok.mp h1
  obtain ⟨l2, rfl⟩ := pop_eq_ok.mp h2
  rw [lookup_filter_ne (by decide)] at l2
  have hd1 : d' = d := by
    split_ifs at hlast; cases hlast; rfl
  subst hd1
  have e1 : pre.eqInt d'.nAfterPre = true := by
    by_contra hc; rw [Bool.not_eq_true] at hc; simp [hc] at hlast
  have e2 : post.eqInt d'.nAfterPost = true := by
    by_contra hc; rw [Bool.not_eq_true] at hc; simp [hc, e1] at hlast
  have hpd : d'.toDesignParams = p := C01_constructor_keeps_parameters R p d' hd
  have hlk : ∀ k ∈ initNames, List.lookup k (List.filter (fun e => e.1 ≠ "n_items_after_post_trim")
      (List.filter (fun e => e.1 ≠ "n_items_after_pre_trim") m)) = m.lookup k := by
    intro k hk
    rw [lookup_filter_ne, lookup_filter_ne]
    · rintro rfl; revert hk; decide
    · rintro rfl; revert hk; decide
  unfold paramsOfDict at hp
  split_ifs at hp with hany
  have hreq : ∀ k v, required (List.filter (fun e => e.1 ≠ "n_items_after_post_trim")
      (List.filter (fun e => e.1 ≠ "n_items_after_pre_trim") m)) k = .ok v →
      k ∈ initNames → m.lookup k = some v := by
    intro k v hr hk
    unfold required at hr
    rw [hlk k hk] at hr
    cases hl : m.lookup k with
    | none => rw [hl] at hr; cases hr
    | some w => rw [hl] at hr; cases hr; rfl
  have i1 : ∀ (v : YVal K) n, v.asInt = .ok n → v = .int n := by
    intro v n hv; cases v <;> cases hv; rfl
  have i2 : ∀ (v : YVal K) n, v.asStr = .ok n → v = .str n := by
    intro v n hv; cases v <;> cases hv; rfl
  have i3 : ∀ (v : YVal K) n, v.asBool = .ok n → v = .bool n := by
    intro v n hv; cases v <;> cases hv; rfl
  have i4 : ∀ (v : YVal K) n, v.asNum = .ok n → v = n.toY := by
    intro v n hv; cases v <;> cases hv <;> rfl
  have i5 : ∀ (v : YVal K) n, v.asOptInt = .ok n → v = optIntToY n := by
    intro v n hv; cases v <;> cases hv <;> rfl
  have i6 : ∀ (v : YVal K) n, v.asOptStr = .ok n → v = optStrToY n := by
    intro v n hv; cases v <;> cases hv <;> rfl
  simp only [Py.bind_eq_ok] at hp
  obtain ⟨v1, r1, v2, r2, v3, r3, v4, r4, v5, r5, v6, r6, v7, r7, v8, r8, n1, a1, n2, a2, n3, a3,
    n4, a4, n5, a5, n6, a6, n7, a7, n8, a8, n9, a9, n10, a10, n11, a11, n12, a12, hfin⟩ := hp
  have hfin' : p = ⟨n1, n2, n3, n4, n5, n6, n7, n8, n9, n10, n11, n12⟩ := by cases hfin; rfl
  replace r1 := hreq _ _ r1 (by decide)
  replace r2 := hreq _ _ r2 (by decide)
  replace r3 := hreq _ _ r3 (by decide)
  replace r4 := hreq _ _ r4 (by decide)
  replace r5 := hreq _ _ r5 (by decide)
  replace r6 := hreq _ _ r6 (by decide)
  replace r7 := hreq _ _ r7 (by decide)
  replace r8 := hreq _ _ r8 (by decide)
  rw [hlk _ (by decide)] at a9 a10 a11 a12
  refine ⟨hpd ▸ hd, ⟨pre, l1, (eqInt_iff _ _).mp e1⟩, ⟨post, l2, (eqInt_iff _ _).mp e2⟩, ?_, ?_, ?_, ?_, ?_, ?_, ?_⟩
  on_goal 4 => intro hv; rw [hv] at a9; cases a9; rw [hpd, hfin']
  on_goal 4 => intro hv; rw [hv] at a10; cases a10; rw [hpd, hfin']
  on_goal 4 => intro hv; rw [hv] at a11; cases a11; rw [hpd, hfin']
  on_goal 4 => intro hv; rw [hv] at a12; cases a12; rw [hpd, hfin']
  · intro e he
    simp only [List.any_eq_true, not_exists, not_and, List.mem_filter] at hany
    by_cases c1 : e.1 = "n_items_after_pre_trim"
    · rw [c1]; simp [Design.asDict]
    · by_cases c2 : e.1 = "n_items_after_post_trim"
      · rw [c2]; simp [Design.asDict]
      · have := hany e ⟨⟨he, by simpa using c1⟩, by simpa using c2⟩
        have hmem : e.1 ∈ initNames := by simpa using this
        have hsub : ∀ k ∈ initNames, k ∈ d'.asDict.map Prod.fst := by
          simp [initNames, Design.asDict]
        exact hsub _ hmem
  · intro k hk
    simp only [initNames, List.take, List.mem_cons, List.not_mem_nil, or_false] at hk
    rcases hk with rfl | rfl | rfl | rfl | rfl | rfl | rfl | rfl
    all_goals simp only [r1, r2, r3, r4, r5, r6, r7, r8, Option.isSome_some]
  · have hdd : ∀ {α : Type} (f : DesignParams K → α), f d'.toDesignParams = f p := by
      intro α f; rw [hpd]
    have f1 : d'.nBefore = n1 := (hdd DesignParams.nBefore).trans (by rw [hfin'])
    have f2 : d'.runtime = n2 := (hdd DesignParams.runtime).trans (by rw [hfin'])
    have f3 : d'.primaryMetric = n3 := (hdd DesignParams.primaryMetric).trans (by rw [hfin'])
    have f4 : d'.pretest = n4 := (hdd DesignParams.pretest).trans (by rw [hfin'])
    have f5 : d'.isCrossover = n5 := (hdd DesignParams.isCrossover).trans (by rw [hfin'])
    have f6 : d'.preTop = n6 := (hdd DesignParams.preTop).trans (by rw [hfin'])
    have f7 : d'.preBottom = n7 := (hdd DesignParams.preBottom).trans (by rw [hfin'])
    have f8 : d'.postTrim = n8 := (hdd DesignParams.postTrim).trans (by rw [hfin'])
    have f9 : d'.washout = n9 := (hdd DesignParams.washout).trans (by rw [hfin'])
    have f10 : d'.alpha = n10 := (hdd DesignParams.alpha).trans (by rw [hfin'])
    have f11 : d'.power = n11 := (hdd DesignParams.power).trans (by rw [hfin'])
    have f12 : d'.salt = n12 := (hdd DesignParams.salt).trans (by rw [hfin'])
    intro k hk v hv
    simp only [initNames, List.mem_cons, List.not_mem_nil, or_false] at hk
    rcases hk with rfl | rfl | rfl | rfl | rfl | rfl | rfl | rfl | rfl | rfl | rfl | rfl <;>
      simp only [Design.asDict, List.lookup_cons, String.reduceBEq]
    · rw [r1] at hv; cases hv; rw [f1, i1 _ _ a1]
    · rw [r2] at hv; cases hv; rw [f2, i1 _ _ a2]
    · rw [r3] at hv; cases hv; rw [f3, i2 _ _ a3]
    · rw [r4] at hv; cases hv; rw [f4, i1 _ _ a4]
    · rw [r5] at hv; cases hv; rw [f5, i3 _ _ a5]
    · rw [r6] at hv; cases hv; rw [f6, i4 _ _ a6]
    · rw [r7] at hv; cases hv; rw [f7, i4 _ _ a7]
    · rw [r8] at hv; cases hv; rw [f8, i4 _ _ a8]
    · rw [hv] at a9; rw [f9, ← i5 _ _ a9]; rfl
    · rw [hv] at a10; rw [f10, ← i4 _ _ a10]; rfl
    · rw [hv] at a11; rw [f11, ← i4 _ _ a11]; rfl
    · rw [hv] at a12; rw [f12, ← i6 _ _ a12]; rfl

/-- **C04.**  Take the file of a design and put any two YAML values (numbers, texts, truth values, nothing) in the place of the two stored counts: it loads, as
that design, if these values are the two counts, and is refused with `ValueError` otherwise. -/
theorem C04_stored_counts_decide (R : Rounding K) (dflt05 dflt08 : K) (d : Design K) (hd : mkDesign R d.toDesignParams = .ok d) (pre post : YVal K) :
    (Spec.StoresInt d.nAfterPre pre ∧ Spec.StoresInt d.nAfterPost post →
      loadFromDict R dflt05 dflt08 (d.asDict.map (fun e => (e.1, if e.1 = "n_items_after_pre_trim" then pre
        else if e.1 = "n_items_after_post_trim" then post else e.2))) = .ok d) ∧
    (¬ (Spec.StoresInt d.nAfterPre pre ∧ Spec.StoresInt d.nAfterPost post) →
      loadFromDict R dflt05 dflt08 (d.asDict.map (fun e => (e.1, if e.1 = "n_items_after_pre_trim" then pre
        else if e.1 = "n_items_after_post_trim" then post else e.2))) = .error .valueError) := by
  have t1 : ∀ t : PyNum K, t.toY.asNum = .ok t := by rintro (_ | _) <;> rfl
  have t2 : ∀ t : Option ℤ, (optIntToY t : YVal K).asOptInt = .ok t := by
    rintro (_ | _) <;> rfl
  have t3 : ∀ t : Option String, (optStrToY t : YVal K).asOptStr = .ok t := by
    rintro (_ | _) <;> rfl
  generalize hm : d.asDict.map (fun e => (e.1, if e.1 = "n_items_after_pre_trim" then pre
        else if e.1 = "n_items_after_post_trim" then post else e.2)) = m
  have hp1 : Dict.pop m "n_items_after_pre_trim" = .ok (pre, _) := pop_eq_ok.mpr ⟨by
          rw [← hm]; simp [Design.asDict, List.lookup_cons], rfl⟩
  have hp2 : Dict.pop (m.filter (fun e => e.1 ≠ "n_items_after_pre_trim")) "n_items_after_post_trim" =
      .ok (post, _) := pop_eq_ok.mpr ⟨by
          rw [← hm]; simp [Design.asDict, List.lookup_cons], rfl⟩
  have hpar : paramsOfDict dflt05 dflt08 ((m.filter (fun e => e.1 ≠ "n_items_after_pre_trim")).filter
      (fun e => e.1 ≠ "n_items_after_post_trim")) = .ok d.toDesignParams := by
    rw [← hm]
    unfold paramsOfDict
    rw [if_neg (by simp [Design.asDict, initNames])]
    simp only [required, lookup_filter_ne, ne_eq, String.reduceEq, not_false_eq_true, List.map_cons, List.map_nil, if_false,
      Design.asDict, List.lookup_cons, String.reduceBEq, bind, Except.bind, YVal.asInt,
      YVal.asStr, YVal.asBool, t1, t2, t3, Option.getD_some, pure, Except.pure]
  unfold loadFromDict
  simp only [hp1, hp2, hpar, hd, bind, Except.bind, pure, Except.pure, ← eqInt_iff]
  constructor
  · rintro ⟨a, b⟩
    simp [a, b]
  · intro h
    by_cases a : pre.eqInt d.nAfterPre = true
    · have b : post.eqInt d.nAfterPost = false := by
        rw [← Bool.not_eq_true]; exact fun b => h ⟨a, b⟩
      simp [a, b]
    · rw [Bool.not_eq_true] at a
      simp [a]

/-- The counts as floats are accepted, other numbers and texts are not. -/
example : loadFromDict (.exact ℚ) (5 / 100) (8 / 10)
    (({ exampleParams with nAfterPre := 970, nAfterPost := 952 } : Design ℚ).asDict.map (fun e => (e.1, if e.1 = "n_items_after_pre_trim" then .float 970
      else if e.1 = "n_items_after_post_trim" then .int 952 else e.2))) = .ok { exampleParams with nAfterPre := 970, nAfterPost := 952 } := by decide +kernel
example : loadFromDict (.exact ℚ) (5 / 100) (8 / 10)
    (({ exampleParams with nAfterPre := 970, nAfterPost := 952 } : Design ℚ).asDict.map (fun e => (e.1, if e.1 = "n_items_after_pre_trim" then .str "970"
      else if e.1 = "n_items_after_post_trim" then .int 952 else e.2))) = .error .valueError := by decide +kernel

/-- **C04.**  A file whose stored count after pre-trimming or after post-trimming differs from the
recomputed one is refused with `ValueError`. -/
theorem C04_inconsistent_counts_raise (R : Rounding K) (dflt05 dflt08 : K) (d : Design K)
    (hd : mkDesign R d.toDesignParams = .ok d) (pre post : ℤ)
    (hne : pre ≠ d.nAfterPre ∨ post ≠ d.nAfterPost) :
    loadFromDict R dflt05 dflt08
      ({ d with nAfterPre := pre, nAfterPost := post } : Design K).asDict = .error .valueError := by
  have t1 : ∀ t : PyNum K, t.toY.asNum = .ok t := by rintro (_ | _) <;> rfl
  have t2 : ∀ t : Option ℤ, (optIntToY t : YVal K).asOptInt = .ok t := by
    rintro (_ | _) <;> rfl
  have t3 : ∀ t : Option String, (optStrToY t : YVal K).asOptStr = .ok t := by
    rintro (_ | _) <;> rfl
  have hp1 : ({ d with nAfterPre := pre, nAfterPost := post } : Design K).asDict.pop
      "n_items_after_pre_trim" = .ok (.int pre, _) := pop_eq_ok.mpr ⟨by
          simp [Design.asDict, List.lookup_cons], rfl⟩
  have hp2 : Dict.pop (({ d with nAfterPre := pre, nAfterPost := post } : Design K).asDict.filter
      (fun e => e.1 ≠ "n_items_after_pre_trim")) "n_items_after_post_trim" =
      .ok (.int post, _) := pop_eq_ok.mpr ⟨by
          simp [Design.asDict, List.lookup_cons], rfl⟩
  have hpar : paramsOfDict dflt05 dflt08
      ((({ d with nAfterPre := pre, nAfterPost := post } : Design K).asDict.filter
      (fun e => e.1 ≠ "n_items_after_pre_trim")).filter
      (fun e => e.1 ≠ "n_items_after_post_trim")) = .ok d.toDesignParams := by
    unfold paramsOfDict
    rw [if_neg (by simp [Design.asDict, initNames])]
    simp only [required, lookup_filter_ne, ne_eq, String.reduceEq, not_false_eq_true,
      Design.asDict, List.lookup_cons, String.reduceBEq, bind, Except.bind, YVal.asInt,
      YVal.asStr, YVal.asBool, t1, t2, t3, Option.getD_some, pure, Except.pure]
  unfold loadFromDict
  simp only [hp1, hp2, hpar, hd, bind, Except.bind, YVal.eqInt, pure, Except.pure]
  rcases hne with hne | hne
  · simp [hne]
  · by_cases hpre : pre = d.nAfterPre <;> simp [hpre, hne]

/-- Tampered and damaged files on concrete designs. -/
example : loadFromDict (.exact ℚ) (5 / 100) (8 / 10)
    ({ exampleParams with nAfterPre := 970, nAfterPost := 953 } : Design ℚ).asDict =
    .error .valueError := by decide +kernel
example : loadFromDict (.exact ℚ) (5 / 100) (8 / 10)
    (({ exampleParams with nAfterPre := 970, nAfterPost := 952 } : Design ℚ).asDict.tail) =
    .error .typeError := by decide +kernel
example : loadFromDict (.exact ℚ) (5 / 100) (8 / 10)
    (({ exampleParams with nAfterPre := 970, nAfterPost := 952 } : Design ℚ).asDict.dropLast) =
    .error .keyError := by decide +kernel

end Feedx
