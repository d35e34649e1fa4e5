import Verif.Proofs.Simulate

/-!
Properties C71-C73: the checks of item numbers, the order of the results, and the robustness checks of the simulations.
-/

set_option linter.unusedSectionVars false
set_option linter.unusedSimpArgs false

namespace Feedx
open Fl

variable {R : Rounding ℝ} {argsort : List ℝ → List ℕ} {D : TDist} {c : SimConfig}

theorem noRt_bootstrap {draws : List ℕ} {w : Wide ℝ} {i : String} : NoRt (bootstrap draws w i) := by
  unfold bootstrap
  exact NoRt.raise (fun _ => by decide) fun _ => NoRt.pure _

theorem noRt_randomAssign {coins : List Bool} {w : Wide ℝ} {i t : String} : NoRt (randomAssign coins w i t) := by
  unfold randomAssign
  refine NoRt.raise (fun _ => by decide) fun _ => NoRt.raise (fun _ => by decide) fun _ => NoRt.raise (fun _ => by decide) fun _ => ?_
  exact NoRt.raise (fun _ => by decide) fun _ => NoRt.raise (fun _ => by decide) fun _ => NoRt.raise (fun _ => by decide) fun _ => NoRt.pure _

theorem noRt_applyEffect {w : Wide ℝ} {m t : String} {b : Bool} {e : Fl ℝ} : NoRt (applyEffect w m b e t) := by
  unfold applyEffect
  refine NoRt.raise (fun _ => by decide) fun _ => NoRt.raise (fun _ => by decide) fun _ => ?_
  exact NoRt.ite (fun _ => NoRt.pure _) fun _ => NoRt.pure _

/-- The statistics for one start week cannot fail for a wrong number of items, and leave complete data complete. -/
theorem complete_week (ha : ArgsortOk argsort) {p : DesignParams ℝ} (hd : mkDesign R p = .ok c.design) (hn : c.design.nBefore ≤ 2 ^ 51)
    {σ : Shuffle} {start : ℤ} {starts : List ℤ} (hs : start ∈ starts) {f : Frame ℝ}
    (hc : Spec.CompleteHistory c.design c.itemCol c.weekCol starts f.rows) :
    NoRt (historicalTable R σ c none start f).1 ∧ ∀ w, (historicalTable R σ c none start f).1 = .ok w →
      NoRt (primaryStats R argsort c.design w) ∧
      Spec.CompleteHistory c.design c.itemCol c.weekCol starts (historicalTable R σ c none start f).2.rows := by
  unfold historicalTable
  rcases hp : pivotTimeAssignment c.design.toDesignParams start [c.design.primaryMetric] c.itemCol c.weekCol none c.periodCol f with ⟨piv, f'⟩
  cases piv with
  | error e =>
    refine ⟨?_, fun w h => by cases h⟩
    have := noRt_pivot (d := c.design.toDesignParams) (start := start) (ms := [c.design.primaryMetric]) (i := c.itemCol) (w := c.weekCol)
      (t := none) (p := c.periodCol) (f := f)
    rw [hp] at this
    intro he
    apply this
    simpa using he
  | ok piv =>
    simp only
    obtain ⟨hlen, hpre⟩ := complete_table hd hp hs hc
    set w0 := piv.wide [c.design.primaryMetric] c.itemCol with hw0
    have hrows : w0.rows.length = piv.index.length := by rw [hw0]; simp [Pivoted.wide]
    have hn0 : (0 : ℤ) ≤ c.design.nBefore := by omega
    have hl0 : (w0.rows.length : ℤ) = c.design.nBefore := by rw [hrows]; exact hlen
    -- the table after the first trimming
    have hw2 : ∀ w2, (if 0 < c.design.pretest then
        trimWide R σ w0 [c.design.primaryMetric, "pretest"] c.design.preTop.val c.design.preBottom.val else .ok w0) = .ok w2 →
        (w2.rows.length : ℤ) = c.design.nAfterPre := by
      intro w2 h2
      split_ifs at h2 with hpos
      · refine (trimWide_count hd hl0 (by omega) ?_ h2).1
        intro r hr
        rw [hw0] at hr
        obtain ⟨k, -, rfl⟩ := List.mem_map.mp hr
        exact hpre hpos k
      · cases h2
        rw [hl0]
        obtain ⟨hdd, hval⟩ := (mkDesign_ok_iff R p c.design).mp hd
        obtain ⟨hl', -⟩ := (validateDesign_ok_iff R _).mp hval
        have hz := hl'.no_pretrim_without_pretest (by have := hl'.pretest_nonneg; omega)
        have hz : p.preTop.val = 0 ∧ p.preBottom.val = 0 := by rw [hdd] at hz; exact hz
        rw [hdd]
        have e : (deriveCounts R p).nAfterPre = p.nBefore - R.floorMul p.preTop.val p.nBefore - R.floorMul p.preBottom.val p.nBefore := rfl
        have e0 : (deriveCounts R p).nBefore = p.nBefore := rfl
        have hf : R.floorMul 0 p.nBefore = 0 := by
          unfold Rounding.floorMul
          rw [zero_mul]
          have := R.intFix 0 (by norm_num)
          simp only [Int.cast_zero] at this
          rw [this]; simp
        rw [e, e0, hz.1, hz.2, hf]; ring
    constructor
    · unfold trimHistorical
      refine NoRt.bind (NoRt.ok _) fun w1 h1 => ?_
      cases h1
      refine NoRt.raise (fun h => absurd hl0 h.2) fun _ => ?_
      refine NoRt.bind (NoRt.ite (fun _ => noRt_trimWide) fun _ => NoRt.ok _) fun w2 h2 => ?_
      exact NoRt.raise (fun h => absurd (hw2 w2 h2) h.2) fun _ => NoRt.pure _
    · intro w h
      refine ⟨?_, complete_pivot hp hc⟩
      unfold trimHistorical at h
      obtain ⟨w1, h1, h⟩ := Py.bind_eq_ok.mp h
      cases h1
      obtain ⟨-, h⟩ := raiseIf_bind_ok.mp h
      obtain ⟨w2, h2, h⟩ := Py.bind_eq_ok.mp h
      obtain ⟨-, h⟩ := raiseIf_bind_ok.mp h
      cases h
      have hl2 := hw2 w h2
      have hmk := @mkTrimmed_count R p c.design hd σ hn0 hn argsort ha
      have hrt : NoRt (if c.design.isCrossover then do
          let y1 ← wideValues w [c.design.primaryMetric, "test_1"]
          let y2 ← wideValues w [c.design.primaryMetric, "test_2"]
          let T ← mkTrimmed R argsort (stack3 y1 y2) c.design.postTrim.val
          raiseIf .outOfModel (T.len ≤ 1)
          return (⟨.fin ((T.mean 1 + T.mean 2) / 2),
            .fin (if 0 < c.design.postTrim.val then T.var 1 0 + (T.mean 1 - T.mean 2) ^ 2 / 4 else T.var 1 0), T.len⟩ : MetricStats)
        else do
          let y ← wideValues w [c.design.primaryMetric, "test"]
          let z ← (if [c.design.primaryMetric, "pretest"] ∈ w.cols then do
              let x ← wideValues w [c.design.primaryMetric, "pretest"]
              cuped R argsort y x c.design.postTrim.val
            else .ok (y.map .fin))
          if onlyNan z = true then return ⟨.nan, .nan, z.length⟩
          else do
            let v ← finiteValues z
            let T ← mkTrimmed R argsort (asStack v) c.design.postTrim.val
            raiseIf .outOfModel (T.len ≤ 1)
            return ⟨.fin (T.mean 0), .fin (T.var 1 0), T.len⟩) := by
        nort
      unfold primaryStats
      refine NoRt.bind hrt fun stats hst => NoRt.raise (fun hne => ?_) fun _ => NoRt.pure _
      exfalso
      apply hne
      by_cases hx : c.design.isCrossover = true
      · rw [if_pos hx] at hst
        obtain ⟨y1, hy1, hst⟩ := Py.bind_eq_ok.mp hst
        obtain ⟨y2, hy2, hst⟩ := Py.bind_eq_ok.mp hst
        obtain ⟨T, hT, hst⟩ := Py.bind_eq_ok.mp hst
        obtain ⟨-, hst⟩ := raiseIf_bind_ok.mp hst
        cases hst
        refine hmk ?_ hT
        unfold stack3
        rw [List.length_zipWith, wideValues_length hy1, wideValues_length hy2, Nat.min_self]
        exact hl2
      · rw [if_neg hx] at hst
        obtain ⟨y, hy, hst⟩ := Py.bind_eq_ok.mp hst
        obtain ⟨z, hz, hst⟩ := Py.bind_eq_ok.mp hst
        have hzl : z.length = y.length := by
          split_ifs at hz with hin
          · obtain ⟨x, -, hz⟩ := Py.bind_eq_ok.mp hz
            exact cuped_length hz
          · cases hz; exact List.length_map _
        split_ifs at hst with hnan
        · cases hst
          split_ifs at hz with hin
          · obtain ⟨x, -, hz⟩ := Py.bind_eq_ok.mp hz
            have hg := (cuped_onlyNan hz hnan).1
            rw [wideValues_length hy] at hg
            rw [hzl, wideValues_length hy]
            exact nAfterPost_untrimmed hd σ hn0 hn ha hl2 hg
          · cases hz
            rw [onlyNan_fin] at hnan; cases hnan
        · obtain ⟨v, hv, hst⟩ := Py.bind_eq_ok.mp hst
          obtain ⟨T, hT, hst⟩ := Py.bind_eq_ok.mp hst
          obtain ⟨-, hst⟩ := raiseIf_bind_ok.mp hst
          cases hst
          refine hmk ?_ hT
          have hvl := congrArg List.length (finiteValues_ok.mp hv)
          rw [List.length_map] at hvl
          unfold asStack
          rw [List.length_map, ← hvl, hzl, wideValues_length hy]
          exact hl2

/-- **C71.**  On historical data that has, for every valid start week, as many items as the design says, estimating the minimum detectable
effect raises no `RuntimeError`: neither the checks of the number of items (also after each trimming) nor the check that the sample
sizes of the start weeks agree can fail, for any ties-breaking shuffle and any sorting. -/
theorem C71_count_checks_unreachable (ha : ArgsortOk argsort) (p : DesignParams ℝ) (hd : mkDesign R p = .ok c.design)
    (hn : c.design.nBefore ≤ 2 ^ 51) (σ : ℤ → Shuffle) (s : SimState)
    (hc : Spec.CompleteHistory c.design c.itemCol c.weekCol c.starts s.data.rows) :
    (estimateMde R argsort D σ c s).1 ≠ .error .runtimeError := by
  have key : ∀ (l : List ℤ) (f : Frame ℝ), (∀ x ∈ l, x ∈ c.starts) → Spec.CompleteHistory c.design c.itemCol c.weekCol c.starts f.rows →
      NoRt (statsOfWeeks R argsort σ c l f).1 ∧ ∀ ss, (statsOfWeeks R argsort σ c l f).1 = .ok ss →
        ∀ x ∈ ss, (x.size : ℤ) = c.design.nAfterPost := by
    intro l
    induction l with
    | nil => intro f _ _; exact ⟨NoRt.ok _, by rintro _ ⟨⟩ x hx; cases hx⟩
    | cons start rest ih =>
      intro f hl hf
      obtain ⟨h1, h2⟩ := complete_week (σ := σ start) ha hd hn (hl start (by simp)) hf
      rw [statsOfWeeks]
      rcases hh : historicalTable R (σ start) c none start f with ⟨w, f'⟩
      rw [hh] at h1 h2
      cases w with
      | error e => exact ⟨by simpa [NoRt] using h1, by rintro _ ⟨⟩⟩
      | ok w =>
        obtain ⟨h3, h4⟩ := h2 w rfl
        simp only
        cases hs : primaryStats R argsort c.design w with
        | error e => rw [hs] at h3; exact ⟨by simpa [NoRt] using h3, by rintro _ ⟨⟩⟩
        | ok st =>
          have hsz : (st.size : ℤ) = c.design.nAfterPost := by
            unfold primaryStats at hs
            obtain ⟨x, -, hs⟩ := Py.bind_eq_ok.mp hs
            obtain ⟨hne, hs⟩ := raiseIf_bind_ok.mp hs
            cases hs
            simpa using hne
          simp only
          obtain ⟨h5, h6⟩ := ih f' (fun x hx => hl x (by simp [hx])) h4
          rcases hr : statsOfWeeks R argsort σ c rest f' with ⟨out, f''⟩
          rw [hr] at h5 h6
          cases out with
          | error e => exact ⟨by simpa [NoRt] using h5, by rintro _ ⟨⟩⟩
          | ok out =>
            refine ⟨NoRt.ok _, ?_⟩
            rintro _ ⟨⟩ x hx
            rcases List.mem_cons.mp hx with rfl | hx
            · exact hsz
            · exact h6 out rfl x hx
  obtain ⟨h1, h2⟩ := key c.starts s.data (fun _ h => h) hc
  unfold estimateMde
  rcases hh : statsOfWeeks R argsort σ c c.starts s.data with ⟨l, f'⟩
  rw [hh] at h1 h2
  cases l with
  | error e => simpa [NoRt] using h1
  | ok l =>
    simp only
    have h3 : NoRt (averageStats l) := by
      unfold averageStats
      split
      · exact NoRt.error (by decide)
      · rename_i x t
        refine NoRt.raise (fun hany => ?_) fun _ => NoRt.pure _
        obtain ⟨y, hy, hne⟩ := List.any_eq_true.mp hany
        have a := h2 _ rfl y hy
        have b := h2 _ rfl x (by simp)
        simp at hne
        omega
    cases ha : averageStats l with
    | error e => rw [ha] at h3; simpa [NoRt] using h3
    | ok a =>
      simp only
      have h4 := noRt_mdeOf (D := D) (d := c.design) (a := a.1) (sd := a.2.1) (n := a.2.2)
      cases hm : mdeOf D c.design a.1 a.2.1 a.2.2 with
      | error e => rw [hm] at h4; simpa [NoRt] using h4
      | ok m => simp

/-- **C71.**  With another number of items at a start week, the table for that week is refused with `RuntimeError`: the checks do notice
incomplete data. -/
theorem C71_other_number_of_items_raises (σ : Shuffle) (start : ℤ) (f f' : Frame ℝ) (piv : Pivoted ℝ)
    (hp : pivotTimeAssignment c.design.toDesignParams start [c.design.primaryMetric] c.itemCol c.weekCol none c.periodCol f = (.ok piv, f'))
    (hne : (piv.index.length : ℤ) ≠ c.design.nBefore) :
    (historicalTable R σ c none start f).1 = .error .runtimeError := by
  unfold historicalTable
  rw [hp]
  simp only
  unfold trimHistorical
  refine Py.bind_eq_error.mpr (Or.inr ⟨_, rfl, ?_⟩)
  exact raiseIf_bind_err.mpr (Or.inl ⟨⟨rfl, by simpa [Pivoted.wide] using hne⟩, rfl⟩)

/-- **C71.**  Once the minimum detectable effect is known, validating the design raises no `RuntimeError` on any data. -/
theorem C71_validation_has_no_count_checks (draws : List SimDraw) (s : SimState) (effect : Fl ℝ) (hs : s.mde = some effect) :
    (validateSim R argsort D c draws s).1 ≠ .error .runtimeError := by
  have key : ∀ (l : List SimDraw) (f : Frame ℝ), NoRt (simulateAll R argsort D c effect l f).1 := by
    intro l
    induction l with
    | nil => intro f; exact NoRt.ok _
    | cons r rest ih =>
      intro f
      rw [simulateAll]
      split_ifs with h0
      · exact NoRt.error (by decide)
      have h1 : NoRt (simulateOnce R argsort D c effect r f).1 := by
        unfold simulateOnce historicalTable
        have hpv := noRt_pivot (d := c.design.toDesignParams) (start := r.start) (ms := [c.design.primaryMetric]) (i := c.itemCol)
          (w := c.weekCol) (t := none) (p := c.periodCol) (f := f)
        rcases hp : pivotTimeAssignment c.design.toDesignParams r.start [c.design.primaryMetric] c.itemCol c.weekCol none c.periodCol f
          with ⟨piv, f'⟩
        rw [hp] at hpv
        cases piv with
        | error e => simpa [NoRt] using hpv
        | ok piv =>
          simp only
          have ht : NoRt (trimHistorical R r.shuffle c (some r.boot) (piv.wide [c.design.primaryMetric] c.itemCol)) := by
            unfold trimHistorical
            refine NoRt.bind noRt_bootstrap fun _ _ => NoRt.raise (fun h => absurd h.1 (by simp)) fun _ => ?_
            refine NoRt.bind (NoRt.ite (fun _ => noRt_trimWide) fun _ => NoRt.ok _) fun _ _ => ?_
            exact NoRt.raise (fun h => absurd h.1 (by simp)) fun _ => NoRt.pure _
          cases hw : trimHistorical R r.shuffle c (some r.boot) (piv.wide [c.design.primaryMetric] c.itemCol) with
          | error e => rw [hw] at ht; simpa [NoRt] using ht
          | ok w =>
            simp only
            refine NoRt.bind noRt_randomAssign fun _ _ => NoRt.bind noRt_analyzeWide fun _ _ => ?_
            refine NoRt.bind noRt_applyEffect fun _ _ => NoRt.bind ?_ fun _ _ => NoRt.pure _
            exact NoRt.ite (fun _ => noRt_analyzeNan) fun _ => noRt_analyzeWide
      rcases hh : simulateOnce R argsort D c effect r f with ⟨x, f'⟩
      rw [hh] at h1
      cases x with
      | error e => simpa [NoRt] using h1
      | ok x =>
        simp only
        have h2 := ih f'
        rcases hr : simulateAll R argsort D c effect rest f' with ⟨y, f''⟩
        rw [hr] at h2
        cases y with
        | error e => simpa [NoRt] using h2
        | ok y => exact NoRt.ok _
  unfold validateSim
  rw [hs]
  simp only
  have := key draws s.data
  rcases hh : simulateAll R argsort D c effect draws s.data with ⟨x, f'⟩
  rw [hh] at this
  cases x with
  | error e => simpa [NoRt] using this
  | ok x => simp

/-! ### C72 -/

/-- The results an object holds after some calls: all of the effect's attributes or none of them, both simulation results (as many of each) or
neither, and simulation results only together with an effect. -/
structure Spec.ResultsInOrder (s : SimState) : Prop where
  relative : s.relativeMde.isSome = s.mde.isSome
  average : s.average.isSome = s.mde.isSome
  sd : s.sd.isSome = s.mde.isSome
  simulations : (s.aa = none ∧ s.ab = none) ∨ (s.mde.isSome ∧ ∃ aa ab, s.aa = some aa ∧ s.ab = some ab ∧ aa.length = ab.length)

/-- An estimate either returns and sets the four attributes of the effect, or raises and leaves all results as they were. -/
theorem estimate_cases (σ : ℤ → Shuffle) (s : SimState) :
    ((estimateMde R argsort D σ c s).1 = .ok () ∧ ∃ data m1 m2 a sd,
      (estimateMde R argsort D σ c s).2 = { s with data := data, mde := some m1, relativeMde := some m2, average := some a, sd := some sd }) ∨
    (∃ e data, (estimateMde R argsort D σ c s).1 = .error e ∧ (estimateMde R argsort D σ c s).2 = { s with data := data }) := by
  unfold estimateMde
  rcases statsOfWeeks R argsort σ c c.starts s.data with ⟨l | l, f'⟩
  · exact Or.inr ⟨_, _, rfl, rfl⟩
  · simp only
    rcases averageStats l with e | a
    · exact Or.inr ⟨_, _, rfl, rfl⟩
    · simp only
      rcases mdeOf D c.design a.1 a.2.1 a.2.2 with e | m
      · exact Or.inr ⟨_, _, rfl, rfl⟩
      · exact Or.inl ⟨rfl, _, _, _, _, _, rfl⟩

theorem simulateAll_length {effect : Fl ℝ} {draws : List SimDraw} {f : Frame ℝ} {l : List (TestResult × TestResult)} {f' : Frame ℝ}
    (h : simulateAll R argsort D c effect draws f = (.ok l, f')) : l.length = draws.length := by
  induction draws generalizing f f' l with
  | nil => rw [simulateAll] at h; cases h; rfl
  | cons r rest ih =>
    rw [simulateAll] at h
    split_ifs at h
    · cases h
    rcases ho : simulateOnce R argsort D c effect r f with ⟨e | x, g⟩
    · rw [ho] at h; cases h
    rw [ho] at h
    simp only at h
    rcases hr : simulateAll R argsort D c effect rest g with ⟨e | y, g'⟩
    · rw [hr] at h; cases h
    rw [hr] at h
    cases h
    simp [ih hr]

/-- A validation either returns and sets both results, one of each per simulation, or raises and leaves all results as they were. -/
theorem validate_cases (draws : List SimDraw) (s : SimState) :
    ((validateSim R argsort D c draws s).1 = .ok () ∧ s.mde.isSome ∧ ∃ data aa ab, aa.length = draws.length ∧ ab.length = draws.length ∧
      (validateSim R argsort D c draws s).2 = { s with data := data, aa := some aa, ab := some ab }) ∨
    (∃ e data, (validateSim R argsort D c draws s).1 = .error e ∧ (validateSim R argsort D c draws s).2 = { s with data := data }) := by
  unfold validateSim
  rcases hm : s.mde with _ | m
  · exact Or.inr ⟨_, s.data, rfl, by simp [← hm]⟩
  · simp only
    rcases hh : simulateAll R argsort D c m draws s.data with ⟨e | l, f'⟩
    · exact Or.inr ⟨_, f', rfl, by simp [← hm]⟩
    · exact Or.inl ⟨rfl, rfl, f', l.map Prod.fst, l.map Prod.snd, by simp [simulateAll_length hh], by simp [simulateAll_length hh], by simp [← hm]⟩

theorem results_step (s : SimState) (h : Spec.ResultsInOrder s) (call : SimCall) :
    Spec.ResultsInOrder (runCall R argsort D c s call).2 := by
  cases call with
  | estimate σ =>
    unfold runCall
    rcases estimate_cases (R := R) (argsort := argsort) (D := D) (c := c) σ s with ⟨-, data, m1, m2, a, sd, e⟩ | ⟨e', data, -, e⟩
    · rw [e]
      refine ⟨rfl, rfl, rfl, ?_⟩
      rcases h.simulations with h1 | ⟨-, h1⟩
      · exact Or.inl h1
      · exact Or.inr ⟨rfl, h1⟩
    · rw [e]; exact ⟨h.relative, h.average, h.sd, h.simulations⟩
  | validate draws =>
    unfold runCall
    rcases validate_cases (R := R) (argsort := argsort) (D := D) (c := c) draws s with ⟨-, hm, data, aa, ab, h1, h2, e⟩ | ⟨e', data, -, e⟩
    · rw [e]
      exact ⟨h.relative, h.average, h.sd, Or.inr ⟨hm, aa, ab, rfl, rfl, by rw [h1, h2]⟩⟩
    · rw [e]; exact ⟨h.relative, h.average, h.sd, h.simulations⟩

theorem results_run (s : SimState) (h : Spec.ResultsInOrder s) (calls : List SimCall) :
    Spec.ResultsInOrder (runSim R argsort D c s calls) := by
  induction calls generalizing s with
  | nil => exact h
  | cons call rest ih => exact ih _ (results_step s h call)

theorem runSim_append (s : SimState) (a b : List SimCall) :
    runSim R argsort D c s (a ++ b) = runSim R argsort D c (runSim R argsort D c s a) b := by
  induction a generalizing s with
  | nil => rfl
  | cons x a ih => exact ih _

/-- A new object holds no results. -/
theorem new_object {design : Design ℝ} {data : Frame ℝ} {i w t a : String} {m : ℤ} {θ : ℝ} {c : SimConfig} {s : SimState}
    (h : mkSimulation design data i w t a m θ = .ok (c, s)) :
    s.data = data ∧ s.mde = none ∧ s.relativeMde = none ∧ s.average = none ∧ s.sd = none ∧ s.aa = none ∧ s.ab = none := by
  unfold mkSimulation at h
  obtain ⟨-, h⟩ := raiseIf_bind_ok.mp h
  obtain ⟨-, h⟩ := raiseIf_bind_ok.mp h
  split at h
  · cases h
  · cases h; exact ⟨rfl, rfl, rfl, rfl, rfl, rfl, rfl⟩

/-- **C72.**  After any sequence of calls on a new object (with any random values, and whatever calls raised) the results are in order: all of
the effect's attributes or none, both simulation results or neither, and simulation results only together with an effect. -/
theorem C72_results_in_order (design : Design ℝ) (data : Frame ℝ) (itemCol weekCol periodCol treatCol : String) (minStart : ℤ) (threshold : ℝ)
    (s : SimState) (h : mkSimulation design data itemCol weekCol periodCol treatCol minStart threshold = .ok (c, s)) (calls : List SimCall) :
    Spec.ResultsInOrder (runSim R argsort D c s calls) := by
  obtain ⟨-, h1, h2, h3, h4, h5, h6⟩ := new_object h
  exact results_run s ⟨by simp [h1, h2], by simp [h1, h3], by simp [h1, h4], Or.inl ⟨h5, h6⟩⟩ calls

/-- **C72.**  After any sequence of calls, an effect is present exactly if one of the estimates returned, and simulation results are present
exactly if one of the validations returned. -/
theorem C72_presence (design : Design ℝ) (data : Frame ℝ) (itemCol weekCol periodCol treatCol : String) (minStart : ℤ) (threshold : ℝ)
    (s : SimState) (h : mkSimulation design data itemCol weekCol periodCol treatCol minStart threshold = .ok (c, s)) (calls : List SimCall) :
    ((runSim R argsort D c s calls).mde.isSome ↔ ∃ before σ after, calls = before ++ .estimate σ :: after ∧
      (runCall R argsort D c (runSim R argsort D c s before) (.estimate σ)).1 = .ok ()) ∧
    ((runSim R argsort D c s calls).aa.isSome ↔ ∃ before draws after, calls = before ++ .validate draws :: after ∧
      (runCall R argsort D c (runSim R argsort D c s before) (.validate draws)).1 = .ok ()) := by
  obtain ⟨-, h1, -, -, -, h5, -⟩ := new_object h
  clear h
  induction calls using List.reverseRecOn with
  | nil => simp [runSim, h1, h5]
  | append_singleton l x ih =>
    have e : runSim R argsort D c s (l ++ [x]) = (runCall R argsort D c (runSim R argsort D c s l) x).2 := by
      rw [runSim_append]; rfl
    rw [e]
    have split1 : ∀ (P : List SimCall → SimCall → Prop), (∃ before y after, l ++ [x] = before ++ y :: after ∧ P before y) ↔
        (∃ before y after, l = before ++ y :: after ∧ P before y) ∨ P l x := by
      intro P
      constructor
      · rintro ⟨before, y, after, he, hP⟩
        rcases List.eq_nil_or_concat after with rfl | ⟨after, z, rfl⟩
        · have := List.append_inj' he rfl
          simp only [List.cons.injEq, and_true] at this
          right; rw [this.1, this.2]; exact hP
        · left
          have he' : l ++ [x] = (before ++ y :: after) ++ [z] := by simpa using he
          exact ⟨before, y, after, (List.append_inj' he' rfl).1, hP⟩
      · rintro (⟨before, y, after, rfl, hP⟩ | hP)
        · exact ⟨before, y, after ++ [x], by simp, hP⟩
        · exact ⟨l, x, [], rfl, hP⟩
    have est : (∃ before σ after, l ++ [x] = before ++ .estimate σ :: after ∧
        (runCall R argsort D c (runSim R argsort D c s before) (.estimate σ)).1 = .ok ()) ↔
        (∃ before σ after, l = before ++ .estimate σ :: after ∧
          (runCall R argsort D c (runSim R argsort D c s before) (.estimate σ)).1 = .ok ()) ∨
        ∃ σ, x = .estimate σ ∧ (runCall R argsort D c (runSim R argsort D c s l) x).1 = .ok () := by
      have := split1 (fun b y => ∃ σ, y = .estimate σ ∧ (runCall R argsort D c (runSim R argsort D c s b) y).1 = .ok ())
      constructor
      · rintro ⟨b, σ, a, he, hP⟩
        rcases this.mp ⟨b, _, a, he, σ, rfl, hP⟩ with ⟨b, _, a, he, σ, rfl, hP⟩ | hP
        · exact Or.inl ⟨b, σ, a, he, hP⟩
        · exact Or.inr hP
      · rintro (⟨b, σ, a, he, hP⟩ | hP)
        · obtain ⟨b, _, a, he, σ, rfl, hP⟩ := this.mpr (Or.inl ⟨b, _, a, he, σ, rfl, hP⟩)
          exact ⟨b, σ, a, he, hP⟩
        · obtain ⟨b, _, a, he, σ, rfl, hP⟩ := this.mpr (Or.inr hP)
          exact ⟨b, σ, a, he, hP⟩
    have val : (∃ before draws after, l ++ [x] = before ++ .validate draws :: after ∧
        (runCall R argsort D c (runSim R argsort D c s before) (.validate draws)).1 = .ok ()) ↔
        (∃ before draws after, l = before ++ .validate draws :: after ∧
          (runCall R argsort D c (runSim R argsort D c s before) (.validate draws)).1 = .ok ()) ∨
        ∃ draws, x = .validate draws ∧ (runCall R argsort D c (runSim R argsort D c s l) x).1 = .ok () := by
      have := split1 (fun b y => ∃ σ, y = .validate σ ∧ (runCall R argsort D c (runSim R argsort D c s b) y).1 = .ok ())
      constructor
      · rintro ⟨b, σ, a, he, hP⟩
        rcases this.mp ⟨b, _, a, he, σ, rfl, hP⟩ with ⟨b, _, a, he, σ, rfl, hP⟩ | hP
        · exact Or.inl ⟨b, σ, a, he, hP⟩
        · exact Or.inr hP
      · rintro (⟨b, σ, a, he, hP⟩ | hP)
        · obtain ⟨b, _, a, he, σ, rfl, hP⟩ := this.mpr (Or.inl ⟨b, _, a, he, σ, rfl, hP⟩)
          exact ⟨b, σ, a, he, hP⟩
        · obtain ⟨b, _, a, he, σ, rfl, hP⟩ := this.mpr (Or.inr hP)
          exact ⟨b, σ, a, he, hP⟩
    rw [est, val, ← ih.1, ← ih.2]
    cases x with
    | estimate σ =>
      simp only [reduceCtorEq, false_and, exists_const, or_false, SimCall.estimate.injEq, exists_and_right, exists_eq', true_and]
      unfold runCall
      rcases estimate_cases (R := R) (argsort := argsort) (D := D) (c := c) σ (runSim R argsort D c s l) with
        ⟨h1, data, m1, m2, a, sd, e⟩ | ⟨e', data, h1, e⟩
      · rw [e, h1]; simp
      · rw [e, h1]; simp
    | validate draws =>
      simp only [reduceCtorEq, false_and, exists_const, or_false, SimCall.validate.injEq, exists_and_right, exists_eq', true_and]
      unfold runCall
      rcases validate_cases (R := R) (argsort := argsort) (D := D) (c := c) draws (runSim R argsort D c s l) with
        ⟨h1, hm, data, aa, ab, -, -, e⟩ | ⟨e', data, h1, e⟩
      · rw [e, h1]; simp
      · rw [e, h1]; simp

/-- **C72.**  A validation raises `RuntimeError` exactly while no estimate has returned, whatever calls were made before; it then changes
nothing. -/
theorem C72_validating_first_raises (design : Design ℝ) (data : Frame ℝ) (itemCol weekCol periodCol treatCol : String) (minStart : ℤ)
    (threshold : ℝ) (s : SimState) (h : mkSimulation design data itemCol weekCol periodCol treatCol minStart threshold = .ok (c, s))
    (calls : List SimCall) (draws : List SimDraw) :
    ((runCall R argsort D c (runSim R argsort D c s calls) (.validate draws)).1 = .error .runtimeError ↔
      ¬ ∃ before σ after, calls = before ++ .estimate σ :: after ∧
        (runCall R argsort D c (runSim R argsort D c s before) (.estimate σ)).1 = .ok ()) ∧
    ((runCall R argsort D c (runSim R argsort D c s calls) (.validate draws)).1 = .error .runtimeError →
      (runCall R argsort D c (runSim R argsort D c s calls) (.validate draws)).2 = runSim R argsort D c s calls) := by
  rw [← (C72_presence design data itemCol weekCol periodCol treatCol minStart threshold s h calls).1]
  generalize runSim R argsort D c s calls = s'
  have hr : runCall R argsort D c s' (.validate draws) = validateSim R argsort D c draws s' := rfl
  rw [hr]
  rcases hm : s'.mde with _ | m
  · have : validateSim R argsort D c draws s' = (.error .runtimeError, s') := by unfold validateSim; rw [hm]
    rw [this]; simp
  · have := C71_validation_has_no_count_checks (R := R) (argsort := argsort) (D := D) (c := c) draws s' m hm
    simp [this]

/-- **C72.**  A call that raises leaves all results as they were. -/
theorem C72_failed_calls_keep_results (s : SimState) (call : SimCall) (e : PyErr) (h : (runCall R argsort D c s call).1 = .error e) :
    ∃ data, (runCall R argsort D c s call).2 = { s with data := data } := by
  cases call with
  | estimate σ =>
    unfold runCall at *
    rcases estimate_cases (R := R) (argsort := argsort) (D := D) (c := c) σ s with ⟨h1, -⟩ | ⟨-, data, -, h2⟩
    · rw [h] at h1; cases h1
    · exact ⟨data, h2⟩
  | validate draws =>
    unfold runCall at *
    rcases validate_cases (R := R) (argsort := argsort) (D := D) (c := c) draws s with ⟨h1, -⟩ | ⟨-, data, -, h2⟩
    · rw [h] at h1; cases h1
    · exact ⟨data, h2⟩

/-! ### C73 -/

/-- **C73.**  After any sequence of calls on a new object, `all_robustness_checks_pass` is `None` exactly if no validation has returned. -/
theorem C73_none_iff_not_validated (X : RobustnessTests) (design : Design ℝ) (data : Frame ℝ) (itemCol weekCol periodCol treatCol : String)
    (minStart : ℤ) (threshold : ℝ) (s : SimState)
    (h : mkSimulation design data itemCol weekCol periodCol treatCol minStart threshold = .ok (c, s)) (calls : List SimCall) :
    allChecksPass X c (runSim R argsort D c s calls) = .ok none ↔
      ¬ ∃ before draws after, calls = before ++ .validate draws :: after ∧
        (runCall R argsort D c (runSim R argsort D c s before) (.validate draws)).1 = .ok () := by
  rw [← (C72_presence design data itemCol weekCol periodCol treatCol minStart threshold s h calls).2]
  have hio := C72_results_in_order (R := R) (argsort := argsort) (D := D) design data itemCol weekCol periodCol treatCol minStart threshold s h calls
  set s' := runSim R argsort D c s calls
  rcases hio.simulations with ⟨h1, h2⟩ | ⟨hm, aa, ab, h1, h2, hl⟩
  · rw [h1]
    simp only [Option.isSome_none, Bool.false_eq_true, not_false_eq_true, iff_true]
    unfold allChecksPass robustnessChecks aboveThreshold nullPValue powerPValue falsePositivePValue aaPointPValue abPointPValue
    simp only [h1]
    rfl
  · rw [h1]
    simp only [Option.isSome_some, not_true_eq_false, iff_false]
    obtain ⟨m, hm⟩ := Option.isSome_iff_exists.mp hm
    unfold allChecksPass robustnessChecks aboveThreshold nullPValue powerPValue falsePositivePValue aaPointPValue abPointPValue abResults
      significant resultColumn
    simp only [h1, h2, hm]
    by_cases he : aa = []
    · subst he
      simp [raiseIf, bind, Except.bind, List.mapM_cons]
    · have he' : ab ≠ [] := by
        intro hc; apply he; rw [hc] at hl; exact List.length_eq_zero_iff.mp hl
      simp [raiseIf, bind, Except.bind, List.mapM_cons, he, he', pure, Except.pure]

/-- The p-value is at least the threshold (a missing number is not). -/
def Spec.AtLeast (θ : ℝ) (p : Fl ℝ) : Prop := p = .pinf ∨ ∃ x, p = .fin x ∧ θ ≤ x

theorem atLeast_iff (θ : ℝ) (p : Fl ℝ) : Fl.le (.fin θ) p = true ↔ Spec.AtLeast θ p := by
  unfold Spec.AtLeast
  cases p <;> simp [Fl.le]

/-- **C73.**  When the object holds the results `aa` and `ab` of at least one simulation and the effect `m`, `all_robustness_checks_pass` returns
`True` or `False`, and `True` exactly if each of the five p-values - uniformity of the A/A p-values, number of significant A/B results against
the power, number of significant A/A results against alpha, average A/A effect against 0, average A/B effect against `m` - is at least the
threshold. -/
theorem C73_true_iff_five_checks (X : RobustnessTests) (s : SimState) (aa ab : List TestResult) (m : Fl ℝ) (h1 : s.aa = some aa)
    (h2 : s.ab = some ab) (hm : s.mde = some m) (hne : aa ≠ []) (hne' : ab ≠ []) :
    ∃ b, allChecksPass X c s = .ok (some b) ∧ (b = true ↔
      Spec.AtLeast c.threshold (X.ks (aa.map TestResult.pValue)) ∧
      Spec.AtLeast c.threshold (X.binom (ab.countP (fun r => Fl.lt r.pValue (.fin c.design.alpha.val))) ab.length c.design.power.val "less") ∧
      Spec.AtLeast c.threshold (X.binom (aa.countP (fun r => Fl.lt r.pValue (.fin c.design.alpha.val))) aa.length c.design.alpha.val "greater") ∧
      Spec.AtLeast c.threshold (X.t1 (aa.map TestResult.absoluteDifference) (.fin 0)) ∧
      Spec.AtLeast c.threshold (X.t1 (ab.map TestResult.absoluteDifference) m)) := by
  refine ⟨?_, ?_⟩
  rotate_left
  · constructor
    · unfold allChecksPass robustnessChecks aboveThreshold nullPValue powerPValue falsePositivePValue aaPointPValue abPointPValue abResults
        significant resultColumn
      simp only [h1, h2, hm]
      simp only [raiseIf, bind, Except.bind, List.mapM_cons, hne, hne', pure, Except.pure, if_false, List.mapM_nil, id, Option.map_some,
        List.any_cons, reduceCtorEq, decide_false, Bool.false_or, List.any_nil, Bool.false_eq_true, List.countP_map, List.length_map]
      rfl
    · simp only [List.all_cons, List.all_nil, Bool.and_true, Option.getD_some, Bool.and_eq_true, atLeast_iff]
      rfl

/-- **C73.**  After a validation with no simulations at all (`n_simulations=0`) the check raises `KeyError` instead. -/
theorem C73_without_simulations_raises (X : RobustnessTests) (s : SimState) (h1 : s.aa = some []) :
    allChecksPass X c s = .error .keyError := by
  unfold allChecksPass robustnessChecks aboveThreshold nullPValue resultColumn
  simp only [h1]
  simp [raiseIf, bind, Except.bind, List.mapM_cons]

end Feedx
