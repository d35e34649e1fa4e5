import Verif.Props.SimulateValidate

/-!
Property C97: what an estimate or a validation returns does not depend on the calls before it.
-/

set_option linter.unusedSectionVars false
set_option linter.unusedSimpArgs false

namespace Feedx
open Fl

variable {R : Rounding ℝ} {argsort : List ℝ → List ℕ} {D : TDist} {c : SimConfig}

/-- The start weeks that the generator chooses are valid ones (`rng.choice` of the valid start weeks). -/
def Spec.ValidStarts (c : SimConfig) (call : SimCall) : Prop :=
  match call with
  | .estimate _ => True
  | .validate draws => ∀ r ∈ draws, r.start ∈ c.starts

/-- What is kept of usable data. -/
def Kept (c : SimConfig) (f f' : Frame ℝ) : Prop :=
  Spec.UsableHistory c.design c.itemCol c.weekCol c.periodCol c.starts f' ∧ SamePivots c f f'

theorem Kept.trans {f g h : Frame ℝ} (h1 : Kept c f g) (h2 : Kept c g h) : Kept c f h := ⟨h2.1, h1.2.trans h2.2⟩

theorem kept_historical {p : DesignParams ℝ} (hd : mkDesign R p = .ok c.design) {σ : Shuffle} {boot : Option (List ℕ)} {start : ℤ}
    (hs : start ∈ c.starts) {f : Frame ℝ} (hu : Spec.UsableHistory c.design c.itemCol c.weekCol c.periodCol c.starts f) :
    Kept c f (historicalTable R σ c boot start f).2 := by
  obtain ⟨piv, f', hp, hu', -⟩ := usable_pivot hd hs hu
  unfold historicalTable
  rw [hp]
  exact ⟨hu', same_of_pivot hp⟩

theorem kept_stats {p : DesignParams ℝ} (hd : mkDesign R p = .ok c.design) {σ : ℤ → Shuffle} {l : List ℤ} (hl : ∀ x ∈ l, x ∈ c.starts)
    {f : Frame ℝ} (hu : Spec.UsableHistory c.design c.itemCol c.weekCol c.periodCol c.starts f) :
    Kept c f (statsOfWeeks R argsort σ c l f).2 := by
  induction l generalizing f with
  | nil => exact ⟨hu, SamePivots.refl c f⟩
  | cons start rest ih =>
    have h1 := kept_historical (σ := σ start) (boot := none) hd (hl start (by simp)) hu
    rw [statsOfWeeks]
    rcases hh : historicalTable R (σ start) c none start f with ⟨r, g⟩
    rw [hh] at h1
    cases r with
    | error e => exact h1
    | ok w =>
      simp only
      cases primaryStats R argsort c.design w with
      | error e => exact h1
      | ok s =>
        simp only
        have h2 := ih (fun x hx => hl x (by simp [hx])) h1.1
        rcases hr : statsOfWeeks R argsort σ c rest g with ⟨q, g'⟩
        rw [hr] at h2
        cases q <;> exact h1.trans h2

theorem kept_once {p : DesignParams ℝ} (hd : mkDesign R p = .ok c.design) {e : Fl ℝ} {r : SimDraw} (hs : r.start ∈ c.starts)
    {f : Frame ℝ} (hu : Spec.UsableHistory c.design c.itemCol c.weekCol c.periodCol c.starts f) :
    Kept c f (simulateOnce R argsort D c e r f).2 := by
  have h1 := kept_historical (σ := r.shuffle) (boot := some r.boot) hd hs hu
  unfold simulateOnce
  rcases hh : historicalTable R r.shuffle c (some r.boot) r.start f with ⟨q, g⟩
  rw [hh] at h1
  cases q <;> exact h1

theorem kept_all {p : DesignParams ℝ} (hd : mkDesign R p = .ok c.design) {e : Fl ℝ} {draws : List SimDraw} (hs : ∀ r ∈ draws, r.start ∈ c.starts)
    {f : Frame ℝ} (hu : Spec.UsableHistory c.design c.itemCol c.weekCol c.periodCol c.starts f) :
    Kept c f (simulateAll R argsort D c e draws f).2 := by
  induction draws generalizing f with
  | nil => exact ⟨hu, SamePivots.refl c f⟩
  | cons r rest ih =>
    rw [simulateAll]
    split_ifs with h0
    · exact ⟨hu, SamePivots.refl c f⟩
    have h1 := kept_once (argsort := argsort) (D := D) (e := e) hd (hs r (by simp)) hu
    rcases hh : simulateOnce R argsort D c e r f with ⟨q, g⟩
    rw [hh] at h1
    cases q with
    | error x => exact h1
    | ok x =>
      simp only
      have h2 := ih (fun x hx => hs x (by simp [hx])) h1.1
      rcases hr : simulateAll R argsort D c e rest g with ⟨q, g'⟩
      rw [hr] at h2
      cases q <;> exact h1.trans h2

theorem kept_call {p : DesignParams ℝ} (hd : mkDesign R p = .ok c.design) {s : SimState} {call : SimCall} (hv : Spec.ValidStarts c call)
    (hu : Spec.UsableHistory c.design c.itemCol c.weekCol c.periodCol c.starts s.data) : Kept c s.data (runCall R argsort D c s call).2.data := by
  cases call with
  | estimate σ =>
    have h := kept_stats (argsort := argsort) (σ := σ) hd (fun _ h => h) hu
    show Kept c s.data (estimateMde R argsort D σ c s).2.data
    unfold estimateMde
    rcases hst : statsOfWeeks R argsort σ c c.starts s.data with ⟨r, f⟩
    rw [hst] at h
    cases r with
    | error x => exact h
    | ok l =>
      simp only
      split
      · exact h
      · split <;> exact h
  | validate draws =>
    show Kept c s.data (validateSim R argsort D c draws s).2.data
    unfold validateSim
    cases hm : s.mde with
    | none => exact ⟨hu, SamePivots.refl c _⟩
    | some e =>
      have h := kept_all (argsort := argsort) (D := D) (e := e) hd hv hu
      simp only
      rcases hst : simulateAll R argsort D c e draws s.data with ⟨r, f⟩
      rw [hst] at h
      cases r <;> exact h

theorem kept_run {p : DesignParams ℝ} (hd : mkDesign R p = .ok c.design) {calls : List SimCall} {s : SimState}
    (hv : ∀ call ∈ calls, Spec.ValidStarts c call)
    (hu : Spec.UsableHistory c.design c.itemCol c.weekCol c.periodCol c.starts s.data) : Kept c s.data (runSim R argsort D c s calls).data := by
  induction calls generalizing s with
  | nil => exact ⟨hu, SamePivots.refl c _⟩
  | cons call rest ih =>
    have h1 := kept_call (argsort := argsort) (D := D) hd (hv call (by simp)) hu
    exact h1.trans (ih (fun x hx => hv x (by simp [hx])) h1.1)

theorem returned_run {calls : List SimCall} {s : SimState}
    (h : ∀ pre call post, calls = pre ++ call :: post → (runCall R argsort D c (runSim R argsort D c s pre) call).1 = .ok ()) :
    SamePivots c s.data (runSim R argsort D c s calls).data := by
  induction calls generalizing s with
  | nil => exact SamePivots.refl c _
  | cons call rest ih =>
    have h1 : (runCall R argsort D c s call).1 = .ok () := h [] call rest rfl
    refine (same_of_call h1).trans (ih (s := (runCall R argsort D c s call).2) ?_)
    intro pre call' post e
    exact h (call :: pre) call' post (by rw [e]; rfl)

theorem estimate_same {σ : ℤ → Shuffle} {s s' : SimState} (h : SamePivots c s.data s'.data) :
    (estimateMde R argsort D σ c s').1 = (estimateMde R argsort D σ c s).1 ∧
    ((estimateMde R argsort D σ c s).1 = .ok () →
      (estimateMde R argsort D σ c s').2.mde = (estimateMde R argsort D σ c s).2.mde ∧
      (estimateMde R argsort D σ c s').2.relativeMde = (estimateMde R argsort D σ c s).2.relativeMde ∧
      (estimateMde R argsort D σ c s').2.average = (estimateMde R argsort D σ c s).2.average ∧
      (estimateMde R argsort D σ c s').2.sd = (estimateMde R argsort D σ c s).2.sd) := by
  have e := statsOfWeeks_same (R := R) (argsort := argsort) (σ := σ) (l := c.starts) h
  unfold estimateMde
  rcases h1 : statsOfWeeks R argsort σ c c.starts s.data with ⟨r, f⟩
  rcases h2 : statsOfWeeks R argsort σ c c.starts s'.data with ⟨r', f'⟩
  rw [h1, h2] at e
  have e : r' = r := e
  subst e
  cases r' with
  | error x => exact ⟨rfl, fun h => by cases h⟩
  | ok l =>
    simp only
    cases averageStats l with
    | error x => exact ⟨rfl, fun h => by cases h⟩
    | ok a =>
      simp only
      cases mdeOf D c.design a.1 a.2.1 a.2.2 with
      | error x => exact ⟨rfl, fun h => by cases h⟩
      | ok m => exact ⟨rfl, fun _ => ⟨rfl, rfl, rfl, rfl⟩⟩

theorem validate_same {draws : List SimDraw} {s s' : SimState} (h : SamePivots c s.data s'.data) (hm : s'.mde = s.mde) :
    (validateSim R argsort D c draws s').1 = (validateSim R argsort D c draws s).1 ∧
    ((validateSim R argsort D c draws s).1 = .ok () →
      (validateSim R argsort D c draws s').2.aa = (validateSim R argsort D c draws s).2.aa ∧
      (validateSim R argsort D c draws s').2.ab = (validateSim R argsort D c draws s).2.ab) := by
  unfold validateSim
  rw [hm]
  cases hm' : s.mde with
  | none => exact ⟨rfl, fun h => by cases h⟩
  | some e =>
    have e' := simulateAll_same (R := R) (argsort := argsort) (D := D) (e := e) (draws := draws) h
    simp only
    rcases h1 : simulateAll R argsort D c e draws s.data with ⟨r, f⟩
    rcases h2 : simulateAll R argsort D c e draws s'.data with ⟨r', f'⟩
    rw [h1, h2] at e'
    have e' : r' = r := e'
    subst e'
    cases r' with
    | error x => exact ⟨rfl, fun h => by cases h⟩
    | ok l => exact ⟨rfl, fun _ => ⟨rfl, rfl⟩⟩

/-- **C97, estimating.**  On usable historical data, whatever calls were made before and whatever they raised, estimating with the same random
tie-breaking has the same outcome as on the fresh object: the same error, or the same effect, relative effect, average and deviation. -/
theorem C97_estimate_repeatable (p : DesignParams ℝ) (hd : mkDesign R p = .ok c.design) (s : SimState)
    (hu : Spec.UsableHistory c.design c.itemCol c.weekCol c.periodCol c.starts s.data) (calls : List SimCall)
    (hv : ∀ call ∈ calls, Spec.ValidStarts c call) (σ : ℤ → Shuffle) :
    (estimateMde R argsort D σ c (runSim R argsort D c s calls)).1 = (estimateMde R argsort D σ c s).1 ∧
    ((estimateMde R argsort D σ c s).1 = .ok () →
      (estimateMde R argsort D σ c (runSim R argsort D c s calls)).2.mde = (estimateMde R argsort D σ c s).2.mde ∧
      (estimateMde R argsort D σ c (runSim R argsort D c s calls)).2.relativeMde = (estimateMde R argsort D σ c s).2.relativeMde ∧
      (estimateMde R argsort D σ c (runSim R argsort D c s calls)).2.average = (estimateMde R argsort D σ c s).2.average ∧
      (estimateMde R argsort D σ c (runSim R argsort D c s calls)).2.sd = (estimateMde R argsort D σ c s).2.sd) :=
  estimate_same (kept_run hd hv hu).2

/-- **C97, validating.**  On usable historical data, two validations with the same random choices and the same effect have the same outcome and
the same results, whatever happened in between. -/
theorem C97_validation_repeatable (p : DesignParams ℝ) (hd : mkDesign R p = .ok c.design) (s : SimState)
    (hu : Spec.UsableHistory c.design c.itemCol c.weekCol c.periodCol c.starts s.data) (calls : List SimCall)
    (hv : ∀ call ∈ calls, Spec.ValidStarts c call) (hm : (runSim R argsort D c s calls).mde = s.mde) (draws : List SimDraw) :
    (validateSim R argsort D c draws (runSim R argsort D c s calls)).1 = (validateSim R argsort D c draws s).1 ∧
    ((validateSim R argsort D c draws s).1 = .ok () →
      (validateSim R argsort D c draws (runSim R argsort D c s calls)).2.aa = (validateSim R argsort D c draws s).2.aa ∧
      (validateSim R argsort D c draws (runSim R argsort D c s calls)).2.ab = (validateSim R argsort D c draws s).2.ab) :=
  validate_same (kept_run hd hv hu).2 hm

/-- **C97, any data.**  The same for arbitrary data, as long as the calls in between returned. -/
theorem C97_repeatable_after_returned_calls (s : SimState) (calls : List SimCall)
    (h : ∀ pre call post, calls = pre ++ call :: post → (runCall R argsort D c (runSim R argsort D c s pre) call).1 = .ok ()) :
    (∀ σ, (estimateMde R argsort D σ c (runSim R argsort D c s calls)).1 = (estimateMde R argsort D σ c s).1 ∧
      ((estimateMde R argsort D σ c s).1 = .ok () →
        (estimateMde R argsort D σ c (runSim R argsort D c s calls)).2.mde = (estimateMde R argsort D σ c s).2.mde)) ∧
    ((runSim R argsort D c s calls).mde = s.mde → ∀ draws,
      (validateSim R argsort D c draws (runSim R argsort D c s calls)).1 = (validateSim R argsort D c draws s).1 ∧
      ((validateSim R argsort D c draws s).1 = .ok () →
        (validateSim R argsort D c draws (runSim R argsort D c s calls)).2.aa = (validateSim R argsort D c draws s).2.aa ∧
        (validateSim R argsort D c draws (runSim R argsort D c s calls)).2.ab = (validateSim R argsort D c draws s).2.ab)) := by
  have hs := returned_run h
  exact ⟨fun σ => ⟨(estimate_same hs).1, fun h => ((estimate_same hs).2 h).1⟩, fun hm draws => validate_same hs hm⟩

/-- The first trimming keeps all rows when its counts are zero. -/
theorem historical_no_trimming {p : DesignParams ℝ} (hd : mkDesign R p = .ok c.design) (hn : c.design.nBefore ≤ 2 ^ 51)
    (hz : c.design.nAfterPre = c.design.nBefore) {σ : Shuffle} {start : ℤ} (hs : start ∈ c.starts) {f : Frame ℝ}
    (hu : Spec.UsableHistory c.design c.itemCol c.weekCol c.periodCol c.starts f) :
    ∃ piv f', pivotTimeAssignment c.design.toDesignParams start [c.design.primaryMetric] c.itemCol c.weekCol none c.periodCol f = (.ok piv, f') ∧
      historicalTable R σ c none start f = (.ok (piv.wide [c.design.primaryMetric] c.itemCol), f') := by
  obtain ⟨piv, f', hp, hu', hper, hper', hval⟩ := usable_pivot hd hs hu
  refine ⟨piv, f', hp, ?_⟩
  obtain ⟨hlen, hpre⟩ := complete_table hd hp hs hu.complete
  set w0 := piv.wide [c.design.primaryMetric] c.itemCol with hw0
  have hl0 : (w0.rows.length : ℤ) = c.design.nBefore := by rw [hw0]; simpa [Pivoted.wide] using hlen
  have hw2 : (if 0 < c.design.pretest then
      trimWide R σ w0 [c.design.primaryMetric, "pretest"] c.design.preTop.val c.design.preBottom.val else .ok w0) = .ok w0 := by
    split_ifs with hpos
    · have hnan : ∀ r ∈ w0.rows, r.val [c.design.primaryMetric, "pretest"] ≠ .nan := by
        intro r hr
        rw [hw0] at hr
        obtain ⟨k, -, rfl⟩ := List.mem_map.mp hr
        exact hpre hpos k
      have hcol : [c.design.primaryMetric, "pretest"] ∈ w0.cols := by
        rw [hw0]
        have hmem : ("pretest", start - c.design.pretest, start) ∈ Spec.timeline c.design.toDesignParams start := by
          unfold Spec.timeline
          split_ifs <;> simp [Spec.crossoverTimeline, Spec.regularTimeline]
        have := hper _ _ _ hmem (by omega)
        simp only [Pivoted.wide, List.flatMap_cons, List.flatMap_nil, List.append_nil, List.mem_map]
        exact ⟨_, this, rfl⟩
      obtain ⟨w', hw', -⟩ := trimWide_returns (σ := σ) hd hcol hl0 (by omega) hnan
      have hc := (trimWide_count hd hl0 (by omega) hnan hw').1
      obtain ⟨hsub, e1, e2⟩ := trimWide_sublist hw'
      have e3 : w'.rows = w0.rows := hsub.eq_of_length (by omega)
      have : w' = w0 := by
        cases w'
        simp only at e1 e2 e3
        rw [e1, e2, e3]
      rw [hw', this]
    · rfl
  unfold historicalTable
  rw [hp]
  simp only [Prod.mk.injEq, and_true]
  unfold trimHistorical
  refine Py.bind_eq_ok.mpr ⟨_, rfl, raiseIf_bind_ok.mpr ⟨fun h => h.2 hl0, Py.bind_eq_ok.mpr ⟨_, hw2, raiseIf_bind_ok.mpr ⟨fun h => h.2 ?_, rfl⟩⟩⟩⟩
  rw [hz]
  exact hl0

/-- **C97, no randomness without a first trimming.**  On usable data, when the design trims no items before the experiment, the estimate does
not depend on the random generator at all. -/
theorem C97_estimate_not_random (p : DesignParams ℝ) (hd : mkDesign R p = .ok c.design) (hn : c.design.nBefore ≤ 2 ^ 51)
    (hz : c.design.nAfterPre = c.design.nBefore) (s : SimState)
    (hu : Spec.UsableHistory c.design c.itemCol c.weekCol c.periodCol c.starts s.data) (σ τ : ℤ → Shuffle) :
    estimateMde R argsort D σ c s = estimateMde R argsort D τ c s := by
  have key : ∀ (l : List ℤ) (f : Frame ℝ), (∀ x ∈ l, x ∈ c.starts) →
      Spec.UsableHistory c.design c.itemCol c.weekCol c.periodCol c.starts f →
      statsOfWeeks R argsort σ c l f = statsOfWeeks R argsort τ c l f := by
    intro l
    induction l with
    | nil => intro f _ _; rfl
    | cons start rest ih =>
      intro f hl hf
      obtain ⟨piv, f', hp, h1⟩ := historical_no_trimming (σ := σ start) hd hn hz (hl start (by simp)) hf
      obtain ⟨piv2, f2, hp2, h2⟩ := historical_no_trimming (σ := τ start) hd hn hz (hl start (by simp)) hf
      rw [hp] at hp2
      cases hp2
      have hk := kept_historical (R := R) (σ := σ start) (boot := none) hd (hl start (by simp)) hf
      rw [h1] at hk
      rw [statsOfWeeks, statsOfWeeks, h1, h2]
      simp only
      rw [ih f' (fun x hx => hl x (by simp [hx])) hk.1]
  unfold estimateMde
  rw [key c.starts s.data (fun _ h => h) hu]

/-- **C97, the effect is settled by the first estimate.**  In that case every later estimate, after any calls, finds the same effect. -/
theorem C97_effect_settled (p : DesignParams ℝ) (hd : mkDesign R p = .ok c.design) (hn : c.design.nBefore ≤ 2 ^ 51)
    (hz : c.design.nAfterPre = c.design.nBefore) (s : SimState)
    (hu : Spec.UsableHistory c.design c.itemCol c.weekCol c.periodCol c.starts s.data) (σ : ℤ → Shuffle)
    (h1 : (estimateMde R argsort D σ c s).1 = .ok ()) (calls : List SimCall) (hv : ∀ call ∈ calls, Spec.ValidStarts c call) :
    (runSim R argsort D c s (.estimate σ :: calls)).mde = (estimateMde R argsort D σ c s).2.mde := by
  have hk := kept_call (argsort := argsort) (D := D) (call := .estimate σ) hd trivial hu
  have gen : ∀ (calls : List SimCall) (t : SimState), (∀ call ∈ calls, Spec.ValidStarts c call) → Kept c s.data t.data →
      t.mde = (estimateMde R argsort D σ c s).2.mde → (runSim R argsort D c t calls).mde = (estimateMde R argsort D σ c s).2.mde := by
    intro calls
    induction calls with
    | nil => intro t _ _ h; exact h
    | cons call rest ih =>
      intro t hv ht hm
      refine ih _ (fun x hx => hv x (by simp [hx])) (ht.trans (kept_call hd (hv call (by simp)) ht.1)) ?_
      cases call with
      | estimate τ =>
        show (estimateMde R argsort D τ c t).2.mde = _
        rw [C97_estimate_not_random p hd hn hz t ht.1 τ σ]
        exact ((estimate_same ht.2).2 h1).1
      | validate draws =>
        show (validateSim R argsort D c draws t).2.mde = _
        rcases validate_cases (R := R) (argsort := argsort) (D := D) (c := c) draws t with ⟨-, -, data, aa', ab', -, -, h8⟩ | ⟨x, data, -, h8⟩
        · rw [h8]; exact hm
        · rw [h8]; exact hm
  exact gen calls _ hv hk rfl

/-- **C97, data with gaps.**  The exception: a call that raised `KeyError` because no row is in the test weeks leaves the working column in the
data, and from then on every estimate, and every validation with at least one simulation, raises `ValueError`. -/
theorem C97_gap_blocks_later_calls (s : SimState) (f : Frame ℝ) (start : ℤ)
    (hp : pivotTimeAssignment c.design.toDesignParams start [c.design.primaryMetric] c.itemCol c.weekCol none c.periodCol s.data = (.error .keyError, f))
    (hne : c.starts ≠ []) :
    (∀ σ t, t.data = f → (estimateMde R argsort D σ c t).1 = .error .valueError ∧ (estimateMde R argsort D σ c t).2.data = f) ∧
    (∀ draws t, t.data = f → t.mde.isSome → draws ≠ [] →
      (validateSim R argsort D c draws t).1 = .error .valueError ∧ (validateSim R argsort D c draws t).2.data = f) := by
  have hcol : c.periodCol ∈ f.cols := by
    unfold pivotTimeAssignment at hp
    split_ifs at hp with h1 h2
    · cases hp
    · cases hp
    · cases hg : labelRows c.design.toDesignParams start c.weekCol c.periodCol s.data with
      | error e =>
        rw [hg] at hp
        unfold labelRows at hg
        rcases raiseIf_bind_err.mp hg with ⟨-, rfl⟩ | ⟨-, hg⟩
        · cases hp
        · rcases raiseIf_bind_err.mp hg with ⟨-, rfl⟩ | ⟨-, hg⟩
          · cases hp
          · cases hg
      | ok g =>
        rw [hg] at hp
        simp only at hp
        split_ifs at hp with h3
        · cases hp
          rw [labelRows_ok hg]
          simp [Frame.setCol, h1]
        · cases hp
  have hpiv : ∀ start, pivotTimeAssignment c.design.toDesignParams start [c.design.primaryMetric] c.itemCol c.weekCol none c.periodCol f =
      (.error .valueError, f) := by
    intro start
    unfold pivotTimeAssignment
    rw [if_pos hcol]
  constructor
  · rintro σ t rfl
    obtain ⟨a, l, hl⟩ := List.exists_cons_of_ne_nil hne
    unfold estimateMde
    rw [hl, statsOfWeeks]
    unfold historicalTable
    rw [hpiv]
    exact ⟨rfl, rfl⟩
  · rintro draws t rfl hm hd
    obtain ⟨e, he⟩ := Option.isSome_iff_exists.mp hm
    obtain ⟨r, rest, rfl⟩ := List.exists_cons_of_ne_nil hd
    unfold validateSim
    rw [he]
    simp only
    rw [simulateAll, if_neg hne]
    unfold simulateOnce historicalTable
    rw [hpiv]
    exact ⟨rfl, rfl⟩

/-- C97 is not vacuous: the same estimate comes back after an estimate and two validations. -/
example (R : Rounding ℝ) (D : TDist) (σ : ℤ → Shuffle) (τ : Shuffle) :
    (estimateMde R stableArgsort D σ simConfig (runSim R stableArgsort D simConfig simState
      [.estimate σ, .validate [alternatingDraw τ, alternatingDraw τ]])).1 = .ok () ∧
    (runSim R stableArgsort D simConfig simState [.estimate σ, .validate [alternatingDraw τ], .estimate σ]).mde =
      (estimateMde R stableArgsort D σ simConfig simState).2.mde := by
  have h1 := (C71_estimation_succeeds (D := D) (c := simConfig) stableArgsort_ok simParams (simDesign_created R) (by decide)
    σ simState (by rw [simConfig_starts]; simp) simData_usable).1
  have hv : ∀ l : List SimDraw, (∀ r ∈ l, r = alternatingDraw τ) → Spec.ValidStarts simConfig (.validate l) := by
    intro l hl r hr
    rw [hl r hr, simConfig_starts]
    simp [alternatingDraw]
  refine ⟨?_, ?_⟩
  · rw [(C97_estimate_repeatable simParams (simDesign_created R) simState simData_usable _ (by
      intro call hc
      simp only [List.mem_cons, List.not_mem_nil, or_false] at hc
      rcases hc with rfl | rfl
      · trivial
      · exact hv _ (by simp)) σ).1]
    exact h1
  · refine C97_effect_settled simParams (simDesign_created R) (by decide) rfl simState simData_usable σ h1 _ ?_
    intro call hc
    simp only [List.mem_cons, List.not_mem_nil, or_false] at hc
    rcases hc with rfl | rfl
    · exact hv _ (by simp)
    · trivial

/-- Without rows in the test weeks the pivot raises `KeyError`. -/
theorem pivot_gap {p : DesignParams ℝ} {d : Design ℝ} (hd : mkDesign R p = .ok d) (hreg : d.isCrossover = false) {start : ℤ} {i w t : String}
    {f : Frame ℝ} (hcols : i ∈ f.cols ∧ w ∈ f.cols ∧ d.primaryMetric ∈ f.cols ∧ t ∉ f.cols)
    (hw : ∀ r ∈ f.rows, ∃ x : ℤ, r w = .int x ∧ (x < start ∨ start + d.runtime ≤ x)) :
    (pivotTimeAssignment d.toDesignParams start [d.primaryMetric] i w none t f).1 = .error .keyError := by
  obtain ⟨h1, h2, h3, h4⟩ := hcols
  have hg : labelRows d.toDesignParams start w t f = .ok (f.setCol t (rowLabel d.toDesignParams start w)) := by
    unfold labelRows
    refine raiseIf_bind_ok.mpr ⟨by rw [hreg]; simp, raiseIf_bind_ok.mpr ⟨?_, rfl⟩⟩
    intro h
    obtain ⟨r, hr, h⟩ := List.any_eq_true.mp h
    obtain ⟨x, hx, -⟩ := hw r hr
    rw [hx] at h
    cases h
  unfold pivotTimeAssignment
  rw [if_neg h4, if_neg, hg]
  · simp only
    rw [if_pos]
    refine ⟨hreg, fun hin => ?_⟩
    unfold pivotTable at hin
    simp only at hin
    rw [mem_dropDup] at hin
    obtain ⟨r, hr, e⟩ := List.mem_map.mp hin
    obtain ⟨r0, hr0, rfl⟩ := List.mem_map.mp (List.mem_filter.mp hr).1
    simp only [Function.update_self] at e
    obtain ⟨x, hx, hor⟩ := hw r0 hr0
    obtain ⟨y, hy, lo, hi, hmem, hlo, hhi⟩ := (rowLabel_iff hd (Or.inr ⟨x, hx⟩) "test").mp e
    rw [hx] at hy
    cases hy
    unfold Spec.timeline at hmem
    rw [hreg] at hmem
    simp [Spec.regularTimeline] at hmem
    omega
  · simp [h1, h2, h3]

/-- Two items, with rows in weeks 0 and 2 only. -/
noncomputable def gapData : Frame ℝ := ⟨["item_id", "week_id", "clicks"], [twoWeekRow 0 0, twoWeekRow 2 1]⟩

/-- The object for this data, with start weeks from 1. -/
noncomputable def gapConfig : SimConfig := ⟨simDesign, "item_id", "week_id", "time_period", "treatment_assignment", 1, 2, 1 / 20⟩

/-- The exception occurs: the object is created, the first estimate raises `KeyError`, and from then on every estimate raises `ValueError`. -/
example (R : Rounding ℝ) (D : TDist) (σ τ : ℤ → Shuffle) :
    ∃ s, mkSimulation simDesign gapData "item_id" "week_id" "time_period" "treatment_assignment" 1 (1 / 20) = .ok (gapConfig, s) ∧
      (estimateMde R stableArgsort D σ gapConfig s).1 = .error .keyError ∧
      (estimateMde R stableArgsort D τ gapConfig (estimateMde R stableArgsort D σ gapConfig s).2).1 = .error .valueError := by
  have hst : gapConfig.starts = [1, 2] := by decide
  refine ⟨⟨gapData, none, none, none, none, none, none⟩, ?_, ?_⟩
  · have hcol : gapData.col "week_id" = [.int 0, .int 2] := by simp [Frame.col, gapData, twoWeekRow]
    unfold mkSimulation
    rw [hcol]
    exact raiseIf_bind_ok.mpr ⟨by simp [gapData], raiseIf_bind_ok.mpr ⟨by simp, rfl⟩⟩
  · have hp := pivot_gap (R := R) (simDesign_created R) rfl (start := 1) (i := "item_id") (w := "week_id") (t := "time_period") (f := gapData)
      (by simp [gapData, simDesign, simParams, tenPercentParams]) (by
        intro r hr
        simp only [gapData, List.mem_cons, List.not_mem_nil, or_false] at hr
        have : simDesign.runtime = 1 := rfl
        rw [this]
        rcases hr with rfl | rfl
        · exact ⟨0, by simp [twoWeekRow], by omega⟩
        · exact ⟨2, by simp [twoWeekRow], by omega⟩)
    rcases hpp : pivotTimeAssignment simDesign.toDesignParams 1 [simDesign.primaryMetric] "item_id" "week_id" none "time_period" gapData with ⟨r, f⟩
    rw [hpp] at hp
    obtain rfl : r = .error .keyError := hp
    have h1 : estimateMde R stableArgsort D σ gapConfig ⟨gapData, none, none, none, none, none, none⟩ =
        (.error .keyError, ⟨f, none, none, none, none, none, none⟩) := by
      have h2 : historicalTable R (σ 1) gapConfig none 1 gapData = (.error .keyError, f) := by
        unfold historicalTable
        have hpp' : pivotTimeAssignment gapConfig.design.toDesignParams 1 [gapConfig.design.primaryMetric] gapConfig.itemCol
            gapConfig.weekCol none gapConfig.periodCol gapData = (.error .keyError, f) := hpp
        rw [hpp']
      unfold estimateMde
      rw [hst, statsOfWeeks, h2]
    rw [h1]
    exact ⟨rfl, ((C97_gap_blocks_later_calls ⟨gapData, none, none, none, none, none, none⟩ f 1 hpp (by rw [hst]; simp)).1 τ _ rfl).1⟩

end Feedx
