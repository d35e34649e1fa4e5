import Verif.Props.SimulateRun

/-!
The historical data after a call that returned is as good as before: the only difference is in the values of a column that does not exist.
-/

set_option linter.unusedSectionVars false
set_option linter.unusedSimpArgs false

namespace Feedx
open Fl

variable {R : Rounding ℝ} {argsort : List ℝ → List ℕ} {D : TDist} {c : SimConfig}

/-- All pivots of the two frames agree, including what they leave behind. -/
def SamePivots (c : SimConfig) (f f' : Frame ℝ) : Prop :=
  ∀ start, pivotTimeAssignment c.design.toDesignParams start [c.design.primaryMetric] c.itemCol c.weekCol none c.periodCol f' =
    pivotTimeAssignment c.design.toDesignParams start [c.design.primaryMetric] c.itemCol c.weekCol none c.periodCol f

theorem SamePivots.refl (c : SimConfig) (f : Frame ℝ) : SamePivots c f f := fun _ => rfl

theorem SamePivots.trans {f g h : Frame ℝ} (h1 : SamePivots c f g) (h2 : SamePivots c g h) : SamePivots c f h :=
  fun start => (h2 start).trans (h1 start)

theorem SamePivots.symm {f g : Frame ℝ} (h : SamePivots c f g) : SamePivots c g f := fun start => (h start).symm

theorem pivot_again {d : DesignParams ℝ} {start start' : ℤ} {ms : List String} {i w t : String} {tc : Option String} {f f' : Frame ℝ}
    {piv : Pivoted ℝ} (h : pivotTimeAssignment d start ms i w tc t f = (.ok piv, f')) :
    pivotTimeAssignment d start' ms i w tc t f' = pivotTimeAssignment d start' ms i w tc t f := by
  obtain ⟨h1, h2, g, hg, -, rfl, -⟩ := pivot_ok h
  have hwt : w ≠ t := fun e => h1 (e ▸ h2 w (by simp))
  have hg0 := hg
  have hg := labelRows_ok hg
  have hcols : (g.dropCol t).cols = f.cols := by
    rw [hg]
    simp only [Frame.dropCol, Frame.setCol, if_neg h1, List.filter_append, List.filter_cons, List.filter_nil]
    simp only [ne_eq, not_true_eq_false, decide_false, Bool.false_eq_true, if_false, List.append_nil]
    refine List.filter_eq_self.mpr (fun x hx => ?_)
    simp only [ne_eq, decide_not, Bool.not_eq_eq_eq_not, Bool.not_true, decide_eq_false_iff_not]
    rintro rfl
    exact h1 hx
  have hlab : labelRows d start' w t (g.dropCol t) = labelRows d start' w t f := by
    unfold labelRows
    have e1 : (g.dropCol t).rows.any (fun r => !(r w).isNumeric) = f.rows.any (fun r => !(r w).isNumeric) := by
      rw [hg]
      simp only [Frame.dropCol, Frame.setCol, List.any_map]
      congr 1
      funext r
      simp only [Function.comp, Function.update_of_ne hwt]
    have e2 : ∀ v : Cell ℝ → Cell ℝ, (g.dropCol t).setCol t (fun r => v (r w)) = f.setCol t (fun r => v (r w)) := by
      intro v
      unfold Frame.setCol
      rw [hcols]
      congr 1
      rw [hg]
      simp only [Frame.dropCol, Frame.setCol, List.map_map]
      refine List.map_congr_left (fun r _ => ?_)
      simp only [Function.comp, Function.update_of_ne hwt, Function.update_idem]
    rw [e1]
    refine congrArg (fun k : Frame ℝ => (do
      raiseIf .typeError (d.isCrossover = true ∧ d.washout = none)
      raiseIf .typeError (f.rows.any (fun r => !(r w).isNumeric) = true)
      return k : Py (Frame ℝ))) ?_
    exact e2 (fun x => match designLabel d start' x.toFl with | .ok l => labelCell l | .error _ => .null)
  unfold pivotTimeAssignment
  rw [hcols, hlab]
  by_cases ht : t ∈ f.cols
  · exact absurd ht h1
  rw [if_neg ht, if_neg ht]
  split
  · rename_i hany
    exfalso
    obtain ⟨x, hx, hx'⟩ := List.any_eq_true.mp hany
    simp only [decide_eq_true_eq] at hx'
    exact hx' (h2 x (by simpa using hx))
  · have hok : ∃ k, labelRows d start' w t f = .ok k := by
      unfold labelRows at hg0 ⊢
      obtain ⟨a, b⟩ := raiseIf_bind_ok.mp hg0
      obtain ⟨a', -⟩ := raiseIf_bind_ok.mp b
      exact ⟨_, raiseIf_bind_ok.mpr ⟨a, raiseIf_bind_ok.mpr ⟨a', rfl⟩⟩⟩
    obtain ⟨k, hk⟩ := hok
    rw [hk]

theorem same_of_pivot {start : ℤ} {f f' : Frame ℝ} {piv : Pivoted ℝ}
    (h : pivotTimeAssignment c.design.toDesignParams start [c.design.primaryMetric] c.itemCol c.weekCol none c.periodCol f = (.ok piv, f')) :
    SamePivots c f f' := fun _ => pivot_again h

theorem historical_same {σ : Shuffle} {boot : Option (List ℕ)} {start : ℤ} {f g : Frame ℝ} (h : SamePivots c f g) :
    historicalTable R σ c boot start g = historicalTable R σ c boot start f := by
  unfold historicalTable
  rw [h start]

/-- A returning step keeps the pivots. -/
theorem same_of_historical {σ : Shuffle} {boot : Option (List ℕ)} {start : ℤ} {f f' : Frame ℝ} {w : Wide ℝ}
    (h : historicalTable R σ c boot start f = (.ok w, f')) : SamePivots c f f' := by
  unfold historicalTable at h
  rcases hp : pivotTimeAssignment c.design.toDesignParams start [c.design.primaryMetric] c.itemCol c.weekCol none c.periodCol f with ⟨r, g⟩
  rw [hp] at h
  cases r with
  | error e => cases h
  | ok piv =>
    have : g = f' := congrArg Prod.snd h
    subst this
    exact same_of_pivot hp

theorem simulateOnce_same {e : Fl ℝ} {r : SimDraw} {f g : Frame ℝ} (h : SamePivots c f g) :
    simulateOnce R argsort D c e r g = simulateOnce R argsort D c e r f := by
  unfold simulateOnce
  rw [historical_same h]

theorem same_of_simulateOnce {e : Fl ℝ} {r : SimDraw} {f f' : Frame ℝ} {x : TestResult × TestResult}
    (h : simulateOnce R argsort D c e r f = (.ok x, f')) : SamePivots c f f' := by
  unfold simulateOnce at h
  rcases hp : historicalTable R r.shuffle c (some r.boot) r.start f with ⟨q, g⟩
  rw [hp] at h
  cases q with
  | error e => cases h
  | ok w =>
    have : g = f' := congrArg Prod.snd h
    subst this
    exact same_of_historical hp

theorem simulateAll_same {e : Fl ℝ} {draws : List SimDraw} {f g : Frame ℝ} (h : SamePivots c f g) :
    (simulateAll R argsort D c e draws g).1 = (simulateAll R argsort D c e draws f).1 := by
  cases draws with
  | nil => rfl
  | cons r rest =>
    rw [simulateAll, simulateAll, simulateOnce_same h]
    split
    · rfl
    · rfl

theorem same_of_simulateAll {e : Fl ℝ} {draws : List SimDraw} {f f' : Frame ℝ} {l : List (TestResult × TestResult)}
    (h : simulateAll R argsort D c e draws f = (.ok l, f')) : SamePivots c f f' := by
  induction draws generalizing f l with
  | nil => cases h; exact SamePivots.refl c _
  | cons r rest ih =>
    rw [simulateAll] at h
    split_ifs at h with h0
    · cases h
    rcases h1 : simulateOnce R argsort D c e r f with ⟨x, g⟩
    rw [h1] at h
    cases x with
    | error y => cases h
    | ok y =>
      simp only at h
      rcases h2 : simulateAll R argsort D c e rest g with ⟨z, g'⟩
      rw [h2] at h
      cases z with
      | error y => cases h
      | ok z =>
        have : g' = f' := congrArg Prod.snd h
        subst this
        exact (same_of_simulateOnce h1).trans (ih h2)

theorem statsOfWeeks_same {σ : ℤ → Shuffle} {l : List ℤ} {f g : Frame ℝ} (h : SamePivots c f g) :
    (statsOfWeeks R argsort σ c l g).1 = (statsOfWeeks R argsort σ c l f).1 := by
  cases l with
  | nil => rfl
  | cons start rest =>
    rw [statsOfWeeks, statsOfWeeks, historical_same h]

theorem same_of_stats {σ : ℤ → Shuffle} {l : List ℤ} {f f' : Frame ℝ} {ss : List MetricStats}
    (h : statsOfWeeks R argsort σ c l f = (.ok ss, f')) : SamePivots c f f' := by
  induction l generalizing f ss with
  | nil => cases h; exact SamePivots.refl c _
  | cons start rest ih =>
    rw [statsOfWeeks] at h
    rcases h1 : historicalTable R (σ start) c none start f with ⟨x, g⟩
    rw [h1] at h
    cases x with
    | error y => cases h
    | ok w =>
      simp only at h
      cases h3 : primaryStats R argsort c.design w with
      | error y => rw [h3] at h; cases h
      | ok st =>
        rw [h3] at h
        simp only at h
        rcases h2 : statsOfWeeks R argsort σ c rest g with ⟨z, g'⟩
        rw [h2] at h
        cases z with
        | error y => cases h
        | ok z =>
          have : g' = f' := congrArg Prod.snd h
          subst this
          exact (same_of_historical h1).trans (ih h2)

/-- A call that returned keeps the pivots of the data. -/
theorem same_of_call {s : SimState} {call : SimCall} (h : (runCall R argsort D c s call).1 = .ok ()) :
    SamePivots c s.data (runCall R argsort D c s call).2.data := by
  cases call with
  | estimate σ =>
    change (estimateMde R argsort D σ c s).1 = .ok () at h
    show SamePivots c s.data (estimateMde R argsort D σ c s).2.data
    unfold estimateMde at h ⊢
    rcases hst : statsOfWeeks R argsort σ c c.starts s.data with ⟨r, f⟩
    rw [hst] at h
    cases r with
    | error x => cases h
    | ok l =>
      simp only at h ⊢
      have key := same_of_stats hst
      split
      · exact key
      · split <;> exact key
  | validate draws =>
    change (validateSim R argsort D c draws s).1 = .ok () at h
    show SamePivots c s.data (validateSim R argsort D c draws s).2.data
    unfold validateSim at h ⊢
    cases hm : s.mde with
    | none => rw [hm] at h; cases h
    | some e =>
      rw [hm] at h
      simp only at h ⊢
      rcases hst : simulateAll R argsort D c e draws s.data with ⟨r, f⟩
      rw [hst] at h
      cases r with
      | error x => cases h
      | ok l => exact same_of_simulateAll hst

end Feedx
