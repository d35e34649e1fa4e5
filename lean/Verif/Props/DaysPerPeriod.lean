import Verif.Props.AnalyseColumns

/-!
C121: which dates accepted experiment data has, and the table of the number of days per time period.
-/

set_option linter.unusedSectionVars false
set_option linter.unusedSimpArgs false

namespace Feedx

/-- The dates of the performance data are whole days after (or before) the start date. -/
def Spec.WholeDays {K : Type} (E : Ext K) (perf : Frame K) (dateCol : String) (start : ℤ) : Prop :=
  ∀ t, Spec.PerfDate E perf dateCol t → ∃ n : ℤ, t = start + n * 86400000000000

/-- The dates of the performance data are the `n` dates from the first day of the pretest on, one per week (`perWeek = 1`) or one per day (`perWeek = 7`). -/
def Spec.RegularDates {K : Type} (E : Ext K) (perf : Frame K) (dateCol : String) (first : ℤ) (perWeek n : ℕ) : Prop :=
  (perWeek = 1 ∨ perWeek = 7) ∧ ∀ t, Spec.PerfDate E perf dateCol t ↔ ∃ k : ℕ, k < n ∧ t = first + k * (7 / perWeek * 86400000000000)

theorem spaced_set {T : Set ℤ} {s first last : ℤ} (hs : 0 < s) (hf : first ∈ T) (hmin : ∀ t ∈ T, first ≤ t) (hmax : ∀ t ∈ T, t ≤ last)
    (hsp : ∀ a ∈ T, ∀ b ∈ T, a < b → (∀ u ∈ T, ¬ (a < u ∧ u < b)) → b - a = s) :
    ∃ N : ℕ, 0 < N ∧ ∀ t, t ∈ T ↔ ∃ k : ℕ, k < N ∧ t = first + s * k := by
  -- the next date
  have hnext : ∀ a ∈ T, ∀ b ∈ T, a < b → a + s ∈ T ∧ a + s ≤ b := by
    intro a ha b hb hab
    obtain ⟨c, hc, hmn⟩ := Int.exists_least_of_bdd (P := fun c => c ∈ T ∧ a < c) ⟨a, fun z hz => hz.2.le⟩ ⟨b, hb, hab⟩
    have e := hsp a ha c hc.1 hc.2 (fun u hu h => by have := hmn u ⟨hu, h.1⟩; omega)
    have : c = a + s := by omega
    subst this
    exact ⟨hc.1, hmn b ⟨hb, hab⟩⟩
  obtain ⟨m, hm, hmx⟩ := Int.exists_greatest_of_bdd (P := fun c => c ∈ T) ⟨last, fun z hz => hmax z hz⟩ ⟨first, hf⟩
  have hall : ∀ k : ℕ, first + s * k ≤ m → first + s * k ∈ T := by
    intro k
    induction k with
    | zero => intro _; simpa using hf
    | succ k ih =>
      intro hle
      push_cast at hle ⊢
      have h1 := ih (by nlinarith)
      have := (hnext _ h1 m hm (by nlinarith)).1
      convert this using 1
      ring
  have hform : ∀ t ∈ T, ∃ k : ℕ, t = first + s * k := by
    intro t ht
    have h0 := hmin t ht
    have hd := Int.mul_ediv_add_emod (t - first) s
    have hp := Int.emod_nonneg (t - first) hs.ne'
    have hl := Int.emod_lt_of_pos (t - first) hs
    obtain ⟨k, hk⟩ := Int.eq_ofNat_of_zero_le (Int.ediv_nonneg (by omega : 0 ≤ t - first) hs.le)
    rw [hk] at hd
    refine ⟨k, ?_⟩
    by_contra hne
    have hlt : first + s * k < t := by
      rcases lt_or_eq_of_le (show first + s * (k : ℤ) ≤ t by linarith) with h | h
      · exact h
      · exact absurd h.symm hne
    have hin := hall k (by have := hmx t ht; linarith)
    have := (hnext _ hin t ht hlt).2
    linarith
  obtain ⟨M, hM⟩ := hform m hm
  refine ⟨M + 1, by omega, fun t => ⟨fun ht => ?_, ?_⟩⟩
  · obtain ⟨k, hk⟩ := hform t ht
    refine ⟨k, ?_, hk⟩
    have := hmx t ht
    have : s * (k : ℤ) ≤ s * M := by linarith
    have := le_of_mul_le_mul_left this hs
    omega
  · rintro ⟨k, hk, rfl⟩
    refine hall k ?_
    rw [hM]
    have : (k : ℤ) ≤ M := by omega
    nlinarith

section days
variable {K : Type} [Field K] [LinearOrder K] [IsStrictOrderedRing K] [FloorRing K]

/-- The dates of the prepared data are those of the performance data. -/
theorem prepared_dates {C : Checker K} {perf assign out : Frame K} {d : Design K} {startDate itemCol dateCol treatCol : String} {a : ExperimentArgs}
    (hb : buildExperiment C.ext perf assign d startDate itemCol dateCol treatCol a = .ok out)
    (hne : itemCol ≠ treatCol) (hi : itemCol ∈ assign.cols) (ht : treatCol ∈ assign.cols)
    (hk : ∀ n ∈ a.atLeastOne.map Prod.snd, n ∉ ["item_id", "date", "week_id", "week_start", "time_period"]) (t : ℤ) :
    Spec.HasDate out "date" t ↔ Spec.PerfDate C.ext perf dateCol t := by
  obtain ⟨b1, b2, -, -⟩ := build_items hb hne hi ht (fun n hn => by
    have := hk n hn
    simp only [List.mem_cons, not_or] at this
    exact ⟨this.1, this.2.1⟩)
  constructor
  · rintro ⟨r, hr, e⟩
    obtain ⟨q, hq, t', h1, h2⟩ := (b2 (r "item_id") (List.mem_map.mpr ⟨r, hr, rfl⟩) _).mp ⟨r, hr, rfl, e⟩
    cases h2
    exact ⟨q, hq, h1⟩
  · rintro ⟨q, hq, h1⟩
    obtain ⟨_, a', missing, f1, f2, f5, -, hca, B⟩ := buildExperiment_ok hb
    obtain ⟨-, -, hne', -⟩ := missingRows_ok B.missing_ok
    obtain ⟨-, -, ca3⟩ := cleanAssignment_ok hne hi ht hca
    obtain ⟨s, hs'⟩ := List.exists_mem_of_ne_nil _ hne'
    obtain ⟨s0, hs0, -, -⟩ := forall₂_exists' ca3 hs'
    obtain ⟨r, hr, -, er⟩ := (b2 _ ((b1 _).mpr ⟨s0, hs0, rfl⟩) (.time t)).mpr ⟨q, hq, t, h1, rfl⟩
    exact ⟨r, hr, er⟩

/-- **C121, the dates.**  Accepted data of a concluded experiment whose dates are whole days has one date per week, or one date per day, from the first day
of the pretest on; none is missing before the last week, and the last week has at least one. -/
theorem C121_dates (R : Rounding K) (p : DesignParams K) (C : Checker K) (perf assign out : Frame K) (d : Design K)
    (hd : mkDesign R p = .ok d) (startDate itemCol dateCol treatCol : String) (a : ExperimentArgs)
    (h : prepareExperiment C perf assign d startDate itemCol dateCol treatCol a = .ok out)
    (hne : itemCol ≠ treatCol) (hi : itemCol ∈ assign.cols) (ht : treatCol ∈ assign.cols) (hskip : a.skip = []) (hcon : a.concluded = true)
    (hk : ∀ n ∈ a.atLeastOne.map Prod.snd, n ∉ ["item_id", "date", "week_id", "week_start", "time_period"])
    (start : ℤ) (hst : C.ext.strptime startDate = some start) (hw : Spec.WholeDays C.ext perf dateCol start) :
    ∃ perWeek n : ℕ, Spec.RegularDates C.ext perf dateCol (start - d.pretest * (7 * 86400000000000)) perWeek n ∧
      perWeek * (d.pretest + d.runtime - 1) < n ∧ n ≤ perWeek * (d.pretest + d.runtime) := by
  obtain ⟨start', hst', hwin⟩ := C85_only_window_dates R p C perf assign out d hd startDate itemCol dateCol treatCol a h hne hi ht (by rw [hskip]; simp) hk
  rw [hst] at hst'
  cases hst'
  unfold prepareExperiment at h
  obtain ⟨f, hb, h⟩ := Py.bind_eq_ok.mp h
  obtain ⟨_, hv, h⟩ := Py.bind_eq_ok.mp h
  obtain rfl : f = out := Except.ok.inj h
  have hdates := prepared_dates hb hne hi ht hk
  obtain ⟨_, -, hcol, hrows⟩ := C85_calendar_columns R p C perf assign f d hd startDate itemCol dateCol treatCol a hb
    (fun n hn hc => hk n hn (by simp only [List.mem_cons] at hc ⊢; tauto))
  have htimes : ∀ r ∈ f.rows, ∃ t, r "date" = .time t := fun r hr => by
    obtain ⟨t, _, e, -⟩ := hrows r hr
    exact ⟨t, e⟩
  unfold validateExperiment at hv
  obtain ⟨_, -, hv⟩ := Py.bind_eq_ok.mp hv
  obtain ⟨_, -, hv⟩ := Py.bind_eq_ok.mp hv
  obtain ⟨_, -, hv⟩ := Py.bind_eq_ok.mp hv
  obtain ⟨_, -, hv⟩ := Py.bind_eq_ok.mp hv
  obtain ⟨_, hsp, hv⟩ := Py.bind_eq_ok.mp hv
  obtain ⟨_, -, hv⟩ := Py.bind_eq_ok.mp hv
  obtain ⟨_, -, hv⟩ := Py.bind_eq_ok.mp hv
  obtain ⟨_, -, hv⟩ := Py.bind_eq_ok.mp hv
  obtain ⟨_, -, hv⟩ := Py.bind_eq_ok.mp hv
  obtain ⟨_, hra, -⟩ := Py.bind_eq_ok.mp hv
  obtain ⟨b, hb1, hb2⟩ := runCheck_ok.mp hsp
  have hbf : b = false := by
    cases b with
    | false => rfl
    | true => have := hb2 rfl; rw [hskip] at this; cases this
  subst hbf
  have hdcol : "date" ∈ f.cols := by
    unfold checkSpacing at hb1
    obtain ⟨h0, -⟩ := raiseIf_bind_ok.mp hb1
    exact not_not.mp h0
  obtain ⟨b', e1, e2⟩ := checkSpacing_verdict hdcol htimes
  rw [hb1] at e1
  cases e1
  have hspaced := e2.mp rfl
  obtain ⟨c, hc1, hc2⟩ := runCheck_ok.mp hra
  have hcf : c = false := by
    cases c with
    | false => rfl
    | true => have := hc2 rfl; rw [hskip] at this; cases this
  subst hcf
  have hnil : f.rows ≠ [] := by
    obtain ⟨_, a', missing, f1, f2, f5, -, hca, B⟩ := buildExperiment_ok hb
    obtain ⟨-, -, -, r0, hr0, -⟩ := missingRows_ok B.missing_ok
    obtain ⟨t, et⟩ := B.date_some hr0
    obtain ⟨r, hr, -⟩ := (hdates t).mpr ⟨r0, hr0, et⟩
    exact List.ne_nil_of_mem hr
  obtain ⟨c', k1, k2⟩ := checkDateRange_verdict (d := d) (concluded := a.concluded) hst hdcol hnil htimes
  rw [hc1] at k1
  cases k1
  obtain ⟨⟨t0, ht0, hle0⟩, hlast⟩ := k2.mp rfl
  obtain ⟨t1, ht1, hle1⟩ := hlast hcon
  have hin : ∀ t, Spec.PerfDate C.ext perf dateCol t → start - d.pretest * (7 * 86400000000000) ≤ t ∧ t < start + d.runtime * (7 * 86400000000000) := by
    rintro t ⟨q, hq, e⟩
    obtain ⟨t', e', h1, h2⟩ := hwin q hq
    rw [e] at e'
    cases e'
    exact ⟨h1, h2⟩
  have hfirst : Spec.PerfDate C.ext perf dateCol (start - d.pretest * (7 * 86400000000000)) := by
    have h1 := (hdates t0).mp ht0
    have e : t0 = start - d.pretest * (7 * 86400000000000) := le_antisymm hle0 (hin t0 h1).1
    rw [e] at h1
    exact h1
  obtain ⟨q, hq, hgap⟩ : ∃ q : ℕ, (q = 1 ∨ q = 7) ∧ ∀ x ∈ {t | Spec.PerfDate C.ext perf dateCol t}, ∀ y ∈ {t | Spec.PerfDate C.ext perf dateCol t}, x < y →
      (∀ u ∈ {t | Spec.PerfDate C.ext perf dateCol t}, ¬ (x < u ∧ u < y)) → y - x = 7 / (q : ℤ) * 86400000000000 := by
    have key : ∀ n : ℤ, Spec.SpacedBy n f "date" → ∀ x ∈ {t | Spec.PerfDate C.ext perf dateCol t}, ∀ y ∈ {t | Spec.PerfDate C.ext perf dateCol t}, x < y →
      (∀ u ∈ {t | Spec.PerfDate C.ext perf dateCol t}, ¬ (x < u ∧ u < y)) → y - x = n * 86400000000000 := by
      intro n hn x hx y hy hxy hno
      obtain ⟨l1, l2⟩ := hn.2 x y ((hdates x).mpr hx) ((hdates y).mpr hy) hxy (fun u hu => hno u ((hdates u).mp hu))
      obtain ⟨u, hu⟩ := hw x hx
      obtain ⟨v, hv⟩ := hw y hy
      omega
    rcases hspaced with hs | hs
    · exact ⟨1, Or.inl rfl, by simpa using key 7 hs⟩
    · exact ⟨7, Or.inr rfl, by simpa using key 1 hs⟩
  have hq0 : 0 < 7 / (q : ℤ) * 86400000000000 := by rcases hq with rfl | rfl <;> norm_num
  obtain ⟨N, hN, hT⟩ := spaced_set (T := {t | Spec.PerfDate C.ext perf dateCol t}) hq0 hfirst (fun t h => (hin t h).1) (fun t h => (hin t h).2.le) hgap
  refine ⟨q, N, ⟨hq, fun t => (hT t).trans ?_⟩, ?_, ?_⟩
  · refine exists_congr fun k => and_congr_right fun _ => ?_
    rw [mul_comm (k : ℤ)]
  · obtain ⟨k, hkN, e⟩ := (hT t1).mp ((hdates t1).mp ht1)
    rcases hq with rfl | rfl <;> norm_num at e ⊢ <;> omega
  · have := (hin _ ((hT (start - d.pretest * (7 * 86400000000000) + 7 / (q : ℤ) * 86400000000000 * ((N - 1 : ℕ) : ℤ))).mpr ⟨N - 1, by omega, rfl⟩)).2
    rcases hq with rfl | rfl <;> norm_num at this ⊢ <;> omega

/-- The label of a row of the prepared data. -/
theorem prepared_labels {R : Rounding K} {p : DesignParams K} {C : Checker K} {perf assign out : Frame K} {d : Design K}
    (hd : mkDesign R p = .ok d) {startDate itemCol dateCol treatCol : String} {a : ExperimentArgs}
    (hb : buildExperiment C.ext perf assign d startDate itemCol dateCol treatCol a = .ok out)
    (hk : ∀ n ∈ a.atLeastOne.map Prod.snd, n ∉ ["date", "week_id", "week_start", "time_period"]) {start : ℤ} (hst : C.ext.strptime startDate = some start) :
    "date" ∈ out.cols ∧ "time_period" ∈ out.cols ∧
    ∀ r ∈ out.rows, ∃ t, r "date" = .time t ∧ (r "time_period" = .null ∨ ∃ l, r "time_period" = .str l) ∧
      ∀ l, r "time_period" = .str l ↔ Spec.InPeriod d.toDesignParams 0 l (weekId start t) := by
  obtain ⟨start', a', missing, f1, f2, f5, hs, hca, B⟩ := buildExperiment_ok hb
  rw [hst] at hs
  cases hs
  have nk : ∀ n, n ∈ ["date", "week_id", "week_start", "time_period"] → n ∉ a.atLeastOne.map Prod.snd := fun n hn hc => hk n hc hn
  refine ⟨B.out_cols.mpr (Or.inl B.key_cols.2), B.out_cols.mpr (Or.inl (B.cols _ (by simp))), ?_⟩
  intro r hr
  obtain ⟨q, hq, s, hs', e, rfl⟩ := B.mem_out.mp hr
  obtain ⟨z, hz, ez, ew⟩ := forall₂_exists' B.rows hq
  obtain ⟨t, et⟩ := B.times z hz
  obtain ⟨-, -, w3⟩ := ew t et
  have hlab := designLabel_iff hd 0 (weekId start t)
  have e3 : joinRow f5.cols q s "time_period" = q "time_period" := by
    unfold joinRow
    rw [if_pos (B.cols _ (by simp))]
  refine ⟨t, ?_, ?_, ?_⟩
  · unfold joinRow
    rw [if_pos B.key_cols.2, ez _ (by decide) (nk _ (by simp)), et]
  · rw [e3, w3 (nk _ (by simp))]
    cases designLabel d.toDesignParams 0 (.fin ((weekId start t : ℤ) : K)) with
    | error _ => exact Or.inl rfl
    | ok l => cases l with
      | none => exact Or.inl rfl
      | some l => exact Or.inr ⟨l, rfl⟩
  · intro l
    rw [e3, w3 (nk _ (by simp)), ← hlab]
    cases designLabel d.toDesignParams 0 (.fin ((weekId start t : ℤ) : K)) with
    | error _ => simp
    | ok l => cases l with
      | none => simp [labelCell]
      | some l => simp [labelCell]

/-- A design's timeline: each label once, within the pretest and the runtime. -/
theorem timeline_label {R : Rounding K} {p : DesignParams K} {d : Design K} (hd : mkDesign R p = .ok d) {l : String} {lo hi : ℤ}
    (h : (l, lo, hi) ∈ Spec.timeline d.toDesignParams 0) :
    -d.pretest ≤ lo ∧ hi ≤ d.runtime ∧ ∀ w, Spec.InPeriod d.toDesignParams 0 l w ↔ lo ≤ w ∧ w < hi := by
  have hp := created_pretest hd
  unfold Spec.InPeriod
  unfold Spec.timeline at *
  by_cases hx : d.isCrossover = true
  · obtain ⟨wo, h1, h2, h3, h4⟩ := created_crossover hd hx
    simp only [hx, if_true, h1, Option.getD_some, Spec.crossoverTimeline, List.mem_cons, List.not_mem_nil, or_false, Prod.mk.injEq] at h ⊢
    obtain ⟨m, hm⟩ := h4
    rcases h with ⟨rfl, rfl, rfl⟩ | ⟨rfl, rfl, rfl⟩ | ⟨rfl, rfl, rfl⟩ | ⟨rfl, rfl, rfl⟩ | ⟨rfl, rfl, rfl⟩ <;>
    · refine ⟨by omega, by omega, fun w => ⟨?_, fun hw => ⟨_, _, by simp, hw.1, hw.2⟩⟩⟩
      rintro ⟨lo', hi', ⟨e, rfl, rfl⟩ | ⟨e, rfl, rfl⟩ | ⟨e, rfl, rfl⟩ | ⟨e, rfl, rfl⟩ | ⟨e, rfl, rfl⟩, k⟩ <;>
        first | exact k | exact absurd e (by decide)
  · simp only [hx, if_false, Spec.regularTimeline, List.mem_cons, List.not_mem_nil, or_false, Prod.mk.injEq] at h ⊢
    simp only [Bool.false_eq_true, if_false, List.mem_cons, List.not_mem_nil, or_false, Prod.mk.injEq] at h ⊢
    rcases h with ⟨rfl, rfl, rfl⟩ | ⟨rfl, rfl, rfl⟩ <;>
    · refine ⟨by omega, by omega, fun w => ⟨?_, fun hw => ⟨_, _, by simp, hw.1, hw.2⟩⟩⟩
      rintro ⟨lo', hi', ⟨e, rfl, rfl⟩ | ⟨e, rfl, rfl⟩, k⟩ <;>
        first | exact k | exact absurd e (by decide)

theorem weekId_days (start x : ℤ) : weekId start (start + x * 86400000000000) = x / 7 := by
  unfold weekId daysOf dayNs
  congr 1
  omega

/-- **C121, the table.**  For accepted data of a concluded experiment with whole days, the notebook shows, sorted by name, exactly the periods of the design
that have weeks.  With one date per week (per day), each period has as many dates (seven times as many) as it has weeks; only the period that ends with the
experiment may lack dates of its last week.

Missing for the full statement: that no date of the last week is missing, which is false (`C121_last_days_missing_false`). -/
theorem C121_table_partial (R : Rounding K) (p : DesignParams K) (C : Checker K) (perf assign out : Frame K) (d : Design K)
    (hd : mkDesign R p = .ok d) (startDate itemCol dateCol treatCol : String) (a : ExperimentArgs)
    (h : prepareExperiment C perf assign d startDate itemCol dateCol treatCol a = .ok out)
    (hne : itemCol ≠ treatCol) (hi : itemCol ∈ assign.cols) (ht : treatCol ∈ assign.cols) (hskip : a.skip = []) (hcon : a.concluded = true)
    (hk : ∀ n ∈ a.atLeastOne.map Prod.snd, n ∉ ["item_id", "date", "week_id", "week_start", "time_period"])
    (start : ℤ) (hst : C.ext.strptime startDate = some start) (hw : Spec.WholeDays C.ext perf dateCol start) :
    ∃ (table : List (String × ℕ)) (perWeek n : ℕ), daysPerPeriod out = .ok table ∧
      Spec.RegularDates C.ext perf dateCol (start - d.pretest * (7 * 86400000000000)) perWeek n ∧
      (table.map Prod.fst).Pairwise (· < ·) ∧
      (∀ e ∈ table, ∃ lo hi, (e.1, lo, hi) ∈ Spec.timeline d.toDesignParams 0 ∧ lo < hi) ∧
      ∀ l lo hi, (l, lo, hi) ∈ Spec.timeline d.toDesignParams 0 → lo < hi → ∃ k : ℕ, (l, k) ∈ table ∧
        (hi < d.runtime → (k : ℤ) = perWeek * (hi - lo)) ∧
        (hi = d.runtime → (k : ℤ) = n - perWeek * (lo + d.pretest) ∧ perWeek * (hi - lo - 1) < (k : ℤ) ∧ (k : ℤ) ≤ perWeek * (hi - lo)) := by
  obtain ⟨q, N, hreg, hN1, hN2⟩ := C121_dates R p C perf assign out d hd startDate itemCol dateCol treatCol a h hne hi ht hskip hcon hk start hst hw
  unfold prepareExperiment at h
  obtain ⟨f, hb, h⟩ := Py.bind_eq_ok.mp h
  obtain ⟨_, -, h⟩ := Py.bind_eq_ok.mp h
  obtain rfl : f = out := Except.ok.inj h
  have hdates := prepared_dates hb hne hi ht hk
  obtain ⟨c1, c2, hlab⟩ := prepared_labels hd hb (fun n hn hc => hk n hn (by simp only [List.mem_cons] at hc ⊢; tauto)) hst
  obtain ⟨hq, hreg'⟩ := hreg
  obtain ⟨pairs, hpairs⟩ : ∃ l, l = dropDup (f.rows.map (fun r => (r "date", r "time_period"))) := ⟨_, rfl⟩
  have hnd : pairs.Nodup := by rw [hpairs]; exact nodup_dropDup _
  have hmem : ∀ x, x ∈ pairs ↔ ∃ r ∈ f.rows, (r "date", r "time_period") = x := by
    intro x
    rw [hpairs, mem_dropDup, List.mem_map]
  -- the dates of a period
  have hin : ∀ c l, (c, Cell.str l) ∈ pairs ↔ ∃ t, c = .time t ∧ Spec.PerfDate C.ext perf dateCol t ∧ Spec.InPeriod d.toDesignParams 0 l (weekId start t) := by
    intro c l
    rw [hmem]
    constructor
    · rintro ⟨r, hr, e⟩
      obtain ⟨t, e1, -, e3⟩ := hlab r hr
      simp only [Prod.mk.injEq] at e
      exact ⟨t, by rw [← e.1, e1], (hdates t).mp ⟨r, hr, e1⟩, (e3 l).mp e.2⟩
    · rintro ⟨t, rfl, h1, h2⟩
      obtain ⟨r, hr, e⟩ := (hdates t).mpr h1
      obtain ⟨t', e1, -, e3⟩ := hlab r hr
      rw [e] at e1
      cases e1
      exact ⟨r, hr, by rw [e, (e3 l).mpr h2]⟩
  have hcount : ∀ l lo hi, (l, lo, hi) ∈ Spec.timeline d.toDesignParams 0 → lo < hi →
      (pairs.countP (fun x => decide (x.2 = Cell.str l ∧ x.1 ≠ .null)) : ℤ) = min (q * (hi + d.pretest)) N - q * (lo + d.pretest) ∧
      q * (lo + d.pretest) < N := by
    intro l lo hi hl hlt
    obtain ⟨t1, t2, t3⟩ := timeline_label hd hl
    have hlo : (q : ℤ) * (lo + d.pretest) < N := by
      refine lt_of_le_of_lt ?_ hN1
      exact mul_le_mul_of_nonneg_left (by omega) (by positivity)
    refine ⟨?_, hlo⟩
    obtain ⟨A, hA⟩ := Int.eq_ofNat_of_zero_le (show 0 ≤ (q : ℤ) * (lo + d.pretest) from mul_nonneg (by positivity) (by omega))
    obtain ⟨B, hB⟩ := Int.eq_ofNat_of_zero_le (show 0 ≤ (q : ℤ) * (hi + d.pretest) from mul_nonneg (by positivity) (by omega))
    have hAB : A ≤ B := by
      have : (q : ℤ) * (lo + d.pretest) ≤ q * (hi + d.pretest) := mul_le_mul_of_nonneg_left (by omega) (by positivity)
      omega
    have hAN : A < N := by omega
    have hperm : ((pairs.filter (fun x => decide (x.2 = Cell.str l ∧ x.1 ≠ .null))).map Prod.fst).Perm
        ((List.range' A (min B N - A)).map (fun k : ℕ => (Cell.time (start - d.pretest * (7 * 86400000000000) + k * (7 / q * 86400000000000)) : Cell K))) := by
      rw [List.perm_ext_iff_of_nodup]
      · intro c
        simp only [List.mem_map, List.mem_filter, decide_eq_true_eq, Prod.exists, exists_and_right, exists_eq_right, List.mem_range'_1]
        constructor
        · rintro ⟨x, hx, rfl, -⟩
          obtain ⟨t, rfl, h1, h2⟩ := (hin c l).mp hx
          obtain ⟨k, hkN, rfl⟩ := (hreg' t).mp h1
          refine ⟨k, ?_, rfl⟩
          rw [t3] at h2
          have e : start - d.pretest * (7 * 86400000000000) + (k : ℤ) * (7 / (q : ℤ) * 86400000000000) =
              start + (k * (7 / (q : ℤ)) - 7 * d.pretest) * 86400000000000 := by ring
          rw [e, weekId_days] at h2
          rcases hq with rfl | rfl <;> norm_num at h2 hA hB <;> omega
        · rintro ⟨k, hk', rfl⟩
          refine ⟨.str l, (hin _ l).mpr ⟨_, rfl, (hreg' _).mpr ⟨k, by omega, rfl⟩, ?_⟩, rfl, by simp⟩
          rw [t3]
          have e : start - d.pretest * (7 * 86400000000000) + (k : ℤ) * (7 / (q : ℤ) * 86400000000000) =
              start + (k * (7 / (q : ℤ)) - 7 * d.pretest) * 86400000000000 := by ring
          rw [e, weekId_days]
          rcases hq with rfl | rfl <;> norm_num at hA hB ⊢ <;> omega
      · refine (hnd.filter _).map_on ?_
        intro x hx y hy e
        have hx := of_decide_eq_true (List.mem_filter.mp hx).2
        have hy := of_decide_eq_true (List.mem_filter.mp hy).2
        exact Prod.ext e (hx.1.trans hy.1.symm)
      · refine List.Nodup.map ?_ (List.nodup_range' (step := 1))
        intro k k' e
        have e : start - d.pretest * (7 * 86400000000000) + (k : ℤ) * (7 / (q : ℤ) * 86400000000000) =
          start - d.pretest * (7 * 86400000000000) + (k' : ℤ) * (7 / (q : ℤ) * 86400000000000) := by simpa using e
        rcases hq with rfl | rfl <;> norm_num at e <;> omega
    have := hperm.length_eq
    rw [List.length_map, List.length_map, List.length_range', ← List.countP_eq_length_filter] at this
    rw [this, hA, hB]
    omega
  obtain ⟨labels, hlabels⟩ : ∃ l, l = dropDup (pairs.filterMap (fun p => periodText p.2)) := ⟨_, rfl⟩
  have hlm : ∀ l, l ∈ labels ↔ ∃ c, (c, Cell.str l) ∈ pairs := by
    intro l
    rw [hlabels, mem_dropDup, List.mem_filterMap]
    constructor
    · rintro ⟨⟨c, x⟩, hx, e⟩
      cases x <;> simp [periodText] at e
      subst e
      exact ⟨c, hx⟩
    · rintro ⟨c, hc⟩
      exact ⟨_, hc, rfl⟩
  refine ⟨(labels.insertionSort (· ≤ ·)).map (fun l => (l, pairs.countP (fun x => decide (x.2 = Cell.str l ∧ x.1 ≠ .null)))), q, N, ?_, ⟨hq, hreg'⟩, ?_, ?_, ?_⟩
  · unfold daysPerPeriod
    have h0 : raiseIf PyErr.keyError ("date" ∉ f.cols ∨ "time_period" ∉ f.cols) = .ok () := raiseIf_ok.mpr (by tauto)
    simp only [h0, bind, Except.bind, ← hpairs, ← hlabels]
    have h1 : raiseIf PyErr.outOfModel (∃ p ∈ pairs, p.2 ≠ .null ∧ periodText p.2 = none) = .ok () := by
      refine raiseIf_ok.mpr ?_
      rintro ⟨⟨c, x⟩, hx, e1, e2⟩
      obtain ⟨r, hr, e'⟩ := (hmem _).mp hx
      obtain ⟨-, -, hl, -⟩ := hlab r hr
      simp only [Prod.mk.injEq] at e'
      rw [e'.2] at hl
      rcases hl with rfl | ⟨l, rfl⟩
      · exact e1 rfl
      · cases e2
    rw [h1]
    rfl
  · rw [List.map_map]
    have e : (Prod.fst ∘ fun l => (l, pairs.countP (fun x => decide (x.2 = Cell.str l ∧ x.1 ≠ .null)))) = (id : String → String) := rfl
    rw [e, List.map_id]
    have hs := List.pairwise_insertionSort (· ≤ ·) labels
    have hn : (labels.insertionSort (· ≤ ·)).Nodup := (List.perm_insertionSort _ labels).nodup_iff.mpr (by rw [hlabels]; exact nodup_dropDup _)
    exact (hs.and hn).imp fun h => lt_of_le_of_ne h.1 h.2
  · rintro e he
    obtain ⟨l, hl, rfl⟩ := List.mem_map.mp he
    rw [List.mem_insertionSort, hlm] at hl
    obtain ⟨c, hc⟩ := hl
    obtain ⟨t, -, -, lo, hi', h1, h2, h3⟩ := (hin c l).mp hc
    exact ⟨lo, hi', h1, by omega⟩
  · intro l lo hi' hl hlt
    obtain ⟨hcnt, hlo⟩ := hcount l lo hi' hl hlt
    obtain ⟨t1, t2, t3⟩ := timeline_label hd hl
    refine ⟨_, List.mem_map.mpr ⟨l, ?_, rfl⟩, ?_, ?_⟩
    · rw [List.mem_insertionSort, hlm]
      have hpos : 0 < pairs.countP (fun x => decide (x.2 = Cell.str l ∧ x.1 ≠ .null)) := by
        have : (q : ℤ) * (lo + d.pretest) < q * (hi' + d.pretest) := by rcases hq with rfl | rfl <;> norm_num <;> omega
        omega
      obtain ⟨⟨c, x⟩, hx, e⟩ := List.countP_pos_iff.mp hpos
      have e := of_decide_eq_true e
      simp only at e
      obtain ⟨rfl, -⟩ := e
      exact ⟨c, hx⟩
    · intro hlt'
      rw [hcnt]
      rcases hq with rfl | rfl <;> push_cast at * <;> omega
    · intro heq
      rw [hcnt]
      rcases hq with rfl | rfl <;> push_cast at * <;> omega

end days

/-! ### An experiment whose last days are missing -/

/-- The performance data of an item on a day. -/
def shortRow (p : ℕ × ℕ) : Row ℝ := fun c =>
  if c = "id" then .str (itemText p.1) else if c = "day" then .time (p.2 * 86400000000000) else .num (p.1 + 1)

/-- The sixty items over the first 22 of the 28 days of the experiment. -/
def shortPerf : Frame ℝ where
  cols := ["id", "day", "profit", "clk", "imp", "cost", "conv", "val"]
  rows := (List.range 60 ×ˢ List.range 22).map shortRow

theorem shortPerf_mem {r : Row ℝ} (h : r ∈ shortPerf.rows) : ∃ i w, i < 60 ∧ w < 22 ∧ r = shortRow (i, w) := by
  obtain ⟨⟨i, w⟩, hp, rfl⟩ := List.mem_map.mp h
  rw [List.mem_product, List.mem_range, List.mem_range] at hp
  exact ⟨i, w, hp.1, hp.2, rfl⟩

theorem mem_shortPerf {i w : ℕ} (hi : i < 60) (hw : w < 22) : shortRow (i, w) ∈ shortPerf.rows :=
  List.mem_map.mpr ⟨(i, w), List.mem_product.mpr ⟨List.mem_range.mpr hi, List.mem_range.mpr hw⟩, rfl⟩

theorem shortRow_date (p : ℕ × ℕ) : studyExt.toDate (shortRow p "day") = .ok (some ((p.2 : ℤ) * 86400000000000)) := rfl

theorem shortPerf_date (t : ℤ) : Spec.PerfDate studyExt shortPerf "day" t ↔ ∃ w : ℕ, w < 22 ∧ t = (w : ℤ) * 86400000000000 := by
  unfold Spec.PerfDate
  constructor
  · rintro ⟨r, hr, e⟩
    obtain ⟨i, w, -, hw, rfl⟩ := shortPerf_mem hr
    rw [shortRow_date] at e
    exact ⟨w, hw, (Option.some.inj (Except.ok.inj e)).symm⟩
  · rintro ⟨w, hw, rfl⟩
    exact ⟨_, mem_shortPerf (i := 0) (by norm_num) hw, rfl⟩

theorem shortPerf_correct {d : Design ℝ} (h1 : d.runtime = 4) (h2 : d.pretest = 0) (h3 : d.primaryMetric = "profit") :
    Spec.CorrectPerformance studyExt d shortPerf "id" "day" reportForm.args 0 where
  dates := by
    intro r hr
    obtain ⟨i, w, -, hw, rfl⟩ := shortPerf_mem hr
    refine ⟨_, shortRow_date _, ?_, ?_⟩
    · rw [h2]
      show (0 : ℤ) - 0 * _ ≤ (w : ℤ) * 86400000000000
      omega
    · rw [h1]
      show (w : ℤ) * 86400000000000 < 0 + 4 * (7 * 86400000000000)
      omega
  first := by
    rw [shortPerf_date]
    exact ⟨0, by norm_num, by rw [h2]; norm_num⟩
  last := by
    intro _
    refine ⟨21 * 86400000000000, (shortPerf_date _).mpr ⟨21, by norm_num, by norm_num⟩, ?_⟩
    rw [h1]
    norm_num
  spaced := by
    refine ⟨1, Or.inl rfl, ?_⟩
    intro s t hs ht hst hno
    obtain ⟨a, ha, rfl⟩ := (shortPerf_date s).mp hs
    obtain ⟨b, hb, rfl⟩ := (shortPerf_date t).mp ht
    have hab : a < b := by omega
    by_cases hb1 : b = a + 1
    · subst hb1
      push_cast
      ring
    · exact absurd ⟨by push_cast; omega, by push_cast; omega⟩ (hno _ ((shortPerf_date _).mpr ⟨a + 1, by omega, rfl⟩))
  once := by
    intro s t
    unfold Spec.perfRows shortPerf
    rw [List.countP_map]
    have hnd : (List.range 60 ×ˢ List.range 22).Nodup := List.Nodup.product List.nodup_range List.nodup_range
    rw [List.countP_eq_length_filter]
    have hsub : ∀ p ∈ (List.range 60 ×ˢ List.range 22).filter ((fun p => decide (studyExt.toStr (p "id") = s ∧ studyExt.toDate (p "day") = .ok (some t))) ∘ shortRow),
        ∀ q ∈ (List.range 60 ×ˢ List.range 22).filter ((fun p => decide (studyExt.toStr (p "id") = s ∧ studyExt.toDate (p "day") = .ok (some t))) ∘ shortRow),
        p = q := by
      intro p hp q hq
      have hp := of_decide_eq_true (List.mem_filter.mp hp).2
      have hq := of_decide_eq_true (List.mem_filter.mp hq).2
      have e1 : itemText p.1 = itemText q.1 := hp.1.trans hq.1.symm
      have e2 := hp.2.trans hq.2.symm
      rw [shortRow_date, shortRow_date] at e2
      have e2 : (p.2 : ℤ) * 86400000000000 = (q.2 : ℤ) * 86400000000000 := Option.some.inj (Except.ok.inj e2)
      exact Prod.ext (itemText_inj e1) (by omega)
    have hnd' := hnd.filter ((fun p : Row ℝ => decide (studyExt.toStr (p "id") = s ∧ studyExt.toDate (p "day") = .ok (some t))) ∘ shortRow)
    generalize (List.range 60 ×ˢ List.range 22).filter _ = l at hsub hnd'
    match l with
    | [] => simp
    | [_] => simp
    | a :: b :: l' =>
      have := hsub a (by simp) b (by simp)
      subst this
      simp at hnd'
  numbers := by
    intro s hs r hr
    obtain ⟨i, w, -, -, rfl⟩ := shortPerf_mem hr
    have hs : s.2 ≠ "id" ∧ s.2 ≠ "day" := by
      have : s.2 ∈ (Spec.metricSources reportForm.args).map Prod.snd := List.mem_map.mpr ⟨s, hs, rfl⟩
      rw [form_sources] at this
      have e : Spec.givenColumns reportForm ++ reportForm.others = ["clk", "imp", "cost", "conv", "val", "profit"] := by decide
      rw [e] at this
      constructor <;> (rintro h; rw [h] at this; revert this; decide)
    have hc : shortRow (i, w) s.2 = .num (i + 1) := by
      unfold shortRow
      rw [if_neg hs.1, if_neg hs.2]
    refine ⟨.fin (i + 1), ?_, Or.inr ⟨_, rfl, fun _ => by positivity⟩⟩
    rw [hc]
    unfold Spec.parsed
    split <;> rfl
  primary := by
    rw [h3, form_metricNames]
    decide


/-- **C121, complete data (false).**  A concluded experiment of four weeks is accepted with daily data although the last six days are missing: the notebook
shows 22 days instead of 28. -/
theorem C121_last_days_missing_false : ∃ (V : StudyEnv) (C : Checker ℝ) (items : Frame ℝ) (file : Dict (YVal ℝ)) (d : Design ℝ) (out : Frame ℝ),
    prepareStudy V.R (1 / 20) (4 / 5) C reportForm file.reverse shortPerf (renamed items) = .ok (d, out) ∧
    reportForm.concluded = true ∧ reportForm.skip = [] ∧ d.runtime = 4 ∧ d.pretest = 0 ∧ d.isCrossover = false ∧
    (∀ t, Spec.PerfDate C.ext shortPerf "day" t ↔ ∃ n : ℕ, n < 22 ∧ t = n * 86400000000000) ∧
    daysPerPeriod out = .ok [("test", 22)] := by
  obtain ⟨V, data, cells, C, items, file, d, h1, h2, h3, h4, h5, h6, h7, h8, hpm, hrt, hce, h9⟩ := oneForm_run false
  obtain ⟨d', hl, -, hacc⟩ := C119_data_accepted V (oneForm false) (studyRaw "profit") data cells C h1 items file h3 rfl h4 file.reverse file.reverse_perm
    (1 / 20) (4 / 5)
  obtain ⟨d'', salt, hl', hmk, -⟩ := exported_correct h1 h3 rfl h4 file.reverse_perm (1 / 20) (4 / 5)
  rw [h5] at hl hl'
  cases hl
  cases hl'
  have hdate : ∀ t, Spec.PerfDate C.ext shortPerf "day" t ↔ ∃ n : ℕ, n < 22 ∧ t = n * 86400000000000 := by rw [hce]; exact shortPerf_date
  obtain ⟨out, ho⟩ := hacc reportForm shortPerf (renamed items) 0 h9.table ⟨(reportForm_fits 1 60).columns, (reportForm_fits 1 60).distinct, (reportForm_fits 1 60).different,
    (reportForm_fits 1 60).others⟩ (by intro s hs; cases hs) h9.date (by rw [hce]; exact shortPerf_correct hrt h7 hpm)
  refine ⟨V, C, items, file, d, out, ho, rfl, rfl, hrt, h7, h6, hdate, ?_⟩
  obtain ⟨-, ho'⟩ := prepareStudy_ok h5 ho
  obtain ⟨table, q, n, ht, ⟨hq, hreg⟩, hsort, honly, hall⟩ := C121_table_partial V.R _ C shortPerf (renamed items) out d hmk reportForm.startDate "id" "day" "t" reportForm.args
    ho' (by decide) (by simp [renamed]) (by simp [renamed]) rfl rfl (by
      intro n hn
      obtain ⟨p, hp, rfl⟩ := List.mem_map.mp hn
      have := (form_atLeastOne (form := reportForm) hp).2
      simp only [List.mem_cons, List.not_mem_nil, or_false] at this
      rcases this with rfl | rfl | rfl <;> decide) 0 h9.date (by
      intro t ht
      obtain ⟨n, -, rfl⟩ := (hdate t).mp ht
      exact ⟨n, by ring⟩)
  rw [ht]
  have hq7 : q = 7 := by
    obtain ⟨k, -, e⟩ := (hreg (1 * 86400000000000)).mp ((hdate _).mpr ⟨1, by norm_num, by norm_num⟩)
    rw [h7] at e
    rcases hq with rfl | rfl
    · norm_num at e
      omega
    · rfl
  subst hq7
  have hn : n = 22 := by
    have a1 : ¬ 22 < n := by
      intro hlt
      obtain ⟨k, hk, e⟩ := (hdate (22 * 86400000000000)).mp ((hreg _).mpr ⟨22, hlt, by rw [h7]; norm_num⟩)
      omega
    obtain ⟨k, hk, e⟩ := (hreg (21 * 86400000000000)).mp ((hdate _).mpr ⟨21, by norm_num, by norm_num⟩)
    rw [h7] at e
    norm_num at e
    omega
  subst hn
  have htl : Spec.timeline d.toDesignParams 0 = [("pretest", 0 - 0, 0), ("test", 0, 0 + 4)] := by
    unfold Spec.timeline Spec.regularTimeline
    rw [h6, h7, hrt]
    rfl
  rw [htl] at honly hall
  have hfst : ∀ e ∈ table, e.1 = "test" := by
    intro e he
    obtain ⟨lo, hi, h, hlt⟩ := honly e he
    simp only [List.mem_cons, List.not_mem_nil, or_false, Prod.mk.injEq] at h
    rcases h with ⟨-, rfl, rfl⟩ | ⟨h, -⟩
    · omega
    · exact h
  obtain ⟨k, hk, -, hlast⟩ := hall "test" 0 (0 + 4) (by simp) (by norm_num)
  have hk22 : k = 22 := by
    have := (hlast (by rw [hrt]; rfl)).1
    rw [h7] at this
    norm_num at this
    exact_mod_cast this
  subst hk22
  match table, hsort, hfst, hk with
  | [e], _, _, hk => rw [List.mem_singleton.mp hk]
  | e :: e' :: _, hsort, hfst, _ =>
    have := (List.pairwise_cons.mp hsort).1 e'.1 (by simp)
    rw [hfst e (by simp), hfst e' (by simp)] at this
    exact absurd this (lt_irrefl _)

end Feedx
