import Verif.Proofs.OverTime
import Verif.Props.Analysis

/-!
Property C99: the plot of a metric over time shows the averages of the two groups on every date and their difference with a normal confidence
band.
-/

set_option linter.unusedSectionVars false

namespace Feedx

variable {R : Rounding ℝ} {argsort : List ℝ → List ℕ} {N : NormalDist} {d : Design ℝ}
  {metric itemCol periodCol treatmentCol dateCol : String} {f : Frame ℝ} {points : List TimePoint} {dates : PlotDates}

/-- **C99.**  Without the CUPED adjustment, a metric without missing or infinite values: there is one point for every date of a row with an
assignment, in the order of time, and it shows the values of the treated and of the control rows of that date. -/
theorem C99_points (h : metricOverTime R argsort N d false metric itemCol periodCol treatmentCol dateCol f = .ok (points, dates))
    (ha : 0 < d.alpha.val) (ha2 : d.alpha.val < 1) (value : Row ℝ → ℝ) (hv : ∀ r ∈ f.rows, (r metric).toFl = .fin (value r)) :
    (points.map TimePoint.date).Nodup ∧
    points.Pairwise (fun p q => ∀ t u, p.date = .time t → q.date = .time u → t < u) ∧
    (∀ date, (∃ p ∈ points, p.date = date) ↔ date ≠ .null ∧ ∃ r ∈ f.rows, r dateCol = date ∧ r treatmentCol ≠ .null) ∧
    ∀ p ∈ points, Spec.Shows p (N.ppf (1 - d.alpha.val / 2)) (Spec.groupValues f value dateCol treatmentCol p.date 1)
      (Spec.groupValues f value dateCol treatmentCol p.date 0) := by
  obtain ⟨hp, -⟩ := metricOverTime_plain.mp h
  simp only at hp
  obtain ⟨h1, h2, h3⟩ := timePoints_dates hp
  have hshow : ∀ date, Spec.Shows (timePoint N d.alpha.val f.rows metric dateCol treatmentCol date) (N.ppf (1 - d.alpha.val / 2))
      (Spec.groupValues f value dateCol treatmentCol date 1) (Spec.groupValues f value dateCol treatmentCol date 0) := fun date =>
    timePoint_shows N ha (by linarith) dateCol treatmentCol date fun r hr _ => hv r hr
  have hmem : ∀ date arm, Spec.groupValues f value dateCol treatmentCol date arm ≠ [] ↔
      ∃ r ∈ f.rows, r dateCol = date ∧ (r treatmentCol).toFl = .fin arm := by
    intro date arm
    unfold Spec.groupValues
    rw [ne_eq, List.map_eq_nil_iff, List.filter_eq_nil_iff]
    push Not
    simp only [decide_eq_true_eq]
  refine ⟨h1, h2, fun date => ⟨?_, ?_⟩, fun p hp' => ?_⟩
  · rintro ⟨p, hp', rfl⟩
    obtain ⟨hn, -, he⟩ := h3 p hp'
    refine ⟨hn, ?_⟩
    obtain ⟨-, -, -, -, -, hpts⟩ := timePoints_ok.mp hp
    have hf : (!p.treatment.isNan || !p.control.isNan) = true := by
      rw [hpts] at hp'
      exact (List.mem_filter.mp hp').2
    have hs := hshow p.date
    rw [← he] at hs
    obtain ⟨s1, s0, -⟩ := hs
    have : Spec.groupValues f value dateCol treatmentCol p.date 1 ≠ [] ∨ Spec.groupValues f value dateCol treatmentCol p.date 0 ≠ [] := by
      by_contra hcon
      push Not at hcon
      rw [if_pos hcon.1] at s1
      rw [if_pos hcon.2] at s0
      rw [s1, s0] at hf
      simp [Fl.isNan] at hf
    rcases this with hx | hx
    · obtain ⟨r, hr, e1, e2⟩ := (hmem _ _).mp hx
      exact ⟨r, hr, e1, fun hnull => by rw [hnull] at e2; cases e2⟩
    · obtain ⟨r, hr, e1, e2⟩ := (hmem _ _).mp hx
      exact ⟨r, hr, e1, fun hnull => by rw [hnull] at e2; cases e2⟩
  · rintro ⟨hn, r, hr, rfl, ht⟩
    obtain ⟨s1, s0, -⟩ := hshow (r dateCol)
    refine ⟨_, mem_timePoints hp hr hn ?_, rfl⟩
    rcases (timePoints_ok.mp hp).2.2.2.1 r hr with hx | hx | hx
    · exact absurd hx ht
    · left
      rw [s1, if_neg ((hmem _ _).mpr ⟨r, hr, rfl, hx⟩)]
      rfl
    · right
      rw [s0, if_neg ((hmem _ _).mpr ⟨r, hr, rfl, hx⟩)]
      rfl
  · have := hshow p.date
    rw [← (h3 p hp').2.2] at this
    exact this

/-- **C99, the band.**  The band of a date with values in both groups is centred on the difference, and it contains 0 exactly if the difference of
the averages is at most `z` standard errors, where `z` is the normal quantile of the design's significance level (a positive number). -/
theorem C99_zero_in_band (h : metricOverTime R argsort N d false metric itemCol periodCol treatmentCol dateCol f = .ok (points, dates))
    (ha : 0 < d.alpha.val) (ha2 : d.alpha.val < 1) (value : Row ℝ → ℝ) (hv : ∀ r ∈ f.rows, (r metric).toFl = .fin (value r))
    (p : TimePoint) (hp : p ∈ points) :
    let treated := Spec.groupValues f value dateCol treatmentCol p.date 1
    let control := Spec.groupValues f value dateCol treatmentCol p.date 0
    treated ≠ [] → control ≠ [] →
    0 < N.ppf (1 - d.alpha.val / 2) ∧
    (Spec.Contains p.lower p.upper 0 ↔ |Spec.mean treated - Spec.mean control| ≤
      N.ppf (1 - d.alpha.val / 2) * Real.sqrt (Spec.varOfMean treated + Spec.varOfMean control)) ∧
    (Spec.Contains p.lower p.upper (Spec.mean treated - Spec.mean control)) := by
  intro treated control h1 h0
  exact shows_band ha ha2 ((C99_points h ha ha2 value hv).2.2.2 p hp) h1 h0

/-- **C99 with the CUPED adjustment.**  On a date whose items all have pretest rows, with pretest totals that are not all equal, the point shows the
values corrected by the pretest totals: `value - θ (pretest total - average pretest total)`, where `θ` is the least squares slope of the values
of that date on the pretest totals.  So the difference of the groups is corrected by `θ` times the difference of their pretest averages. -/
theorem C99_cuped (h : metricOverTime R argsort N d true metric itemCol periodCol treatmentCol dateCol f = .ok (points, dates))
    (ha : 0 < d.alpha.val) (ha2 : d.alpha.val < 1) (value : Row ℝ → ℝ) (hv : ∀ r ∈ f.rows, (r metric).toFl = .fin (value r)) (date : Cell ℝ)
    (hpre : ∀ r ∈ f.rows, r dateCol = date → r itemCol ≠ .null ∧ ∃ p ∈ f.rows, p itemCol = r itemCol ∧ p periodCol = .str "pretest") :
    let day := f.rows.filter (fun r => decide (r dateCol = date))
    let pretest : Row ℝ → ℝ := fun r => Spec.pretestTotal f value itemCol periodCol (r itemCol)
    let slope := Spec.crossDev (day.map value) (day.map pretest) / Spec.sumSqDev (day.map pretest)
    let adjusted : Row ℝ → ℝ := fun r => value r - slope * (pretest r - Spec.mean (day.map pretest))
    let group (v : Row ℝ → ℝ) (arm : ℝ) := Spec.groupValues f v dateCol treatmentCol date arm
    Spec.sumSqDev (day.map pretest) ≠ 0 → ∀ p ∈ points, p.date = date →
    Spec.Shows p (N.ppf (1 - d.alpha.val / 2)) (group adjusted 1) (group adjusted 0) ∧
    (group value 1 ≠ [] → group value 0 ≠ [] → p.difference = .fin ((Spec.mean (group value 1) - Spec.mean (group value 0)) -
      slope * (Spec.mean (group pretest 1) - Spec.mean (group pretest 0)))) := by
  intro day pretest slope adjusted group hvar p hp hd
  obtain ⟨g, hg, hpts, -⟩ := metricOverTime_cuped.mp h
  simp only at hpts
  obtain ⟨-, ⟨hn1, hn2, -⟩, -⟩ := timePoints_ok.mp hpts
  have hrows := cupedPerDate_rows hg
  have hadj : ∀ r ∈ f.rows, r dateCol = date → adjustedRow f metric itemCol dateCol periodCol r = .fin (adjusted r) := fun r hr hd =>
    adjustedRow_eq hv date hpre hvar hr hd
  set F : Row ℝ → Cell ℝ := fun r => Cell.ofFl (adjustedRow f metric itemCol dateCol periodCol r) with hF
  set value' : Row ℝ → ℝ := fun r => (r metric).toFl.toOption.getD 0 with hvalue'
  have hfin : ∀ r ∈ g.rows, r dateCol = date → (r metric).toFl = .fin (value' r) := by
    intro r hr hdr
    rw [hrows] at hr
    obtain ⟨s, hs, rfl⟩ := List.mem_map.mp hr
    rw [Function.update_of_ne hn1.symm] at hdr
    simp only [hvalue', Function.update_self, toFl_ofFl, hadj s hs hdr]
    rfl
  have hshow := timePoint_shows N ha (by linarith) dateCol treatmentCol date hfin
  have hpt := (timePoints_dates hpts).2.2 p hp
  rw [hd] at hpt
  rw [← hpt.2.2] at hshow
  have hgroup : ∀ arm, Spec.groupValues g value' dateCol treatmentCol date arm = group adjusted arm := by
    intro arm
    show _ = Spec.groupValues f adjusted dateCol treatmentCol date arm
    rw [← armRows_values, ← armRows_values, hrows, armRows_update hn1 hn2 F, List.map_map]
    refine List.map_congr_left fun r hr => ?_
    have hr := List.mem_filter.mp hr
    simp only [Bool.and_eq_true, decide_eq_true_eq] at hr
    simp only [Function.comp, hvalue', Function.update_self, hF, toFl_ofFl, hadj r hr.1 hr.2.1]
    rfl
  rw [hgroup, hgroup] at hshow
  refine ⟨hshow, fun g1 g0 => ?_⟩
  have hne : ∀ v w arm, group v arm ≠ [] → group w arm ≠ [] := by
    intro v w arm
    show Spec.groupValues _ _ _ _ _ _ ≠ [] → Spec.groupValues _ _ _ _ _ _ ≠ []
    unfold Spec.groupValues
    simp
  obtain ⟨-, -, hs⟩ := hshow
  rw [if_neg (by
    rintro (h | h)
    · exact hne value adjusted 1 g1 h
    · exact hne value adjusted 0 g0 h)] at hs
  rw [hs.1]
  congr 1
  have hmean : ∀ arm, group value arm ≠ [] → Spec.mean (group adjusted arm) =
      Spec.mean (group value arm) - slope * (Spec.mean (group pretest arm) - Spec.mean (day.map pretest)) := by
    intro arm harm
    show Spec.mean (Spec.groupValues f adjusted dateCol treatmentCol date arm) = Spec.mean (Spec.groupValues f value dateCol treatmentCol date arm) -
      slope * (Spec.mean (Spec.groupValues f pretest dateCol treatmentCol date arm) - _)
    have hne' : armRows f.rows dateCol treatmentCol date arm ≠ [] := by
      intro h0
      apply harm
      show Spec.groupValues f value dateCol treatmentCol date arm = []
      rw [← armRows_values, h0]
      rfl
    rw [← armRows_values, ← armRows_values, ← armRows_values]
    rw [spec_mean_sub, spec_mean_mul, spec_mean_sub, spec_mean_const hne']
  rw [hmean 1 g1, hmean 0 g0]
  ring

/-- **C99, order of the rows.**  The plot does not depend on the order of the rows. -/
theorem C99_row_order (applyCuped : Bool) (hsort : ArgsortOk argsort) {f' : Frame ℝ} (hc : f.cols = f'.cols) (hperm : f.rows.Perm f'.rows)
    (hn : f.rows.length ≤ 2 ^ 53)
    (h : metricOverTime R argsort N d applyCuped metric itemCol periodCol treatmentCol dateCol f = .ok (points, dates)) :
    metricOverTime R argsort N d applyCuped metric itemCol periodCol treatmentCol dateCol f' = .ok (points, dates) := by
  cases applyCuped with
  | false =>
    rw [metricOverTime_plain] at h ⊢
    exact ⟨timePoints_perm hc hperm h.1, by rw [← plotDates_perm hc hperm]; exact h.2⟩
  | true =>
    rw [metricOverTime_cuped] at h ⊢
    obtain ⟨g, hg, hp, hd⟩ := h
    obtain ⟨n1, n2, ⟨r, hr, n3⟩, n4, n5⟩ := cupedPerDate_needs hg
    have hret : (cupedPerDate R argsort f' metric itemCol dateCol periodCol metric).Returns :=
      C79_returns R argsort hsort f' metric itemCol dateCol periodCol metric (hc ▸ n1) (fun r hr => n2 r (hperm.mem_iff.mpr hr))
        ⟨r, hperm.mem_iff.mp hr, n3⟩ (fun r hr => n4 r (hperm.mem_iff.mpr hr)) n5 (hperm.length_eq ▸ hn)
    obtain ⟨g', hg'⟩ := hret
    have hrows : g.rows.Perm g'.rows := by
      rw [cupedPerDate_rows hg, cupedPerDate_rows hg']
      have : (fun r => Function.update r metric (Cell.ofFl (adjustedRow f metric itemCol dateCol periodCol r))) =
          fun r => Function.update r metric (Cell.ofFl (adjustedRow f' metric itemCol dateCol periodCol r)) :=
        funext fun r => by rw [adjustedRow_perm hperm]
      rw [this]
      exact hperm.map _
    have hcols : g.cols = g'.cols := by
      rw [(cupedPerDate_ok hg).2.1, (cupedPerDate_ok hg').2.1, hc]
    exact ⟨g', hg', timePoints_perm hcols hrows hp, by rw [← plotDates_perm hcols hrows]; exact hd⟩

/-- **C99, exchange of the groups.**  If treated and control rows are exchanged, every point is reflected: the averages change places, the
difference changes its sign and so does the band.  The assignment has to be a column of its own. -/
theorem C99_swap_groups (applyCuped : Bool) (hsort : ArgsortOk argsort) {f' : Frame ℝ} {σ : Cell ℝ → Cell ℝ} (hσ : Spec.SwapsArms σ)
    (hc : f'.cols = f.cols) (hf : f'.rows = f.rows.map (fun r => Function.update r treatmentCol (σ (r treatmentCol))))
    (hown : treatmentCol ∉ [itemCol, periodCol, "time_period", "date"]) (hn : f.rows.length ≤ 2 ^ 53)
    (h : metricOverTime R argsort N d applyCuped metric itemCol periodCol treatmentCol dateCol f = .ok (points, dates)) :
    metricOverTime R argsort N d applyCuped metric itemCol periodCol treatmentCol dateCol f' = .ok (points.map Spec.mirrored, dates) := by
  simp only [List.mem_cons, List.not_mem_nil, or_false, not_or] at hown
  obtain ⟨o1, o2, o3, o4⟩ := hown
  cases applyCuped with
  | false =>
    rw [metricOverTime_plain] at h ⊢
    refine ⟨timePoints_swap hσ hc hf h.1, ?_⟩
    rw [plotDates_map hc hf]
    · exact h.2
    · intro r c hc
      simp only [List.mem_cons, List.not_mem_nil, or_false] at hc
      rcases hc with rfl | rfl
      · exact Function.update_of_ne (Ne.symm o3) _ _
      · exact Function.update_of_ne (Ne.symm o4) _ _
  | true =>
    rw [metricOverTime_cuped] at h ⊢
    obtain ⟨g, hg, hp, hd⟩ := h
    obtain ⟨-, ⟨d1, d2, d3⟩, -⟩ := timePoints_ok.mp hp
    obtain ⟨n1, n2, ⟨s, hs, n3⟩, n4, n5⟩ := cupedPerDate_needs hg
    have hkeep : ∀ r : Row ℝ, ∀ c ∈ [metric, itemCol, dateCol, periodCol], Function.update r treatmentCol (σ (r treatmentCol)) c = r c := by
      intro r c hc
      simp only [List.mem_cons, List.not_mem_nil, or_false] at hc
      rcases hc with rfl | rfl | rfl | rfl
      · exact Function.update_of_ne d2 _ _
      · exact Function.update_of_ne (Ne.symm o1) _ _
      · exact Function.update_of_ne d3 _ _
      · exact Function.update_of_ne (Ne.symm o2) _ _
    have hret : (cupedPerDate R argsort f' metric itemCol dateCol periodCol metric).Returns := by
      refine C79_returns R argsort hsort f' metric itemCol dateCol periodCol metric (hc ▸ n1) ?_ ?_ ?_ n5 (by rw [hf, List.length_map]; exact hn)
      · intro r hr
        rw [hf] at hr
        obtain ⟨q, hq, rfl⟩ := List.mem_map.mp hr
        rw [hkeep q metric (by simp)]
        exact n2 q hq
      · rw [hf]
        exact ⟨_, List.mem_map.mpr ⟨s, hs, rfl⟩, by rw [hkeep s periodCol (by simp)]; exact n3⟩
      · intro r hr
        rw [hf] at hr
        obtain ⟨q, hq, rfl⟩ := List.mem_map.mp hr
        rw [hkeep q dateCol (by simp)]
        exact n4 q hq
    obtain ⟨g', hg'⟩ := hret
    have hrows : g'.rows = g.rows.map (fun r => Function.update r treatmentCol (σ (r treatmentCol))) := by
      rw [cupedPerDate_rows hg, cupedPerDate_rows hg', hf, List.map_map, List.map_map]
      refine List.map_congr_left fun r _ => ?_
      simp only [Function.comp]
      rw [adjustedRow_map hf hkeep, Function.update_of_ne d2.symm, Function.update_comm d2]
    have hcols : g'.cols = g.cols := by
      rw [(cupedPerDate_ok hg).2.1, (cupedPerDate_ok hg').2.1, hc]
    refine ⟨g', hg', timePoints_swap hσ hcols hrows hp, ?_⟩
    rw [plotDates_map hcols hrows]
    · exact hd
    · intro r c hc
      simp only [List.mem_cons, List.not_mem_nil, or_false] at hc
      rcases hc with rfl | rfl
      · exact Function.update_of_ne (Ne.symm o3) _ _
      · exact Function.update_of_ne (Ne.symm o4) _ _

/-- **C99, one group.**  A table without a treated row, or without a control row, cannot be plotted: `KeyError`. -/
theorem C99_one_group (hc : ∀ c ∈ [metric, dateCol, treatmentCol], c ∈ f.cols) (hd : [metric, dateCol, treatmentCol].Nodup)
    (hn : ∀ r ∈ f.rows, (r metric).isNumeric = true)
    (ht : ∀ r ∈ f.rows, r treatmentCol = .null ∨ (r treatmentCol).toFl = .fin 1 ∨ (r treatmentCol).toFl = .fin 0)
    (hone : (∀ r ∈ f.rows, (r treatmentCol).toFl ≠ .fin 1) ∨ ∀ r ∈ f.rows, (r treatmentCol).toFl ≠ .fin 0) :
    metricOverTime R argsort N d false metric itemCol periodCol treatmentCol dateCol f = .error .keyError := by
  simp only [List.forall_mem_cons, List.not_mem_nil, false_implies, implies_true, and_true] at hc
  simp only [List.nodup_cons, List.mem_cons, List.not_mem_nil, or_false, not_or, List.nodup_nil, and_true, not_false_eq_true] at hd
  have hp : timePoints N d.alpha.val f metric dateCol treatmentCol = .error .keyError := by
    refine timePoints_absent ⟨hc.2.1, hc.2.2, hc.1⟩ ⟨hd.1.1, hd.1.2, hd.2⟩ hn ht ?_
    have hempty : ∀ arm, (∀ r ∈ f.rows, (r treatmentCol).toFl ≠ .fin arm) → ∀ date,
        (meanCol (armRows f.rows dateCol treatmentCol date arm) metric).isNan = true := by
      intro arm h date
      refine meanCol_nan fun r hr => ?_
      have := List.mem_filter.mp hr
      simp only [Bool.and_eq_true, cellEq, decide_eq_true_eq] at this
      exact absurd this.2.2 (h r this.1)
    rcases hone with h | h
    · exact ⟨1, by simp, hempty 1 h⟩
    · exact ⟨0, by simp, hempty 0 h⟩
  unfold metricOverTime
  refine raiseIf_bind_err.mpr (Or.inr ⟨not_not.mpr hc.2.1, ?_⟩)
  exact Py.bind_eq_error.mpr (Or.inr ⟨f, rfl, Py.bind_eq_error.mpr (Or.inl hp)⟩)

/-- **C99, equal pretest totals.**  If all items have the same pretest total (all without a click before the experiment, say), the slope of the
adjustment is 0/0, every adjusted value is missing, and the plot with the adjustment ends with a `KeyError`. -/
theorem C99_equal_pretest (hsort : ArgsortOk argsort) (hc : ∀ c ∈ [metric, itemCol, dateCol, periodCol, treatmentCol], c ∈ f.cols)
    (hd : [metric, dateCol, treatmentCol].Nodup) (value : Row ℝ → ℝ) (hv : ∀ r ∈ f.rows, (r metric).toFl = .fin (value r))
    (hdate : ∀ r ∈ f.rows, r dateCol ≠ .null) (hrows : f.rows ≠ []) (hn : f.rows.length ≤ 2 ^ 53)
    (ht : ∀ r ∈ f.rows, r treatmentCol = .null ∨ (r treatmentCol).toFl = .fin 1 ∨ (r treatmentCol).toFl = .fin 0)
    (hpre : ∀ r ∈ f.rows, r itemCol ≠ .null ∧ ∃ p ∈ f.rows, p itemCol = r itemCol ∧ p periodCol = .str "pretest")
    (total : ℝ) (heq : ∀ r ∈ f.rows, Spec.pretestTotal f value itemCol periodCol (r itemCol) = total) :
    metricOverTime R argsort N d true metric itemCol periodCol treatmentCol dateCol f = .error .keyError := by
  simp only [List.forall_mem_cons, List.not_mem_nil, false_implies, implies_true, and_true] at hc
  simp only [List.nodup_cons, List.mem_cons, List.not_mem_nil, or_false, not_or, List.nodup_nil, and_true, not_false_eq_true] at hd
  obtain ⟨r0, hr0⟩ := List.exists_mem_of_ne_nil _ hrows
  obtain ⟨-, p0, hp0, -, hp0'⟩ := hpre r0 hr0
  have hnum : ∀ r ∈ f.rows, (r metric).isNumeric = true := fun r hr => by
    have := hv r hr
    revert this
    cases r metric <;> simp [Cell.toFl, Cell.isNumeric]
  obtain ⟨g, hg⟩ : (cupedPerDate R argsort f metric itemCol dateCol periodCol metric).Returns :=
    C79_returns R argsort hsort f metric itemCol dateCol periodCol metric (by simp [hc]) hnum ⟨p0, hp0, hp0'⟩ hdate hd.1.1 hn
  have hnan : ∀ r ∈ f.rows, adjustedRow f metric itemCol dateCol periodCol r = .nan := by
    intro r hr
    unfold adjustedRow adjustedOf
    refine if_pos (Or.inr (Or.inr ?_))
    unfold datePairs
    rw [List.map_map]
    have : (f.rows.filter (fun q => decide (q dateCol = r dateCol))).map ((fun q : Option ℝ × Option ℝ => q.2.getD 0) ∘
        fun q : Row ℝ => ((q metric).toFl.toOption, pretestTotal f metric itemCol periodCol (q itemCol))) =
        (f.rows.filter (fun q => decide (q dateCol = r dateCol))).map (fun _ => total) := by
      refine List.map_congr_left fun q hq => ?_
      have hq := (List.mem_filter.mp hq).1
      obtain ⟨hnn, hp⟩ := hpre q hq
      simp only [Function.comp, pretestTotal_spec hv hnn hp, Option.getD_some, heq q hq]
    rw [this, List.map_const']
    exact sumSqDev_replicate _ _
  have hg' := cupedPerDate_rows hg
  have hcell : ∀ r ∈ g.rows, (r metric) = .null ∧ ∃ s ∈ f.rows, r treatmentCol = s treatmentCol := by
    intro r hr
    rw [hg'] at hr
    obtain ⟨s, hs, rfl⟩ := List.mem_map.mp hr
    refine ⟨?_, s, hs, Function.update_of_ne (Ne.symm hd.1.2) _ _⟩
    simp only [Function.update_self, hnan s hs]
    rfl
  have hcols : g.cols = f.cols := by
    rw [(cupedPerDate_ok hg).2.1, if_pos hc.1]
  have hp : timePoints N d.alpha.val g metric dateCol treatmentCol = .error .keyError := by
    refine timePoints_absent (by rw [hcols]; exact ⟨hc.2.2.1, hc.2.2.2.2, hc.1⟩) ⟨hd.1.1, hd.1.2, hd.2⟩ ?_ ?_ ⟨1, by simp, fun date => ?_⟩
    · intro r hr
      rw [(hcell r hr).1]
      rfl
    · intro r hr
      obtain ⟨-, s, hs, e⟩ := hcell r hr
      rw [e]
      exact ht s hs
    · refine meanCol_nan fun r hr => ?_
      rw [(hcell r (List.mem_filter.mp hr).1).1]
      rfl
  unfold metricOverTime
  refine raiseIf_bind_err.mpr (Or.inr ⟨not_not.mpr hc.2.2.1, ?_⟩)
  exact Py.bind_eq_error.mpr (Or.inr ⟨g, hg, Py.bind_eq_error.mpr (Or.inl hp)⟩)

/-- **C99, success.**  A table with timestamps as dates, finite values of the metric, both groups and a row in the experiment can be plotted
without the adjustment. -/
theorem C99_returns (hc : ∀ c ∈ [metric, dateCol, treatmentCol, "time_period", "date"], c ∈ f.cols) (hd : [metric, dateCol, treatmentCol].Nodup)
    (value : Row ℝ → ℝ) (hv : ∀ r ∈ f.rows, (r metric).toFl = .fin (value r))
    (ht : ∀ r ∈ f.rows, r treatmentCol = .null ∨ (r treatmentCol).toFl = .fin 1 ∨ (r treatmentCol).toFl = .fin 0)
    (h1 : ∃ r ∈ f.rows, (r treatmentCol).toFl = .fin 1 ∧ r dateCol ≠ .null) (h0 : ∃ r ∈ f.rows, (r treatmentCol).toFl = .fin 0 ∧ r dateCol ≠ .null)
    (htime : ∀ r ∈ f.rows, ∃ t, r "date" = .time t)
    (hr : ∃ r ∈ f.rows, r "time_period" ∈ [Cell.str "test", Cell.str "test_1", Cell.str "washout_1"])
    (hw : d.isCrossover = true → d.washout ≠ none) :
    ∃ out, metricOverTime R argsort N d false metric itemCol periodCol treatmentCol dateCol f = .ok out := by
  simp only [List.forall_mem_cons, List.not_mem_nil, false_implies, implies_true, and_true] at hc
  simp only [List.nodup_cons, List.mem_cons, List.not_mem_nil, or_false, not_or, List.nodup_nil, and_true, not_false_eq_true] at hd
  obtain ⟨D, hD⟩ := plotDates_returns (d := d.toDesignParams) ⟨hc.2.2.2.1, hc.2.2.2.2⟩ htime hr hw
  refine ⟨⟨_, D⟩, metricOverTime_plain.mpr ⟨timePoints_ok.mpr ⟨⟨hc.2.1, hc.2.2.1, hc.1⟩, ⟨hd.1.1, hd.1.2, hd.2⟩, ?_, ht, ?_, rfl⟩, hD⟩⟩
  · intro r hr
    have := hv r hr
    revert this
    cases r metric <;> simp [Cell.toFl, Cell.isNumeric]
  · have key : ∀ arm, (∃ r ∈ f.rows, (r treatmentCol).toFl = .fin arm ∧ r dateCol ≠ .null) →
        (∃ k ∈ groupKeys f.rows [dateCol], (meanCol (armRows f.rows dateCol treatmentCol (k.headD .null) arm) metric).isNan = false) ∧
        ∃ k ∈ groupKeys f.rows [dateCol], (spread (armRows f.rows dateCol treatmentCol (k.headD .null) arm) metric).isNan = false := by
      rintro arm ⟨r, hr, harm, hdate⟩
      have hk : [r dateCol] ∈ groupKeys f.rows [dateCol] := mem_groupKeys.mpr ⟨⟨r, hr, rfl⟩, by simpa using hdate⟩
      have hne : armRows f.rows dateCol treatmentCol (r dateCol) arm ≠ [] :=
        List.ne_nil_of_mem (a := r) (List.mem_filter.mpr ⟨hr, by simp [cellEq, harm]⟩)
      have hfin : ∀ q ∈ armRows f.rows dateCol treatmentCol (r dateCol) arm, (q metric).toFl = .fin (value q) := fun q hq =>
        hv q (List.mem_filter.mp hq).1
      refine ⟨⟨_, hk, ?_⟩, ⟨_, hk, ?_⟩⟩
      · rw [List.headD_cons, meanCol_values hfin, if_neg hne]
        rfl
      · rw [List.headD_cons, spread_values hfin, if_neg hne]
        rfl
    intro arm harm
    simp only [List.mem_cons, List.not_mem_nil, or_false] at harm
    rcases harm with rfl | rfl
    · exact key _ h1
    · exact key _ h0

/-- **C99, success with the adjustment.**  With the adjustment, each group also needs a row on a date on which the adjustment is possible: all
items of that date have pretest rows, and their pretest totals are not all equal. -/
theorem C99_cuped_returns (hsort : ArgsortOk argsort)
    (hc : ∀ c ∈ [metric, itemCol, dateCol, periodCol, treatmentCol, "time_period", "date"], c ∈ f.cols)
    (hd : [metric, dateCol, treatmentCol].Nodup) (hown : metric ∉ ["time_period", "date"])
    (value : Row ℝ → ℝ) (hv : ∀ r ∈ f.rows, (r metric).toFl = .fin (value r))
    (hdate : ∀ r ∈ f.rows, r dateCol ≠ .null) (hn : f.rows.length ≤ 2 ^ 53)
    (ht : ∀ r ∈ f.rows, r treatmentCol = .null ∨ (r treatmentCol).toFl = .fin 1 ∨ (r treatmentCol).toFl = .fin 0)
    (harms : ∀ arm ∈ [(1 : ℝ), 0], ∃ r ∈ f.rows, (r treatmentCol).toFl = .fin arm ∧
      (∀ q ∈ f.rows, q dateCol = r dateCol → q itemCol ≠ .null ∧ ∃ p ∈ f.rows, p itemCol = q itemCol ∧ p periodCol = .str "pretest") ∧
      Spec.sumSqDev ((f.rows.filter (fun q => decide (q dateCol = r dateCol))).map
        (fun q => Spec.pretestTotal f value itemCol periodCol (q itemCol))) ≠ 0)
    (htime : ∀ r ∈ f.rows, ∃ t, r "date" = .time t)
    (hr : ∃ r ∈ f.rows, r "time_period" ∈ [Cell.str "test", Cell.str "test_1", Cell.str "washout_1"])
    (hw : d.isCrossover = true → d.washout ≠ none) :
    ∃ out, metricOverTime R argsort N d true metric itemCol periodCol treatmentCol dateCol f = .ok out := by
  simp only [List.forall_mem_cons, List.not_mem_nil, false_implies, implies_true, and_true] at hc
  simp only [List.nodup_cons, List.mem_cons, List.not_mem_nil, or_false, not_or, List.nodup_nil, and_true, not_false_eq_true] at hd hown
  have hnum : ∀ r ∈ f.rows, (r metric).isNumeric = true := fun r hr => by
    have := hv r hr
    revert this
    cases r metric <;> simp [Cell.toFl, Cell.isNumeric]
  obtain ⟨r1, hr1, -, hpre1, -⟩ := harms 1 (by simp)
  obtain ⟨-, p0, hp0, -, hp0'⟩ := hpre1 r1 hr1 rfl
  obtain ⟨g, hg⟩ : (cupedPerDate R argsort f metric itemCol dateCol periodCol metric).Returns :=
    C79_returns R argsort hsort f metric itemCol dateCol periodCol metric (by simp [hc]) hnum ⟨p0, hp0, hp0'⟩ hdate hd.1.1 hn
  have hrows := cupedPerDate_rows hg
  have hcols : g.cols = f.cols := by
    rw [(cupedPerDate_ok hg).2.1, if_pos hc.1]
  obtain ⟨D, hD⟩ := plotDates_returns (d := d.toDesignParams) ⟨hc.2.2.2.2.2.1, hc.2.2.2.2.2.2⟩ htime hr hw
  have hD' : plotDates d.toDesignParams g = .ok D := by
    rw [plotDates_map hcols hrows, hD]
    intro r c hc
    simp only [List.mem_cons, List.not_mem_nil, or_false] at hc
    rcases hc with rfl | rfl
    · exact Function.update_of_ne (Ne.symm hown.1) _ _
    · exact Function.update_of_ne (Ne.symm hown.2) _ _
  refine ⟨⟨_, D⟩, metricOverTime_cuped.mpr ⟨g, hg, timePoints_ok.mpr ⟨by rw [hcols]; exact ⟨hc.2.2.1, hc.2.2.2.2.1, hc.1⟩,
    ⟨hd.1.1, hd.1.2, hd.2⟩, ?_, ?_, ?_, rfl⟩, hD'⟩⟩
  · intro r hr
    rw [hrows] at hr
    obtain ⟨s, -, rfl⟩ := List.mem_map.mp hr
    rw [Function.update_self]
    cases adjustedRow f metric itemCol dateCol periodCol s <;> rfl
  · intro r hr
    rw [hrows] at hr
    obtain ⟨s, hs, rfl⟩ := List.mem_map.mp hr
    rw [Function.update_of_ne (Ne.symm hd.1.2)]
    exact ht s hs
  · intro arm harm
    obtain ⟨r, hr, ha, hpre, hvar⟩ := harms arm harm
    have hk : [r dateCol] ∈ groupKeys g.rows [dateCol] := by
      rw [hrows, groupKeys_map]
      · exact mem_groupKeys.mpr ⟨⟨r, hr, rfl⟩, by simpa using hdate r hr⟩
      · intro q c hc
        rw [List.mem_singleton.mp hc, Function.update_of_ne (Ne.symm hd.1.1)]
    have hne : armRows g.rows dateCol treatmentCol (r dateCol) arm ≠ [] := by
      rw [hrows, armRows_update hd.1.1 hd.1.2 (fun r => Cell.ofFl (adjustedRow f metric itemCol dateCol periodCol r)), ne_eq, List.map_eq_nil_iff]
      exact List.ne_nil_of_mem (a := r) (List.mem_filter.mpr ⟨hr, by simp [cellEq, ha]⟩)
    have hfin : ∀ q ∈ armRows g.rows dateCol treatmentCol (r dateCol) arm, (q metric).toFl = .fin ((q metric).toFl.toOption.getD 0) := by
      intro q hq
      have hq := List.mem_filter.mp hq
      simp only [Bool.and_eq_true, decide_eq_true_eq] at hq
      obtain ⟨hq, hqd, -⟩ := hq
      rw [hrows] at hq
      obtain ⟨s, hs, rfl⟩ := List.mem_map.mp hq
      rw [Function.update_of_ne (Ne.symm hd.1.1)] at hqd
      rw [Function.update_self, toFl_ofFl, adjustedRow_eq hv _ hpre hvar hs hqd]
      rfl
    refine ⟨⟨_, hk, ?_⟩, ⟨_, hk, ?_⟩⟩
    · rw [List.headD_cons, meanCol_values hfin, if_neg hne]
      rfl
    · rw [List.headD_cons, spread_values hfin, if_neg hne]
      rfl

/-! ### A concrete plot -/

/-- A strictly increasing function with median 0 in the place of the normal quantiles. -/
noncomputable def linearQuantiles : NormalDist where
  ppf q := q - 1 / 2
  strictMono := fun _ _ _ _ h => sub_lt_sub_right h _
  median := sub_self _

/-- One week of pretest and one of test of four items, of which `a` and `b` are treated. -/
def plottedRow (item period : String) (date : ℤ) (treated clicks : ℤ) : Row ℝ := fun c =>
  if c = "item_id" then .str item else if c = "time_period" then .str period else if c = "date" then .time date else
  if c = "treatment" then .int treated else if c = "clicks" then .int clicks else .null

/-- See `plottedRow`. -/
def plotted : Frame ℝ where
  cols := ["item_id", "time_period", "date", "treatment", "clicks"]
  rows := [plottedRow "a" "pretest" 0 1 1, plottedRow "b" "pretest" 0 1 3, plottedRow "c" "pretest" 0 0 2, plottedRow "d" "pretest" 0 0 2,
    plottedRow "a" "test" 7 1 5, plottedRow "b" "test" 7 1 9, plottedRow "c" "test" 7 0 3, plottedRow "d" "test" 7 0 5]

/-- The clicks of a row of `plotted`. -/
noncomputable def plottedClicks (r : Row ℝ) : ℝ := match r "clicks" with
  | .int i => i
  | _ => 0

/-- A design with `alpha = 0.1`. -/
noncomputable def plottedDesign : Design ℝ := { tenPercentParams with nAfterPre := 100, nAfterPost := 100 }

theorem plotted_clicks : ∀ r ∈ plotted.rows, (r "clicks").toFl = .fin (plottedClicks r) := by
  simp [plotted, plottedRow, plottedClicks, Cell.toFl]

/-- The plot of the example: `C99_points`, `C99_zero_in_band` and `C99_row_order` apply to it. -/
theorem plotted_returns (R : Rounding ℝ) (argsort : List ℝ → List ℕ) :
    ∃ out, metricOverTime R argsort linearQuantiles plottedDesign false "clicks" "item_id" "time_period" "treatment" "date" plotted = .ok out := by
  refine C99_returns (by simp [plotted]) (by decide) plottedClicks plotted_clicks ?_ ?_ ?_ ?_ ?_ ?_
  · simp [plotted, plottedRow, Cell.toFl]
  · simp [plotted, plottedRow, Cell.toFl]
  · simp [plotted, plottedRow, Cell.toFl]
  · simp [plotted, plottedRow]
  · simp [plotted, plottedRow]
  · intro h
    simp [plottedDesign, tenPercentParams] at h

theorem plotted_groups :
    Spec.groupValues plotted plottedClicks "date" "treatment" (.time 7) 1 = [5, 9] ∧
    Spec.groupValues plotted plottedClicks "date" "treatment" (.time 7) 0 = [3, 5] := by
  simp [Spec.groupValues, plotted, plottedRow, plottedClicks, Cell.toFl]

/-- On the test date of the example the averages 7 and 4 and their difference 3 are drawn, and the band ends at `3 ± 0.45 √2.5`. -/
example (R : Rounding ℝ) (argsort : List ℝ → List ℕ) : ∃ points dates,
    metricOverTime R argsort linearQuantiles plottedDesign false "clicks" "item_id" "time_period" "treatment" "date" plotted = .ok (points, dates) ∧
    ∃ p ∈ points, p.date = .time 7 ∧ p.treatment = .fin 7 ∧ p.control = .fin 4 ∧ p.difference = .fin 3 ∧
      p.lower = .fin (3 - 9 / 20 * Real.sqrt (5 / 2)) ∧ p.upper = .fin (3 + 9 / 20 * Real.sqrt (5 / 2)) := by
  obtain ⟨⟨points, dates⟩, h⟩ := plotted_returns R argsort
  have halpha : plottedDesign.alpha.val = 1 / 10 := by simp [plottedDesign, tenPercentParams, PyNum.val]
  obtain ⟨-, -, h3, h4⟩ := C99_points h (by rw [halpha]; norm_num) (by rw [halpha]; norm_num) plottedClicks plotted_clicks
  obtain ⟨p, hp, hd⟩ := (h3 (.time 7)).mpr ⟨by simp, by simp [plotted, plottedRow]⟩
  refine ⟨points, dates, h, p, hp, hd, ?_⟩
  have hs := h4 p hp
  rw [hd, plotted_groups.1, plotted_groups.2] at hs
  obtain ⟨s1, s0, hs⟩ := hs
  rw [if_neg (by simp)] at s1 s0 hs
  have hz : linearQuantiles.ppf (1 - plottedDesign.alpha.val / 2) = 9 / 20 := by
    rw [halpha]
    show (1 - 1 / 10 / 2 : ℝ) - 1 / 2 = 9 / 20
    norm_num
  have m1 : Spec.mean [(5 : ℝ), 9] = 7 := by norm_num [Spec.mean]
  have m0 : Spec.mean [(3 : ℝ), 5] = 4 := by norm_num [Spec.mean]
  have hvar : Spec.varOfMean [(5 : ℝ), 9] + Spec.varOfMean [(3 : ℝ), 5] = 5 / 2 := by
    unfold Spec.varOfMean Spec.sumSqDev
    rw [m1, m0]
    norm_num
  rw [m1] at s1
  rw [m0] at s0
  rw [hz, m1, m0, hvar] at hs
  have e : (7 : ℝ) - 4 = 3 := by norm_num
  rw [e] at hs
  exact ⟨s1, s0, hs⟩

theorem plotted_pretest (item : String) (x : ℝ) (h : (item = "a" ∧ x = 1) ∨ (item = "b" ∧ x = 3) ∨ (item = "c" ∧ x = 2) ∨ (item = "d" ∧ x = 2)) :
    Spec.pretestTotal plotted plottedClicks "item_id" "time_period" (.str item) = x := by
  rcases h with ⟨rfl, rfl⟩ | ⟨rfl, rfl⟩ | ⟨rfl, rfl⟩ | ⟨rfl, rfl⟩ <;>
    simp [Spec.pretestTotal, plotted, plottedRow, plottedClicks]

/-- The example can be plotted with the adjustment, so `C99_cuped` applies to it. -/
example (R : Rounding ℝ) (argsort : List ℝ → List ℕ) (hsort : ArgsortOk argsort) :
    ∃ out, metricOverTime R argsort linearQuantiles plottedDesign true "clicks" "item_id" "time_period" "treatment" "date" plotted = .ok out := by
  have hpre : ∀ q ∈ plotted.rows, q "item_id" ≠ .null ∧ ∃ p ∈ plotted.rows, p "item_id" = q "item_id" ∧ p "time_period" = .str "pretest" := by
    simp [plotted, plottedRow]
  have hday : (plotted.rows.filter (fun q => decide (q "date" = .time 7))).map
      (fun q => Spec.pretestTotal plotted plottedClicks "item_id" "time_period" (q "item_id")) = [1, 3, 2, 2] := by
    have : (plotted.rows.filter (fun q => decide (q "date" = .time 7))).map (fun q => q "item_id") =
        [.str "a", .str "b", .str "c", .str "d"] := by
      simp [plotted, plottedRow]
    have h2 := congrArg (List.map (Spec.pretestTotal plotted plottedClicks "item_id" "time_period")) this
    rw [List.map_map] at h2
    refine h2.trans ?_
    simp only [List.map_cons, List.map_nil, plotted_pretest "a" 1 (by simp), plotted_pretest "b" 3 (by simp), plotted_pretest "c" 2 (by simp),
      plotted_pretest "d" 2 (by simp)]
  have hvar : Spec.sumSqDev [(1 : ℝ), 3, 2, 2] ≠ 0 := by norm_num [Spec.sumSqDev, Spec.mean]
  refine C99_cuped_returns hsort (by simp [plotted]) (by decide) (by decide) plottedClicks plotted_clicks ?_ ?_ ?_ ?_ ?_ ?_ ?_
  · simp [plotted, plottedRow]
  · simp [plotted]
  · simp [plotted, plottedRow, Cell.toFl]
  · intro arm harm
    simp only [List.mem_cons, List.not_mem_nil, or_false] at harm
    rcases harm with rfl | rfl
    · exact ⟨plottedRow "a" "test" 7 1 5, by simp [plotted], by simp [plottedRow, Cell.toFl], fun q hq _ => hpre q hq, by
        have : plottedRow "a" "test" 7 1 5 "date" = .time 7 := by simp [plottedRow]
        rw [this, hday]
        exact hvar⟩
    · exact ⟨plottedRow "c" "test" 7 0 3, by simp [plotted], by simp [plottedRow, Cell.toFl], fun q hq _ => hpre q hq, by
        have : plottedRow "c" "test" 7 0 3 "date" = .time 7 := by simp [plottedRow]
        rw [this, hday]
        exact hvar⟩
  · simp [plotted, plottedRow]
  · simp [plotted, plottedRow]
  · intro h
    simp [plottedDesign, tenPercentParams] at h

/-- Exchanges the assignments. -/
noncomputable def exchangeArms (c : Cell ℝ) : Cell ℝ := if c.toFl = .fin 1 then .int 0 else if c.toFl = .fin 0 then .int 1 else c

/-- `C99_swap_groups` has a function to exchange the assignments. -/
example : Spec.SwapsArms exchangeArms := by
  intro c
  unfold exchangeArms
  have i0 : ((.int 0 : Cell ℝ)).toFl = .fin 0 := by simp [Cell.toFl]
  have i1 : ((.int 1 : Cell ℝ)).toFl = .fin 1 := by simp [Cell.toFl]
  have hnull : (Cell.null : Cell ℝ).toFl = .nan := rfl
  by_cases h1 : c.toFl = .fin 1
  · rw [if_pos h1, i0, h1]
    refine ⟨by simp, by simp, fun hc => ?_⟩
    rw [hc, hnull] at h1
    cases h1
  · rw [if_neg h1]
    by_cases h0 : c.toFl = .fin 0
    · rw [if_pos h0, i1, h0]
      refine ⟨by simp, by simp, fun hc => ?_⟩
      rw [hc, hnull] at h0
      cases h0
    · rw [if_neg h0]
      exact ⟨by simp [h1, h0], by simp [h1, h0], id⟩

/-- Without the control rows the example cannot be plotted. -/
example (R : Rounding ℝ) (argsort : List ℝ → List ℕ) :
    metricOverTime R argsort linearQuantiles plottedDesign false "clicks" "item_id" "time_period" "treatment" "date"
      ⟨plotted.cols, [plottedRow "a" "pretest" 0 1 1, plottedRow "a" "test" 7 1 5]⟩ = .error .keyError := by
  refine C99_one_group (by simp [plotted]) (by decide) ?_ ?_ (Or.inr ?_)
  · simp [plottedRow, Cell.isNumeric]
  · simp [plottedRow, Cell.toFl]
  · simp [plottedRow, Cell.toFl]

/-- Two items with the same number of clicks before the experiment cannot be plotted with the adjustment. -/
example (R : Rounding ℝ) (argsort : List ℝ → List ℕ) (hsort : ArgsortOk argsort) :
    metricOverTime R argsort linearQuantiles plottedDesign true "clicks" "item_id" "time_period" "treatment" "date"
      ⟨plotted.cols, [plottedRow "a" "pretest" 0 1 2, plottedRow "c" "pretest" 0 0 2, plottedRow "a" "test" 7 1 5,
        plottedRow "c" "test" 7 0 3]⟩ = .error .keyError := by
  refine C99_equal_pretest hsort (by simp [plotted]) (by decide) plottedClicks ?_ ?_ (by simp) (by simp) ?_ ?_ 2 ?_
  · simp [plottedRow, plottedClicks, Cell.toFl]
  · simp [plottedRow]
  · simp [plottedRow, Cell.toFl]
  · simp [plottedRow]
  · simp [Spec.pretestTotal, plottedRow, plottedClicks]

end Feedx
