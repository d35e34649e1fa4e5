import Verif.Model.AnalyseStudy
import Verif.Proofs.RowOrderChecks
import Verif.Props.CorrectRun
import Verif.Props.History

/-!
Property C122: the order of the rows of the tables a user loads makes no difference.
-/

set_option linter.unusedSectionVars false

namespace Feedx

variable {K : Type} [Field K] [LinearOrder K]

section experiment
variable {C : Checker K} {perf perf' assign assign' f : Frame K} {d : Design K} {startDate itemCol dateCol treatCol : String} {a : ExperimentArgs}

/-- A column of the data with the missing items. -/
theorem mergeMissing_col (g : Frame K) (m : List (Row K)) (c : String) : ((mergeMissing g m).col c).Perm (g.col c ++ m.map (fun r => r c)) := by
  have := (mergeMissing_perm g m).map (fun r => r c)
  rwa [List.map_append] at this

theorem mergeMissing_dates {E : Ext K} {g p : Frame K} {its : List (Cell K)} {x : Cell K}
    (hk : List.Forall₂ (Spec.StandardKeys E itemCol dateCol) p.rows g.rows)
    (hx : its.map (fun i => noDataRow i x) ≠ [] → ∃ r ∈ p.rows, (E.toDate (r dateCol)).map Cell.ofTime = .ok x) (y : Cell K) :
    y ∈ (mergeMissing g (its.map (fun i => noDataRow i x))).col "date" ↔ y ∈ g.col "date" := by
  rw [(mergeMissing_col _ _ _).mem_iff, List.mem_append]
  refine ⟨fun hy => hy.elim id fun hy => ?_, Or.inl⟩
  simp only [List.map_map, List.mem_map, Function.comp] at hy
  obtain ⟨i, hi, rfl⟩ := hy
  obtain ⟨r, hr, e⟩ := hx (by rw [ne_eq, List.map_eq_nil_iff]; rintro rfl; simp at hi)
  obtain ⟨q, hq, -, t, et, eq⟩ := forall₂_exists hk hr
  refine List.mem_map.mpr ⟨q, hq, ?_⟩
  rw [et] at e
  have := Except.ok.inj e
  rw [eq, this]
  rfl

/-- The standardised data with the assigned items that have no data, filled in. -/
theorem fillMerged_sameRows {E : Ext K} {b b' f1 f1' f2 : Frame K} {missing missing' : List (Row K)} (hperf : Spec.SameRows perf perf')
    (hb : Spec.SameRows b b') (h1 : Spec.SameRows f1 f1')
    (hkeys : List.Forall₂ (Spec.StandardKeys E itemCol dateCol) perf.rows f1.rows)
    (hkeys' : List.Forall₂ (Spec.StandardKeys E itemCol dateCol) perf'.rows f1'.rows)
    (em : missingRows E perf b itemCol dateCol = .ok missing) (em' : missingRows E perf' b' itemCol dateCol = .ok missing')
    (e2 : fillMissing (mergeMissing f1 missing) "item_id" "date" = .ok f2) :
    ∃ f2', fillMissing (mergeMissing f1' missing') "item_id" "date" = .ok f2' ∧ Spec.SameRows f2 f2' := by
  obtain ⟨d0, rfl, hd0⟩ := missingRows_eq em
  obtain ⟨d0', rfl, hd0'⟩ := missingRows_eq em'
  have hmi := missingItems_perm (E := E) (itemCol := itemCol) hperf hb
  obtain ⟨items, hitems⟩ : ∃ l, l = missingItems E perf b itemCol := ⟨_, rfl⟩
  obtain ⟨items', hitems'⟩ : ∃ l, l = missingItems E perf' b' itemCol := ⟨_, rfl⟩
  have hnd : items.Nodup := by rw [hitems]; exact nodup_dropDup _
  have hnd' : items'.Nodup := by rw [hitems']; exact nodup_dropDup _
  have hnew : ∀ i ∈ items, i ∉ f1.col "item_id" := by
    intro i hi hcon
    rw [hitems, mem_missingItems] at hi
    obtain ⟨q, hq, rfl⟩ := List.mem_map.mp hcon
    obtain ⟨r, hr, e, -⟩ := forall₂_exists' hkeys hq
    exact hi.2 r hr e
  have hnew' : ∀ i ∈ items', i ∉ f1'.col "item_id" := by
    intro i hi hcon
    rw [hitems', mem_missingItems] at hi
    obtain ⟨q, hq, rfl⟩ := List.mem_map.mp hcon
    obtain ⟨r, hr, e, -⟩ := forall₂_exists' hkeys' hq
    exact hi.2 r hr e
  rw [← hitems] at e2 hd0 hmi
  rw [← hitems'] at hd0' hmi ⊢
  refine fillMissing_congr (f := mergeMissing f1 (items.map (fun i => noDataRow i d0))) h1.cols (by
      intro x
      rw [(mergeMissing_col _ _ _).mem_iff, (mergeMissing_col _ _ _).mem_iff, List.mem_append, List.mem_append, (h1.col "item_id").mem_iff, List.map_map, List.map_map]
      refine or_congr Iff.rfl ?_
      have e : ∀ y : Cell K, ((fun r : Row K => r "item_id") ∘ fun i => noDataRow i y) = id := fun y => rfl
      rw [e, e, List.map_id, List.map_id, hmi.mem_iff]) (by
      intro x
      rw [mergeMissing_dates hkeys' hd0', mergeMissing_dates hkeys hd0, (h1.col "date").mem_iff]) (by
      intro i x
      exact ((mergeRows_blank hnd' hnew' i x).trans (mergeRows_perm h1.rows i x)).trans (mergeRows_blank hnd hnew i x).symm) (by
      intro c hc hc'
      refine ((mergeMissing_col _ _ _).trans ?_).trans (mergeMissing_col _ _ _).symm
      refine (h1.col c).append ?_
      rw [List.map_map, List.map_map]
      have e : ∀ y : Cell K, ((fun r : Row K => r c) ∘ fun i => noDataRow i y) = fun _ => .null := by
        intro y
        funext i
        simp [noDataRow, hc, hc']
      rw [e, e]
      exact hmi.map _) e2

/-- The experiment data before validation. -/
theorem buildExperiment_sameRows {E : Ext K} (hperf : Spec.SameRows perf perf') (hassign : Spec.SameRows assign assign')
    (h : buildExperiment E perf assign d startDate itemCol dateCol treatCol a = .ok f) :
    ∃ f', buildExperiment E perf' assign' d startDate itemCol dateCol treatCol a = .ok f' ∧ Spec.SameRows f f' := by
  unfold buildExperiment at h
  obtain ⟨b, eb, h⟩ := Py.bind_eq_ok.mp h
  obtain ⟨missing, em, h⟩ := Py.bind_eq_ok.mp h
  obtain ⟨f1, e1, h⟩ := Py.bind_eq_ok.mp h
  obtain ⟨f2, e2, h⟩ := Py.bind_eq_ok.mp h
  obtain ⟨f3, e3, h⟩ := Py.bind_eq_ok.mp h
  obtain ⟨f4, e4, h⟩ := Py.bind_eq_ok.mp h
  obtain ⟨f5, e5, h⟩ := Py.bind_eq_ok.mp h
  obtain ⟨b', eb', hb⟩ := cleanAssignment_sameRows hassign eb
  obtain ⟨f1', e1', h1⟩ := standardize_sameRows hperf e1
  have hkeys := standardize_keys (standardize_nodup e1) e1
  have hkeys' := standardize_keys (standardize_nodup e1') e1'
  have hdate : ∀ r ∈ perf.rows, ∃ t, E.toDate (r dateCol) = .ok t := by
    intro r hr
    obtain ⟨q, -, -, t, ht, -⟩ := forall₂_exists hkeys hr
    exact ⟨t, ht⟩
  obtain ⟨missing', em'⟩ := missingRows_sameRows hperf hb hdate em
  obtain ⟨f2', e2', h2⟩ := fillMerged_sameRows hperf hb h1 hkeys hkeys' em em' e2
  obtain ⟨f3', e3', h3⟩ := addWeeks_sameRows h2 e3
  obtain ⟨f4', e4', h4⟩ := addTimePeriodColumn_sameRows h3 e4
  obtain ⟨f5', e5', h5⟩ := addAtLeastOne_sameRows h4 e5
  obtain ⟨f', e', h'⟩ := mergeAssignment_sameRows h5 hb h
  refine ⟨f', ?_, h'⟩
  unfold buildExperiment
  exact Py.bind_eq_ok.mpr ⟨_, eb', Py.bind_eq_ok.mpr ⟨_, em', Py.bind_eq_ok.mpr ⟨_, e1', Py.bind_eq_ok.mpr ⟨_, e2', Py.bind_eq_ok.mpr ⟨_, e3',
    Py.bind_eq_ok.mpr ⟨_, e4', Py.bind_eq_ok.mpr ⟨_, e5', e'⟩⟩⟩⟩⟩⟩⟩

/-- Prepared rows with the same date are in the same week. -/
theorem buildExperiment_weeks {E : Ext K} (hw : "week_id" ∉ a.atLeastOne.map Prod.snd) (hd : "date" ∉ a.atLeastOne.map Prod.snd)
    (h : buildExperiment E perf assign d startDate itemCol dateCol treatCol a = .ok f) : Spec.DateGivesWeek f "week_id" "date" := by
  obtain ⟨start, b, missing, f1, f2, f5, hst, -, B⟩ := buildExperiment_ok h
  have hdate : "date" ∈ f5.cols := B.cols _ (Or.inl (by
    obtain ⟨-, -, -, hc, -⟩ := fillMissing_ok B.fill
    rw [hc]
    simp))
  have hweek : "week_id" ∈ f5.cols := B.cols _ (Or.inr (Or.inl rfl))
  have hm := B.merge
  unfold mergeAssignment at hm
  obtain ⟨-, hm⟩ := raiseIf_bind_ok.mp hm
  obtain rfl := Except.ok.inj hm
  have key : ∀ r ∈ f5.rows.flatMap (fun r => (b.rows.filter (fun a => decide (a "item_id" = r "item_id"))).map (joinRow f5.cols r)),
      ∃ t, r "date" = .time t ∧ r "week_id" = .int (weekId start t) := by
    intro r hr
    obtain ⟨r5, hr5, hr⟩ := List.mem_flatMap.mp hr
    obtain ⟨x, -, rfl⟩ := List.mem_map.mp hr
    obtain ⟨r2, hr2, p1, p2⟩ := forall₂_exists' B.rows hr5
    obtain ⟨t, ht⟩ := B.times r2 hr2
    refine ⟨t, ?_, ?_⟩
    · unfold joinRow
      rw [if_pos hdate, p1 "date" (by decide) hd, ht]
    · unfold joinRow
      rw [if_pos hweek]
      exact (p2 t ht).1 hw
  intro r hr r' hr' e
  obtain ⟨t, h1, h2⟩ := key r hr
  obtain ⟨t', h1', h2'⟩ := key r' hr'
  rw [h1, h1'] at e
  cases e
  rw [h2, h2']

/-- If the data before validation has the same rows, so has the prepared data. -/
theorem prepareExperiment_built (hnames : ∀ p ∈ a.atLeastOne, p.2 ≠ "week_id" ∧ p.2 ≠ "date")
    (hbuild : ∀ g, buildExperiment C.ext perf assign d startDate itemCol dateCol treatCol a = .ok g →
      ∃ g', buildExperiment C.ext perf' assign' d startDate itemCol dateCol treatCol a = .ok g' ∧ Spec.SameRows g g')
    (h : prepareExperiment C perf assign d startDate itemCol dateCol treatCol a = .ok f) :
    ∃ f', prepareExperiment C perf' assign' d startDate itemCol dateCol treatCol a = .ok f' ∧ f'.cols = f.cols ∧ f'.rows.Perm f.rows := by
  unfold prepareExperiment at h
  obtain ⟨g, eg, h⟩ := Py.bind_eq_ok.mp h
  obtain ⟨u, ev, h⟩ := Py.bind_eq_ok.mp h
  obtain rfl := Except.ok.inj h
  obtain ⟨f', ef', hs⟩ := hbuild g eg
  refine ⟨f', ?_, hs.cols, hs.rows⟩
  unfold prepareExperiment
  refine Py.bind_eq_ok.mpr ⟨f', ef', Py.bind_eq_ok.mpr ⟨u, ?_, rfl⟩⟩
  rw [validateExperiment_sameRows hs (buildExperiment_weeks ?_ ?_ eg)]
  · exact ev
  · rintro hc
    obtain ⟨p, hp, e⟩ := List.mem_map.mp hc
    exact (hnames p hp).1 e
  · rintro hc
    obtain ⟨p, hp, e⟩ := List.mem_map.mp hc
    exact (hnames p hp).2 e

/-- **C122, experiment data.**  If the experiment data is accepted, it is accepted with the rows of the performance data and of the assignment in any
other order, and the prepared data has the same rows.  At-least-one metrics may not be called "week_id" or "date". -/
theorem C122_experiment_data (hperf : Spec.SameRows perf perf') (hassign : Spec.SameRows assign assign')
    (hnames : ∀ p ∈ a.atLeastOne, p.2 ≠ "week_id" ∧ p.2 ≠ "date")
    (h : prepareExperiment C perf assign d startDate itemCol dateCol treatCol a = .ok f) :
    ∃ f', prepareExperiment C perf' assign' d startDate itemCol dateCol treatCol a = .ok f' ∧ f'.cols = f.cols ∧ f'.rows.Perm f.rows :=
  prepareExperiment_built hnames (fun _ => buildExperiment_sameRows hperf hassign) h

end experiment

/-! ### Historical data -/

section history
variable [FloorRing K] {R : Rounding K} {rng : Sampler (Cell K)} {E : Ext K} {S : DateSorter K} {raw raw' f : Frame K}
  {itemCol dateCol primary primaryCol : String} {fraction : K} {skip : List String}

theorem Panel.dateGivesWeek {t0 : ℤ} (h : Panel f t0) : Spec.DateGivesWeek f "week_id" "week_start" := by
  intro r hr r' hr' e
  obtain ⟨w, h1, h2⟩ := h.weeks r hr
  obtain ⟨w', h1', h2'⟩ := h.weeks r' hr'
  rw [h2, h2'] at e
  have : weekStart t0 w = weekStart t0 w' := by simpa using e
  unfold weekStart dayNs at this
  rw [h1, h1', show w = w' by omega]

/-- If the first table can be read and filled up, so can the second, with the same rows as result. -/
def FilledSame (E : Ext K) (itemCol dateCol : String) (s : StdCols) (custom : List (String × String))
    (parse : List (String × (Cell K → Py (Cell K)))) (raw raw' : Frame K) : Prop :=
  ∀ f1 f2, standardize E raw itemCol dateCol s custom parse = .ok f1 → fillMissing f1 "item_id" "date" = .ok f2 →
    ∃ f1' f2', standardize E raw' itemCol dateCol s custom parse = .ok f1' ∧ fillMissing f1' "item_id" "date" = .ok f2' ∧ Spec.SameRows f2 f2'

theorem Spec.SameRows.filled (h : Spec.SameRows raw raw') (s : StdCols) (custom : List (String × String))
    (parse : List (String × (Cell K → Py (Cell K)))) : FilledSame E itemCol dateCol s custom parse raw raw' := by
  intro f1 f2 e1 e2
  obtain ⟨f1', e1', h1⟩ := standardize_sameRows h e1
  obtain ⟨f2', e2', h2⟩ := fillMissing_sameRows h1 e2
  exact ⟨f1', f2', e1', e2', h2⟩

/-- The two tables give the same rows once they are read with the columns named and filled up. -/
def HistorySame (E : Ext K) (itemCol dateCol primary primaryCol : String) (raw raw' : Frame K) : Prop :=
  FilledSame E itemCol dateCol (stdColsOf primary primaryCol) (if primary = "other" then [(primaryCol, primaryCol)] else [])
    (if primary = "other" then [(primaryCol, floatParse E)] else []) raw raw'

/-- The steps before downsampling. -/
theorem cleanHistorical_filled (hraw : HistorySame E itemCol dateCol primary primaryCol raw raw') {p : String × Frame K}
    (h : cleanHistorical R rng E raw itemCol dateCol primary primaryCol fraction = .ok p) :
    ∃ f3 f4 f4', groupWeeks f3 "date" "item_id" "week_id" "week_start" [] = .ok f4 ∧ Spec.SameRows f4 f4' ∧
      (spacedBy 1 (f3.col "date") = true → f4' = f4) ∧
      (∀ t, Spec.HasDate f3 "date" t ↔ ∃ r ∈ raw.rows, E.toDate (r dateCol) = .ok (some t)) ∧ (∀ r ∈ f3.rows, ∃ t, r "date" = .time t) ∧
      downsample R rng f4 fraction "item_id" = .ok p.2 ∧
      ∀ g, downsample R rng f4' fraction "item_id" = .ok g →
        cleanHistorical R rng E raw' itemCol dateCol primary primaryCol fraction = .ok (p.1, g) := by
  obtain ⟨hp, hname, f1, f2, f3, f4, e1, e2, e3, e4, e5⟩ := cleanHistorical_parts h
  obtain ⟨f1', f2', e1', e2', h2⟩ := hraw f1 f2 e1 e2
  obtain ⟨f3', e3', h3⟩ := addWeeks_sameRows h2 e3
  obtain ⟨f4', e4', h4, hsame⟩ := groupWeeks_sameRows h3 e4
  have hcd : ((if primary = "other" then [(primaryCol, primaryCol)] else []).map Prod.fst).Nodup := by
    split <;> simp
  have hkeys := standardize_keys hcd e1
  obtain ⟨-, ht, t0, -, -, hf3⟩ := addWeeks_ok e3
  refine ⟨f3, f4, f4', e4, h4, ?_, ?_, ?_, e5, ?_⟩
  · exact hsame
  · have hrow : ∀ r ∈ f3.rows, ∃ q ∈ f2.rows, r "date" = q "date" := by
      intro r hr
      rw [hf3] at hr
      obtain ⟨q, hq, e, -⟩ := withWeeks_rows hr
      exact ⟨q, hq, e _ (by decide) (by decide)⟩
    have hrow' : ∀ q ∈ f2.rows, ∃ r ∈ f3.rows, r "date" = q "date" := by
      intro q hq
      obtain ⟨r, hr, e, -⟩ := withWeeks_rows' (t0 := t0) hq
      rw [← hf3] at hr
      exact ⟨r, hr, e _ (by decide) (by decide)⟩
    intro t
    constructor
    · rintro ⟨r, hr, e⟩
      obtain ⟨r2, hr2, e2'⟩ := hrow r hr
      obtain ⟨q, hq, eq⟩ := List.mem_map.mp (fill_mem e2 hr2).2
      obtain ⟨x, hx, -, t', et', ea⟩ := forall₂_exists' hkeys hq
      refine ⟨x, hx, ?_⟩
      rw [e2', ← eq, ea] at e
      cases t' with
      | none => cases e
      | some t' =>
        cases e
        exact et'
    · rintro ⟨x, hx, e⟩
      obtain ⟨q, hq, -, t', et', eq⟩ := forall₂_exists hkeys hx
      rw [e] at et'
      cases et'
      obtain ⟨r, hr, -, e'⟩ := (fill_grid e2 (i := q "item_id") (d := q "date")).mpr
        ⟨List.mem_map.mpr ⟨q, hq, rfl⟩, List.mem_map.mpr ⟨q, hq, rfl⟩⟩
      obtain ⟨r3, hr3, e3'⟩ := hrow' r hr
      exact ⟨r3, hr3, (e3'.trans e').trans eq⟩
  · intro r hr
    rw [hf3] at hr
    obtain ⟨q, hq, e, -⟩ := withWeeks_rows hr
    rw [e _ (by decide) (by decide)]
    exact ht q hq
  · intro g hg
    unfold cleanHistorical
    refine raiseIf_bind_ok.mpr ⟨not_not.mpr hp, ?_⟩
    simp only
    refine Py.bind_eq_ok.mpr ⟨_, e1', Py.bind_eq_ok.mpr ⟨_, e2', Py.bind_eq_ok.mpr ⟨_, e3', Py.bind_eq_ok.mpr ⟨_, e4', Py.bind_eq_ok.mpr ⟨_, hg, ?_⟩⟩⟩⟩⟩
    rw [hname]
    rfl

theorem historical_filled (hraw : HistorySame E itemCol dateCol primary primaryCol raw raw')
    (h : prepareHistorical R rng E S raw itemCol dateCol primary primaryCol 1 skip = .ok f) :
    ∃ f', prepareHistorical R rng E S raw' itemCol dateCol primary primaryCol 1 skip = .ok f' ∧ f'.cols = f.cols ∧ f'.rows.Perm f.rows := by
  unfold prepareHistorical at h
  obtain ⟨p, ep, h⟩ := Py.bind_eq_ok.mp h
  obtain ⟨u, ev, h⟩ := Py.bind_eq_ok.mp h
  obtain rfl := Except.ok.inj h
  obtain ⟨f3, f4, f4', -, hs, -, -, -, hd, hnext⟩ := cleanHistorical_filled hraw ep
  obtain ⟨-, t0, hpan, -⟩ := cleanHistorical_panel ep
  unfold downsample at hd
  obtain ⟨d1, hd⟩ := raiseIf_bind_ok.mp hd
  obtain ⟨d2, hd⟩ := raiseIf_bind_ok.mp hd
  rw [if_pos rfl] at hd
  replace hd := Except.ok.inj hd
  rw [hd] at hs
  have hd' : downsample R rng f4' 1 "item_id" = .ok f4' := by
    unfold downsample
    refine raiseIf_bind_ok.mpr ⟨d1, raiseIf_bind_ok.mpr ⟨by rwa [hs.cols, ← hd], ?_⟩⟩
    rw [if_pos rfl]
    rfl
  refine ⟨f4', ?_, hs.cols, hs.rows⟩
  unfold prepareHistorical
  refine Py.bind_eq_ok.mpr ⟨_, hnext f4' hd', Py.bind_eq_ok.mpr ⟨u, ?_, rfl⟩⟩
  rw [validateHistorical_sameRows hs hpan.dateGivesWeek]
  exact ev

theorem daily_filled (hraw : HistorySame E itemCol dateCol primary primaryCol raw raw') (first n : ℤ)
    (hdaily : ∀ t, (∃ r ∈ raw.rows, E.toDate (r dateCol) = .ok (some t)) ↔ ∃ k : ℤ, 0 ≤ k ∧ k < n ∧ t = first + k * 86400000000000)
    (h : prepareHistorical R rng E S raw itemCol dateCol primary primaryCol fraction skip = .ok f) :
    prepareHistorical R rng E S raw' itemCol dateCol primary primaryCol fraction skip = .ok f := by
  unfold prepareHistorical at h
  obtain ⟨p, ep, h⟩ := Py.bind_eq_ok.mp h
  obtain ⟨u, ev, h⟩ := Py.bind_eq_ok.mp h
  obtain rfl := Except.ok.inj h
  obtain ⟨f3, f4, f4', -, -, hsame, hdates, htimes, hd, hnext⟩ := cleanHistorical_filled hraw ep
  have := hsame (spacedBy_iff.mpr (spacedBy_grid (first := first) (n := n) one_pos htimes (by
    intro t
    rw [hdates, hdaily, one_mul])))
  subst this
  unfold prepareHistorical
  exact Py.bind_eq_ok.mpr ⟨_, hnext _ hd, Py.bind_eq_ok.mpr ⟨u, ev, rfl⟩⟩

/-- **C122, historical data.**  If the historical data is accepted and not downsampled, it is accepted with its rows in any other order, and the prepared data
has the same rows. -/
theorem C122_historical_data (hraw : Spec.SameRows raw raw')
    (h : prepareHistorical R rng E S raw itemCol dateCol primary primaryCol 1 skip = .ok f) :
    ∃ f', prepareHistorical R rng E S raw' itemCol dateCol primary primaryCol 1 skip = .ok f' ∧ f'.cols = f.cols ∧ f'.rows.Perm f.rows :=
  historical_filled (hraw.filled _ _ _) h

/-- **C122, daily historical data.**  If the data has a date on each of `n` consecutive days, the same table is prepared for every order of the rows, with
downsampling too. -/
theorem C122_daily_history (hraw : Spec.SameRows raw raw') (first n : ℤ)
    (hdaily : ∀ t, (∃ r ∈ raw.rows, E.toDate (r dateCol) = .ok (some t)) ↔ ∃ k : ℤ, 0 ≤ k ∧ k < n ∧ t = first + k * 86400000000000)
    (h : prepareHistorical R rng E S raw itemCol dateCol primary primaryCol fraction skip = .ok f) :
    prepareHistorical R rng E S raw' itemCol dateCol primary primaryCol fraction skip = .ok f :=
  daily_filled (hraw.filled _ _ _) first n hdaily h

end history

/-! ### Weekly data that is downsampled -/

/-- Weekly data of two items. -/
def weeklyRaw (items : List String) : Frame ℚ where
  cols := ["id", "day", "clk"]
  rows := items.flatMap (fun i => (List.range 2).map (fun n c => if c = "id" then .str i else if c = "day" then .time (n * (7 * 86400000000000))
    else if c = "clk" then .num 1 else .null))

/-- **C122 fails** for weekly data that is downsampled: with the same random numbers, which items are kept depends on the order of the rows. -/
theorem C122_weekly_sample_false :
    Spec.SameRows (weeklyRaw ["a", "b"]) (weeklyRaw ["b", "a"]) ∧
    (prepareHistorical (Rounding.exact ℚ) (takeSampler _) exampleExt (stableSorter ℚ) (weeklyRaw ["a", "b"]) "id" "day" "clicks" "clk" (1 / 2) []).map
      (fun f => f.col "item_id") = .ok [.str "a", .str "a"] ∧
    (prepareHistorical (Rounding.exact ℚ) (takeSampler _) exampleExt (stableSorter ℚ) (weeklyRaw ["b", "a"]) "id" "day" "clicks" "clk" (1 / 2) []).map
      (fun f => f.col "item_id") = .ok [.str "b", .str "b"] := by
  refine ⟨⟨rfl, ?_⟩, by decide +kernel, by decide +kernel⟩
  exact List.Perm.flatMap_right _ (List.Perm.swap "a" "b" [])

/-! ### The analysis and the report -/

section report
variable (R : Rounding ℝ) (argsort : List ℝ → List ℕ) (D : TDist)

/-- **C122, analysis.**  The results (or the error raised) do not depend on the order of the rows. -/
theorem C122_analysis (d : DesignParams ℝ) (metrics : List Metric) (weekCol itemCol treatmentCol : String) {f f' : Frame ℝ} (hs : Spec.SameRows f f') :
    (analyzeExperiment R argsort D d metrics weekCol itemCol treatmentCol f').1 =
      (analyzeExperiment R argsort D d metrics weekCol itemCol treatmentCol f).1 :=
  analyzeExperiment_sameRows hs

/-- If the prepared data has the same rows, so have the reports. -/
theorem report_prepared (dflt05 dflt08 : ℝ) (C : Checker ℝ) (form : AnalyserForm) (file : Dict (YVal ℝ)) {perf perf' assign assign' : Frame ℝ}
    (hprep : ∀ (d : Design ℝ) (f : Frame ℝ), (∀ p ∈ form.args.atLeastOne, p.2 ≠ "week_id" ∧ p.2 ≠ "date") →
      prepareExperiment C perf assign d form.startDate form.itemCol form.dateCol form.treatCol form.args = .ok f →
      ∃ f', prepareExperiment C perf' assign' d form.startDate form.itemCol form.dateCol form.treatCol form.args = .ok f' ∧ f'.cols = f.cols ∧ f'.rows.Perm f.rows)
    (d : Design ℝ) (data : Frame ℝ) (h : prepareStudy R dflt05 dflt08 C form file perf assign = .ok (d, data)) :
    ∃ data', prepareStudy R dflt05 dflt08 C form file perf' assign' = .ok (d, data') ∧ daysPerPeriod data' = daysPerPeriod data ∧
      ∀ metrics, analyseData R argsort D metrics (d, data') = analyseData R argsort D metrics (d, data) := by
  unfold prepareStudy at h
  obtain ⟨d', ed, h⟩ := Py.bind_eq_ok.mp h
  obtain ⟨f, ef, h⟩ := Py.bind_eq_ok.mp h
  obtain ⟨rfl, rfl⟩ := Prod.mk.inj (Except.ok.inj h)
  have hnames : ∀ p ∈ form.args.atLeastOne, p.2 ≠ "week_id" ∧ p.2 ≠ "date" := by
    intro p hp
    have hp := (List.mem_filter.mp hp).1
    simp only [List.mem_cons, List.not_mem_nil, or_false] at hp
    rcases hp with rfl | rfl | rfl <;> decide
  obtain ⟨f', ef', hc, hr⟩ := hprep d' f hnames ef
  have hs : Spec.SameRows f f' := ⟨hc, hr⟩
  refine ⟨f', ?_, ?_, ?_⟩
  · unfold prepareStudy
    exact Py.bind_eq_ok.mpr ⟨_, ed, Py.bind_eq_ok.mpr ⟨_, ef', rfl⟩⟩
  · unfold daysPerPeriod
    have hp : (dropDup (f'.rows.map (fun r => (r "date", r "time_period")))).Perm (dropDup (f.rows.map (fun r => (r "date", r "time_period")))) :=
      dropDup_perm (hr.map _)
    have hl : (dropDup ((dropDup (f'.rows.map (fun r => (r "date", r "time_period")))).filterMap (fun p => periodText p.2))).insertionSort (· ≤ ·) =
        (dropDup ((dropDup (f.rows.map (fun r => (r "date", r "time_period")))).filterMap (fun p => periodText p.2))).insertionSort (· ≤ ·) := by
      refine List.Perm.eq_of_pairwise' (List.pairwise_insertionSort (· ≤ ·) _) (List.pairwise_insertionSort (· ≤ ·) _) ?_
      exact ((List.perm_insertionSort _ _).trans (dropDup_perm (hp.filterMap _))).trans (List.perm_insertionSort _ _).symm
    simp only [hc, hl, hp.mem_iff, hp.countP_eq]
  · intro metrics
    unfold analyseData
    simp only
    rw [hc, C122_analysis R argsort D _ _ _ _ _ (hs.dropCol "time_period")]

/-- **C122, analyser notebook.**  If the experiment data is accepted, then with the rows of both tables in any other order it is accepted too, the table of the
days per period is the same, and so are the results (or the error raised). -/
theorem C122_report (dflt05 dflt08 : ℝ) (C : Checker ℝ) (form : AnalyserForm) (file : Dict (YVal ℝ)) {perf perf' assign assign' : Frame ℝ}
    (hperf : Spec.SameRows perf perf') (hassign : Spec.SameRows assign assign') (d : Design ℝ) (data : Frame ℝ)
    (h : prepareStudy R dflt05 dflt08 C form file perf assign = .ok (d, data)) :
    ∃ data', prepareStudy R dflt05 dflt08 C form file perf' assign' = .ok (d, data') ∧ daysPerPeriod data' = daysPerPeriod data ∧
      ∀ metrics, analyseData R argsort D metrics (d, data') = analyseData R argsort D metrics (d, data) :=
  report_prepared R argsort D dflt05 dflt08 C form file (fun _ _ hnames => C122_experiment_data hperf hassign hnames) d data h

end report

end Feedx
