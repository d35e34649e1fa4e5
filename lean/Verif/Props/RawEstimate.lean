import Verif.Props.DesignExample
import Verif.Spec.RawEstimate

/-!
Property C126: the estimates of the experiment designer are computed from the rows of the raw data as documented.
-/

set_option linter.unusedSectionVars false
set_option linter.unusedSimpArgs false

namespace Feedx

/-- Sums over two disjoint parts of a list. -/
theorem sum_filter_or {α : Type} (l : List α) (f : α → ℝ) (p q r : α → Bool) (hpq : ∀ x ∈ l, ¬ (p x = true ∧ q x = true))
    (hr : ∀ x ∈ l, r x = (p x || q x)) :
    ((l.filter r).map f).sum = ((l.filter p).map f).sum + ((l.filter q).map f).sum := by
  induction l with
  | nil => simp
  | cons a l ih =>
    have ih := ih (fun x hx => hpq x (List.mem_cons_of_mem _ hx)) (fun x hx => hr x (List.mem_cons_of_mem _ hx))
    have h1 := hpq a List.mem_cons_self
    have h2 := hr a List.mem_cons_self
    rw [List.filter_cons, List.filter_cons, List.filter_cons, h2]
    cases hp : p a <;> cases hq : q a <;> simp_all <;> ring

/-- The raw total of consecutive weeks is the sum of the totals of the weeks. -/
theorem rowsTotal_succ (E : Ext ℝ) (raw : Frame ℝ) (itemCol : String) (time : Row ℝ → ℤ) (value : Row ℝ → ℝ) (first lo hi : ℤ) (hlh : lo ≤ hi)
    (item : String) :
    Spec.rowsTotal E raw itemCol time value first lo (hi + 1) item = Spec.rowsTotal E raw itemCol time value first lo hi item +
      Spec.weekTotal E raw itemCol time value item (first + hi * (7 * 86400000000000)) := by
  unfold Spec.rowsTotal Spec.weekTotal
  apply sum_filter_or
  · intro x _ h
    simp only [decide_eq_true_eq] at h
    omega
  · intro x _
    rw [Bool.eq_iff_iff, Bool.or_eq_true, decide_eq_true_eq, decide_eq_true_eq, decide_eq_true_eq]
    constructor
    · rintro ⟨h1, h2, h3⟩
      by_cases h : time x < first + hi * (7 * 86400000000000)
      · exact Or.inl ⟨h1, h2, h⟩
      · exact Or.inr ⟨h1, by omega, by omega⟩
    · rintro (⟨h1, h2, h3⟩ | ⟨h1, h2, h3⟩)
      · exact ⟨h1, h2, by omega⟩
      · exact ⟨h1, by omega, by omega⟩

theorem rowsTotal_self (E : Ext ℝ) (raw : Frame ℝ) (itemCol : String) (time : Row ℝ → ℤ) (value : Row ℝ → ℝ) (first lo : ℤ) (item : String) :
    Spec.rowsTotal E raw itemCol time value first lo lo item = 0 := by
  unfold Spec.rowsTotal
  rw [List.filter_eq_nil_iff.mpr]
  · rfl
  · intro x _ h
    simp only [decide_eq_true_eq] at h
    omega

/-- A list with one element that satisfies a condition. -/
theorem filter_of_count_one {α : Type} {l : List α} {p : α → Bool} {a : α} (hc : l.countP p = 1) (ha : a ∈ l) (hp : p a = true) : l.filter p = [a] := by
  rw [List.countP_eq_length_filter, List.length_eq_one_iff] at hc
  obtain ⟨b, hb⟩ := hc
  have : a ∈ l.filter p := List.mem_filter.mpr ⟨ha, hp⟩
  rw [hb, List.mem_singleton] at this
  rw [hb, this]

/-- The prepared data of usable raw data, for every week range and item. -/
theorem prepared_total {R : Rounding ℝ} {rng : Sampler (Cell ℝ)} {E : Ext ℝ} {raw out : Frame ℝ}
    {itemCol dateCol primary primaryCol : String} {fraction : ℝ} {first step n : ℤ} {time : Row ℝ → ℤ} {value : Row ℝ → ℝ}
    (U : Spec.UsableRaw E raw itemCol dateCol primary primaryCol first step n time value)
    (hclean : cleanHistorical R rng E raw itemCol dateCol primary primaryCol fraction = .ok (Spec.metricName primary primaryCol, out))
    (F : SampledFrame E raw out itemCol (Spec.metricName primary primaryCol) first (Spec.completeWeeks step n)) {item : String}
    (hi : .str item ∈ out.col "item_id") {lo : ℤ} (h0 : 0 ≤ lo) (k : ℕ) (hk : lo + k ≤ Spec.completeWeeks step n) :
    Spec.total out.rows ["item_id"] "week_id" [.str item] lo (lo + k) (Spec.metricName primary primaryCol) =
      .fin (Spec.rowsTotal E raw itemCol time value first lo (lo + k) item) := by
  have htot := usable_totals U hclean F
  obtain ⟨v, hv⟩ : ∃ v : Row ℝ → ℝ, ∀ r ∈ out.rows, (r (Spec.metricName primary primaryCol)).toFl = .fin (v r) := by
    refine ⟨fun r => match (r (Spec.metricName primary primaryCol)).toFl with | .fin x => x | _ => 0, fun r hr => ?_⟩
    obtain ⟨w, it, -, -, -, -, -, e⟩ := htot r hr
    simp only [e]
  have hsum : ∀ p : Row ℝ → Bool, Fl.sumSkip ((out.rows.filter p).map (fun r => (r (Spec.metricName primary primaryCol)).toFl)) =
      .fin ((out.rows.filter p).map v).sum := by
    intro p
    rw [← Fl.sumSkip_fin, List.map_map]
    congr 1
    exact List.map_congr_left (fun r hr => hv r (List.mem_of_mem_filter hr))
  unfold Spec.total
  rw [hsum]
  congr 1
  induction k with
  | zero =>
    rw [Nat.cast_zero, add_zero, rowsTotal_self, List.filter_eq_nil_iff.mpr]
    · rfl
    · intro r hr h
      unfold Spec.inWeeks at h
      rw [Bool.and_eq_true] at h
      obtain ⟨w, -, -, -, -, e, -⟩ := htot r hr
      have := h.2
      rw [e] at this
      simp only [decide_eq_true_eq] at this
      omega
  | succ k ih =>
    have ih := ih (by push_cast at hk; omega)
    rw [Nat.cast_succ, ← add_assoc, rowsTotal_succ _ _ _ _ _ _ _ _ (by omega), ← ih]
    rw [sum_filter_or out.rows v (Spec.inWeeks ["item_id"] "week_id" [.str item] lo (lo + k))
      (fun r => decide (r "item_id" = .str item ∧ r "week_start" = .time (weekStart first (lo + k))))]
    · congr 1
      obtain ⟨r, hr, er⟩ := List.mem_map.mp hi
      obtain ⟨r', hr', er'⟩ := List.mem_map.mp (F.all (lo + k) (by omega) (by push_cast at hk; omega))
      obtain ⟨x, hx, e1, e2⟩ := F.grid r hr r' hr'
      obtain ⟨w, it, -, -, a, b, c, e⟩ := htot x hx
      have hw : w = lo + k := by
        have := b.symm.trans (e2.trans er')
        injection this
      subst hw
      have hit : it = item := by
        have := a.symm.trans (e1.trans er)
        injection this
      subst hit
      have hone := F.one x hx
      unfold Spec.rowsAt at hone
      rw [a, c] at hone
      have hws : weekStart first (lo + k) = first + (lo + k) * (7 * 86400000000000) := by
        obtain ⟨w', -, -, -, h5, -⟩ := F.rows x hx
        obtain ⟨w'', hb', hc'⟩ := F.weeks x hx
        rw [b] at hb'
        injection hb' with hb'
        subst hb'
        rw [c] at hc'
        injection hc' with hc'
        exact hc'.symm
      rw [hws, filter_of_count_one hone hx (decide_eq_true ⟨a, c⟩)]
      rw [hv x hx] at e
      injection e with e
      simp [e]
    · intro r hr h
      obtain ⟨w, hw1, hw2⟩ := F.weeks r hr
      simp only [Spec.inWeeks, hw1, Bool.and_eq_true, decide_eq_true_eq, hw2] at h
      have h3 : weekStart first w = weekStart first (lo + k) := by
        have := h.2.2
        injection this
      have h3 := weekStart_inj.mp h3
      omega
    · intro r hr
      obtain ⟨w, hw1, hw2⟩ := F.weeks r hr
      rw [Bool.eq_iff_iff]
      simp only [Spec.inWeeks, hw1, hw2, Bool.and_eq_true, Bool.or_eq_true, decide_eq_true_eq, List.map_cons, List.map_nil, List.cons.injEq, and_true]
      constructor
      · rintro ⟨h1, h2, h3⟩
        by_cases h : w < lo + k
        · exact Or.inl ⟨h1, h2, h⟩
        · exact Or.inr ⟨h1, by rw [show w = lo + k by omega]⟩
      · rintro (⟨h1, h2, h3⟩ | ⟨h1, h2⟩)
        · exact ⟨h1, h2, by omega⟩
        · injection h2 with h2
          have h2 := weekStart_inj.mp h2
          exact ⟨h1, by omega, by omega⟩

/-- The prepared data of a study. -/
theorem opened_clean {V : StudyEnv} {form : StudyForm} {raw : Frame ℝ} {first step n : ℤ} {time : Row ℝ → ℤ} {value : Row ℝ → ℝ}
    (A : Spec.RawStudy V form raw first step n time value) {data : Frame ℝ} {study : Study} (h : openStudy V form raw = .ok (data, study)) :
    cleanHistorical V.R V.rng V.ext raw form.itemCol form.dateCol form.primary form.primaryCol form.fraction =
        .ok (Spec.metricName form.primary form.primaryCol, data) ∧
      SampledFrame V.ext raw data form.itemCol (Spec.metricName form.primary form.primaryCol) first (Spec.completeWeeks step n) ∧
      (form.fraction = 1 → ∀ q ∈ raw.rows, .str (V.ext.toStr (q form.itemCol)) ∈ data.col "item_id") := by
  unfold openStudy at h
  obtain ⟨data', hd, h⟩ := Py.bind_eq_ok.mp h
  obtain ⟨-, h⟩ := raiseIf_bind_ok.mp h
  obtain ⟨designs, hg, h⟩ := Py.bind_eq_ok.mp h
  obtain ⟨minStart, hms, h⟩ := Py.bind_eq_ok.mp h
  obtain ⟨st, hest, h⟩ := Py.bind_eq_ok.mp h
  cases h
  obtain ⟨out, hclean, F, hall⟩ := clean_usable (R := V.R) (rng := V.rng) A.usable A.pos A.le_one A.some_items
    (A.size.trans (by norm_num))
  unfold prepareHistorical at hd
  rw [hclean] at hd
  obtain ⟨p, hp, hd⟩ := Py.bind_eq_ok.mp hd
  cases hp
  obtain ⟨u, -, hd⟩ := Py.bind_eq_ok.mp hd
  cases hd
  exact ⟨hclean, F, hall⟩

/-- C126, items: the designer works with items of the raw data, and with all of them unless a fraction was asked for. -/
theorem C126_items (V : StudyEnv) (form : StudyForm) (raw : Frame ℝ) (first step n : ℤ) (time : Row ℝ → ℤ) (value : Row ℝ → ℝ)
    (A : Spec.RawStudy V form raw first step n time value) (data : Frame ℝ) (study : Study) (h : openStudy V form raw = .ok (data, study)) :
    (∀ i ∈ data.col "item_id", ∃ q ∈ raw.rows, i = .str (V.ext.toStr (q form.itemCol))) ∧
    (form.fraction = 1 → ∀ q ∈ raw.rows, .str (V.ext.toStr (q form.itemCol)) ∈ data.col "item_id") := by
  obtain ⟨hclean, F, hall⟩ := opened_clean A h
  refine ⟨fun i hi => ?_, hall⟩
  obtain ⟨r, hr, rfl⟩ := List.mem_map.mp hi
  obtain ⟨-, -, -, -, -, q, hq, e⟩ := F.rows r hr
  exact ⟨q, hq, e⟩

/-- C126, averages: in the prepared data, the weekly average of an item over any weeks of the data is the total of the item's raw rows with dates in
these weeks, divided by the number of weeks. -/
theorem C126_averages (V : StudyEnv) (form : StudyForm) (raw : Frame ℝ) (first step n : ℤ) (time : Row ℝ → ℤ) (value : Row ℝ → ℝ)
    (A : Spec.RawStudy V form raw first step n time value) (data : Frame ℝ) (study : Study) (h : openStudy V form raw = .ok (data, study))
    (item : String) (hitem : .str item ∈ data.col "item_id") (lo hi : ℤ) (h0 : 0 ≤ lo) (h1 : lo < hi) (h2 : hi ≤ Spec.completeWeeks step n) :
    Spec.weeklyAverage data.rows "item_id" "week_id" form.metric lo hi (.str item) =
      .fin (Spec.rowsAverage V.ext raw form.itemCol time value first lo hi item) := by
  obtain ⟨hclean, F, -⟩ := opened_clean A h
  obtain ⟨k, hk⟩ := Int.eq_ofNat_of_zero_le (show 0 ≤ hi - lo by omega)
  have hk : hi = lo + k := by omega
  subst hk
  have := prepared_total A.usable hclean F hitem h0 k h2
  unfold Spec.weeklyAverage Spec.rowsAverage
  change Spec.total data.rows ["item_id"] "week_id" [.str item] lo (lo + k) (Spec.metricName form.primary form.primaryCol) / _ = _
  rw [this]
  have hne : (((lo + k - lo : ℤ)) : ℝ) ≠ 0 := by
    rw [Int.cast_ne_zero]
    omega
  exact Fl.fin_div_ne hne

/-- An analysis directly after the estimates. -/
theorem opened_run {V : StudyEnv} {form : StudyForm} {raw : Frame ℝ} {first step n : ℤ} {time : Row ℝ → ℤ} {value : Row ℝ → ℝ}
    (A : Spec.RawStudy V form raw first step n time value) {data : Frame ℝ} {study : Study} (h : openStudy V form raw = .ok (data, study))
    {e : List Char × (SimConfig × SimState)} (he : e ∈ study) :
    ∃ (σ : ℤ → Shuffle) (s0 : SimState), s0.data = data ∧ (estimateMde V.R V.argsort V.tdist σ e.2.1 s0).1 = .ok () ∧
      e.2.2 = (estimateMde V.R V.argsort V.tdist σ e.2.1 s0).2 ∧
      mkDesign V.R e.2.1.design.toDesignParams = .ok e.2.1.design ∧ e.2.1.design.nBefore = (nunique (data.col "item_id") : ℤ) ∧
      e.2.1.design.primaryMetric = form.metric ∧ e.2.1.design.alpha.val = 1 / 20 ∧ e.2.1.design.power.val = 4 / 5 ∧
      e.2.1.design.pretest ∈ form.pretests ∧
      e.2.1.itemCol = "item_id" ∧ e.2.1.weekCol = "week_id" ∧
      Spec.TriedStarts form.pretests (Spec.completeWeeks step n) e.2.1.design e.2.1.starts := by
  obtain ⟨-, F, -⟩ := opened_clean A h
  unfold openStudy at h
  obtain ⟨data', hd, h⟩ := Py.bind_eq_ok.mp h
  obtain ⟨-, h⟩ := raiseIf_bind_ok.mp h
  obtain ⟨designs, hg, h⟩ := Py.bind_eq_ok.mp h
  obtain ⟨minStart, hms, h⟩ := Py.bind_eq_ok.mp h
  obtain ⟨st, hest, h⟩ := Py.bind_eq_ok.mp h
  cases h
  unfold estimateDesigns at hest
  obtain ⟨l, hl, hest⟩ := Py.bind_eq_ok.mp hest
  cases hest
  obtain ⟨p, hp, hpe⟩ := mapM_mem hl (dictOf_mem he)
  obtain ⟨a, hA, hpe⟩ := Py.bind_eq_ok.mp hpe
  obtain ⟨id, -, hpe⟩ := Py.bind_eq_ok.mp hpe
  cases hpe
  unfold analyseDesign at hA
  obtain ⟨a0, hs0, hA⟩ := Py.bind_eq_ok.mp hA
  obtain ⟨u, hu, hA⟩ := Py.bind_eq_ok.mp hA
  cases hA
  obtain ⟨hmk, hnb, hpm, hal, hpw, -, -, hpt, -⟩ := (C64_members V.R _ designs hg p.1).mp (List.fst_mem_of_mem_zipIdx hp)
  obtain ⟨c, s0⟩ := a0
  obtain ⟨last, hlast, hc, hs⟩ : ∃ last, IsGreatest {w : ℤ | .int w ∈ data.col "week_id"} last ∧
      c = ⟨p.1, "item_id", "week_id", "time_period", "treatment", minStart, last - p.1.runtime + 1, 1 / 10000⟩ ∧
      s0 = ⟨data, none, none, none, none, none, none⟩ := by
    unfold mkSimulation at hs0
    obtain ⟨-, hs0⟩ := raiseIf_bind_ok.mp hs0
    obtain ⟨-, hs0⟩ := raiseIf_bind_ok.mp hs0
    split at hs0
    · cases hs0
    · rename_i last hl
      cases hs0
      rw [List.max?_eq_some_iff] at hl
      exact ⟨last, ⟨ints_mem.mp hl.1, fun w hw => hl.2 w (ints_mem.mpr hw)⟩, rfl, rfl⟩
  have hweeks : ∀ w : ℤ, .int w ∈ data.col "week_id" ↔ 0 ≤ w ∧ w < Spec.completeWeeks step n := by
    intro w
    constructor
    · intro h
      obtain ⟨r, hr, er⟩ := List.mem_map.mp h
      obtain ⟨w', h0, h1, e1, -⟩ := F.rows r hr
      have := e1.symm.trans er
      injection this with this
      subst this
      exact ⟨h0, h1⟩
    · exact fun h => F.all w h.1 h.2
  obtain ⟨f, longest, hf, hfmin, hlong, hll, hmin⟩ :=
    (C66_earliest_start form.runtimes form.pretests (ints (dropDup (data.col "week_id")))).1 minStart hms
  rw [ints_mem, mem_dropDup] at hf
  have hf0 : f = 0 := by
    have h1 := (hweeks f).mp hf
    have h2 := hfmin 0 (by rw [ints_mem, mem_dropDup, hweeks]; omega)
    omega
  have hl1 : last = Spec.completeWeeks step n - 1 := by
    have h1 := (hweeks last).mp hlast.1
    have h2 := hlast.2 ((hweeks (Spec.completeWeeks step n - 1)).mpr (by omega))
    omega
  subst hc hs
  refine ⟨_, _, rfl, hu, rfl, hmk, hnb, hpm, by rw [hal]; rfl, by rw [hpw]; rfl, hpt, rfl, rfl, ?_, fun start => ?_⟩
  · unfold SimConfig.starts weekRange
    exact List.nodup_range.map (fun a b h => by simpa using h)
  · unfold SimConfig.starts
    rw [mem_weekRange]
    simp only
    constructor
    · rintro ⟨h1, h2⟩
      exact ⟨fun q hq => by have := hll q hq; omega, by omega⟩
    · rintro ⟨h1, h2⟩
      have := h1 longest hlong
      omega

/-- The items of every start week. -/
theorem opened_lists {V : StudyEnv} {form : StudyForm} {raw : Frame ℝ} {first step n : ℤ} {time : Row ℝ → ℤ} {value : Row ℝ → ℝ}
    (A : Spec.RawStudy V form raw first step n time value) {data : Frame ℝ} {study : Study} (h : openStudy V form raw = .ok (data, study))
    {ids : List String} (hnd : ids.Nodup) (hids : ∀ i, i ∈ ids ↔ .str i ∈ data.col "item_id") {d : Design ℝ}
    (hmk : mkDesign V.R d.toDesignParams = .ok d) {start : ℤ} (h0 : 0 ≤ start) (h1 : start + d.runtime ≤ Spec.completeWeeks step n) :
    Spec.ListsItems d data.rows "item_id" "week_id" start (ids.map .str) := by
  obtain ⟨-, F, -⟩ := opened_clean A h
  obtain ⟨hdd, hvalid⟩ := (mkDesign_ok_iff V.R _ d).mp hmk
  obtain ⟨hleg, -⟩ := (validateDesign_ok_iff V.R _).mp hvalid
  have hrow : ∀ i ∈ ids, ∀ w : ℤ, 0 ≤ w → w < Spec.completeWeeks step n → ∃ r ∈ data.rows, r "item_id" = .str i ∧ r "week_id" = .int w := by
    intro i hi w hw0 hw1
    obtain ⟨r, hr, er⟩ := List.mem_map.mp ((hids i).mp hi)
    obtain ⟨r', hr', er'⟩ := List.mem_map.mp (F.all w hw0 hw1)
    obtain ⟨x, hx, e1, e2⟩ := F.grid r hr r' hr'
    exact ⟨x, hx, e1.trans er, e2.trans er'⟩
  refine ⟨hnd.map (fun a b h => by injection h), fun x => ?_⟩
  rw [List.mem_map]
  constructor
  · rintro ⟨i, hi, rfl⟩
    refine ⟨by simp, ?_⟩
    have hrt := hleg.runtime_pos
    by_cases hx : d.isCrossover = true
    · obtain ⟨wa, hwa, hw0, hw2, m, hm⟩ := hleg.crossover hx
      obtain ⟨r, hr, e1, e2⟩ := hrow i hi (start + wa) (by omega) (by omega)
      refine ⟨r, hr, e1, start + wa, e2, "test_1", start + wa, start + d.runtime / 2, ?_, le_refl _, by omega⟩
      unfold Spec.timeline
      rw [if_pos hx, hwa]
      simp [Spec.crossoverTimeline]
    · obtain ⟨r, hr, e1, e2⟩ := hrow i hi start h0 (by omega)
      refine ⟨r, hr, e1, start, e2, "test", start, start + d.runtime, ?_, le_refl _, by omega⟩
      unfold Spec.timeline
      rw [if_neg hx]
      simp [Spec.regularTimeline]
  · rintro ⟨-, r, hr, rfl, -⟩
    obtain ⟨-, -, -, -, -, q, hq, e⟩ := F.rows r hr
    rw [e]
    exact ⟨_, (hids _).mpr (List.mem_map.mpr ⟨r, hr, e⟩), rfl⟩

theorem forall_map_self {α β γ : Type} {P : β → γ → Prop} {f : α → β} {g : α → γ} {l : List α} (h : ∀ a ∈ l, P (f a) (g a)) :
    List.Forall₂ P (l.map f) (l.map g) := by
  induction l with
  | nil => exact .nil
  | cons a l ih => exact .cons (h a List.mem_cons_self) (ih (fun x hx => h x (List.mem_cons_of_mem _ hx)))

/-- Weeks of the data before a start week. -/
theorem tried_nonneg {pretests : List ℤ} {weeks : ℤ} {d : Design ℝ} {starts : List ℤ} (hs : Spec.TriedStarts pretests weeks d starts)
    (hp : d.pretest ∈ pretests) (h0 : 0 ≤ d.pretest) {start : ℤ} (h : start ∈ starts) :
    0 ≤ start - d.pretest ∧ 0 ≤ start ∧ start + d.runtime ≤ weeks := by
  obtain ⟨h1, h2⟩ := (hs.2 start).mp h
  have := h1 _ hp
  exact ⟨by omega, by omega, h2⟩

theorem opened_count {V : StudyEnv} {form : StudyForm} {raw : Frame ℝ} {first step n : ℤ} {time : Row ℝ → ℤ} {value : Row ℝ → ℝ}
    (A : Spec.RawStudy V form raw first step n time value) {data : Frame ℝ} {study : Study} (h : openStudy V form raw = .ok (data, study))
    {ids : List String} (hnd : ids.Nodup) (hids : ∀ i, i ∈ ids ↔ .str i ∈ data.col "item_id") :
    nunique (data.col "item_id") = ids.length ∧ ids.length ≤ 2 ^ 51 := by
  obtain ⟨h1, -⟩ := C126_items V form raw first step n time value A data study h
  have e : nunique (data.col "item_id") = ids.length := by
    rw [nunique_eq, Finset.erase_eq_of_notMem, ← List.length_map (f := (Cell.str : String → Cell ℝ)),
      ← List.toFinset_card_of_nodup (hnd.map (fun a b h => by injection h))]
    · congr 1
      ext x
      rw [List.mem_toFinset, List.mem_toFinset, List.mem_map]
      constructor
      · intro hx
        obtain ⟨q, hq, rfl⟩ := h1 x hx
        exact ⟨_, (hids _).mpr hx, rfl⟩
      · rintro ⟨i, hi, rfl⟩
        exact (hids i).mp hi
    · rw [List.mem_toFinset]
      intro hx
      obtain ⟨q, hq, e⟩ := h1 _ hx
      cases e
  refine ⟨e, le_trans ?_ A.size⟩
  rw [← List.toFinset_card_of_nodup hnd]
  apply Finset.card_le_card
  intro i hi
  rw [List.mem_toFinset] at hi ⊢
  obtain ⟨q, hq, e⟩ := h1 _ ((hids i).mp hi)
  injection e with e
  exact List.mem_map.mpr ⟨q, hq, e.symm⟩

/-- C126, regular experiment without pretest weeks: average, standard deviation and minimum detectable effect are those of the averages per week of the
items' raw rows in the weeks of the experiment, averaged over all start weeks. -/
theorem C126_plain (V : StudyEnv) (ha : ArgsortOk V.argsort) (form : StudyForm) (raw : Frame ℝ) (first step n : ℤ) (time : Row ℝ → ℤ)
    (value : Row ℝ → ℝ) (A : Spec.RawStudy V form raw first step n time value) (data : Frame ℝ) (study : Study)
    (h : openStudy V form raw = .ok (data, study)) (ids : List String) (hnd : ids.Nodup) (hids : ∀ i, i ∈ ids ↔ .str i ∈ data.col "item_id")
    (e : List Char × (SimConfig × SimState)) (he : e ∈ study) (hu : Spec.Untrimmed e.2.1.design) (hx : e.2.1.design.isCrossover = false)
    (hpre : e.2.1.design.pretest = 0) :
    ∃ starts, Spec.TriedStarts form.pretests (Spec.completeWeeks step n) e.2.1.design starts ∧
      ∀ (y : ℤ → List ℝ) (sd N : ℝ),
        (∀ start, y start = ids.map (Spec.rowsAverage V.ext raw form.itemCol time value first start (start + e.2.1.design.runtime))) → N = ids.length →
        sd = Real.sqrt (Spec.mean (starts.map (fun start => Spec.sumSqDev (y start) / (N - 1)))) →
        e.2.2.average = some (.fin (Spec.mean (starts.map (fun start => Spec.mean (y start))))) ∧ e.2.2.sd = some (.fin sd) ∧
        e.2.2.mde = some (.fin (2 * sd / Real.sqrt N * (V.tdist.ppf (N - 2) (39 / 40) + V.tdist.ppf (N - 2) (4 / 5)))) := by
  obtain ⟨σ, s0, hs0, hret, hres, hmk, hnb, hpm, hal, hpw, hpt, hic, hwc, hst⟩ := opened_run A h he
  obtain ⟨hcnt, hsz⟩ := opened_count A h hnd hids
  obtain ⟨-, F, -⟩ := opened_clean A h
  obtain ⟨hdd, hvalid⟩ := (mkDesign_ok_iff V.R _ _).mp hmk
  obtain ⟨hleg, -⟩ := (validateDesign_ok_iff V.R _).mp hvalid
  refine ⟨_, hst, fun y sd N hy hN hsd => ?_⟩
  have hlen : ∀ start, ((y start).length : ℝ) = N := fun start => by rw [hy, List.length_map, hN]
  have hne := C100_plain V.R V.argsort ha V.tdist e.2.1.design.toDesignParams e.2.1 hmk
    (by rw [hnb, hcnt]; exact_mod_cast hsz) (by rw [hpw]; norm_num) (by rw [hal]; norm_num) σ s0
    (by
      intro r hr
      rw [hs0] at hr
      obtain ⟨w, -, -, h3, -⟩ := F.rows r hr
      rw [hwc]
      exact Or.inr ⟨w, h3⟩) hret hx hpre hu.2.2 (fun _ => ids.map .str) y
    (by
      intro start hs
      obtain ⟨-, h1, h2⟩ := tried_nonneg hst hpt hleg.pretest_nonneg hs
      rw [hs0, hic, hwc]
      exact opened_lists A h hnd hids hmk h1 h2)
    (by
      intro start hs
      obtain ⟨-, h1, h2⟩ := tried_nonneg hst hpt hleg.pretest_nonneg hs
      have := hleg.runtime_pos
      rw [hs0, hic, hwc, hpm, hy]
      exact forall_map_self (fun i hi => C126_averages V form raw first step n time value A data study h i ((hids i).mp hi) _ _ h1 (by omega) h2))
    sd N (by simp only [hlen]; exact hsd) (by rw [hnb, hcnt, hN]; simp)
  rw [hres, hne.1, hne.2.1, hne.2.2, hal, hpw]
  norm_num

/-- C126, regular experiment with pretest weeks: the variance of every start week is what a regression on the items' averages before the experiment
leaves. -/
theorem C126_cuped (V : StudyEnv) (ha : ArgsortOk V.argsort) (form : StudyForm) (raw : Frame ℝ) (first step n : ℤ) (time : Row ℝ → ℤ)
    (value : Row ℝ → ℝ) (A : Spec.RawStudy V form raw first step n time value) (data : Frame ℝ) (study : Study)
    (h : openStudy V form raw = .ok (data, study)) (ids : List String) (hnd : ids.Nodup) (hids : ∀ i, i ∈ ids ↔ .str i ∈ data.col "item_id")
    (e : List Char × (SimConfig × SimState)) (he : e ∈ study) (hu : Spec.Untrimmed e.2.1.design) (hx : e.2.1.design.isCrossover = false)
    (hpre : 0 < e.2.1.design.pretest) :
    ∃ starts, Spec.TriedStarts form.pretests (Spec.completeWeeks step n) e.2.1.design starts ∧
      ∀ (y x : ℤ → List ℝ) (sd N : ℝ),
        (∀ start, y start = ids.map (Spec.rowsAverage V.ext raw form.itemCol time value first start (start + e.2.1.design.runtime))) →
        (∀ start, x start = ids.map (Spec.rowsAverage V.ext raw form.itemCol time value first (start - e.2.1.design.pretest) start)) → N = ids.length →
        sd = Real.sqrt (Spec.mean (starts.map (fun start =>
          (Spec.sumSqDev (y start) - Spec.crossDev (y start) (x start) ^ 2 / Spec.sumSqDev (x start)) / (N - 1)))) →
        ((∀ start ∈ starts, Spec.sumSqDev (x start) ≠ 0) →
          e.2.2.average = some (.fin (Spec.mean (starts.map (fun start => Spec.mean (y start))))) ∧ e.2.2.sd = some (.fin sd) ∧
          e.2.2.mde = some (.fin (2 * sd / Real.sqrt N * (V.tdist.ppf (N - 2) (39 / 40) + V.tdist.ppf (N - 2) (4 / 5))))) ∧
        ((∃ start ∈ starts, ∃ v, ∀ z ∈ x start, z = v) → e.2.2.average = some .nan ∧ e.2.2.sd = some .nan ∧ e.2.2.mde = some .nan) := by
  obtain ⟨σ, s0, hs0, hret, hres, hmk, hnb, hpm, hal, hpw, hpt, hic, hwc, hst⟩ := opened_run A h he
  obtain ⟨hcnt, hsz⟩ := opened_count A h hnd hids
  obtain ⟨-, F, -⟩ := opened_clean A h
  obtain ⟨hdd, hvalid⟩ := (mkDesign_ok_iff V.R _ _).mp hmk
  obtain ⟨hleg, -⟩ := (validateDesign_ok_iff V.R _).mp hvalid
  have hwk : ∀ r ∈ s0.data.rows, r e.2.1.weekCol = .null ∨ ∃ x : ℤ, r e.2.1.weekCol = .int x := by
    intro r hr
    rw [hs0] at hr
    obtain ⟨w, -, -, h3, -⟩ := F.rows r hr
    rw [hwc]
    exact Or.inr ⟨w, h3⟩
  have hpr : ∀ start ∈ e.2.1.starts, Spec.HasPretestRows e.2.1.design s0.data.rows e.2.1.itemCol e.2.1.weekCol start := by
    intro start hs
    obtain ⟨h1, h2, h3⟩ := tried_nonneg hst hpt hleg.pretest_nonneg hs
    have := hleg.runtime_pos
    obtain ⟨r, l, hl⟩ := List.exists_cons_of_ne_nil F.nonempty
    have hr : r ∈ data.rows := by rw [hl]; exact List.mem_cons_self
    obtain ⟨-, -, -, -, -, q, -, er⟩ := F.rows r hr
    obtain ⟨r', hr', er'⟩ := List.mem_map.mp (F.all (start - 1) (by omega) (by omega))
    obtain ⟨z, hz, e1, e2⟩ := F.grid r hr r' hr'
    rw [hs0, hic, hwc]
    exact ⟨z, hz, by rw [e1, er]; simp, start - 1, e2.trans er', by omega, by omega⟩
  refine ⟨_, hst, fun y x sd N hy hx' hN hsd => ⟨fun hvar => ?_, ?_⟩⟩
  · obtain ⟨p, hp⟩ : ∃ p : ℤ → List (ℝ × ℝ), p = fun start => ids.map (fun i =>
      (Spec.rowsAverage V.ext raw form.itemCol time value first start (start + e.2.1.design.runtime) i,
        Spec.rowsAverage V.ext raw form.itemCol time value first (start - e.2.1.design.pretest) start i)) := ⟨_, rfl⟩
    have p1 : ∀ start, (p start).map Prod.fst = y start := fun start => by rw [hp, hy, List.map_map]; rfl
    have p2 : ∀ start, (p start).map Prod.snd = x start := fun start => by rw [hp, hx', List.map_map]; rfl
    have hlen : ∀ start, ((p start).length : ℝ) = N := fun start => by rw [hp, List.length_map, hN]
    have hne := C100_cuped V.R V.argsort ha V.tdist e.2.1.design.toDesignParams e.2.1 hmk
      (by rw [hnb, hcnt]; exact_mod_cast hsz) (by rw [hpw]; norm_num) (by rw [hal]; norm_num) σ s0 hwk hret hx hpr hu.1 hu.2.1 hu.2.2
      (fun _ => ids.map .str) p
      (by
        intro start hs
        obtain ⟨-, h1, h2⟩ := tried_nonneg hst hpt hleg.pretest_nonneg hs
        rw [hs0, hic, hwc]
        exact opened_lists A h hnd hids hmk h1 h2)
      (by
        intro start hs
        obtain ⟨h0, h1, h2⟩ := tried_nonneg hst hpt hleg.pretest_nonneg hs
        have := hleg.runtime_pos
        rw [hs0, hic, hwc, hpm, hp]
        exact forall_map_self (fun i hi =>
          ⟨C126_averages V form raw first step n time value A data study h i ((hids i).mp hi) _ _ h1 (by omega) h2,
            C126_averages V form raw first step n time value A data study h i ((hids i).mp hi) _ _ h0 (by omega) (by omega)⟩))
      (by
        intro start hs
        rw [p2]
        exact hvar start hs)
      sd N (by simp only [hlen, p1, p2]; exact hsd) (by rw [hnb, hcnt, hN]; simp)
    rw [hres, hne.1, hne.2.1, hne.2.2, hal, hpw]
    simp only [p1]
    norm_num
  · rintro ⟨start, hs, v, hv⟩
    obtain ⟨f, hf⟩ := C100_cuped_constant V.R V.argsort ha V.tdist e.2.1.design.toDesignParams e.2.1 hmk
      (by rw [hnb, hcnt]; exact_mod_cast hsz) (by rw [hpw]; norm_num) (by rw [hal]; norm_num) σ s0 hwk hret hx start hs (hpr start hs)
      hu.1 hu.2.1 hu.2.2 v (by
        intro items hitems item hi
        obtain ⟨h0, h1, h2⟩ := tried_nonneg hst hpt hleg.pretest_nonneg hs
        have := hleg.runtime_pos
        have hl : Spec.ListsItems e.2.1.design s0.data.rows e.2.1.itemCol e.2.1.weekCol start (ids.map .str) := by
          rw [hs0, hic, hwc]
          exact opened_lists A h hnd hids hmk h1 h2
        obtain ⟨i, hi', rfl⟩ := List.mem_map.mp ((lists_perm hitems hl).mem_iff.mp hi)
        rw [hs0, hic, hwc, hpm, C126_averages V form raw first step n time value A data study h i ((hids i).mp hi') _ _ h0 (by omega) (by omega)]
        congr 1
        exact hv _ (by rw [hx']; exact List.mem_map.mpr ⟨i, hi', rfl⟩))
    rw [hres, hf]
    exact ⟨rfl, rfl, rfl⟩

/-- C126, crossover experiment: the differences of the items' averages in the two test periods. -/
theorem C126_crossover (V : StudyEnv) (ha : ArgsortOk V.argsort) (form : StudyForm) (raw : Frame ℝ) (first step n : ℤ) (time : Row ℝ → ℤ)
    (value : Row ℝ → ℝ) (A : Spec.RawStudy V form raw first step n time value) (data : Frame ℝ) (study : Study)
    (h : openStudy V form raw = .ok (data, study)) (ids : List String) (hnd : ids.Nodup) (hids : ∀ i, i ∈ ids ↔ .str i ∈ data.col "item_id")
    (e : List Char × (SimConfig × SimState)) (he : e ∈ study) (hu : Spec.Untrimmed e.2.1.design) (hx : e.2.1.design.isCrossover = true)
    (washout : ℤ) (hwash : e.2.1.design.washout = some washout) :
    ∃ starts, Spec.TriedStarts form.pretests (Spec.completeWeeks step n) e.2.1.design starts ∧
      ∀ (y1 y2 : ℤ → String → ℝ) (sd N : ℝ),
        (∀ start, y1 start = Spec.rowsAverage V.ext raw form.itemCol time value first (start + washout) (start + e.2.1.design.runtime / 2)) →
        (∀ start, y2 start = Spec.rowsAverage V.ext raw form.itemCol time value first (start + e.2.1.design.runtime / 2 + washout)
          (start + e.2.1.design.runtime)) → N = ids.length →
        sd = Real.sqrt (Spec.mean (starts.map (fun start => Spec.sumSqDev (ids.map (fun i => y1 start i - y2 start i)) / (N - 1)))) →
        e.2.2.average = some (.fin (Spec.mean (starts.map (fun start => (Spec.mean (ids.map (y1 start)) + Spec.mean (ids.map (y2 start))) / 2)))) ∧
        e.2.2.sd = some (.fin sd) ∧
        e.2.2.mde = some (.fin (sd / Real.sqrt N * (V.tdist.ppf (N - 1) (39 / 40) + V.tdist.ppf (N - 1) (4 / 5)))) := by
  obtain ⟨σ, s0, hs0, hret, hres, hmk, hnb, hpm, hal, hpw, hpt, hic, hwc, hst⟩ := opened_run A h he
  obtain ⟨hcnt, hsz⟩ := opened_count A h hnd hids
  obtain ⟨-, F, -⟩ := opened_clean A h
  obtain ⟨hdd, hvalid⟩ := (mkDesign_ok_iff V.R _ _).mp hmk
  obtain ⟨hleg, -⟩ := (validateDesign_ok_iff V.R _).mp hvalid
  obtain ⟨wa, hwa, hw0, hw2, m, hm⟩ := hleg.crossover hx
  have : wa = washout := Option.some.inj (hwa.symm.trans hwash)
  subst this
  refine ⟨_, hst, fun y1 y2 sd N hy1 hy2 hN hsd => ?_⟩
  have hne := C100_crossover V.R V.argsort ha V.tdist e.2.1.design.toDesignParams e.2.1 hmk
    (by rw [hnb, hcnt]; exact_mod_cast hsz) (by rw [hpw]; norm_num) (by rw [hal]; norm_num) σ s0
    (by
      intro r hr
      rw [hs0] at hr
      obtain ⟨w, -, -, h3, -⟩ := F.rows r hr
      rw [hwc]
      exact Or.inr ⟨w, h3⟩) hret hx hu.1 hu.2.1 hu.2.2 (fun _ => ids.map .str) (fun start => ids.map (fun i => (y1 start i, y2 start i))) wa hwa
    (by
      intro start hs
      obtain ⟨-, h1, h2⟩ := tried_nonneg hst hpt hleg.pretest_nonneg hs
      rw [hs0, hic, hwc]
      exact opened_lists A h hnd hids hmk h1 h2)
    (by
      intro start hs
      obtain ⟨-, h1, h2⟩ := tried_nonneg hst hpt hleg.pretest_nonneg hs
      have := hleg.runtime_pos
      rw [hs0, hic, hwc, hpm]
      refine forall_map_self (fun i hi => ⟨?_, ?_⟩)
      · rw [hy1]
        exact C126_averages V form raw first step n time value A data study h i ((hids i).mp hi) _ _ (by omega) (by omega) (by omega)
      · rw [hy2]
        exact C126_averages V form raw first step n time value A data study h i ((hids i).mp hi) _ _ (by omega) (by omega) (by omega))
    sd N (by simp only [List.map_map, List.length_map, ← hN]; exact hsd) (by rw [hnb, hcnt, hN]; simp)
  rw [hres, hne.1, hne.2.1, hne.2.2, hal, hpw]
  simp only [List.map_map, Function.comp_def]
  norm_num

end Feedx
