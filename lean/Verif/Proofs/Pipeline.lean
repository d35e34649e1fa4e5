import Verif.Model.Pipeline
import Verif.Props.Columns
import Verif.Props.Weeks
import Verif.Props.Validate

/-!
Lemmas about the two preparation pipelines.
-/

set_option linter.unusedSectionVars false
set_option linter.unusedSimpArgs false

namespace Feedx

variable {K : Type} [Field K] [LinearOrder K]

theorem forall₂_exists' {α β : Type} {P : α → β → Prop} {l : List α} {m : List β} (h : List.Forall₂ P l m) {b : β} (hb : b ∈ m) :
    ∃ a ∈ l, P a b := by
  induction h with
  | nil => simp at hb
  | cons hab _ ih =>
    rcases List.mem_cons.mp hb with rfl | hb
    · exact ⟨_, by simp, hab⟩
    · obtain ⟨q, hq, e⟩ := ih hb
      exact ⟨q, by simp [hq], e⟩

/-- The item and the date of a standardised row. -/
def Spec.StandardKeys (E : Ext K) (itemCol dateCol : String) (r r' : Row K) : Prop :=
  r' "item_id" = .str (E.toStr (r itemCol)) ∧ ∃ t, E.toDate (r dateCol) = .ok t ∧ r' "date" = Cell.ofTime t

theorem standardize_keys {E : Ext K} {f out : Frame K} {itemCol dateCol : String} {s : StdCols} {custom : List (String × String)}
    {customParse : List (String × (Cell K → Py (Cell K)))} (hcd : (custom.map Prod.fst).Nodup)
    (h : standardize E f itemCol dateCol s custom customParse = .ok out) :
    List.Forall₂ (Spec.StandardKeys E itemCol dateCol) f.rows out.rows := by
  obtain ⟨-, h2, -, -, h5⟩ := standardize_ok hcd h
  refine h5.imp fun r r' hr => ?_
  have look : ∀ n ∈ standardNames, customParse.lookup n = none := by
    intro n hn
    rw [List.lookup_eq_none_iff]
    intro p hp
    rw [bne_iff_ne]
    rintro rfl
    exact (h2 p hp).1 hn
  have a := hr ("item_id", itemCol) (by rw [columnNames_eq]; simp)
  have b := hr ("date", dateCol) (by rw [columnNames_eq]; simp)
  unfold parseCell at a b
  simp only [look "item_id" (by simp [standardNames]), look "date" (by simp [standardNames])] at a b
  simp only [if_true, if_neg (show ¬ "date" = "item_id" by decide)] at a b
  refine ⟨(Except.ok.inj a).symm, ?_⟩
  cases ht : E.toDate (r dateCol) with
  | error e => rw [ht] at b; cases b
  | ok t => rw [ht] at b; exact ⟨t, rfl, (Except.ok.inj b).symm⟩

/-- The filled rows are a grid of the items and the dates. -/
theorem fill_grid {f out : Frame K} {itemCol dateCol : String} (h : fillMissing f itemCol dateCol = .ok out) {i d : Cell K} :
    (∃ r ∈ out.rows, r itemCol = i ∧ r dateCol = d) ↔ i ∈ f.col itemCol ∧ d ∈ f.col dateCol := by
  constructor
  · rintro ⟨r, hr, rfl, rfl⟩
    exact fill_mem h hr
  · rintro ⟨hi, hd⟩
    have e := fill_rowsAt h hi hd
    have : 0 < Spec.rowsAt out itemCol dateCol i d := by omega
    unfold Spec.rowsAt at this
    obtain ⟨r, hr, e⟩ := List.countP_pos_iff.mp this
    exact ⟨r, hr, by simpa using e⟩

theorem withWeeks_rows {f : Frame K} {t0 : ℤ} {r : Row K} (hr : r ∈ (withWeeks f "date" "week_id" "week_start" t0).rows) :
    ∃ q ∈ f.rows, (∀ c, c ≠ "week_id" → c ≠ "week_start" → r c = q c) ∧
      ∀ t, q "date" = .time t → r "week_id" = .int (weekId t0 t) ∧ r "week_start" = .time (weekStart t0 (weekId t0 t)) := by
  unfold withWeeks Frame.setCol at hr
  simp only [List.map_map, List.mem_map, Function.comp] at hr
  obtain ⟨q, hq, rfl⟩ := hr
  refine ⟨q, hq, ?_, ?_⟩
  · intro c h1 h2
    rw [Function.update_of_ne h2, Function.update_of_ne h1]
  · intro t ht
    simp [Function.update, ht]

theorem withWeeks_rows' {f : Frame K} {t0 : ℤ} {q : Row K} (hq : q ∈ f.rows) :
    ∃ r ∈ (withWeeks f "date" "week_id" "week_start" t0).rows, (∀ c, c ≠ "week_id" → c ≠ "week_start" → r c = q c) ∧
      ∀ t, q "date" = .time t → r "week_id" = .int (weekId t0 t) ∧ r "week_start" = .time (weekStart t0 (weekId t0 t)) := by
  unfold withWeeks Frame.setCol
  simp only [List.map_map, List.mem_map, Function.comp]
  refine ⟨_, ⟨q, hq, rfl⟩, ?_, ?_⟩
  · intro c h1 h2
    rw [Function.update_of_ne h2, Function.update_of_ne h1]
  · intro t ht
    simp [Function.update, ht]

/-- A panel of items and weeks: week ids are integers with their week start, and every item has every week. -/
structure Panel (f : Frame K) (t0 : ℤ) : Prop where
  item : "item_id" ∈ f.cols
  week : "week_id" ∈ f.cols
  start : "week_start" ∈ f.cols
  weeks : ∀ r ∈ f.rows, ∃ w : ℤ, r "week_id" = .int w ∧ r "week_start" = .time (weekStart t0 w)
  grid : ∀ r ∈ f.rows, ∀ r' ∈ f.rows, ∃ q ∈ f.rows, q "item_id" = r "item_id" ∧ q "week_id" = r' "week_id"

/-- Weekly grouping of a grid of items and dates gives a panel of items and weeks. -/
theorem groupWeeks_panel {f f3 out : Frame K} {t0 : ℤ} (hf3 : f3 = withWeeks f "date" "week_id" "week_start" t0)
    (hitem : "item_id" ∈ f.cols) (ht : ∀ r ∈ f.rows, ∃ t, r "date" = .time t)
    (hgrid : ∀ r ∈ f.rows, ∀ r' ∈ f.rows, ∃ q ∈ f.rows, q "item_id" = r "item_id" ∧ q "date" = r' "date")
    (h : groupWeeks f3 "date" "item_id" "week_id" "week_start" [] = .ok out) :
    Panel out t0 ∧ (out.rows ≠ [] → f.rows ≠ []) := by
  have key3 : ∀ r ∈ f3.rows, ∃ t, r "date" = .time t ∧ r "week_id" = .int (weekId t0 t) ∧
      r "week_start" = .time (weekStart t0 (weekId t0 t)) := by
    intro r hr
    rw [hf3] at hr
    obtain ⟨q, hq, e1, e2⟩ := withWeeks_rows hr
    obtain ⟨t, et⟩ := ht q hq
    exact ⟨t, (e1 "date" (by decide) (by decide)).trans et, e2 t et⟩
  have grid3 : ∀ r ∈ f3.rows, ∀ r' ∈ f3.rows, ∃ q ∈ f3.rows, q "item_id" = r "item_id" ∧ q "date" = r' "date" := by
    intro r hr r' hr'
    rw [hf3] at hr hr'
    obtain ⟨q, hq, e1, -⟩ := withWeeks_rows hr
    obtain ⟨q', hq', e1', -⟩ := withWeeks_rows hr'
    obtain ⟨p, hp, a, b⟩ := hgrid q hq q' hq'
    obtain ⟨p3, hp3, e, -⟩ := withWeeks_rows' (t0 := t0) hp
    refine ⟨p3, hf3 ▸ hp3, ?_, ?_⟩
    · rw [e _ (by decide) (by decide), e1 _ (by decide) (by decide), a]
    · rw [e _ (by decide) (by decide), e1' _ (by decide) (by decide), b]
  have cols3 : ∀ c, c ∈ f.cols ∨ c = "week_id" ∨ c = "week_start" → c ∈ f3.cols := by
    intro c hc
    rw [hf3]
    have hs : ∀ (g : Frame K) (c k : String) (v : Row K → Cell K), k ∈ g.cols ∨ k = c → k ∈ (g.setCol c v).cols := by
      intro g c k v hk
      unfold Frame.setCol
      simp only
      split
      · rcases hk with hk | rfl <;> assumption
      · rw [List.mem_append, List.mem_singleton]; exact hk
    unfold withWeeks
    rcases hc with hc | rfl | rfl
    · exact hs _ _ _ _ (Or.inl (hs _ _ _ _ (Or.inl hc)))
    · exact hs _ _ _ _ (Or.inl (hs _ _ _ _ (Or.inr rfl)))
    · exact hs _ _ _ _ (Or.inr rfl)
  have nonempty3 : f3.rows ≠ [] → f.rows ≠ [] := by
    intro hne e
    obtain ⟨r, hr⟩ := List.exists_mem_of_ne_nil _ hne
    rw [hf3] at hr
    obtain ⟨q, hq, -⟩ := withWeeks_rows hr
    rw [e] at hq
    simp at hq
  by_cases hd : Spec.SpacedBy 1 f3 "date"
  · obtain ⟨-, -, -, -, hcols, hrows⟩ := groupWeeks_daily_ok h hd
    have hkeys : ∀ r ∈ out.rows, ∃ q ∈ f3.rows, ["week_id", "week_start", "item_id"].map r = ["week_id", "week_start", "item_id"].map q ∧
        (∀ c ∈ ["week_id", "week_start", "item_id"].map q, c ≠ .null) ∧
        nunique ((groupRows f3.rows ["week_id", "week_start", "item_id"] (["week_id", "week_start", "item_id"].map q)).map
          (fun r => r "date")) = 7 := by
      intro r hr
      rw [hrows] at hr
      obtain ⟨k, hk, rfl⟩ := List.mem_map.mp hr
      obtain ⟨hk, h7⟩ := List.mem_filter.mp hk
      obtain ⟨⟨q, hq, rfl⟩, hnn⟩ := mem_groupKeys.mp hk
      exact ⟨q, hq, weekRow_keys (by decide) (by simp), hnn, by simpa using h7⟩
    refine ⟨⟨by simp [hcols], by simp [hcols], by simp [hcols], ?_, ?_⟩, ?_⟩
    · intro r hr
      obtain ⟨q, hq, e, -⟩ := hkeys r hr
      obtain ⟨t, -, e1, e2⟩ := key3 q hq
      simp only [List.map_cons, List.map_nil, List.cons.injEq] at e
      exact ⟨_, e.1.trans e1, e.2.1.trans e2⟩
    · intro r hr r' hr'
      obtain ⟨q, hq, e, hn, -⟩ := hkeys r hr
      obtain ⟨q', hq', e', hn', h7⟩ := hkeys r' hr'
      obtain ⟨p, hp, p1, p2⟩ := grid3 q hq q' hq'
      obtain ⟨t', et', w', s'⟩ := key3 q' hq'
      obtain ⟨tp, etp, wp, sp⟩ := key3 p hp
      have : tp = t' := by rw [etp, et'] at p2; simpa using p2
      subst this
      have hdates : Spec.datesOf f3 ["week_id", "week_start", "item_id"] (["week_id", "week_start", "item_id"].map p) "date" =
          Spec.datesOf f3 ["week_id", "week_start", "item_id"] (["week_id", "week_start", "item_id"].map q') "date" := by
        have sub : ∀ a ∈ f3.rows, ∀ b ∈ f3.rows, a "week_id" = b "week_id" → a "week_start" = b "week_start" → ∀ x,
            x ∈ Spec.datesOf f3 ["week_id", "week_start", "item_id"] (["week_id", "week_start", "item_id"].map a) "date" →
            x ∈ Spec.datesOf f3 ["week_id", "week_start", "item_id"] (["week_id", "week_start", "item_id"].map b) "date" := by
          intro a ha b hb ew es x hx
          unfold Spec.datesOf at hx ⊢
          rw [Finset.mem_erase, List.mem_toFinset] at hx ⊢
          refine ⟨hx.1, ?_⟩
          obtain ⟨z, hz, rfl⟩ := List.mem_map.mp hx.2
          obtain ⟨hz, ez⟩ := List.mem_filter.mp hz
          simp only [List.map_cons, List.map_nil, List.cons.injEq, decide_eq_true_eq, and_true] at ez
          obtain ⟨y, hy, y1, y2⟩ := grid3 b hb z hz
          obtain ⟨tz, etz, wz, sz⟩ := key3 z hz
          obtain ⟨ty, ety, wy, sy⟩ := key3 y hy
          have : ty = tz := by rw [ety, etz] at y2; simpa using y2
          subst this
          refine List.mem_map.mpr ⟨y, List.mem_filter.mpr ⟨hy, ?_⟩, y2⟩
          simp only [List.map_cons, List.map_nil, List.cons.injEq, decide_eq_true_eq, and_true]
          refine ⟨?_, ?_, y1⟩
          · rw [wy, ← wz, ez.1, ew]
          · rw [sy, ← sz, ez.2.1, es]
        ext x
        exact ⟨sub p hp q' hq' (wp.trans w'.symm) (sp.trans s'.symm) x, sub q' hq' p hp (w'.trans wp.symm) (s'.trans sp.symm) x⟩
      refine ⟨weekRow f3.rows ["week_id", "week_start", "item_id"] (["week_id", "week_start", "item_id"].map p), ?_, ?_⟩
      · rw [hrows]
        refine List.mem_map.mpr ⟨_, List.mem_filter.mpr ⟨mem_groupKeys.mpr ⟨⟨p, hp, rfl⟩, ?_⟩, ?_⟩, rfl⟩
        · intro c hc
          simp only [List.map_cons, List.map_nil, List.mem_cons, List.not_mem_nil, or_false] at hc
          rcases hc with rfl | rfl | rfl
          · rw [wp]; simp
          · rw [sp]; simp
          · rw [p1]; exact hn _ (by simp)
        · rw [decide_eq_true_eq]
          rw [nunique_eq] at h7 ⊢
          unfold Spec.datesOf at hdates
          unfold groupRows at h7 ⊢
          rw [← h7]
          exact congrArg Finset.card hdates
      · have ep := weekRow_keys (rows := f3.rows) (keys := ["week_id", "week_start", "item_id"])
          (k := ["week_id", "week_start", "item_id"].map p) (by decide) (by simp)
        simp only [List.map_cons, List.map_nil, List.cons.injEq, and_true] at ep e e'
        refine ⟨?_, ?_⟩
        · exact ep.2.2.trans (p1.trans e.2.2.symm)
        · exact ep.1.trans ((wp.trans w'.symm).trans e'.1.symm)
    · intro hne
      obtain ⟨r, hr⟩ := List.exists_mem_of_ne_nil _ hne
      obtain ⟨q, hq, -⟩ := hkeys r hr
      exact nonempty3 (List.ne_nil_of_mem hq)
  · unfold groupWeeks at h
    obtain ⟨h1, h⟩ := raiseIf_bind_ok.mp h
    obtain ⟨h2, h⟩ := raiseIf_bind_ok.mp h
    rw [if_neg (by rw [spacedBy_iff]; exact hd)] at h
    split at h
    · cases h
      refine ⟨⟨?_, ?_, ?_, ?_, ?_⟩, nonempty3⟩
      · exact List.mem_filter.mpr ⟨cols3 _ (Or.inl hitem), by decide⟩
      · exact List.mem_filter.mpr ⟨cols3 _ (Or.inr (Or.inl rfl)), by decide⟩
      · exact List.mem_filter.mpr ⟨cols3 _ (Or.inr (Or.inr rfl)), by decide⟩
      · intro r hr
        obtain ⟨t, -, e1, e2⟩ := key3 r hr
        exact ⟨_, e1, e2⟩
      · intro r hr r' hr'
        obtain ⟨q, hq, e1, e2⟩ := grid3 r hr r' hr'
        refine ⟨q, hq, e1, ?_⟩
        obtain ⟨t, et, w, -⟩ := key3 q hq
        obtain ⟨t', et', w', -⟩ := key3 r' hr'
        rw [et, et'] at e2
        obtain rfl : t = t' := by simpa using e2
        rw [w, w']
    · cases h

theorem downsample_panel [FloorRing K] {R : Rounding K} {rng : Sampler (Cell K)} {f out : Frame K} {fraction : K} {t0 : ℤ}
    (hf : Panel f t0) (h : downsample R rng f fraction "item_id" = .ok out) : Panel out t0 ∧ (out.rows ≠ [] → f.rows ≠ []) := by
  unfold downsample at h
  obtain ⟨h1, h⟩ := raiseIf_bind_ok.mp h
  obtain ⟨h2, h⟩ := raiseIf_bind_ok.mp h
  split at h
  · cases h
    exact ⟨hf, id⟩
  · cases h
    unfold Frame.filterRows
    refine ⟨⟨hf.item, hf.week, hf.start, fun r hr => hf.weeks r (List.mem_filter.mp hr).1, ?_⟩, ?_⟩
    · intro r hr r' hr'
      obtain ⟨hr, hs⟩ := List.mem_filter.mp hr
      obtain ⟨q, hq, e1, e2⟩ := hf.grid r hr r' (List.mem_filter.mp hr').1
      refine ⟨q, List.mem_filter.mpr ⟨hq, ?_⟩, e1, e2⟩
      rw [e1]; exact hs
    · intro hne e
      simp [e] at hne

/-- What the cleaning of the historical data returns. -/
theorem cleanHistorical_panel [FloorRing K] {R : Rounding K} {rng : Sampler (Cell K)} {E : Ext K} {raw : Frame K}
    {itemCol dateCol primary primaryCol : String} {fraction : K} {p : String × Frame K}
    (h : cleanHistorical R rng E raw itemCol dateCol primary primaryCol fraction = .ok p) :
    p.1 = (if primary = "other" then primaryCol else primary) ∧
    ∃ t0, Panel p.2 t0 ∧ (p.2.rows ≠ [] → IsLeast {t | ∃ r ∈ raw.rows, E.toDate (r dateCol) = .ok (some t)} t0) := by
  unfold cleanHistorical at h
  obtain ⟨h1, h⟩ := raiseIf_bind_ok.mp h
  simp only at h
  obtain ⟨f1, e1, h⟩ := Py.bind_eq_ok.mp h
  obtain ⟨f2, e2, h⟩ := Py.bind_eq_ok.mp h
  obtain ⟨f3, e3, h⟩ := Py.bind_eq_ok.mp h
  obtain ⟨f4, e4, h⟩ := Py.bind_eq_ok.mp h
  obtain ⟨f5, e5, h⟩ := Py.bind_eq_ok.mp h
  cases h
  refine ⟨rfl, ?_⟩
  have hcd : ((if primary = "other" then [(primaryCol, primaryCol)] else []).map Prod.fst).Nodup := by
    split <;> simp
  have hkeys := standardize_keys hcd e1
  obtain ⟨-, ht, t0, -, hleast, hf3⟩ := addWeeks_ok e3
  have hgrid : ∀ r ∈ f2.rows, ∀ r' ∈ f2.rows, ∃ q ∈ f2.rows, q "item_id" = r "item_id" ∧ q "date" = r' "date" := by
    intro r hr r' hr'
    exact (fill_grid e2).mpr ⟨(fill_mem e2 hr).1, (fill_mem e2 hr').2⟩
  obtain ⟨-, -, -, hc2, -⟩ := fillMissing_ok e2
  obtain ⟨p4, n4⟩ := groupWeeks_panel hf3 (by simp [hc2]) ht hgrid e4
  obtain ⟨p5, n5⟩ := downsample_panel p4 e5
  refine ⟨t0, p5, fun hne => ?_⟩
  have hl := hleast rfl (n4 (n5 hne))
  have hset : {t | Spec.HasDate f2 "date" t} = {t | ∃ r ∈ raw.rows, E.toDate (r dateCol) = .ok (some t)} := by
    ext t
    simp only [Set.mem_ofPred_eq]
    constructor
    · rintro ⟨r, hr, e⟩
      obtain ⟨q, hq, eq⟩ := List.mem_map.mp (fill_mem e2 hr).2
      obtain ⟨a, ha, -, t', et', ea⟩ := forall₂_exists' hkeys hq
      refine ⟨a, ha, ?_⟩
      cases t' with
      | none => rw [← eq, ea] at e; cases e
      | some t' =>
        rw [← eq, ea] at e
        cases e
        exact et'
    · rintro ⟨a, ha, e⟩
      obtain ⟨q, hq, -, t', et', eq⟩ := forall₂_exists hkeys ha
      rw [e] at et'
      cases et'
      obtain ⟨r, hr, -, e'⟩ := (fill_grid e2 (i := q "item_id") (d := q "date")).mpr
        ⟨List.mem_map.mpr ⟨q, hq, rfl⟩, List.mem_map.mpr ⟨q, hq, rfl⟩⟩
      exact ⟨r, hr, e'.trans eq⟩
  rw [← hset]
  exact hl

theorem runCheck_passed {name : String} {c : Py Bool} (h : runCheck [] name c = .ok ()) : c = .ok false := by
  unfold runCheck at h
  obtain ⟨b, hb, h⟩ := Py.bind_eq_ok.mp h
  rw [raiseIf_ok] at h
  cases b <;> simp_all

theorem checkFinite_passed {f : Frame K} {m : String} (h : checkFinite f [m] = .ok false) :
    ∀ r ∈ f.rows, Spec.IsFinite (r m) := by
  unfold checkFinite at h
  obtain ⟨-, h⟩ := raiseIf_bind_ok.mp h
  obtain ⟨-, h⟩ := raiseIf_bind_ok.mp h
  obtain ⟨-, h⟩ := raiseIf_bind_ok.mp h
  split at h
  · cases h
  · rename_i hn
    intro r hr
    rw [← isFinite_iff]
    by_contra hcon
    refine hn ?_
    rw [List.any_eq_true]
    exact ⟨r m, List.mem_map.mpr ⟨r, hr, rfl⟩, by simpa using hcon⟩

theorem checkNonNegative_passed [IsStrictOrderedRing K] {f : Frame K} {m : String} (h : checkNonNegative f [m] = .ok false) :
    ∀ r ∈ f.rows, ¬ Spec.IsNegative (r m) := by
  unfold checkNonNegative at h
  obtain ⟨-, h⟩ := raiseIf_bind_ok.mp h
  obtain ⟨-, h⟩ := raiseIf_bind_ok.mp h
  split at h
  · cases h
  · rename_i hn
    intro r hr
    rw [← isNegative_iff]
    intro hcon
    refine hn ?_
    rw [List.any_eq_true]
    exact ⟨r m, List.mem_map.mpr ⟨r, hr, rfl⟩, hcon⟩

theorem checkDuplicates_nonempty {f : Frame K} {itemCol dateCol : String} {b : Bool} (h : checkDuplicates f itemCol dateCol = .ok b) :
    f.rows ≠ [] := by
  intro e
  unfold checkDuplicates at h
  obtain ⟨-, h⟩ := raiseIf_bind_ok.mp h
  obtain ⟨-, h⟩ := raiseIf_bind_ok.mp h
  simp [e, groupKeys, dropDup] at h

end Feedx
