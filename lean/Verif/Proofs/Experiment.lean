import Verif.Proofs.Pipeline
import Verif.Props.Fill

/-!
Lemmas about the preparation of experiment data.
-/

set_option linter.unusedSectionVars false
set_option linter.unusedSimpArgs false

namespace Feedx

variable {K : Type} [Field K] [LinearOrder K]

theorem setCol_mem (g : Frame K) (c k : String) (v : Row K → Cell K) : k ∈ (g.setCol c v).cols ↔ k ∈ g.cols ∨ k = c := by
  unfold Frame.setCol
  simp only
  split
  · constructor
    · exact Or.inl
    · rintro (h | rfl) <;> assumption
  · rw [List.mem_append, List.mem_singleton]

theorem setCol_forall₂ (g : Frame K) (c : String) (v : Row K → Cell K) :
    List.Forall₂ (fun r r' => r' c = v r ∧ ∀ k, k ≠ c → r' k = r k) g.rows (g.setCol c v).rows := by
  unfold Frame.setCol
  simp only [List.forall₂_map_right_iff]
  rw [List.forall₂_same]
  intro r _
  exact ⟨Function.update_self .., fun k hk => Function.update_of_ne hk ..⟩

theorem Forall₂.trans' {α β γ : Type} {P : α → β → Prop} {Q : β → γ → Prop} {S : α → γ → Prop} {l : List α} {m : List β} {n : List γ}
    (h1 : List.Forall₂ P l m) (h2 : List.Forall₂ Q m n) (h : ∀ a b c, P a b → Q b c → S a c) : List.Forall₂ S l n := by
  induction h1 generalizing n with
  | nil => cases h2; exact .nil
  | cons hab _ ih =>
    cases h2 with
    | cons hbc ht => exact .cons (h _ _ _ hab hbc) (ih ht)

theorem addAtLeastOne_keeps {pairs : List (String × String)} {f out : Frame K} (h : addAtLeastOne pairs f = .ok out) :
    (∀ c, c ∈ f.cols → c ∈ out.cols) ∧
    List.Forall₂ (fun r r' => ∀ c, c ∉ pairs.map Prod.snd → r' c = r c) f.rows out.rows := by
  induction pairs generalizing f with
  | nil =>
    cases h
    exact ⟨fun _ h => h, by rw [List.forall₂_same]; intro r _ c _; rfl⟩
  | cons p pairs ih =>
    obtain ⟨m, new⟩ := p
    unfold addAtLeastOne at h
    obtain ⟨-, h⟩ := raiseIf_bind_ok.mp h
    obtain ⟨-, h⟩ := raiseIf_bind_ok.mp h
    obtain ⟨i1, i2⟩ := ih h
    refine ⟨fun c hc => i1 c ((setCol_mem ..).mpr (Or.inl hc)), ?_⟩
    refine Forall₂.trans' (setCol_forall₂ ..) i2 ?_
    rintro a b c ⟨-, h1⟩ h2 k hk
    simp only [List.map_cons, List.mem_cons, not_or] at hk
    rw [h2 k hk.2, h1 k hk.1]

/-! ### The assignment table -/

/-- A cleaned row of the assignment table. -/
def Spec.CleanAssigned (E : Ext K) (itemCol treatCol : String) (r r' : Row K) : Prop :=
  r' "item_id" = .str (E.toStr (r itemCol)) ∧ ∃ t, E.toInt (r treatCol) = .ok t ∧ r' "treatment_assignment" = .int t

theorem cleanAssignment_ok {E : Ext K} {a a' : Frame K} {itemCol treatCol : String} (hne : itemCol ≠ treatCol) (hi : itemCol ∈ a.cols)
    (ht : treatCol ∈ a.cols) (h : cleanAssignment E a itemCol treatCol = .ok a') :
    "item_id" ∈ a'.cols ∧ "treatment_assignment" ∈ a'.cols ∧
    List.Forall₂ (Spec.CleanAssigned E itemCol treatCol) a.rows a'.rows := by
  unfold cleanAssignment at h
  simp only at h
  obtain ⟨h1, h⟩ := raiseIf_bind_ok.mp h
  obtain ⟨h2, h⟩ := raiseIf_bind_ok.mp h
  obtain ⟨h3, h⟩ := raiseIf_bind_ok.mp h
  obtain ⟨rows, hr, h⟩ := Py.bind_eq_ok.mp h
  cases h
  push Not at h1 h2 h3
  have hfind : ∀ k ∈ a.cols, (a.cols.find? (fun k' => decide (renameCol itemCol treatCol k' = renameCol itemCol treatCol k))).getD
      (renameCol itemCol treatCol k) = k := by
    intro k hk
    obtain ⟨x, hx⟩ : ∃ x, a.cols.find? (fun k' => decide (renameCol itemCol treatCol k' = renameCol itemCol treatCol k)) = some x := by
      rw [← Option.isSome_iff_exists, List.find?_isSome]
      exact ⟨k, hk, by simp⟩
    rw [hx]
    have e := List.find?_some hx
    simp only [decide_eq_true_eq] at e
    exact List.inj_on_of_nodup_map h1 (List.mem_of_find?_eq_some hx) hk e
  have r1 : renameCol itemCol treatCol itemCol = "item_id" := by unfold renameCol; simp [hne]
  have r2 : renameCol itemCol treatCol treatCol = "treatment_assignment" := by unfold renameCol; simp
  have f1 := hfind _ hi
  have f2 := hfind _ ht
  rw [r1] at f1
  rw [r2] at f2
  refine ⟨h2, h3, ?_⟩
  refine (Py.mapM_ok hr).imp fun r r' e => ?_
  obtain ⟨t, et, e⟩ := Py.bind_eq_ok.mp e
  cases e
  rw [f2] at et
  refine ⟨?_, t, et, ?_⟩
  · simp only [if_true]; rw [f1]
  · simp

/-! ### Missing items -/

theorem missingRows_ok {E : Ext K} {perf a : Frame K} {itemCol dateCol : String} {missing : List (Row K)}
    (h : missingRows E perf a itemCol dateCol = .ok missing) :
    itemCol ∈ perf.cols ∧ dateCol ∈ perf.cols ∧ a.rows ≠ [] ∧ ∃ r0 ∈ perf.rows,
      List.Forall₂ (fun i m => ∃ t, E.toDate (r0 dateCol) = .ok t ∧
        m = fun c => if c = "item_id" then i else if c = "date" then Cell.ofTime t else .null)
        (missingItems E perf a itemCol) missing := by
  unfold missingRows at h
  obtain ⟨h1, h⟩ := raiseIf_bind_ok.mp h
  obtain ⟨h2, h⟩ := raiseIf_bind_ok.mp h
  obtain ⟨h3, h⟩ := raiseIf_bind_ok.mp h
  push Not at h1 h3
  refine ⟨h1, h3, ?_, ?_⟩
  · intro e
    apply h2
    simp [Frame.col, e, nunique, dropDup]
  · split at h
    · cases h
    · rename_i r0 l e
      refine ⟨r0, by simp [e], ?_⟩
      refine (Py.mapM_ok h).imp fun i m hm => ?_
      obtain ⟨t, et, hm⟩ := Py.bind_eq_ok.mp hm
      cases hm
      exact ⟨t, et, rfl⟩

theorem mem_missingItems {E : Ext K} {perf a : Frame K} {itemCol : String} {i : Cell K} :
    i ∈ missingItems E perf a itemCol ↔ i ∈ a.col "item_id" ∧ ∀ r ∈ perf.rows, i ≠ .str (E.toStr (r itemCol)) := by
  unfold missingItems
  rw [mem_dropDup, List.mem_filter]
  simp only [decide_eq_true_eq, List.mem_map, not_exists, not_and]
  constructor
  · rintro ⟨h1, h2⟩
    exact ⟨h1, fun r hr e => h2 r hr e.symm⟩
  · rintro ⟨h1, h2⟩
    exact ⟨h1, fun r hr e => h2 r hr e.symm⟩

/-- Everything the later steps rely on, up to the filled rows. -/
structure Built (E : Ext K) (perf : Frame K) (itemCol dateCol : String) (a : ExperimentArgs) (a' out : Frame K)
    (missing : List (Row K)) (f1 f2 f5 : Frame K) (d : Design K) (start : ℤ) : Prop where
  missing_ok : missingRows E perf a' itemCol dateCol = .ok missing
  std : standardize E perf itemCol dateCol a.std (a.other.map (fun c => (c, c))) (a.other.map (fun c => (c, floatParse E))) = .ok f1
  fill : fillMissing (mergeMissing f1 missing) "item_id" "date" = .ok f2
  times : ∀ r ∈ f2.rows, ∃ t, r "date" = .time t
  cols : ∀ c, c ∈ f2.cols ∨ c = "week_id" ∨ c = "week_start" ∨ c = "time_period" → c ∈ f5.cols
  noPeriod : "time_period" ∉ f2.cols
  label : ¬ (d.isCrossover = true ∧ d.washout = none)
  rows : List.Forall₂ (fun r r' => (∀ c, c ∉ ["week_id", "week_start", "time_period"] → c ∉ a.atLeastOne.map Prod.snd → r' c = r c) ∧
    ∀ t, r "date" = .time t →
      ("week_id" ∉ a.atLeastOne.map Prod.snd → r' "week_id" = .int (weekId start t)) ∧
      ("week_start" ∉ a.atLeastOne.map Prod.snd → r' "week_start" = .time (weekStart start (weekId start t))) ∧
      ("time_period" ∉ a.atLeastOne.map Prod.snd → r' "time_period" = (match designLabel d.toDesignParams 0 (.fin (weekId start t : K)) with
        | .ok l => labelCell l
        | .error _ => .null))) f2.rows f5.rows
  merge : mergeAssignment f5 a' = .ok out

theorem withWeeks_forall₂ (f : Frame K) (t0 : ℤ) :
    List.Forall₂ (fun r r' => (∀ c, c ≠ "week_id" → c ≠ "week_start" → r' c = r c) ∧
      ∀ t, r "date" = .time t → r' "week_id" = .int (weekId t0 t) ∧ r' "week_start" = .time (weekStart t0 (weekId t0 t)))
      f.rows (withWeeks f "date" "week_id" "week_start" t0).rows := by
  unfold withWeeks Frame.setCol
  simp only [List.map_map, List.forall₂_map_right_iff]
  rw [List.forall₂_same]
  intro r _
  refine ⟨?_, ?_⟩
  · intro c h1 h2
    simp only [Function.comp]
    rw [Function.update_of_ne h2, Function.update_of_ne h1]
  · intro t ht
    simp [Function.update, ht]

theorem buildExperiment_ok {E : Ext K} {perf assign out : Frame K} {d : Design K} {startDate itemCol dateCol treatCol : String}
    {a : ExperimentArgs} (h : buildExperiment E perf assign d startDate itemCol dateCol treatCol a = .ok out) :
    ∃ start a' missing f1 f2 f5, E.strptime startDate = some start ∧ cleanAssignment E assign itemCol treatCol = .ok a' ∧
      Built E perf itemCol dateCol a a' out missing f1 f2 f5 d start := by
  unfold buildExperiment at h
  obtain ⟨a', ea, h⟩ := Py.bind_eq_ok.mp h
  obtain ⟨missing, em, h⟩ := Py.bind_eq_ok.mp h
  obtain ⟨f1, e1, h⟩ := Py.bind_eq_ok.mp h
  obtain ⟨f2, e2, h⟩ := Py.bind_eq_ok.mp h
  obtain ⟨f3, e3, h⟩ := Py.bind_eq_ok.mp h
  obtain ⟨f4, e4, h⟩ := Py.bind_eq_ok.mp h
  obtain ⟨f5, e5, h⟩ := Py.bind_eq_ok.mp h
  obtain ⟨-, ht, start, hs, -, hf3⟩ := addWeeks_ok e3
  unfold addTimePeriodColumn at e4
  obtain ⟨p1, e4⟩ := raiseIf_bind_ok.mp e4
  obtain ⟨p2, e4⟩ := raiseIf_bind_ok.mp e4
  unfold labelRows at e4
  obtain ⟨p3, e4⟩ := raiseIf_bind_ok.mp e4
  obtain ⟨p4, e4⟩ := raiseIf_bind_ok.mp e4
  replace e4 := (Except.ok.inj e4).symm
  obtain ⟨k1, k2⟩ := addAtLeastOne_keeps e5
  rw [e4] at k2
  refine ⟨start, a', missing, f1, f2, f5, hs _ rfl, ea, em, e1, e2, ht, ?_, ?_, p3, ?_, h⟩
  · intro c hc
    refine k1 c ?_
    rw [e4, setCol_mem, hf3]
    unfold withWeeks
    rw [setCol_mem, setCol_mem]
    tauto
  · intro hc
    apply p1
    rw [hf3]
    unfold withWeeks
    rw [setCol_mem, setCol_mem]
    exact Or.inl (Or.inl hc)
  · rw [hf3] at k2
    refine Forall₂.trans' (Forall₂.trans' (S := fun r r' => ((∀ c, c ∉ ["week_id", "week_start", "time_period"] → r' c = r c) ∧
      ∀ t, r "date" = .time t → r' "week_id" = .int (weekId start t) ∧ r' "week_start" = .time (weekStart start (weekId start t)) ∧
        r' "time_period" = (match designLabel d.toDesignParams 0 (.fin (weekId start t : K)) with
          | .ok l => labelCell l
          | .error _ => .null))) (withWeeks_forall₂ f2 start) (setCol_forall₂ ..) ?_) k2 ?_
    · rintro r r3 r4 ⟨w1, w2⟩ ⟨s1, s2⟩
      refine ⟨?_, ?_⟩
      · intro c hc
        simp only [List.mem_cons, List.not_mem_nil, or_false, not_or] at hc
        rw [s2 c hc.2.2, w1 c hc.1 hc.2.1]
      · intro t ht
        obtain ⟨x, y⟩ := w2 t ht
        refine ⟨(s2 _ (by decide)).trans x, (s2 _ (by decide)).trans y, ?_⟩
        rw [s1, x]
        rfl
    · rintro r r4 r5 ⟨w1, w2⟩ s3
      refine ⟨?_, ?_⟩
      · intro c hc hc'
        rw [s3 c hc', w1 c hc]
      · intro t ht
        obtain ⟨x, y, z⟩ := w2 t ht
        exact ⟨fun hc => (s3 _ hc).trans x, fun hc => (s3 _ hc).trans y, fun hc => (s3 _ hc).trans z⟩

theorem standardize_nodup {E : Ext K} {f out : Frame K} {itemCol dateCol : String} {s : StdCols} {other : List String}
    {customParse : List (String × (Cell K → Py (Cell K)))}
    (h : standardize E f itemCol dateCol s (other.map (fun c => (c, c))) customParse = .ok out) :
    ((other.map (fun c => (c, c))).map Prod.fst).Nodup := by
  unfold standardize at h
  obtain ⟨-, h⟩ := raiseIf_bind_ok.mp h
  obtain ⟨-, h⟩ := raiseIf_bind_ok.mp h
  simp only at h
  obtain ⟨-, h⟩ := raiseIf_bind_ok.mp h
  obtain ⟨h4, h⟩ := raiseIf_bind_ok.mp h
  rw [not_not] at h4
  unfold columnNames at h4
  rw [List.map_append] at h4
  have := (List.nodup_append.mp h4).2.1
  simpa [Function.comp_def] using this

theorem mergeMissing_perm (f : Frame K) (missing : List (Row K)) : (mergeMissing f missing).rows.Perm (f.rows ++ missing) :=
  List.perm_insertionSort _ _

section built
variable {E : Ext K} {perf : Frame K} {itemCol dateCol : String} {a : ExperimentArgs} {a' out : Frame K} {missing : List (Row K)}
  {f1 f2 f5 : Frame K} {d : Design K} {start : ℤ}

theorem Built.keys (h : Built E perf itemCol dateCol a a' out missing f1 f2 f5 d start) :
    List.Forall₂ (Spec.StandardKeys E itemCol dateCol) perf.rows f1.rows :=
  standardize_keys (standardize_nodup h.std) h.std

theorem Built.merged_mem (_ : Built E perf itemCol dateCol a a' out missing f1 f2 f5 d start) {r : Row K} :
    r ∈ (mergeMissing f1 missing).rows ↔ r ∈ f1.rows ∨ r ∈ missing := by
  rw [(mergeMissing_perm f1 missing).mem_iff, List.mem_append]

theorem Built.items (h : Built E perf itemCol dateCol a a' out missing f1 f2 f5 d start) {i : Cell K} :
    i ∈ (mergeMissing f1 missing).col "item_id" ↔ (∃ r ∈ perf.rows, i = .str (E.toStr (r itemCol))) ∨ i ∈ a'.col "item_id" := by
  obtain ⟨-, -, -, r0, hr0, hm⟩ := missingRows_ok h.missing_ok
  unfold Frame.col
  rw [List.mem_map]
  constructor
  · rintro ⟨r, hr, rfl⟩
    rcases h.merged_mem.mp hr with hr | hr
    · obtain ⟨q, hq, e, -⟩ := forall₂_exists' h.keys hr
      exact Or.inl ⟨q, hq, e⟩
    · obtain ⟨i, hi, t, -, rfl⟩ := forall₂_exists' hm hr
      exact Or.inr (mem_missingItems.mp hi).1
  · intro hi
    by_cases hp : ∃ r ∈ perf.rows, i = .str (E.toStr (r itemCol))
    · obtain ⟨q, hq, rfl⟩ := hp
      obtain ⟨r, hr, e, -⟩ := forall₂_exists h.keys hq
      exact ⟨r, h.merged_mem.mpr (Or.inl hr), e⟩
    · obtain hi := hi.resolve_left hp
      push Not at hp
      obtain ⟨m, hm', t, -, rfl⟩ := forall₂_exists hm (mem_missingItems.mpr ⟨hi, hp⟩)
      exact ⟨_, h.merged_mem.mpr (Or.inr hm'), by simp⟩

theorem Built.dates (h : Built E perf itemCol dateCol a a' out missing f1 f2 f5 d start) {c : Cell K} :
    c ∈ (mergeMissing f1 missing).col "date" ↔ ∃ r ∈ perf.rows, ∃ t, E.toDate (r dateCol) = .ok t ∧ c = Cell.ofTime t := by
  obtain ⟨-, -, -, r0, hr0, hm⟩ := missingRows_ok h.missing_ok
  unfold Frame.col
  rw [List.mem_map]
  constructor
  · rintro ⟨r, hr, rfl⟩
    rcases h.merged_mem.mp hr with hr | hr
    · obtain ⟨q, hq, -, t, e1, e2⟩ := forall₂_exists' h.keys hr
      exact ⟨q, hq, t, e1, e2⟩
    · obtain ⟨i, hi, t, e, rfl⟩ := forall₂_exists' hm hr
      exact ⟨r0, hr0, t, e, by simp⟩
  · rintro ⟨q, hq, t, e, rfl⟩
    obtain ⟨r, hr, -, t', e1, e2⟩ := forall₂_exists h.keys hq
    rw [e] at e1
    cases e1
    exact ⟨r, h.merged_mem.mpr (Or.inl hr), e2⟩

/-- No date of the performance data is missing. -/
theorem Built.date_some (h : Built E perf itemCol dateCol a a' out missing f1 f2 f5 d start) {r : Row K} (hr : r ∈ perf.rows) :
    ∃ t, E.toDate (r dateCol) = .ok (some t) := by
  obtain ⟨q, hq, e, t, e1, e2⟩ := forall₂_exists h.keys hr
  obtain ⟨z, hz, -, ez⟩ := (fill_grid h.fill).mpr ⟨List.mem_map.mpr ⟨q, h.merged_mem.mpr (Or.inl hq), rfl⟩,
    h.dates.mpr ⟨r, hr, t, e1, rfl⟩⟩
  obtain ⟨t', et'⟩ := h.times z hz
  cases t with
  | none => rw [ez] at et'; cases et'
  | some t => exact ⟨t, e1⟩

theorem Built.mem_out (h : Built E perf itemCol dateCol a a' out missing f1 f2 f5 d start) {r : Row K} :
    r ∈ out.rows ↔ ∃ q ∈ f5.rows, ∃ s ∈ a'.rows, s "item_id" = q "item_id" ∧ r = joinRow f5.cols q s := by
  have hm := h.merge
  unfold mergeAssignment at hm
  obtain ⟨-, hm⟩ := raiseIf_bind_ok.mp hm
  cases hm
  simp only [List.mem_flatMap, List.mem_map, List.mem_filter, decide_eq_true_eq]
  constructor
  · rintro ⟨q, hq, s, ⟨hs, e⟩, rfl⟩
    exact ⟨q, hq, s, hs, e, rfl⟩
  · rintro ⟨q, hq, s, hs, e, rfl⟩
    exact ⟨q, hq, s, ⟨hs, e⟩, rfl⟩

theorem Built.out_cols (h : Built E perf itemCol dateCol a a' out missing f1 f2 f5 d start) {c : String} :
    c ∈ out.cols ↔ c ∈ f5.cols ∨ (c ∈ a'.cols ∧ c ≠ "item_id") := by
  have hm := h.merge
  unfold mergeAssignment at hm
  obtain ⟨-, hm⟩ := raiseIf_bind_ok.mp hm
  cases hm
  simp [List.mem_append, List.mem_filter]

theorem Built.disjoint (h : Built E perf itemCol dateCol a a' out missing f1 f2 f5 d start) {c : String} (hc : c ∈ a'.cols)
    (hne : c ≠ "item_id") : c ∉ f5.cols := by
  have hm := h.merge
  unfold mergeAssignment at hm
  obtain ⟨h1, hm⟩ := raiseIf_bind_ok.mp hm
  intro hf
  refine h1 ?_
  rw [List.any_eq_true]
  exact ⟨c, hc, by simpa using ⟨hne, hf⟩⟩

theorem Built.f2_cols (h : Built E perf itemCol dateCol a a' out missing f1 f2 f5 d start) {c : String} : c ∈ f2.cols ↔ c ∈ f1.cols := by
  obtain ⟨h1, h2, -, h4, -⟩ := fillMissing_ok h.fill
  unfold mergeMissing at h1 h2 h4
  simp only at h1 h2 h4
  rw [h4]
  simp only [List.mem_cons, List.mem_filter, decide_eq_true_eq]
  constructor
  · rintro (rfl | rfl | h)
    · exact h1
    · exact h2
    · exact h.1
  · intro hc
    by_cases e1 : c = "item_id"
    · exact Or.inl e1
    by_cases e2 : c = "date"
    · exact Or.inr (Or.inl e2)
    exact Or.inr (Or.inr ⟨hc, e1, e2⟩)

theorem Built.f1_cols (h : Built E perf itemCol dateCol a a' out missing f1 f2 f5 d start) :
    f1.cols = (columnNames itemCol dateCol a.std (a.other.map (fun c => (c, c)))).map Prod.fst :=
  (standardize_ok (standardize_nodup h.std) h.std).2.2.2.1

theorem Built.key_cols (h : Built E perf itemCol dateCol a a' out missing f1 f2 f5 d start) :
    "item_id" ∈ f5.cols ∧ "date" ∈ f5.cols := by
  constructor
  · refine h.cols _ (Or.inl (h.f2_cols.mpr ?_))
    rw [h.f1_cols, columnNames_eq]; simp
  · refine h.cols _ (Or.inl (h.f2_cols.mpr ?_))
    rw [h.f1_cols, columnNames_eq]; simp

theorem mem_preparedMetrics {m : String} : m ∈ preparedMetrics a ↔
    m ∈ (Spec.requestedMetrics a.std).map Prod.fst ∨ m ∈ a.other := by
  unfold preparedMetrics Spec.requestedMetrics
  rw [List.mem_append]
  refine or_congr ?_ Iff.rfl
  cases a.std.clicks <;> cases a.std.impressions <;> cases a.std.totalCost <;> cases a.std.conversions <;>
    cases a.std.totalConversionValue <;> simp

end built

end Feedx
