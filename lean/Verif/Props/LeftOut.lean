import Verif.Proofs.LeftOut
import Verif.Props.RowOrderStudy

/-!
Property C123: rows that only say that nothing happened, and rows of items that are not part of the experiment, can be left out of the loaded tables.
-/

set_option linter.unusedSectionVars false

namespace Feedx

/-- `raw'` is `raw` without the rows `left`. -/
structure Spec.Without {K : Type} (raw : Frame K) (left : List (Row K)) (raw' : Frame K) : Prop where
  cols : raw'.cols = raw.cols
  rows : raw.rows.Perm (raw'.rows ++ left)

/-- The value read is zero or missing. -/
def Spec.ReadsZero {K : Type} [Zero K] (v : Py (Fl K)) : Prop := v = .ok (.fin 0) ∨ v = .ok .nan

/-- All metrics of a row are zero or missing. -/
structure Spec.ZeroRow {K : Type} [Zero K] (E : Ext K) (s : StdCols) (other : List String) (z : Row K) : Prop where
  standard : ∀ c, s.clicks = some c ∨ s.impressions = some c ∨ s.totalCost = some c ∨ s.conversions = some c ∨ s.totalConversionValue = some c →
    Spec.ReadsZero (E.toNumeric (z c))
  other : ∀ c ∈ other, Spec.ReadsZero (E.toFloat (z c))

/-- `z` is the only row of its item and date. -/
def Spec.OnlyRow {K : Type} (E : Ext K) (itemCol dateCol : String) (raw : Frame K) (z : Row K) : Prop :=
  ∃ rest, raw.rows.Perm (z :: rest) ∧ ∀ r ∈ rest, ¬ (E.toStr (r itemCol) = E.toStr (z itemCol) ∧ E.toDate (r dateCol) = E.toDate (z dateCol))

/-- There is a row with the date of `z`. -/
def Spec.DateOccurs {K : Type} (E : Ext K) (dateCol : String) (raw : Frame K) (z : Row K) : Prop :=
  ∃ r ∈ raw.rows, E.toDate (r dateCol) = E.toDate (z dateCol)

/-- There is a row with the item of `z`. -/
def Spec.ItemOccurs {K : Type} (E : Ext K) (itemCol : String) (raw : Frame K) (z : Row K) : Prop :=
  ∃ r ∈ raw.rows, E.toStr (r itemCol) = E.toStr (z itemCol)

variable {K : Type} [Field K] [LinearOrder K]

/-! ### Reading the table -/

theorem lookup_mem {α β : Type} [BEq α] [LawfulBEq α] {l : List (α × β)} {a : α} {b : β} (h : l.lookup a = some b) : (a, b) ∈ l := by
  induction l with
  | nil => cases h
  | cons p l ih =>
    obtain ⟨x, y⟩ := p
    rw [List.lookup_cons] at h
    cases e : a == x with
    | true =>
      rw [e] at h
      cases h
      have : a = x := by simpa using e
      simp [this]
    | false =>
      rw [e] at h
      exact List.mem_cons_of_mem _ (ih h)

theorem lookup_floatParse (E : Ext K) (other : List String) (c : String) :
    (other.map (fun c => (c, floatParse E))).lookup c = if c ∈ other then some (floatParse E) else none := by
  induction other with
  | nil => rfl
  | cons o other ih =>
    rw [List.map_cons, List.lookup_cons]
    by_cases e : c = o
    · subst e
      simp
    · have : (c == o) = false := by simpa using e
      rw [this]
      simp only
      rw [ih]
      simp [e]

/-- What is read from a row: floats in all metric columns, zero or missing from a row of zeros. -/
theorem stdRow_metrics {E : Ext K} {raw f1 : Frame K} {itemCol dateCol : String} {s : StdCols} {other : List String}
    (h : standardize E raw itemCol dateCol s (other.map (fun c => (c, c))) (other.map (fun c => (c, floatParse E))) = .ok f1) {r : Row K}
    (hr : r ∈ raw.rows) {c : String} (h1 : c ≠ "item_id") (h2 : c ≠ "date") :
    ∃ x, stdRow E (columnNames itemCol dateCol s (other.map (fun c => (c, c)))) (other.map (fun c => (c, floatParse E))) r c = Cell.ofFl x ∧
      (Spec.ZeroRow E s other r → x = .fin 0 ∨ x = .nan) := by
  obtain ⟨hex, -⟩ := standardize_eq h
  have hstd : ∀ c ∈ other, c ∉ standardNames := by
    unfold standardize at h
    obtain ⟨h, -⟩ := raiseIf_bind_ok.mp h
    intro c hc hcon
    refine h (List.any_eq_true.mpr ⟨(c, c), List.mem_map.mpr ⟨c, hc, rfl⟩, by simpa using hcon⟩)
  unfold stdRow
  cases e : (columnNames itemCol dateCol s (other.map (fun c => (c, c)))).lookup c with
  | none => exact ⟨.nan, rfl, fun _ => Or.inr rfl⟩
  | some src =>
    have hm := lookup_mem e
    obtain ⟨y, hy⟩ := hex _ hm r hr
    simp only at hy ⊢
    unfold parsedCell
    rw [hy]
    unfold parseCell at hy
    rw [lookup_floatParse] at hy
    by_cases hc : c ∈ other
    · rw [if_pos hc] at hy
      simp only at hy
      unfold floatParse at hy
      have hsrc : src = c := by
        unfold columnNames at hm
        rcases List.mem_append.mp hm with hm | hm
        · exfalso
          refine hstd c hc ?_
          obtain ⟨p, hp, ep⟩ := List.mem_filterMap.mp hm
          have : p.1 = c := by
            cases hp2 : p.2 with
            | none => rw [hp2] at ep; cases ep
            | some _ => rw [hp2] at ep; cases ep; rfl
          rw [← this]
          simp only [List.mem_cons, List.not_mem_nil, or_false] at hp
          rcases hp with rfl | rfl | rfl | rfl | rfl | rfl | rfl <;> simp [standardNames]
        · obtain ⟨o, -, eo⟩ := List.mem_map.mp hm
          cases eo
          rfl
      subst hsrc
      cases ev : E.toFloat (r src) with
      | error x => rw [ev] at hy; cases hy
      | ok v =>
        rw [ev] at hy
        cases hy
        refine ⟨v, rfl, fun hz => ?_⟩
        have := hz.other src hc
        rw [ev] at this
        rcases this with e | e
        · exact Or.inl (Except.ok.inj e)
        · exact Or.inr (Except.ok.inj e)
    · rw [if_neg hc] at hy
      simp only [if_neg h1, if_neg h2] at hy
      have hsrc : c ∈ standardNames ∧
          (s.clicks = some src ∨ s.impressions = some src ∨ s.totalCost = some src ∨ s.conversions = some src ∨ s.totalConversionValue = some src) := by
        unfold columnNames at hm
        rcases List.mem_append.mp hm with hm | hm
        · obtain ⟨p, hp, ep⟩ := List.mem_filterMap.mp hm
          have : p.1 = c ∧ p.2 = some src := by
            cases hp2 : p.2 with
            | none => rw [hp2] at ep; cases ep
            | some _ => rw [hp2] at ep; cases ep; exact ⟨rfl, rfl⟩
          obtain ⟨p1, p2⟩ := this
          simp only [List.mem_cons, List.not_mem_nil, or_false] at hp
          rcases hp with rfl | rfl | rfl | rfl | rfl | rfl | rfl <;> simp only at p1 p2
          · exact absurd p1.symm h1
          · exact absurd p1.symm h2
          · exact ⟨p1 ▸ by decide, Or.inl p2⟩
          · exact ⟨p1 ▸ by decide, Or.inr (Or.inl p2)⟩
          · exact ⟨p1 ▸ by decide, Or.inr (Or.inr (Or.inl p2))⟩
          · exact ⟨p1 ▸ by decide, Or.inr (Or.inr (Or.inr (Or.inl p2)))⟩
          · exact ⟨p1 ▸ by decide, Or.inr (Or.inr (Or.inr (Or.inr p2)))⟩
        · obtain ⟨o, ho, eo⟩ := List.mem_map.mp hm
          cases eo
          exact absurd ho hc
      rw [if_pos hsrc.1] at hy
      cases ev : E.toNumeric (r src) with
      | error x => rw [ev] at hy; cases hy
      | ok v =>
        rw [ev] at hy
        cases hy
        refine ⟨v, rfl, fun hz => ?_⟩
        have := hz.standard src hsrc.2
        rw [ev] at this
        rcases this with e | e
        · exact Or.inl (Except.ok.inj e)
        · exact Or.inr (Except.ok.inj e)

/-- The table with and without some rows, once it is read. -/
structure ReadWithout (E : Ext K) (itemCol dateCol : String) (s : StdCols) (other : List String) (raw raw' f1 f1' : Frame K) (left : List (Row K))
    (g : Row K → Row K) : Prop where
  read : standardize E raw' itemCol dateCol s (other.map (fun c => (c, c))) (other.map (fun c => (c, floatParse E))) = .ok f1'
  cols : f1'.cols = f1.cols
  all : f1.rows = raw.rows.map g
  kept : f1'.rows = raw'.rows.map g
  keys : ∀ r ∈ raw.rows, Spec.StandardKeys E itemCol dateCol r (g r)
  float : ∀ r ∈ raw.rows, ∀ c, c ≠ "item_id" → c ≠ "date" → ∃ x, g r c = Cell.ofFl x
  zero : ∀ r ∈ raw.rows, Spec.ZeroRow E s other r → ∀ c, c ≠ "item_id" → c ≠ "date" → g r c = .num 0 ∨ g r c = .null
  perm : f1.rows.Perm (f1'.rows ++ left.map g)
  subset : ∀ r ∈ raw'.rows, r ∈ raw.rows
  leftOut : ∀ r ∈ left, r ∈ raw.rows

section read
variable {E : Ext K} {itemCol dateCol : String} {s : StdCols} {other : List String} {raw raw' f1 f1' : Frame K} {left : List (Row K)} {g : Row K → Row K}

theorem readWithout (hw : Spec.Without raw left raw')
    (h : standardize E raw itemCol dateCol s (other.map (fun c => (c, c))) (other.map (fun c => (c, floatParse E))) = .ok f1) :
    ∃ f1' g, ReadWithout E itemCol dateCol s other raw raw' f1 f1' left g := by
  have hsub : ∀ r ∈ raw'.rows, r ∈ raw.rows := fun r hr => hw.rows.mem_iff.mpr (List.mem_append_left _ hr)
  obtain ⟨f1', h'⟩ := standardize_returns_subset hw.cols hsub h
  have hmet := @stdRow_metrics K _ _ E raw f1 itemCol dateCol s other h
  have hk := standardize_keys (standardize_nodup h) h
  obtain ⟨-, e⟩ := standardize_eq h
  obtain ⟨-, e'⟩ := standardize_eq h'
  have hall : f1.rows = raw.rows.map (stdRow E (columnNames itemCol dateCol s (other.map (fun c => (c, c)))) (other.map (fun c => (c, floatParse E)))) := by
    rw [e]
  have hkept : f1'.rows = raw'.rows.map (stdRow E (columnNames itemCol dateCol s (other.map (fun c => (c, c)))) (other.map (fun c => (c, floatParse E)))) := by
    rw [e']
  refine ⟨f1', _, h', by rw [e, e'], hall, hkept, ?_, ?_, ?_, ?_, hsub, fun r hr => hw.rows.mem_iff.mpr (List.mem_append_right _ hr)⟩
  · rw [hall, List.forall₂_map_right_iff, List.forall₂_same] at hk
    exact hk
  · intro r hr c h1 h2
    obtain ⟨x, hx, -⟩ := hmet hr h1 h2
    exact ⟨x, hx⟩
  · intro r hr hz c h1 h2
    obtain ⟨x, hx, hx0⟩ := hmet hr h1 h2
    rw [hx]
    rcases hx0 hz with rfl | rfl
    · exact Or.inl rfl
    · exact Or.inr rfl
  · rw [hall, hkept, ← List.map_append]
    exact hw.rows.map _

theorem ReadWithout.float_all (h : ReadWithout E itemCol dateCol s other raw raw' f1 f1' left g) : FloatCells f1.rows := by
  intro q hq
  rw [h.all] at hq
  obtain ⟨r, hr, rfl⟩ := List.mem_map.mp hq
  exact h.float r hr

theorem ReadWithout.float_kept (h : ReadWithout E itemCol dateCol s other raw raw' f1 f1' left g) : FloatCells f1'.rows := by
  intro q hq
  rw [h.kept] at hq
  obtain ⟨r, hr, rfl⟩ := List.mem_map.mp hq
  exact h.float r (h.subset r hr)

theorem ReadWithout.keys_kept (h : ReadWithout E itemCol dateCol s other raw raw' f1 f1' left g) :
    List.Forall₂ (Spec.StandardKeys E itemCol dateCol) raw'.rows f1'.rows := by
  rw [h.kept, List.forall₂_map_right_iff, List.forall₂_same]
  exact fun r hr => h.keys r (h.subset r hr)

theorem ReadWithout.keys_all (h : ReadWithout E itemCol dateCol s other raw raw' f1 f1' left g) :
    List.Forall₂ (Spec.StandardKeys E itemCol dateCol) raw.rows f1.rows := by
  rw [h.all, List.forall₂_map_right_iff, List.forall₂_same]
  exact h.keys

theorem ReadWithout.mem (h : ReadWithout E itemCol dateCol s other raw raw' f1 f1' left g) {q : Row K} (hq : q ∈ f1'.rows) : q ∈ f1.rows :=
  h.perm.mem_iff.mpr (List.mem_append_left _ hq)

theorem ReadWithout.item (h : ReadWithout E itemCol dateCol s other raw raw' f1 f1' left g) {r : Row K} (hr : r ∈ raw.rows) :
    g r "item_id" = .str (E.toStr (r itemCol)) := (h.keys r hr).1

theorem ReadWithout.date (h : ReadWithout E itemCol dateCol s other raw raw' f1 f1' left g) {r r' : Row K} (hr : r ∈ raw.rows) (hr' : r' ∈ raw.rows) :
    g r "date" = g r' "date" ↔ E.toDate (r dateCol) = E.toDate (r' dateCol) := by
  obtain ⟨-, t, e, e1⟩ := h.keys r hr
  obtain ⟨-, t', e', e1'⟩ := h.keys r' hr'
  rw [e1, e1', e, e']
  constructor
  · intro ht
    cases t <;> cases t' <;> simp_all [Cell.ofTime]
  · intro ht
    rw [Except.ok.inj ht]

theorem ReadWithout.dates (h : ReadWithout E itemCol dateCol s other raw raw' f1 f1' left g) (hd : ∀ z ∈ left, Spec.DateOccurs E dateCol raw' z) (x : Cell K) :
    x ∈ f1'.col "date" ↔ x ∈ f1.col "date" := by
  constructor
  · intro hx
    obtain ⟨q, hq, rfl⟩ := List.mem_map.mp hx
    exact List.mem_map.mpr ⟨q, h.mem hq, rfl⟩
  · intro hx
    obtain ⟨q, hq, rfl⟩ := List.mem_map.mp hx
    rcases List.mem_append.mp (h.perm.mem_iff.mp hq) with hq | hq
    · exact List.mem_map.mpr ⟨q, hq, rfl⟩
    · obtain ⟨z, hz, rfl⟩ := List.mem_map.mp hq
      obtain ⟨r, hr, e⟩ := hd z hz
      refine List.mem_map.mpr ⟨g r, by rw [h.kept]; exact List.mem_map.mpr ⟨r, hr, rfl⟩, ?_⟩
      exact (h.date (h.subset r hr) (h.leftOut z hz)).mpr e

/-- A row of zeros, once it is read. -/
theorem ReadWithout.zeroRow (h : ReadWithout E itemCol dateCol s other raw raw' f1 f1' left g) {z : Row K} (hz : z ∈ left) (h0 : Spec.ZeroRow E s other z)
    (ho : Spec.OnlyRow E itemCol dateCol raw z) :
    (∀ c, c ≠ "item_id" → c ≠ "date" → g z c = .num 0 ∨ g z c = .null) ∧
      ∃ rest, f1.rows.Perm (g z :: rest) ∧ ∀ r ∈ rest, ¬ (r "item_id" = g z "item_id" ∧ r "date" = g z "date") := by
  refine ⟨h.zero z (h.leftOut z hz) h0, ?_⟩
  obtain ⟨rest, hp, hne⟩ := ho
  refine ⟨rest.map g, by rw [h.all]; exact hp.map g, ?_⟩
  intro q hq e
  obtain ⟨r, hr, rfl⟩ := List.mem_map.mp hq
  have hr' : r ∈ raw.rows := hp.mem_iff.mpr (List.mem_cons_of_mem _ hr)
  refine hne r hr ⟨?_, (h.date hr' (h.leftOut z hz)).mp e.2⟩
  have := e.1
  rw [h.item hr', h.item (h.leftOut z hz)] at this
  exact Cell.str.inj this

end read

/-! ### Historical data -/

section history
variable [FloorRing K] {R : Rounding K} {rng : Sampler (Cell K)} {E : Ext K} {S : DateSorter K} {raw raw' f : Frame K} {left : List (Row K)}
  {itemCol dateCol primary primaryCol : String} {fraction : K} {skip : List String}

/-- The rows of `left` only say that nothing happened: the metric is zero or missing, there is no other row of the same item and date, and both the item and the
date still occur. -/
def Spec.NothingHappened (E : Ext K) (itemCol dateCol primary primaryCol : String) (raw raw' : Frame K) (left : List (Row K)) : Prop :=
  ∀ z ∈ left, Spec.ReadsZero (Spec.reading E primary (z primaryCol)) ∧ Spec.OnlyRow E itemCol dateCol raw z ∧
    Spec.ItemOccurs E itemCol raw' z ∧ Spec.DateOccurs E dateCol raw' z

theorem historySame_leftOut (hw : Spec.Without raw left raw') (hleft : Spec.NothingHappened E itemCol dateCol primary primaryCol raw raw' left) :
    HistorySame E itemCol dateCol primary primaryCol raw raw' := by
  by_cases hl : left = []
  · subst hl
    exact Spec.SameRows.filled ⟨hw.cols, by have := hw.rows; rw [List.append_nil] at this; exact this.symm⟩ _ _ _
  intro f1 f2 e1 e2
  obtain ⟨other, hother⟩ : ∃ l : List String, l = if primary = "other" then [primaryCol] else [] := ⟨_, rfl⟩
  have c1 : (if primary = "other" then [(primaryCol, primaryCol)] else []) = other.map (fun c => (c, c)) := by
    rw [hother]; split <;> rfl
  have c2 : (if primary = "other" then [(primaryCol, floatParse E)] else []) = other.map (fun c => (c, floatParse E)) := by
    rw [hother]; split <;> rfl
  rw [c1, c2] at e1 ⊢
  obtain ⟨f1', g, hg⟩ := readWithout hw e1
  obtain ⟨z0, hz0⟩ := List.exists_mem_of_ne_nil _ hl
  have hne' : f1'.rows ≠ [] := by
    obtain ⟨-, -, ⟨r, hr, -⟩, -⟩ := hleft z0 hz0
    rw [hg.kept]
    intro e
    rw [List.map_eq_nil_iff] at e
    rw [e] at hr
    simp at hr
  have hne : f1.rows ≠ [] := by
    intro e
    obtain ⟨q, hq⟩ := List.exists_mem_of_ne_nil _ hne'
    have := hg.mem hq
    rw [e] at this
    simp at this
  have hzero : ∀ z ∈ left, Spec.ZeroRow E (stdColsOf primary primaryCol) other z := by
    intro z hz
    have h0 := (hleft z hz).1
    unfold Spec.reading at h0
    constructor
    · intro c hc
      have : primary ≠ "other" ∧ c = primaryCol := by
        unfold stdColsOf at hc
        simp only [ite_eq_iff, reduceCtorEq, and_false, or_false, Option.some.injEq] at hc
        rcases hc with ⟨rfl, h⟩ | ⟨rfl, h⟩ | ⟨rfl, h⟩ | ⟨rfl, h⟩ | ⟨rfl, h⟩ <;> exact ⟨by decide, h.symm⟩
      rw [if_neg this.1] at h0
      rw [this.2]
      exact h0
    · intro c hc
      rw [hother] at hc
      split_ifs at hc with hp
      · rw [if_pos hp] at h0
        rw [List.mem_singleton] at hc
        rw [hc]
        exact h0
      · simp at hc
  obtain ⟨f2', e2', hk⟩ := fillMissing_keep (P := fun _ => True) hg.cols hg.float_all hg.float_kept hne hne' (by
      intro x hx
      obtain ⟨q, hq, rfl⟩ := List.mem_map.mp hx
      exact List.mem_map.mpr ⟨q, hg.mem hq, rfl⟩) (by
      intro x hx _
      obtain ⟨q, hq, rfl⟩ := List.mem_map.mp hx
      rcases List.mem_append.mp (hg.perm.mem_iff.mp hq) with hq | hq
      · exact List.mem_map.mpr ⟨q, hq, rfl⟩
      · obtain ⟨z, hz, rfl⟩ := List.mem_map.mp hq
        obtain ⟨-, -, ⟨r, hr, e⟩, -⟩ := hleft z hz
        refine List.mem_map.mpr ⟨g r, by rw [hg.kept]; exact List.mem_map.mpr ⟨r, hr, rfl⟩, ?_⟩
        rw [hg.item (hg.subset r hr), hg.item (hg.leftOut z hz), e])
    (hg.dates (fun z hz => (hleft z hz).2.2.2))
    (mergeRows_leftOut (P := fun _ => True) hg.perm (by
      intro q hq _
      obtain ⟨z, hz, rfl⟩ := List.mem_map.mp hq
      exact hg.zeroRow hz (hzero z hz) (hleft z hz).2.1)) e2
  refine ⟨f1', f2', hg.read, e2', hk.cols, ?_⟩
  have := hk.rows
  simpa using this

/-- **C123, historical data.**  If the historical data is accepted and not downsampled, it is accepted without rows that only say that nothing happened, and the
prepared data has the same rows. -/
theorem C123_historical_data (hw : Spec.Without raw left raw') (hleft : Spec.NothingHappened E itemCol dateCol primary primaryCol raw raw' left)
    (h : prepareHistorical R rng E S raw itemCol dateCol primary primaryCol 1 skip = .ok f) :
    ∃ f', prepareHistorical R rng E S raw' itemCol dateCol primary primaryCol 1 skip = .ok f' ∧ f'.cols = f.cols ∧ f'.rows.Perm f.rows :=
  historical_filled (historySame_leftOut hw hleft) h

/-- **C123, daily historical data.**  If the data has a date on each of `n` consecutive days, exactly the same table is prepared, with downsampling too. -/
theorem C123_daily_history (hw : Spec.Without raw left raw') (hleft : Spec.NothingHappened E itemCol dateCol primary primaryCol raw raw' left) (first n : ℤ)
    (hdaily : ∀ t, (∃ r ∈ raw.rows, E.toDate (r dateCol) = .ok (some t)) ↔ ∃ k : ℤ, 0 ≤ k ∧ k < n ∧ t = first + k * 86400000000000)
    (h : prepareHistorical R rng E S raw itemCol dateCol primary primaryCol fraction skip = .ok f) :
    prepareHistorical R rng E S raw' itemCol dateCol primary primaryCol fraction skip = .ok f :=
  daily_filled (historySame_leftOut hw hleft) first n hdaily h

end history

/-! ### Experiment data -/

section experiment
variable {C : Checker K} {perf perf' assign f : Frame K} {left : List (Row K)} {d : Design K} {startDate itemCol dateCol treatCol : String} {a : ExperimentArgs}

/-- The rows of `left` are of items that are not assigned, or only say that nothing happened: all metrics are zero or missing and there is no other row of the
same item and date.  Their dates still occur. -/
def Spec.NotNeeded (E : Ext K) (itemCol dateCol : String) (a : ExperimentArgs) (assign perf perf' : Frame K) (left : List (Row K)) : Prop :=
  ∀ z ∈ left, Spec.DateOccurs E dateCol perf' z ∧
    (¬ Spec.ItemOccurs E itemCol assign z ∨ Spec.ZeroRow E a.std a.other z ∧ Spec.OnlyRow E itemCol dateCol perf z)

theorem missingRows_subset {E : Ext K} {perf perf' b : Frame K} {missing : List (Row K)} (hc : perf'.cols = perf.cols) (hne : perf'.rows ≠ [])
    (hd : ∀ r ∈ perf'.rows, ∃ t, E.toDate (r dateCol) = .ok t) (h : missingRows E perf b itemCol dateCol = .ok missing) :
    ∃ missing', missingRows E perf' b itemCol dateCol = .ok missing' := by
  unfold missingRows at h ⊢
  obtain ⟨h1, h⟩ := raiseIf_bind_ok.mp h
  obtain ⟨h2, h⟩ := raiseIf_bind_ok.mp h
  obtain ⟨h3, h⟩ := raiseIf_bind_ok.mp h
  cases hr : perf'.rows with
  | nil => exact absurd hr hne
  | cons r0 l =>
    obtain ⟨t, ht⟩ := hd r0 (by simp [hr])
    obtain ⟨out, ho⟩ := Py.mapM_returns (f := fun i => (do
      let t ← E.toDate (r0 dateCol)
      pure (fun c => if c = "item_id" then i else if c = "date" then Cell.ofTime t else .null) : Py (Row K)))
      (l := missingItems E perf' b itemCol) (fun i _ => ⟨_, Py.bind_eq_ok.mpr ⟨t, ht, rfl⟩⟩)
    exact ⟨out, raiseIf_bind_ok.mpr ⟨by rwa [hc], raiseIf_bind_ok.mpr ⟨h2, raiseIf_bind_ok.mpr ⟨by rwa [hc], ho⟩⟩⟩⟩

theorem FloatCells.merged {f1 : Frame K} (h : FloatCells f1.rows) (items : List (Cell K)) (x : Cell K) :
    FloatCells (mergeMissing f1 (items.map (fun i => noDataRow i x))).rows := by
  intro q hq c h1 h2
  rcases List.mem_append.mp ((mergeMissing_perm _ _).mem_iff.mp hq) with hq | hq
  · exact h q hq c h1 h2
  · obtain ⟨i, -, rfl⟩ := List.mem_map.mp hq
    exact ⟨.nan, by unfold noDataRow; rw [if_neg h1, if_neg h2]; rfl⟩

/-- The data with the assigned items that have no data, filled in. -/
theorem fillMerged_leftOut {E : Ext K} {perf perf' b f1 f1' f2 : Frame K} {s : StdCols} {other : List String} {g : Row K → Row K} {missing missing' : List (Row K)}
    (hg : ReadWithout E itemCol dateCol s other perf perf' f1 f1' left g) (hne' : perf'.rows ≠ [])
    (hleft : ∀ z ∈ left, Spec.DateOccurs E dateCol perf' z ∧ ((.str (E.toStr (z itemCol)) : Cell K) ∉ b.col "item_id" ∨
      Spec.ZeroRow E s other z ∧ Spec.OnlyRow E itemCol dateCol perf z))
    (em : missingRows E perf b itemCol dateCol = .ok missing) (em' : missingRows E perf' b itemCol dateCol = .ok missing')
    (e2 : fillMissing (mergeMissing f1 missing) "item_id" "date" = .ok f2) :
    ∃ f2', fillMissing (mergeMissing f1' missing') "item_id" "date" = .ok f2' ∧ KeepRows (fun x => x ∈ b.col "item_id") ["item_id", "date"] f2 f2' := by
  obtain ⟨d0, rfl, hd0⟩ := missingRows_eq em
  obtain ⟨d0', rfl, hd0'⟩ := missingRows_eq em'
  have hmem : ∀ {i : Cell K} {p : Frame K}, i ∈ missingItems E p b itemCol ↔ i ∈ b.col "item_id" ∧ ∀ r ∈ p.rows, i ≠ .str (E.toStr (r itemCol)) :=
    fun {i p} => mem_missingItems
  have hnew : ∀ {p h : Frame K}, List.Forall₂ (Spec.StandardKeys E itemCol dateCol) p.rows h.rows →
      ∀ i ∈ missingItems E p b itemCol, i ∉ h.col "item_id" := by
    intro p h hk i hi hcon
    rw [hmem] at hi
    obtain ⟨q, hq, rfl⟩ := List.mem_map.mp hcon
    obtain ⟨r, hr, e, -⟩ := forall₂_exists' hk hq
    exact hi.2 r hr e
  have hitems : ∀ {p h : Frame K} {x : Cell K}, List.Forall₂ (Spec.StandardKeys E itemCol dateCol) p.rows h.rows → ∀ i,
      i ∈ (mergeMissing h ((missingItems E p b itemCol).map (fun i => noDataRow i x))).col "item_id" ↔ i ∈ h.col "item_id" ∨ i ∈ b.col "item_id" := by
    intro p h x hk i
    rw [(mergeMissing_col _ _ _).mem_iff, List.mem_append, List.map_map]
    have e : ((fun r : Row K => r "item_id") ∘ fun i => noDataRow i x) = id := rfl
    rw [e, List.map_id, hmem]
    constructor
    · rintro (hi | hi)
      · exact Or.inl hi
      · exact Or.inr hi.1
    · rintro (hi | hi)
      · exact Or.inl hi
      · by_cases hc : ∃ r ∈ p.rows, i = .str (E.toStr (r itemCol))
        · obtain ⟨r, hr, rfl⟩ := hc
          obtain ⟨q, hq, e, -⟩ := forall₂_exists hk hr
          exact Or.inl (List.mem_map.mpr ⟨q, hq, e⟩)
        · push Not at hc
          exact Or.inr ⟨hi, hc⟩
  have hrows' : f1'.rows ≠ [] := by
    rw [hg.kept]
    intro e
    exact hne' (List.map_eq_nil_iff.mp e)
  have hrows : f1.rows ≠ [] := by
    intro e
    obtain ⟨q, hq⟩ := List.exists_mem_of_ne_nil _ hrows'
    have := hg.mem hq
    rw [e] at this
    simp at this
  have hmerged : ∀ {h : Frame K} {m : List (Row K)}, h.rows ≠ [] → (mergeMissing h m).rows ≠ [] := by
    intro h m hh e
    have := (mergeMissing_perm h m)
    rw [e] at this
    have := this.symm.eq_nil
    rw [List.append_eq_nil_iff] at this
    exact hh this.1
  refine fillMissing_keep (f := mergeMissing f1 _) hg.cols (hg.float_all.merged _ _) (hg.float_kept.merged _ _) (hmerged hrows) (hmerged hrows') ?_ ?_ ?_ ?_ e2
  · intro x hx
    rw [hitems hg.keys_kept] at hx
    rw [hitems hg.keys_all]
    refine hx.imp_left fun hx => ?_
    obtain ⟨q, hq, rfl⟩ := List.mem_map.mp hx
    exact List.mem_map.mpr ⟨q, hg.mem hq, rfl⟩
  · intro x _ hx
    rw [hitems hg.keys_kept]
    exact Or.inr hx
  · intro x
    rw [mergeMissing_dates hg.keys_kept hd0', mergeMissing_dates hg.keys_all hd0]
    exact hg.dates (fun z hz => (hleft z hz).1) x
  · intro i x hi
    refine (((mergeRows_blank (nodup_dropDup _) (hnew hg.keys_kept) i x).map _).trans ?_).trans
      ((mergeRows_blank (nodup_dropDup _) (hnew hg.keys_all) i x).map _).symm
    refine mergeRows_leftOut (P := fun x => x ∈ b.col "item_id") hg.perm ?_ i x hi
    intro q hq hPq
    obtain ⟨z, hz, rfl⟩ := List.mem_map.mp hq
    rcases (hleft z hz).2 with hn | ⟨h0, ho⟩
    · rw [hg.item (hg.leftOut z hz)] at hPq
      exact absurd hPq hn
    · exact hg.zeroRow hz h0 ho

/-- The experiment data before validation. -/
theorem buildExperiment_leftOut {E : Ext K} (hne : itemCol ≠ treatCol) (hi : itemCol ∈ assign.cols) (ht : treatCol ∈ assign.cols)
    (hnames : ∀ p ∈ a.atLeastOne, p.2 ≠ "item_id") (hw : Spec.Without perf left perf') (hleft : Spec.NotNeeded E itemCol dateCol a assign perf perf' left)
    (h : buildExperiment E perf assign d startDate itemCol dateCol treatCol a = .ok f) :
    ∃ f', buildExperiment E perf' assign d startDate itemCol dateCol treatCol a = .ok f' ∧ Spec.SameRows f f' := by
  unfold buildExperiment at h
  obtain ⟨b, eb, h⟩ := Py.bind_eq_ok.mp h
  obtain ⟨missing, em, h⟩ := Py.bind_eq_ok.mp h
  obtain ⟨f1, e1, h⟩ := Py.bind_eq_ok.mp h
  obtain ⟨f2, e2, h⟩ := Py.bind_eq_ok.mp h
  obtain ⟨f3, e3, h⟩ := Py.bind_eq_ok.mp h
  obtain ⟨f4, e4, h⟩ := Py.bind_eq_ok.mp h
  obtain ⟨f5, e5, h⟩ := Py.bind_eq_ok.mp h
  obtain ⟨-, -, hclean⟩ := cleanAssignment_ok hne hi ht eb
  obtain ⟨f1', g, hg⟩ := readWithout hw e1
  have hassigned : ∀ z : Row K, (.str (E.toStr (z itemCol)) : Cell K) ∈ b.col "item_id" → Spec.ItemOccurs E itemCol assign z := by
    intro z hz
    obtain ⟨q, hq, e⟩ := List.mem_map.mp hz
    obtain ⟨r, hr, e1, -⟩ := forall₂_exists' hclean hq
    rw [e1] at e
    exact ⟨r, hr, Cell.str.inj e⟩
  have hne' : perf'.rows ≠ [] := by
    intro e
    have hp := hw.rows
    rw [e, List.nil_append] at hp
    obtain ⟨-, -, -, r0, hr0, -⟩ := missingRows_ok em
    obtain ⟨⟨r, hr, -⟩, -⟩ := hleft r0 (hp.mem_iff.mp hr0)
    rw [e] at hr
    simp at hr
  obtain ⟨missing', em'⟩ := missingRows_subset hw.cols hne' (fun r hr => by
    obtain ⟨-, t, et, -⟩ := hg.keys r (hg.subset r hr)
    exact ⟨t, et⟩) em
  obtain ⟨f2', e2', h2⟩ := fillMerged_leftOut hg hne' (fun z hz => ⟨(hleft z hz).1, (hleft z hz).2.imp_left (fun hn hc => hn (hassigned z hc))⟩) em em' e2
  obtain ⟨f3', e3', h3⟩ := addWeeks_keep h2 e3
  obtain ⟨f4', e4', h4⟩ := addTimePeriodColumn_keep h3 e4
  obtain ⟨f5', e5', h5⟩ := addAtLeastOne_keep hnames h4 e5
  obtain ⟨f', e', h'⟩ := mergeAssignment_keep (fun x hx => hx) h5 h
  refine ⟨f', ?_, h'⟩
  unfold buildExperiment
  exact Py.bind_eq_ok.mpr ⟨_, eb, Py.bind_eq_ok.mpr ⟨_, em', Py.bind_eq_ok.mpr ⟨_, hg.read, Py.bind_eq_ok.mpr ⟨_, e2', Py.bind_eq_ok.mpr ⟨_, e3',
    Py.bind_eq_ok.mpr ⟨_, e4', Py.bind_eq_ok.mpr ⟨_, e5', e'⟩⟩⟩⟩⟩⟩⟩

/-- **C123, experiment data.**  If the experiment data is accepted, it is accepted without rows of items that are not assigned and without rows that only say
that nothing happened, and the prepared data has the same rows.  At-least-one metrics may not be called "item_id", "week_id" or "date". -/
theorem C123_experiment_data (hne : itemCol ≠ treatCol) (hi : itemCol ∈ assign.cols) (ht : treatCol ∈ assign.cols)
    (hnames : ∀ p ∈ a.atLeastOne, p.2 ≠ "item_id" ∧ p.2 ≠ "week_id" ∧ p.2 ≠ "date")
    (hw : Spec.Without perf left perf') (hleft : Spec.NotNeeded C.ext itemCol dateCol a assign perf perf' left)
    (h : prepareExperiment C perf assign d startDate itemCol dateCol treatCol a = .ok f) :
    ∃ f', prepareExperiment C perf' assign d startDate itemCol dateCol treatCol a = .ok f' ∧ f'.cols = f.cols ∧ f'.rows.Perm f.rows :=
  prepareExperiment_built (fun p hp => (hnames p hp).2)
    (fun _ => buildExperiment_leftOut hne hi ht (fun p hp => (hnames p hp).1) hw hleft) h

end experiment

/-! ### The notebooks -/

/-- **C123, designer notebook.**  If the historical data is accepted and not reduced to a sample, then it is accepted without rows that only say that nothing
happened, and whatever cells are run afterwards, and in whatever order, with the same random values:
the tables of designs displayed are the same, validating has the same outcome, and exporting a design gives the same file and the same assignments,
possibly listed in another order, or the same error. -/
theorem C123_designer (V : StudyEnv) (form : StudyForm) (hall : form.fraction = 1) {raw raw' : Frame ℝ} {left : List (Row ℝ)}
    (hw : Spec.Without raw left raw') (hleft : Spec.NothingHappened V.ext form.itemCol form.dateCol form.primary form.primaryCol raw raw' left)
    (data : Frame ℝ) (study : Study) (h : openStudy V form raw = .ok (data, study)) :
    ∃ data' study', openStudy V form raw' = .ok (data', study') ∧ data'.cols = data.cols ∧ data'.rows.Perm data.rows ∧
      ∀ cells : List StudyCell,
        (∀ S text withValidation, showStudy V S text withValidation (runCells V data' study' cells) =
          showStudy V S text withValidation (runCells V data study cells)) ∧
        (∀ force targets, (validateStudy V force targets (runCells V data' study' cells)).1 =
          (validateStudy V force targets (runCells V data study cells)).1) ∧
        (∀ binom σ bytes id fileName,
          (∀ table file, (exportStudy V binom σ bytes data id fileName (runCells V data study cells)).1 = .ok (table, file) →
            ∃ table', (exportStudy V binom σ bytes data' id fileName (runCells V data' study' cells)).1 = .ok (table', file) ∧
              table'.cols = table.cols ∧ table'.rows.Perm table.rows) ∧
          (∀ e, (exportStudy V binom σ bytes data id fileName (runCells V data study cells)).1 = .error e →
            (exportStudy V binom σ bytes data' id fileName (runCells V data' study' cells)).1 = .error e)) :=
  openStudy_prepared V form (fun f hf => by rw [hall] at hf ⊢; exact C123_historical_data hw hleft hf) data study h

/-- **C123, designer notebook, daily data.**  If the dates of the data are consecutive days, the notebook opens with exactly the same data and analyses. -/
theorem C123_designer_daily (V : StudyEnv) (form : StudyForm) {raw raw' : Frame ℝ} {left : List (Row ℝ)}
    (hw : Spec.Without raw left raw') (hleft : Spec.NothingHappened V.ext form.itemCol form.dateCol form.primary form.primaryCol raw raw' left) (first n : ℤ)
    (hdaily : ∀ t, (∃ r ∈ raw.rows, V.ext.toDate (r form.dateCol) = .ok (some t)) ↔ ∃ k : ℤ, 0 ≤ k ∧ k < n ∧ t = first + k * 86400000000000)
    (data : Frame ℝ) (study : Study) (h : openStudy V form raw = .ok (data, study)) :
    openStudy V form raw' = .ok (data, study) := by
  unfold openStudy at h ⊢
  obtain ⟨f, ef, h⟩ := Py.bind_eq_ok.mp h
  exact Py.bind_eq_ok.mpr ⟨f, C123_daily_history hw hleft first n hdaily ef, h⟩

/-- **C123, analyser notebook.**  If the experiment data is accepted, then without rows of items that are not assigned and without rows that only say that
nothing happened it is accepted too, the table of the days per period is the same, and so are the results (or the error raised). -/
theorem C123_report (R : Rounding ℝ) (argsort : List ℝ → List ℕ) (D : TDist) (dflt05 dflt08 : ℝ) (C : Checker ℝ) (form : AnalyserForm) (file : Dict (YVal ℝ))
    {perf perf' assign : Frame ℝ} {left : List (Row ℝ)} (hne : form.itemCol ≠ form.treatCol) (hi : form.itemCol ∈ assign.cols) (ht : form.treatCol ∈ assign.cols)
    (hw : Spec.Without perf left perf') (hleft : Spec.NotNeeded C.ext form.itemCol form.dateCol form.args assign perf perf' left) (d : Design ℝ) (data : Frame ℝ)
    (h : prepareStudy R dflt05 dflt08 C form file perf assign = .ok (d, data)) :
    ∃ data', prepareStudy R dflt05 dflt08 C form file perf' assign = .ok (d, data') ∧ daysPerPeriod data' = daysPerPeriod data ∧
      ∀ metrics, analyseData R argsort D metrics (d, data') = analyseData R argsort D metrics (d, data) := by
  refine report_prepared R argsort D dflt05 dflt08 C form file (fun d f hnames hf => C123_experiment_data hne hi ht (fun p hp => ⟨?_, hnames p hp⟩) hw hleft hf)
    d data h
  have hp := (List.mem_filter.mp hp).1
  simp only [List.mem_cons, List.not_mem_nil, or_false] at hp
  rcases hp with rfl | rfl | rfl <;> decide

end Feedx
