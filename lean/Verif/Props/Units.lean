import Verif.Props.RawEstimateExample
import Verif.Props.TTestSymmetry
import Verif.Spec.Units

/-!
Property C127: the designer's relative minimum detectable effects do not depend on the unit of the metric.
-/

set_option linter.unusedSectionVars false
set_option linter.unusedSimpArgs false

namespace Feedx

variable {α β : Type}

theorem sum_units {l : List α} {l' : List β} {P : α → β → Prop} {c : ℝ} {f : α → ℝ} {g : β → ℝ} (h : List.Forall₂ P l l')
    (p : α → Bool) (q : β → Bool) (hP : ∀ a b, P a b → q b = p a ∧ g b = c * f a) : ((l'.filter q).map g).sum = c * ((l.filter p).map f).sum := by
  induction h with
  | nil => simp
  | cons hab _ ih =>
    obtain ⟨h1, h2⟩ := hP _ _ hab
    rw [List.filter_cons, List.filter_cons, h1]
    split
    · rw [List.map_cons, List.map_cons, List.sum_cons, List.sum_cons, ih, h2]
      ring
    · exact ih

theorem weekTotal_units {E : Ext ℝ} {itemCol : String} {c : ℝ} {raw raw' : Frame ℝ} {time time' : Row ℝ → ℤ} {value value' : Row ℝ → ℝ}
    (hS : Spec.InOtherUnits E itemCol c raw raw' time time' value value') (item : String) (s : ℤ) :
    Spec.weekTotal E raw' itemCol time' value' item s = c * Spec.weekTotal E raw itemCol time value item s :=
  sum_units hS _ _ (fun a b h => ⟨by rw [h.1, h.2.1], h.2.2⟩)

theorem rowsAverage_units {E : Ext ℝ} {itemCol : String} {c : ℝ} {raw raw' : Frame ℝ} {time time' : Row ℝ → ℤ} {value value' : Row ℝ → ℝ}
    (hS : Spec.InOtherUnits E itemCol c raw raw' time time' value value') (first lo hi : ℤ) (item : String) :
    Spec.rowsAverage E raw' itemCol time' value' first lo hi item = c * Spec.rowsAverage E raw itemCol time value first lo hi item := by
  unfold Spec.rowsAverage
  have : Spec.rowsTotal E raw' itemCol time' value' first lo hi item = c * Spec.rowsTotal E raw itemCol time value first lo hi item :=
    sum_units hS _ _ (fun a b h => ⟨by rw [h.1, h.2.1], h.2.2⟩)
  rw [this, mul_div_assoc]

theorem ids_units {E : Ext ℝ} {itemCol : String} {c : ℝ} {raw raw' : Frame ℝ} {time time' : Row ℝ → ℤ} {value value' : Row ℝ → ℝ}
    (hS : Spec.InOtherUnits E itemCol c raw raw' time time' value value') :
    raw'.rows.map (fun q => E.toStr (q itemCol)) = raw.rows.map (fun q => E.toStr (q itemCol)) := by
  unfold Spec.InOtherUnits at hS
  generalize raw.rows = l at hS
  generalize raw'.rows = l' at hS
  induction hS with
  | nil => rfl
  | cons h _ ih => rw [List.map_cons, List.map_cons, h.1, ih]

theorem mean_times (l : List α) (f : α → ℝ) (c : ℝ) : Spec.mean (l.map (fun x => c * f x)) = c * Spec.mean (l.map f) := by
  unfold Spec.mean
  rw [List.length_map, List.length_map, List.sum_map_mul_left, mul_div_assoc]

theorem crossDev_times (l : List α) (f g : α → ℝ) (c : ℝ) :
    Spec.crossDev (l.map (fun x => c * f x)) (l.map (fun x => c * g x)) = c ^ 2 * Spec.crossDev (l.map f) (l.map g) := by
  unfold Spec.crossDev
  rw [mean_times, mean_times, List.zipWith_map, List.zipWith_map, List.zipWith_self, List.zipWith_self, ← List.sum_map_mul_left]
  congr 1
  exact List.map_congr_left (fun x _ => by ring)

theorem sumSqDev_times (l : List α) (f : α → ℝ) (c : ℝ) : Spec.sumSqDev (l.map (fun x => c * f x)) = c ^ 2 * Spec.sumSqDev (l.map f) := by
  rw [← crossDev_self, ← crossDev_self]
  exact crossDev_times l f f c

theorem sumSqDev_zero {l : List ℝ} (h : Spec.sumSqDev l = 0) : ∃ v, ∀ z ∈ l, z = v := by
  refine ⟨Spec.mean l, fun z hz => ?_⟩
  have hz := (List.all_zero_of_le_zero_le_of_sum_eq_zero (l := l.map (fun x => (x - Spec.mean l) ^ 2)) (by
    intro x hx
    obtain ⟨y, -, rfl⟩ := List.mem_map.mp hx
    positivity) h) (List.mem_map.mpr ⟨z, hz, rfl⟩)
  have := pow_eq_zero_iff (two_ne_zero) |>.mp hz
  linarith

theorem sqrt_times {c v : ℝ} (hc : 0 < c) : Real.sqrt (c ^ 2 * v) = c * Real.sqrt v := by
  rw [Real.sqrt_mul (by positivity), Real.sqrt_sq hc.le]

theorem dictSet_pairs [DecidableEq α] {P : β → β → Prop} {k : α} {v v' : β} (hv : P v v') {l l' : List (α × β)}
    (h : List.Forall₂ (fun a b => b.1 = a.1 ∧ P a.2 b.2) l l') : List.Forall₂ (fun a b => b.1 = a.1 ∧ P a.2 b.2) (dictSet k v l) (dictSet k v' l') := by
  induction h with
  | nil => exact .cons ⟨rfl, hv⟩ .nil
  | @cons a b l l' hab ht ih =>
    obtain ⟨a1, a2⟩ := a
    obtain ⟨b1, b2⟩ := b
    obtain ⟨rfl, h2⟩ := hab
    unfold dictSet
    by_cases e : k = b1
    · rw [if_pos e, if_pos e]
      exact .cons ⟨rfl, hv⟩ ht
    · rw [if_neg e, if_neg e]
      exact .cons ⟨rfl, h2⟩ ih

theorem dictOf_pairs [DecidableEq α] {P : β → β → Prop} {l l' : List (α × β)} (h : List.Forall₂ (fun a b => b.1 = a.1 ∧ P a.2 b.2) l l') :
    List.Forall₂ (fun a b => b.1 = a.1 ∧ P a.2 b.2) (dictOf l) (dictOf l') := by
  unfold dictOf
  have key : ∀ (m m' : List (α × β)), List.Forall₂ (fun a b => b.1 = a.1 ∧ P a.2 b.2) m m' →
      List.Forall₂ (fun a b => b.1 = a.1 ∧ P a.2 b.2) (l.foldl (fun acc p => dictSet p.1 p.2 acc) m) (l'.foldl (fun acc p => dictSet p.1 p.2 acc) m') := by
    induction h with
    | nil => exact fun m m' hm => hm
    | @cons a b l l' hab _ ih =>
      intro m m' hm
      rw [List.foldl_cons, List.foldl_cons]
      refine ih _ _ ?_
      rw [hab.1]
      exact dictSet_pairs hab.2 hm
  exact key [] [] .nil

theorem mapM_pairs {γ : Type} {P : β → γ → Prop} {l : List α} {f : α → Py β} {g : α → Py γ} {a : List β} {b : List γ} (hf : l.mapM f = .ok a)
    (hg : l.mapM g = .ok b) (hP : ∀ x ∈ l, ∀ p q, f x = .ok p → g x = .ok q → P p q) : List.Forall₂ P a b := by
  have h1 := Py.mapM_ok hf
  have h2 := Py.mapM_ok hg
  clear hf hg
  induction h1 generalizing b with
  | nil => cases h2; exact .nil
  | cons hx _ ih =>
    cases h2 with
    | cons hy ht => exact .cons (hP _ List.mem_cons_self _ _ hx hy) (ih (fun x hx => hP x (List.mem_cons_of_mem _ hx)) ht)

/-- The weeks of the prepared data. -/
theorem sampled_weeks {E : Ext ℝ} {raw data : Frame ℝ} {itemCol name : String} {first m : ℤ} (F : SampledFrame E raw data itemCol name first m) (w : ℤ) :
    .int w ∈ data.col "week_id" ↔ 0 ≤ w ∧ w < m := by
  constructor
  · intro h
    obtain ⟨r, hr, er⟩ := List.mem_map.mp h
    obtain ⟨w', h0, h1, e1, -⟩ := F.rows r hr
    have := e1.symm.trans er
    injection this with this
    subst this
    exact ⟨h0, h1⟩
  · exact fun h => F.all w h.1 h.2

/-- The number of items of the prepared data, if all items are kept. -/
theorem sampled_count {E : Ext ℝ} {raw data : Frame ℝ} {itemCol name : String} {first m : ℤ} (F : SampledFrame E raw data itemCol name first m)
    (hall : ∀ q ∈ raw.rows, .str (E.toStr (q itemCol)) ∈ data.col "item_id") :
    nunique (data.col "item_id") = (raw.rows.map (fun q => E.toStr (q itemCol))).toFinset.card := by
  have e : (data.col "item_id").toFinset = (raw.rows.map (fun q => E.toStr (q itemCol))).toFinset.image (Cell.str : String → Cell ℝ) := by
    ext x
    rw [List.mem_toFinset, Finset.mem_image]
    constructor
    · intro hx
      obtain ⟨r, hr, rfl⟩ := List.mem_map.mp hx
      obtain ⟨-, -, -, -, -, q, hq, e⟩ := F.rows r hr
      exact ⟨_, List.mem_toFinset.mpr (List.mem_map.mpr ⟨q, hq, rfl⟩), e.symm⟩
    · rintro ⟨i, hi, rfl⟩
      obtain ⟨q, hq, rfl⟩ := List.mem_map.mp (List.mem_toFinset.mp hi)
      exact hall q hq
  rw [nunique_eq, e, Finset.erase_eq_of_notMem (by simp), Finset.card_image_of_injective _ (fun a b h => by injection h)]

/-- The same study can be opened with the data in other units: the same designs are analysed with the same start weeks. -/
theorem opened_units {V : StudyEnv} (ha : ArgsortOk V.argsort) {form : StudyForm} {raw raw' : Frame ℝ} {first step n : ℤ} {time time' : Row ℝ → ℤ}
    {value value' : Row ℝ → ℝ} (A : Spec.RawStudy V form raw first step n time value) (A' : Spec.RawStudy V form raw' first step n time' value')
    {c : ℝ} (hc : 0 < c) (hS : Spec.InOtherUnits V.ext form.itemCol c raw raw' time time' value value') (hskip : form.skip = [])
    (hname : ¬ (form.primary = "other" ∧ form.primaryCol = "time_period")) (hfrac : form.fraction = 1) {data : Frame ℝ} {study : Study}
    (h : openStudy V form raw = .ok (data, study)) :
    ∃ data' study', openStudy V form raw' = .ok (data', study') ∧ (∀ i : String, .str i ∈ data'.col "item_id" ↔ .str i ∈ data.col "item_id") ∧
      List.Forall₂ (fun e e' => e'.1 = e.1 ∧ e'.2.1 = e.2.1) study study' := by
  obtain ⟨hclean, F, hall⟩ := opened_clean A h
  have hall := hall hfrac
  obtain ⟨data', hclean', F', hall'⟩ := clean_usable (R := V.R) (rng := V.rng) A'.usable A'.pos A'.le_one A'.some_items (A'.size.trans (by norm_num))
  have hall' := hall' hfrac
  have hids := ids_units hS
  have hn : nunique (data'.col "item_id") = nunique (data.col "item_id") := by
    rw [sampled_count F hall, sampled_count F' hall', hids]
  have h0 := h
  unfold openStudy at h
  obtain ⟨data0, hd, h⟩ := Py.bind_eq_ok.mp h
  obtain ⟨hwash, h⟩ := raiseIf_bind_ok.mp h
  obtain ⟨designs, hg, h⟩ := Py.bind_eq_ok.mp h
  obtain ⟨minStart, hms, h⟩ := Py.bind_eq_ok.mp h
  obtain ⟨st, hest, h⟩ := Py.bind_eq_ok.mp h
  cases h
  have htot := usable_totals A.usable hclean F
  have htot' := usable_totals A'.usable hclean' F'
  have hd' : prepareHistorical V.R V.rng V.ext V.sorter raw' form.itemCol form.dateCol form.primary form.primaryCol form.fraction [] = .ok data' := by
    have hv := usable_verdict V.sorter F (fun r hr => by
      obtain ⟨w, item, h⟩ := htot r hr
      exact ⟨_, h.2.2.2.2.2⟩) [] (by simp)
    have hv' := usable_verdict V.sorter F' (fun r hr => by
      obtain ⟨w, item, h⟩ := htot' r hr
      exact ⟨_, h.2.2.2.2.2⟩) [] (by simp)
    unfold prepareHistorical at hd ⊢
    rw [hclean, hskip] at hd
    rw [hclean']
    obtain ⟨p, hp, hd⟩ := Py.bind_eq_ok.mp hd
    cases hp
    obtain ⟨u, hu, hd⟩ := Py.bind_eq_ok.mp hd
    have hpos := (hv.1.mp hu).resolve_left (by simp)
    refine Py.bind_eq_ok.mpr ⟨_, rfl, Py.bind_eq_ok.mpr ⟨(), hv'.1.mpr (Or.inr fun r' hr' x hx => ?_), rfl⟩⟩
    obtain ⟨w, item, hw0, hw1, a1, a2, a3, a4⟩ := htot' r' hr'
    obtain ⟨-, -, -, -, -, q', hq', e'⟩ := F'.rows r' hr'
    have hitem : item ∈ raw.rows.map (fun q => V.ext.toStr (q form.itemCol)) := by
      rw [← hids]
      have := a1.symm.trans e'
      injection this with this
      exact List.mem_map.mpr ⟨q', hq', this.symm⟩
    obtain ⟨q, hq, rfl⟩ := List.mem_map.mp hitem
    obtain ⟨r1, hr1, er1⟩ := List.mem_map.mp (hall q hq)
    obtain ⟨r2, hr2, er2⟩ := List.mem_map.mp (F.all w hw0 hw1)
    obtain ⟨r, hr, g1, g2⟩ := F.grid r1 hr1 r2 hr2
    obtain ⟨w2, item2, -, -, b1, b2, b3, b4⟩ := htot r hr
    have hw2 : w2 = w := by
      have := b2.symm.trans (g2.trans er2)
      injection this
    subst hw2
    have hi2 : item2 = V.ext.toStr (q form.itemCol) := by
      have := b1.symm.trans (g1.trans er1)
      injection this
    subst hi2
    have := hpos r hr _ b4
    rw [a4, weekTotal_units hS] at hx
    injection hx with hx
    rw [← hx]
    positivity
  have hcand : form.candidates data' = form.candidates data := by
    unfold StudyForm.candidates
    rw [hn]
  have hm : 1 ≤ Spec.completeWeeks step n := by
    obtain ⟨r, l, hl⟩ := List.exists_cons_of_ne_nil F.nonempty
    obtain ⟨w, w0, w1, -⟩ := F.rows r (by rw [hl]; exact List.mem_cons_self)
    omega
  have hweeks := sampled_weeks F
  have hweeks' := sampled_weeks F'
  have hW : Spec.WeeksOf data' 0 (Spec.completeWeeks step n - 1) :=
    ⟨⟨(hweeks' 0).mpr (by omega), fun w hw => ((hweeks' w).mp hw).1⟩, (hweeks' _).mpr (by omega), fun w hw => by have := ((hweeks' w).mp hw).2; omega⟩
  obtain ⟨hr, hp, -, f, hf, l, hl, hfit⟩ := ((C66_earliest_start form.runtimes form.pretests (ints (dropDup (data.col "week_id")))).2.1).mp ⟨_, hms⟩
  rw [ints_mem, mem_dropDup, hweeks] at hf hl
  obtain ⟨study', h', -⟩ := C116_every_design_estimated_partial V ha form raw' data' hd' hskip hname
    (by rw [sampled_count F' hall']; exact A'.size) (fun hx => by by_contra hlt; exact hwash ⟨hx, by omega⟩) designs (by rw [hcand]; exact hg) 0
    (Spec.completeWeeks step n - 1) hW hr hp (fun r hr p hp => by have := hfit r hr p hp; omega)
  refine ⟨data', study', h', fun i => ?_, ?_⟩
  · constructor
    · intro hi
      obtain ⟨r, hr, er⟩ := List.mem_map.mp hi
      obtain ⟨-, -, -, -, -, q', hq', e'⟩ := F'.rows r hr
      have := er.symm.trans e'
      injection this with this
      have hm : i ∈ raw.rows.map (fun q => V.ext.toStr (q form.itemCol)) := by
        rw [← hids]
        exact List.mem_map.mpr ⟨q', hq', this.symm⟩
      obtain ⟨q, hq, rfl⟩ := List.mem_map.mp hm
      exact hall q hq
    · intro hi
      obtain ⟨r, hr, er⟩ := List.mem_map.mp hi
      obtain ⟨-, -, -, -, -, q', hq', e'⟩ := F.rows r hr
      have := er.symm.trans e'
      injection this with this
      have hm : i ∈ raw'.rows.map (fun q => V.ext.toStr (q form.itemCol)) := by
        rw [hids]
        exact List.mem_map.mpr ⟨q', hq', this.symm⟩
      obtain ⟨q, hq, rfl⟩ := List.mem_map.mp hm
      exact hall' q hq
  · unfold openStudy at h'
    obtain ⟨data1, hd1, h'⟩ := Py.bind_eq_ok.mp h'
    obtain ⟨-, h'⟩ := raiseIf_bind_ok.mp h'
    obtain ⟨designs', hg', h'⟩ := Py.bind_eq_ok.mp h'
    obtain ⟨minStart', hms', h'⟩ := Py.bind_eq_ok.mp h'
    obtain ⟨st', hest', h'⟩ := Py.bind_eq_ok.mp h'
    cases h'
    rw [hcand, hg] at hg'
    cases hg'
    have hmin : minStart' = minStart := by
      obtain ⟨f1, l1, a1, a2, a3, a4, a5⟩ := (C66_earliest_start form.runtimes form.pretests (ints (dropDup (data.col "week_id")))).1 _ hms
      obtain ⟨f2, l2, b1, b2, b3, b4, b5⟩ := (C66_earliest_start form.runtimes form.pretests (ints (dropDup (data'.col "week_id")))).1 _ hms'
      have hmem : ∀ w, w ∈ ints (dropDup (data'.col "week_id")) ↔ w ∈ ints (dropDup (data.col "week_id")) := fun w => by
        rw [ints_mem, mem_dropDup, ints_mem, mem_dropDup, hweeks, hweeks']
      have h1 := a2 f2 ((hmem f2).mp b1)
      have h2 := b2 f1 ((hmem f1).mpr a1)
      have h3 := a4 l2 b3
      have h4 := b4 l1 a3
      omega
    subst hmin
    unfold estimateDesigns at hest hest'
    obtain ⟨la, hla, hest⟩ := Py.bind_eq_ok.mp hest
    cases hest
    obtain ⟨lb, hlb, hest'⟩ := Py.bind_eq_ok.mp hest'
    cases hest'
    have hconf : ∀ (f : Frame ℝ), (∀ w : ℤ, .int w ∈ f.col "week_id" ↔ 0 ≤ w ∧ w < Spec.completeWeeks step n) → ∀ d σ a,
        analyseDesign V f minStart' σ d = .ok a →
        a.1 = ⟨d, "item_id", "week_id", "time_period", "treatment", minStart', Spec.completeWeeks step n - d.runtime, 1 / 10000⟩ := by
      intro f hfw d σ a hA
      unfold analyseDesign at hA
      obtain ⟨⟨c, s0⟩, hs0, hA⟩ := Py.bind_eq_ok.mp hA
      obtain ⟨u, hu, hA⟩ := Py.bind_eq_ok.mp hA
      cases hA
      unfold mkSimulation at hs0
      obtain ⟨-, hs0⟩ := raiseIf_bind_ok.mp hs0
      obtain ⟨-, hs0⟩ := raiseIf_bind_ok.mp hs0
      split at hs0
      · cases hs0
      · rename_i last hl
        cases hs0
        rw [List.max?_eq_some_iff] at hl
        have h1 := (hfw last).mp (ints_mem.mp hl.1)
        have h2 := hl.2 (Spec.completeWeeks step n - 1) (ints_mem.mpr ((hfw _).mpr (by omega)))
        have : last = Spec.completeWeeks step n - 1 := by omega
        subst this
        show SimConfig.mk _ _ _ _ _ _ _ _ = _
        congr 1
        omega
    refine dictOf_pairs (P := fun a b => b.1 = a.1) (mapM_pairs hla hlb ?_)
    intro x hx p q hp hq
    obtain ⟨a, hA, hp⟩ := Py.bind_eq_ok.mp hp
    obtain ⟨id, hid, hp⟩ := Py.bind_eq_ok.mp hp
    cases hp
    obtain ⟨b, hB, hq⟩ := Py.bind_eq_ok.mp hq
    obtain ⟨id', hid', hq⟩ := Py.bind_eq_ok.mp hq
    cases hq
    have e1 := hconf _ hweeks _ _ _ hA
    have e2 := hconf _ hweeks' _ _ _ hB
    have e : b.1 = a.1 := by rw [e1, e2]
    rw [e, hid] at hid'
    cases hid'
    exact ⟨rfl, e⟩

theorem forall₂_imp_mem {P Q : α → β → Prop} {l : List α} {l' : List β} (h : List.Forall₂ P l l') (hPQ : ∀ a ∈ l, ∀ b ∈ l', P a b → Q a b) :
    List.Forall₂ Q l l' := by
  induction h with
  | nil => exact .nil
  | cons hab _ ih =>
    exact .cons (hPQ _ List.mem_cons_self _ List.mem_cons_self hab)
      (ih (fun a ha b hb => hPQ a (List.mem_cons_of_mem _ ha) b (List.mem_cons_of_mem _ hb)))

/-- The relative effect is the quotient of the other two estimates. -/
theorem opened_relative {V : StudyEnv} (ha : ArgsortOk V.argsort) {form : StudyForm} {raw : Frame ℝ} {first step n : ℤ} {time : Row ℝ → ℤ}
    {value : Row ℝ → ℝ} (A : Spec.RawStudy V form raw first step n time value) {data : Frame ℝ} {study : Study}
    (h : openStudy V form raw = .ok (data, study)) {ids : List String} (hnd : ids.Nodup) (hids : ∀ i, i ∈ ids ↔ .str i ∈ data.col "item_id")
    {e : List Char × (SimConfig × SimState)} (he : e ∈ study) :
    ∃ m a : Fl ℝ, e.2.2.mde = some m ∧ e.2.2.average = some a ∧ e.2.2.relativeMde = some (m / a) := by
  obtain ⟨σ, s0, hs0, hret, hres, hmk, hnb, hpm, hal, hpw, hpt, hic, hwc, hst⟩ := opened_run A h he
  obtain ⟨hcnt, hsz⟩ := opened_count A h hnd hids
  obtain ⟨-, F, -⟩ := opened_clean A h
  rw [hres]
  rcases C100_formula V.R V.argsort ha V.tdist e.2.1.design.toDesignParams e.2.1 hmk
    (by rw [hnb, hcnt]; exact_mod_cast hsz) (by rw [hpw]; norm_num) (by rw [hal]; norm_num) σ s0
    (by
      intro r hr
      rw [hs0] at hr
      obtain ⟨w, -, -, h3, -⟩ := F.rows r hr
      rw [hwc]
      exact Or.inr ⟨w, h3⟩) hret with ⟨l, -, -, hall⟩ | ⟨-, d, hd⟩
  · obtain ⟨m, -, -, d, hd⟩ := hall _ _ _ rfl rfl rfl
    rw [hd]
    exact ⟨_, _, rfl, rfl, rfl⟩
  · rw [hd]
    exact ⟨_, _, rfl, rfl, rfl⟩

theorem relative_units {c : ℝ} (hc : 0 < c) {s s' : SimState} (h : ∃ m a : Fl ℝ, s.mde = some m ∧ s.average = some a ∧ s.relativeMde = some (m / a))
    (h' : ∃ m a : Fl ℝ, s'.mde = some m ∧ s'.average = some a ∧ s'.relativeMde = some (m / a)) (hm : Spec.TimesOrNan c s.mde s'.mde)
    (hav : Spec.TimesOrNan c s.average s'.average) : s'.relativeMde = s.relativeMde := by
  obtain ⟨m, a, h1, h2, h3⟩ := h
  obtain ⟨m', a', h1', h2', h3'⟩ := h'
  rw [h3, h3']
  rw [h1, h1'] at hm
  rw [h2, h2'] at hav
  congr 1
  rcases hm with ⟨x, e1, e2⟩ | ⟨e1, e2⟩ <;> rcases hav with ⟨y, e3, e4⟩ | ⟨e3, e4⟩ <;> cases e1 <;> cases e2 <;> cases e3 <;> cases e4
  · exact fin_div_scale hc
  · rfl
  · rfl
  · rfl

/-- C127: with the raw values in other units the designer analyses the same designs.  For a design without trimming the average, the standard deviation
and the minimum detectable effect are in the new units, and the relative minimum detectable effect is the same. -/
theorem C127_relative_effect (V : StudyEnv) (ha : ArgsortOk V.argsort) (form : StudyForm) (raw raw' : Frame ℝ) (first step n : ℤ)
    (time time' : Row ℝ → ℤ) (value value' : Row ℝ → ℝ) (A : Spec.RawStudy V form raw first step n time value)
    (A' : Spec.RawStudy V form raw' first step n time' value') (c : ℝ) (hc : 0 < c)
    (hS : Spec.InOtherUnits V.ext form.itemCol c raw raw' time time' value value') (hskip : form.skip = [])
    (hname : ¬ (form.primary = "other" ∧ form.primaryCol = "time_period")) (hfrac : form.fraction = 1) (data : Frame ℝ) (study : Study)
    (h : openStudy V form raw = .ok (data, study)) :
    ∃ data' study', openStudy V form raw' = .ok (data', study') ∧
      List.Forall₂ (fun e e' => e'.1 = e.1 ∧ e'.2.1 = e.2.1 ∧ (Spec.Untrimmed e.2.1.design →
        Spec.TimesOrNan c e.2.2.average e'.2.2.average ∧ Spec.TimesOrNan c e.2.2.sd e'.2.2.sd ∧ Spec.TimesOrNan c e.2.2.mde e'.2.2.mde ∧
        e'.2.2.relativeMde = e.2.2.relativeMde)) study study' := by
  obtain ⟨data', study', h', hit, hpairs⟩ := opened_units ha A A' hc hS hskip hname hfrac h
  refine ⟨data', study', h', forall₂_imp_mem hpairs (fun e he e' he' hee => ⟨hee.1, hee.2, fun hu => ?_⟩)⟩
  obtain ⟨-, hconf⟩ := hee
  obtain ⟨i1, i2⟩ := C126_items V form raw first step n time value A data study h
  obtain ⟨ids, hidsdef⟩ : ∃ ids, ids = (raw.rows.map (fun q => V.ext.toStr (q form.itemCol))).dedup := ⟨_, rfl⟩
  have hnd : ids.Nodup := by rw [hidsdef]; exact List.nodup_dedup _
  have hids : ∀ i, i ∈ ids ↔ .str i ∈ data.col "item_id" := by
    intro i
    rw [hidsdef, List.mem_dedup, List.mem_map]
    constructor
    · rintro ⟨q, hq, rfl⟩
      exact i2 hfrac q hq
    · intro hi
      obtain ⟨q, hq, e⟩ := i1 _ hi
      injection e with e
      exact ⟨q, hq, e.symm⟩
  have hids' : ∀ i, i ∈ ids ↔ .str i ∈ data'.col "item_id" := fun i => by rw [hit, hids]
  have hu' : Spec.Untrimmed e'.2.1.design := by rw [hconf]; exact hu
  obtain ⟨y, hy⟩ : ∃ y : ℤ → ℤ → String → ℝ, y = fun lo hi => Spec.rowsAverage V.ext raw form.itemCol time value first lo hi := ⟨_, rfl⟩
  have hy' : ∀ lo hi, Spec.rowsAverage V.ext raw' form.itemCol time' value' first lo hi = fun i => c * y lo hi i := fun lo hi => by
    funext i
    rw [rowsAverage_units hS, hy]
  have hperm : ∀ {l l' : List ℤ}, Spec.TriedStarts form.pretests (Spec.completeWeeks step n) e.2.1.design l →
      Spec.TriedStarts form.pretests (Spec.completeWeeks step n) e.2.1.design l' → ∀ f : ℤ → ℝ, Spec.mean (l'.map f) = Spec.mean (l.map f) := by
    intro l l' h1 h2 f
    refine spec_mean_perm (List.Perm.map f ?_)
    rw [List.perm_ext_iff_of_nodup h2.1 h1.1]
    intro a
    rw [h1.2, h2.2]
  have rel := opened_relative ha A h hnd hids he
  have rel' := opened_relative ha A' h' hnd hids' he'
  suffices hmain : Spec.TimesOrNan c e.2.2.average e'.2.2.average ∧ Spec.TimesOrNan c e.2.2.sd e'.2.2.sd ∧ Spec.TimesOrNan c e.2.2.mde e'.2.2.mde from
    ⟨hmain.1, hmain.2.1, hmain.2.2, relative_units hc rel rel' hmain.2.2 hmain.1⟩
  by_cases hx : e.2.1.design.isCrossover = true
  · obtain ⟨-, -, -, -, -, hmk, -⟩ := opened_run A h he
    obtain ⟨-, hvalid⟩ := (mkDesign_ok_iff V.R _ _).mp hmk
    obtain ⟨hleg, -⟩ := (validateDesign_ok_iff V.R _).mp hvalid
    obtain ⟨wa, hwa, -⟩ := hleg.crossover hx
    obtain ⟨l, hl, hres⟩ := C126_crossover V ha form raw first step n time value A data study h ids hnd hids e he hu hx wa hwa
    obtain ⟨l', hl', hres'⟩ := C126_crossover V ha form raw' first step n time' value' A' data' study' h' ids hnd hids' e' he' hu'
      (by rw [hconf]; exact hx) wa (by rw [hconf]; exact hwa)
    rw [hconf] at hl' hres'
    obtain ⟨r1, r2, r3⟩ := hres (fun start => y (start + wa) (start + e.2.1.design.runtime / 2))
      (fun start => y (start + e.2.1.design.runtime / 2 + wa) (start + e.2.1.design.runtime)) _ _ (fun _ => by rw [hy]) (fun _ => by rw [hy]) rfl rfl
    obtain ⟨r1', r2', r3'⟩ := hres' (fun start i => c * y (start + wa) (start + e.2.1.design.runtime / 2) i)
      (fun start i => c * y (start + e.2.1.design.runtime / 2 + wa) (start + e.2.1.design.runtime) i) _ _ (fun _ => by rw [hy']) (fun _ => by rw [hy']) rfl rfl
    have hsd : Real.sqrt (Spec.mean (l'.map (fun start => Spec.sumSqDev (ids.map (fun i => c * y (start + wa) (start + e.2.1.design.runtime / 2) i -
        c * y (start + e.2.1.design.runtime / 2 + wa) (start + e.2.1.design.runtime) i)) / ((ids.length : ℝ) - 1)))) =
      c * Real.sqrt (Spec.mean (l.map (fun start => Spec.sumSqDev (ids.map (fun i => y (start + wa) (start + e.2.1.design.runtime / 2) i -
        y (start + e.2.1.design.runtime / 2 + wa) (start + e.2.1.design.runtime) i)) / ((ids.length : ℝ) - 1)))) := by
      rw [hperm hl hl', ← sqrt_times hc, ← mean_times]
      congr 3
      funext start
      rw [← mul_div_assoc, ← sumSqDev_times]
      simp only [mul_sub]
    rw [hsd] at r2' r3'
    refine ⟨Or.inl ⟨_, r1, ?_⟩, Or.inl ⟨_, r2, r2'⟩, Or.inl ⟨_, r3, ?_⟩⟩
    · rw [r1', hperm hl hl', ← mean_times]
      congr 3
      refine congrArg (fun f => List.map f l) ?_
      funext start
      rw [mean_times, mean_times]
      ring
    · rw [r3']
      congr 2
      ring
  · have hx : e.2.1.design.isCrossover = false := by simpa using hx
    have hx' : e'.2.1.design.isCrossover = false := by rw [hconf]; exact hx
    by_cases hpre : e.2.1.design.pretest = 0
    · obtain ⟨l, hl, hres⟩ := C126_plain V ha form raw first step n time value A data study h ids hnd hids e he hu hx hpre
      obtain ⟨l', hl', hres'⟩ := C126_plain V ha form raw' first step n time' value' A' data' study' h' ids hnd hids' e' he' hu' hx'
        (by rw [hconf]; exact hpre)
      rw [hconf] at hl' hres'
      obtain ⟨r1, r2, r3⟩ := hres (fun start => ids.map (y start (start + e.2.1.design.runtime))) _ _ (fun _ => by rw [hy]) rfl rfl
      obtain ⟨r1', r2', r3'⟩ := hres' (fun start => ids.map (fun i => c * y start (start + e.2.1.design.runtime) i)) _ _ (fun _ => by rw [hy']) rfl rfl
      have hsd : Real.sqrt (Spec.mean (l'.map (fun start => Spec.sumSqDev (ids.map (fun i => c * y start (start + e.2.1.design.runtime) i)) /
          ((ids.length : ℝ) - 1)))) = c * Real.sqrt (Spec.mean (l.map (fun start => Spec.sumSqDev (ids.map (y start (start + e.2.1.design.runtime))) /
          ((ids.length : ℝ) - 1)))) := by
        rw [hperm hl hl', ← sqrt_times hc, ← mean_times]
        congr 3
        funext start
        rw [← mul_div_assoc, ← sumSqDev_times]
      rw [hsd] at r2' r3'
      refine ⟨Or.inl ⟨_, r1, ?_⟩, Or.inl ⟨_, r2, r2'⟩, Or.inl ⟨_, r3, ?_⟩⟩
      · rw [r1', hperm hl hl', ← mean_times]
        simp only [mean_times]
      · rw [r3']
        congr 2
        ring
    · obtain ⟨-, -, -, -, -, hmk, -⟩ := opened_run A h he
      obtain ⟨-, hvalid⟩ := (mkDesign_ok_iff V.R _ _).mp hmk
      obtain ⟨hleg, -⟩ := (validateDesign_ok_iff V.R _).mp hvalid
      have hpre : 0 < e.2.1.design.pretest := by have := hleg.pretest_nonneg; omega
      obtain ⟨l, hl, hres⟩ := C126_cuped V ha form raw first step n time value A data study h ids hnd hids e he hu hx hpre
      obtain ⟨l', hl', hres'⟩ := C126_cuped V ha form raw' first step n time' value' A' data' study' h' ids hnd hids' e' he' hu' hx'
        (by rw [hconf]; exact hpre)
      rw [hconf] at hl' hres'
      have hres := hres (fun start => ids.map (y start (start + e.2.1.design.runtime)))
        (fun start => ids.map (y (start - e.2.1.design.pretest) start)) _ _ (fun _ => by rw [hy]) (fun _ => by rw [hy]) rfl rfl
      have hres' := hres' (fun start => ids.map (fun i => c * y start (start + e.2.1.design.runtime) i))
        (fun start => ids.map (fun i => c * y (start - e.2.1.design.pretest) start i)) _ _ (fun _ => by rw [hy']) (fun _ => by rw [hy']) rfl rfl
      have hll : ∀ start, start ∈ l' ↔ start ∈ l := fun start => by rw [hl.2, hl'.2]
      by_cases hvar : ∀ start ∈ l, Spec.sumSqDev (ids.map (y (start - e.2.1.design.pretest) start)) ≠ 0
      · obtain ⟨r1, r2, r3⟩ := hres.1 hvar
        obtain ⟨r1', r2', r3'⟩ := hres'.1 (fun start hs => by
          rw [sumSqDev_times]
          exact mul_ne_zero (by positivity) (hvar start ((hll start).mp hs)))
        have hsd : Real.sqrt (Spec.mean (l'.map (fun start => (Spec.sumSqDev (ids.map (fun i => c * y start (start + e.2.1.design.runtime) i)) -
            Spec.crossDev (ids.map (fun i => c * y start (start + e.2.1.design.runtime) i)) (ids.map (fun i => c * y (start - e.2.1.design.pretest) start i))
              ^ 2 / Spec.sumSqDev (ids.map (fun i => c * y (start - e.2.1.design.pretest) start i))) / ((ids.length : ℝ) - 1)))) =
          c * Real.sqrt (Spec.mean (l.map (fun start => (Spec.sumSqDev (ids.map (y start (start + e.2.1.design.runtime))) -
            Spec.crossDev (ids.map (y start (start + e.2.1.design.runtime))) (ids.map (y (start - e.2.1.design.pretest) start))
              ^ 2 / Spec.sumSqDev (ids.map (y (start - e.2.1.design.pretest) start))) / ((ids.length : ℝ) - 1)))) := by
          rw [hperm hl hl', ← sqrt_times hc, ← mean_times]
          congr 2
          refine List.map_congr_left (fun start hs => ?_)
          rw [sumSqDev_times, sumSqDev_times, crossDev_times]
          have := hvar start hs
          field_simp
        rw [hsd] at r2' r3'
        refine ⟨Or.inl ⟨_, r1, ?_⟩, Or.inl ⟨_, r2, r2'⟩, Or.inl ⟨_, r3, ?_⟩⟩
        · rw [r1', hperm hl hl', ← mean_times]
          simp only [mean_times]
        · rw [r3']
          congr 2
          ring
      · push Not at hvar
        obtain ⟨start, hs, h0⟩ := hvar
        obtain ⟨r1, r2, r3⟩ := hres.2 ⟨start, hs, sumSqDev_zero h0⟩
        obtain ⟨r1', r2', r3'⟩ := hres'.2 ⟨start, (hll start).mpr hs, sumSqDev_zero (by rw [sumSqDev_times, h0, mul_zero])⟩
        exact ⟨Or.inr ⟨r1, r1'⟩, Or.inr ⟨r2, r2'⟩, Or.inr ⟨r3, r3'⟩⟩

end Feedx
