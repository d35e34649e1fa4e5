import Verif.Spec.Report
import Verif.Proofs.EndToEnd
import Verif.Props.Analysis

/-!
The pivoted values of the data of an experiment are the weekly values of its items.
-/

set_option linter.unusedSectionVars false

namespace Feedx
open Fl

variable {R : Rounding ℝ} {argsort : List ℝ → List ℕ} {D : TDist}

theorem sumSkip_numbers {l : List (Row ℝ)} {c : String} (h : ∀ r ∈ l, ∃ y, (r c).toFl = .fin y) :
    Fl.sumSkip (l.map (fun r => (r c).toFl)) = .fin (l.map (fun r => Spec.cellNumber (r c))).sum := by
  rw [← sumSkip_fin, List.map_map]
  congr 1
  refine List.map_congr_left fun r hr => ?_
  obtain ⟨y, hy⟩ := h r hr
  simp [Spec.cellNumber, hy]

section analysis
variable {d : Design ℝ} {i w t : String} {metrics cols : List String} {f : Frame ℝ} {piv : Pivoted ℝ}

/-- The items of the pivoted data. -/
def itemsOfPivot (piv : Pivoted ℝ) : List (Cell ℝ) := piv.index.map (fun k => k.headD .null)

theorem PivotedData.index_group (h : PivotedData d i w t metrics f piv) (hf : Spec.ExperimentData d i w t cols f) {k : List (Cell ℝ)}
    (hk : k ∈ piv.index) : ∃ x : Cell ℝ, ∃ b : Bool, k = [x, .int (if b then 1 else 0)] ∧ (∃ r ∈ f.rows, r i = x) ∧
      ∀ r ∈ f.rows, r i = x → r t = .int (if b then 1 else 0) := by
  obtain ⟨tr, htr⟩ := hf.groups
  obtain ⟨r, hr, rfl⟩ := h.ofRow k hk
  refine ⟨r i, tr (r i), by rw [htr r hr], ⟨r, hr, rfl⟩, ?_⟩
  intro r' hr' e
  rw [htr r' hr', e]

/-- The totals of an item are its weekly values times the number of weeks. -/
theorem total_weekly (hf : Spec.ExperimentData d i w t cols f) {c : String} (hc : c ∈ cols) {lo hi : ℤ} (hlt : lo < hi) {r : Row ℝ} (hr : r ∈ f.rows) :
    Spec.total f.rows [i, t] w [r i, r t] lo hi c = .fin (Spec.weeklyValue f i w c lo hi (r i) * ((hi - lo : ℤ) : ℝ)) := by
  classical
  obtain ⟨tr, htr⟩ := hf.groups
  unfold Spec.total
  rw [sumSkip_numbers (fun r hr => hf.finite c hc r (List.mem_filter.mp hr).1)]
  have hw : ((hi - lo : ℤ) : ℝ) ≠ 0 := by exact_mod_cast (by omega : hi - lo ≠ 0)
  unfold Spec.weeklyValue
  rw [div_mul_cancel₀ _ hw]
  congr 3
  refine List.filter_congr fun s hs => ?_
  obtain ⟨v, hv, -⟩ := hf.weeks s hs
  unfold Spec.inWeeks
  rw [hv, Bool.eq_iff_iff]
  simp only [List.map_cons, List.map_nil, List.cons.injEq, and_true, Bool.and_eq_true, decide_eq_true_eq, Cell.int.injEq, exists_eq_left']
  constructor
  · exact fun h => ⟨h.1.1, h.2⟩
  · exact fun h => ⟨⟨h.1, by rw [htr s hs, htr r hr, h.1]⟩, h.2⟩

/-- The pretest values of two items differ if their weekly values do. -/
theorem pretestDiffers_of_weekly (hf : Spec.ExperimentData d i w t cols f) (hpre : 0 < d.pretest) {c : String} (hc : c ∈ cols) {r r' : Row ℝ}
    (hr : r ∈ f.rows) (hr' : r' ∈ f.rows)
    (hne : Spec.weeklyValue f i w c (-d.pretest) 0 (r i) ≠ Spec.weeklyValue f i w c (-d.pretest) 0 (r' i)) :
    Spec.PretestDiffers d i w t f c := by
  refine ⟨r, hr, r', hr', ?_⟩
  rw [total_weekly hf hc (by omega) hr, total_weekly hf hc (by omega) hr']
  intro e
  have hw : ((0 - -d.pretest : ℤ) : ℝ) ≠ 0 := by exact_mod_cast (by omega : (0 - -d.pretest : ℤ) ≠ 0)
  exact hne (mul_right_cancel₀ hw (Fl.fin.inj e))

/-- The items of group 0 have positive totals if their weekly values are positive. -/
theorem controlPositive_of_weekly (hf : Spec.ExperimentData d i w t cols f) (hrun : 0 < d.runtime) {c : String} (hc : c ∈ cols)
    (h : ∀ r ∈ f.rows, 0 < Spec.weeklyValue f i w c 0 d.runtime (r i)) : Spec.ControlPositive d i w t f c := by
  intro r hr _
  refine ⟨_, ?_, total_weekly hf hc hrun hr⟩
  refine mul_pos (h r hr) ?_
  exact_mod_cast (by omega : (0 : ℤ) < d.runtime - 0)

theorem PivotedData.value_weekly (h : PivotedData d i w t metrics f piv) (hf : Spec.ExperimentData d i w t cols f)
    (hm : ∀ m ∈ metrics, m ∈ cols) {m label : String} (hmm : m ∈ metrics) {lo hi : ℤ} (hmem : (label, lo, hi) ∈ Spec.timeline d.toDesignParams 0)
    (hlt : lo < hi) {k : List (Cell ℝ)} (hk : k ∈ piv.index) :
    piv.value k m label = .fin (Spec.weeklyValue f i w m lo hi (k.headD .null)) := by
  classical
  obtain ⟨x, b, rfl, -, hb⟩ := h.index_group hf hk
  obtain ⟨y, hy, htot⟩ := h.value m hmm _ label lo hi hmem hlt
  rw [hy]
  congr 1
  unfold Spec.total at htot
  rw [sumSkip_numbers (fun r hr => hf.finite m (hm m hmm) r (List.mem_filter.mp hr).1)] at htot
  have hw : ((hi - lo : ℤ) : ℝ) ≠ 0 := by exact_mod_cast (by omega : hi - lo ≠ 0)
  unfold Spec.weeklyValue
  rw [eq_div_iff hw, ← Fl.fin.inj htot]
  congr 2
  refine List.filter_congr fun r hr => ?_
  obtain ⟨v, hv, -⟩ := hf.weeks r hr
  unfold Spec.inWeeks
  rw [hv, Bool.eq_iff_iff]
  simp only [List.map_cons, List.map_nil, List.cons.injEq, and_true, Bool.and_eq_true, decide_eq_true_eq, List.headD_cons, Cell.int.injEq,
    exists_eq_left']
  constructor
  · exact fun h => ⟨h.1.1, h.2⟩
  · exact fun h => ⟨⟨h.1, hb r hr h.1⟩, h.2⟩

theorem PivotedData.valuesOf (h : PivotedData d i w t metrics f piv) (hf : Spec.ExperimentData d i w t cols f)
    (hm : ∀ m ∈ metrics, m ∈ cols) {m label : String} (hmm : m ∈ metrics) {lo hi : ℤ} (hmem : (label, lo, hi) ∈ Spec.timeline d.toDesignParams 0)
    (hlt : lo < hi) {v : List ℝ} (hv : Spec.ValuesOf piv m label v) : v = (itemsOfPivot piv).map (Spec.weeklyValue f i w m lo hi) := by
  have key := fun k (hk : k ∈ piv.index) => h.value_weekly hf hm hmm hmem hlt hk
  unfold Spec.ValuesOf at hv
  unfold itemsOfPivot
  generalize piv.index = idx at hv key
  induction hv with
  | nil => rfl
  | @cons k x idx v hx _ ih =>
    rw [ih (fun k hk => key k (by simp [hk]))]
    have := key k (by simp)
    rw [hx] at this
    simp [Fl.fin.inj this]

theorem PivotedData.listsAll (h : PivotedData d i w t metrics f piv) (hf : Spec.ExperimentData d i w t cols f) :
    Spec.ListsAll f i (itemsOfPivot piv) := by
  refine ⟨?_, fun x => ⟨?_, ?_⟩⟩
  · unfold itemsOfPivot
    refine (List.nodup_map_iff_inj_on h.nodup).mpr ?_
    intro k hk k' hk' e
    obtain ⟨x, b, rfl, ⟨r, hr, rx⟩, hb⟩ := h.index_group hf hk
    obtain ⟨x', b', rfl, -, hb'⟩ := h.index_group hf hk'
    simp only [List.headD_cons] at e
    subst e
    rw [← hb r hr rx, ← hb' r hr rx]
  · intro hx
    obtain ⟨k, hk, rfl⟩ := List.mem_map.mp hx
    obtain ⟨x, b, rfl, ⟨r, hr, rx⟩, -⟩ := h.index_group hf hk
    exact ⟨r, hr, rx⟩
  · rintro ⟨r, hr, rfl⟩
    exact List.mem_map.mpr ⟨_, h.mem r hr, rfl⟩

theorem PivotedData.inGroup (h : PivotedData d i w t metrics f piv) (hf : Spec.ExperimentData d i w t cols f) {k : List (Cell ℝ)}
    (hk : k ∈ piv.index) (b : Bool) : Spec.AssignedTo (if b then 1 else 0) k ↔ Spec.InGroup f i t b (k.headD .null) := by
  obtain ⟨x, b', rfl, ⟨r, hr, rx⟩, hb⟩ := h.index_group hf hk
  rw [assignedTo_int]
  simp only [List.headD_cons]
  unfold Spec.InGroup
  constructor
  · intro e
    refine ⟨r, hr, rx, ?_⟩
    rw [hb r hr rx]
    cases b <;> cases b' <;> simp_all
  · rintro ⟨r', hr', rx', e⟩
    rw [hb r' hr' rx'] at e
    cases b <;> cases b' <;> simp_all

theorem PivotedData.groupOf_eq (h : PivotedData d i w t metrics f piv) (hf : Spec.ExperimentData d i w t cols f) (b : Bool) (y : Cell ℝ → ℝ) :
    Spec.groupOf piv (if b then 1 else 0) ((itemsOfPivot piv).map y) = Spec.groupedValues f i t (itemsOfPivot piv) b y := by
  classical
  have key := fun k (hk : k ∈ piv.index) => h.inGroup hf hk b
  unfold Spec.groupOf Spec.groupedValues Spec.valuesIn itemsOfPivot
  generalize piv.index = idx at key
  induction idx with
  | nil => simp
  | cons k idx ih =>
    have ih := ih (fun k hk => key k (by simp [hk]))
    simp only [List.map_cons, List.zip_cons_cons, List.filter_cons, key k (by simp)]
    split
    · simp only [List.map_cons]
      rw [ih]
    · exact ih

/-- A list of values, one per item, is given by a function. -/
theorem PivotedData.function (h : PivotedData d i w t metrics f piv) (hf : Spec.ExperimentData d i w t cols f) {y : List ℝ}
    (hy : y.length = piv.index.length) : ∃ g : Cell ℝ → ℝ, y = (itemsOfPivot piv).map g := by
  classical
  have hnd := (h.listsAll hf).1
  have hl : y.length = (itemsOfPivot piv).length := by rw [hy]; simp [itemsOfPivot]
  refine ⟨fun x => y.getD ((itemsOfPivot piv).idxOf x) 0, ?_⟩
  apply List.ext_getElem
  · rw [hl, List.length_map]
  · intro n h1 h2
    rw [List.getElem_map, hnd.idxOf_getElem]
    simp [h1]

theorem regular_timeline (hx : d.isCrossover = false) :
    ("test", 0, d.runtime) ∈ Spec.timeline d.toDesignParams 0 ∧ ("pretest", -d.pretest, 0) ∈ Spec.timeline d.toDesignParams 0 := by
  unfold Spec.timeline
  rw [hx]
  simp [Spec.regularTimeline]

/-- The pretest values of the index tuples are all equal iff those of the items are. -/
theorem PivotedData.constantPretest {p : DesignParams ℝ} (hd : mkDesign R p = .ok d) (h : PivotedData d i w t metrics f piv)
    (hf : Spec.ExperimentData d i w t cols f) (hm : ∀ m ∈ metrics, m ∈ cols) (hx : d.isCrossover = false) {m : String} (hmm : m ∈ metrics) {q : ℝ} :
    Spec.ConstantPretest R piv m q ↔ Spec.NothingToAdjust R d (itemsOfPivot piv) (Spec.weeklyValue f i w m) q := by
  obtain ⟨tt, tp⟩ := regular_timeline hx
  have hp0 := (created_pretest hd).1
  have hper : Cell.str "pretest" ∈ piv.periods ↔ 0 < d.pretest := by
    constructor
    · intro hc
      obtain ⟨label, lo, hi, e, hmem, hlt⟩ := h.only _ hc
      cases e
      unfold Spec.timeline at hmem
      rw [hx] at hmem
      simp [Spec.regularTimeline] at hmem
      omega
    · intro hp
      exact h.here _ _ _ tp (by omega)
  unfold Spec.ConstantPretest Spec.NothingToAdjust
  rw [hper, show (itemsOfPivot piv).length = piv.index.length by simp [itemsOfPivot]]
  refine and_congr_right fun hp => and_congr_left fun _ => exists_congr fun c => ?_
  obtain ⟨pre, hpre⟩ := h.values hmm tp (by omega)
  have e := h.valuesOf hf hm hmm tp (by omega) hpre
  constructor
  · intro hk x hx'
    have : Spec.weeklyValue f i w m (-d.pretest) 0 x ∈ pre := by rw [e]; exact List.mem_map_of_mem hx'
    obtain ⟨k, hk', e'⟩ := valuesOf_mem hpre this
    rw [hk k hk'] at e'
    exact (Fl.fin.inj e').symm
  · intro hc k hk
    obtain ⟨x, hx', e'⟩ := valuesOf_of_mem hpre hk
    rw [e] at hx'
    obtain ⟨z, hz, rfl⟩ := List.mem_map.mp hx'
    rw [e', hc z hz]

theorem PivotedData.compared {p : DesignParams ℝ} (hd : mkDesign R p = .ok d) (h : PivotedData d i w t metrics f piv)
    (hf : Spec.ExperimentData d i w t cols f) (hm : ∀ m ∈ metrics, m ∈ cols) (hx : d.isCrossover = false) {m : String} (hmm : m ∈ metrics) {q : ℝ}
    {y : List ℝ} (hy : Spec.AdjustedValues R argsort piv m q y) (hlen : y.length = piv.index.length) :
    ∃ g, y = (itemsOfPivot piv).map g ∧ Spec.ComparedValues R argsort d f i w m q (itemsOfPivot piv) g := by
  obtain ⟨hp0, hrun⟩ := created_pretest hd
  obtain ⟨tt, tp⟩ := regular_timeline hx
  obtain ⟨test, hv, ⟨hn, rfl⟩ | ⟨hp, pre, hpre, hc⟩⟩ := hy
  · refine ⟨_, h.valuesOf hf hm hmm tt hrun hv, Or.inl ⟨?_, rfl⟩⟩
    by_contra hne
    exact hn (h.here _ _ _ tp (by omega))
  · obtain ⟨g, hg⟩ := h.function hf hlen
    refine ⟨g, hg, Or.inr ⟨?_, ?_⟩⟩
    · obtain ⟨label, lo, hi, e, hmem, hlt⟩ := h.only _ hp
      cases e
      unfold Spec.timeline at hmem
      rw [hx] at hmem
      simp [Spec.regularTimeline] at hmem
      omega
    · have hlt : -d.pretest < 0 := by
        obtain ⟨label, lo, hi, e, hmem, hlt⟩ := h.only _ hp
        cases e
        unfold Spec.timeline at hmem
        rw [hx] at hmem
        simp [Spec.regularTimeline] at hmem
        omega
      rw [← h.valuesOf hf hm hmm tt hrun hv, ← h.valuesOf hf hm hmm tp hlt hpre, hc, hg, List.map_map]
      rfl

end analysis

end Feedx
