import Verif.Model.Plotting
import Verif.Props.Curves
import Verif.Props.Cuped
import Verif.Props.PlotDates

/-!
Property C79: the CUPED adjustment per date used for plotting.
-/

set_option linter.unusedSectionVars false

namespace Feedx

variable {K : Type} [Field K] [LinearOrder K] [IsStrictOrderedRing K] [FloorRing K]

/-- Writing a list into the selected places in order and reading the selected places gives the list back. -/
theorem gather {α β : Type} (q : α → Bool) (v : List β) (dflt : β) (l pre : List α) (hv : v.length = (pre ++ l).countP q) :
    ((l.zipIdx pre.length).filter (fun p => q p.1)).map (fun p => (v[((pre ++ l).take p.2).countP q]?).getD dflt) = v.drop (pre.countP q) := by
  induction l generalizing pre with
  | nil => simp at hv; simp [← hv]
  | cons a l ih =>
    have h := ih (pre ++ [a]) (by simpa using hv)
    have hcat : pre ++ [a] ++ l = pre ++ a :: l := by simp
    rw [hcat] at h
    have hlen : (pre ++ [a]).length = pre.length + 1 := by simp
    rw [hlen] at h
    rw [List.zipIdx_cons, List.filter_cons]
    by_cases hq : q a = true
    · simp only [hq, if_true, List.map_cons]
      rw [h]
      have hlt : pre.countP q < v.length := by
        rw [hv, List.countP_append, List.countP_cons, if_pos hq]; omega
      rw [List.take_left', List.drop_eq_getElem_cons hlt, List.getElem?_eq_getElem hlt]
      · simp [List.countP_append, hq]
      · rfl
    · simp only [hq]
      rw [if_neg (by simp), h]
      simp [List.countP_append, hq]

/-- The table of the values per date. -/
theorem lookup_mapM {α β : Type} [DecidableEq α] {g : α → Py β} {l : List α} {out : List (α × β)}
    (h : l.mapM (fun a => do let v ← g a; return (a, v)) = .ok out) {a : α} (ha : a ∈ l) : ∃ v, out.lookup a = some v ∧ g a = .ok v := by
  induction l generalizing out with
  | nil => simp at ha
  | cons b l ih =>
    rw [List.mapM_cons] at h
    obtain ⟨x, hx, h⟩ := Py.bind_eq_ok.mp h
    obtain ⟨v, hv, hx⟩ := Py.bind_eq_ok.mp hx
    cases hx
    obtain ⟨rest, hr, h⟩ := Py.bind_eq_ok.mp h
    cases h
    by_cases hab : a = b
    · subst hab
      exact ⟨v, by simp, hv⟩
    · obtain ⟨w, hw, hg⟩ := ih hr ((List.mem_cons.mp ha).resolve_left hab)
      refine ⟨w, ?_, hg⟩
      rw [List.lookup_cons]
      have : (a == b) = false := by simpa using hab
      rw [this]
      exact hw

theorem mapM_some {α β : Type} {l : List α} {g : α → Option β} {h : α → β} (hg : ∀ a ∈ l, g a = some (h a)) :
    (l.map g).mapM id = some (l.map h) := by
  induction l with
  | nil => rfl
  | cons a l ih =>
    rw [List.map_cons, List.mapM_cons, ih (fun b hb => hg b (by simp [hb])), show id (g a) = some (h a) from hg a (by simp)]
    rfl

theorem mapM_none {β : Type} {l : List (Option β)} (h : none ∈ l) : l.mapM id = none := by
  induction l with
  | nil => simp at h
  | cons a l ih =>
    rw [List.mapM_cons]
    cases a with
    | none => rfl
    | some x =>
      rw [ih (by simpa using h)]
      rfl

theorem cuped_column_length {R : Rounding K} {argsort : List K → List ℕ} {m c : List K} {q : K} {v : List (Fl K)}
    (h : cuped R argsort m c q = .ok v) : v.length = m.length := by
  unfold cuped at h
  obtain ⟨h1, h⟩ := raiseIf_bind_ok.mp h
  obtain ⟨-, h⟩ := raiseIf_bind_ok.mp h
  obtain ⟨-, h⟩ := raiseIf_bind_ok.mp h
  have h1 : m.length = c.length := by simpa using h1
  simp only at h
  split at h
  · split at h
    · cases h; simp
    · obtain ⟨-, h⟩ := raiseIf_bind_ok.mp h
      cases h; simp
  · obtain ⟨T, -, h⟩ := Py.bind_eq_ok.mp h
    split at h
    · cases h; simp [h1]
    · obtain ⟨-, h⟩ := raiseIf_bind_ok.mp h
      split at h
      · cases h; simp
      · obtain ⟨tm, -, h⟩ := Py.bind_eq_ok.mp h
        obtain ⟨tc, -, h⟩ := Py.bind_eq_ok.mp h
        split at h <;> cases h <;> simp [h1]

theorem mapM_id_length {β : Type} {l : List (Option β)} {out : List β} (h : l.mapM id = some out) : out.length = l.length := by
  induction l generalizing out with
  | nil => cases h; rfl
  | cons a m ih =>
    rw [List.mapM_cons] at h
    cases a with
    | none => cases h
    | some x =>
      cases hr : m.mapM id with
      | none => rw [hr] at h; cases h
      | some y =>
        rw [hr] at h
        cases h
        simp [ih hr]

theorem cupedOfDate_length {R : Rounding K} {argsort : List K → List ℕ} {m c : List (Option K)} {v : List (Fl K)}
    (h : cupedOfDate R argsort m c = .ok v) : v.length = m.length := by
  unfold cupedOfDate at h
  split at h
  · rename_i m' c' hm hc
    split at h
    · cases h; simp
    · rw [cuped_column_length h, mapM_id_length hm]
  · cases h; simp

/-- The adjusted values of one date are the values written to the rows of that date, the other columns stay. -/
theorem cupedPerDate_ok {R : Rounding K} {argsort : List K → List ℕ} {f out : Frame K} {metric itemCol dateCol periodCol newCol : String}
    (h : cupedPerDate R argsort f metric itemCol dateCol periodCol newCol = .ok out) :
    newCol ≠ dateCol ∧ (out.cols = if newCol ∈ f.cols then f.cols else f.cols ++ [newCol]) ∧
    List.Forall₂ (fun r r' => ∀ c, c ≠ newCol → r' c = r c) f.rows out.rows ∧
    ∀ d ∈ f.col dateCol,
    ∃ v, cupedOfDate R argsort ((f.rows.filter (fun r => decide (r dateCol = d))).map (fun r => (r metric).toFl.toOption))
      ((f.rows.filter (fun r => decide (r dateCol = d))).map (fun r => pretestTotal f metric itemCol periodCol (r itemCol))) = .ok v ∧
    (out.rows.filter (fun r => decide (r dateCol = d))).map (fun r => (r newCol).toFl) = v := by
  unfold cupedPerDate at h
  obtain ⟨-, h⟩ := raiseIf_bind_ok.mp h
  obtain ⟨-, h⟩ := raiseIf_bind_ok.mp h
  obtain ⟨-, h⟩ := raiseIf_bind_ok.mp h
  obtain ⟨-, h⟩ := raiseIf_bind_ok.mp h
  obtain ⟨hne, h⟩ := raiseIf_bind_ok.mp h
  obtain ⟨-, h⟩ := raiseIf_bind_ok.mp h
  obtain ⟨-, h⟩ := raiseIf_bind_ok.mp h
  obtain ⟨adjusted, ha, h⟩ := Py.bind_eq_ok.mp h
  cases h
  refine ⟨hne, rfl, ?_, fun d hd => ?_⟩
  · rw [List.forall₂_map_right_iff]
    rw [List.forall₂_iff_get]
    refine ⟨by simp, fun i h1 h2 c hc => ?_⟩
    simp [Function.update_of_ne hc]
  · obtain ⟨v, hl, hv⟩ := lookup_mapM ha (mem_dropDup.mpr hd)
    refine ⟨v, hv, ?_⟩
    have hlen := cupedOfDate_length hv
    rw [List.length_map, ← List.countP_eq_length_filter] at hlen
    have hg := gather (fun r : Row K => decide (r dateCol = d)) v .nan f.rows [] (by simpa using hlen)
    simp only [List.length_nil, List.nil_append, List.countP_nil, List.drop_zero] at hg
    conv_rhs => rw [← hg]
    simp only [List.filter_map, List.map_map]
    have : List.filter ((fun r : Row K => decide (r dateCol = d)) ∘ fun p => Function.update p.1 newCol (Cell.ofFl
        ((((adjusted.lookup (p.1 dateCol)).getD [])[(f.rows.take p.2).countP (fun r => decide (r dateCol = p.1 dateCol))]?).getD .nan)))
        f.rows.zipIdx = f.rows.zipIdx.filter (fun p => decide (p.1 dateCol = d)) := by
      refine List.filter_congr fun p _ => ?_
      simp [Function.update_of_ne (Ne.symm hne)]
    rw [this]
    refine List.map_congr_left fun p hp => ?_
    have hp : p.1 dateCol = d := by simpa using (List.mem_filter.mp hp).2
    simp [toFl_ofFl, hp, hl]

/-- The total of the metric over the pretest rows of an item. -/
def Spec.pretestTotal (f : Frame K) (value : Row K → K) (itemCol periodCol : String) (item : Cell K) : K :=
  ((f.rows.filter (fun r => decide (r periodCol = .str "pretest" ∧ r itemCol = item))).map value).sum

/-- **C79.**  Suppose that every item with a row on date `d` also has rows in the pretest, that these items do not all have the same pretest
total, and that the metric has no missing or infinite values.  Then the adjusted values on that date are numbers with the same average as the
metric on that date and a variance that is not larger, and they are uncorrelated with the pretest totals.  This also holds when the new column
overwrites the metric.  No other column changes. -/
theorem C79_keeps_average (R : Rounding K) (argsort : List K → List ℕ) (f out : Frame K) (metric itemCol dateCol periodCol newCol : String)
    (h : cupedPerDate R argsort f metric itemCol dateCol periodCol newCol = .ok out) (value : Row K → K)
    (hv : ∀ r ∈ f.rows, (r metric).toFl = .fin (value r)) (d : Cell K)
    (hpre : ∀ r ∈ f.rows, r dateCol = d → r itemCol ≠ .null ∧ ∃ p ∈ f.rows, p itemCol = r itemCol ∧ p periodCol = .str "pretest") :
    let day := f.rows.filter (fun r => decide (r dateCol = d))
    let covariate := day.map (fun r => Spec.pretestTotal f value itemCol periodCol (r itemCol))
    Spec.sumSqDev covariate ≠ 0 →
    List.Forall₂ (fun r r' => ∀ c, c ≠ newCol → r' c = r c) f.rows out.rows ∧
    ∃ adjusted : List K, (out.rows.filter (fun r => decide (r dateCol = d))).map (fun r => (r newCol).toFl) = adjusted.map .fin ∧
      Spec.mean adjusted = Spec.mean (day.map value) ∧ Spec.sumSqDev adjusted ≤ Spec.sumSqDev (day.map value) ∧
      Spec.crossDev adjusted covariate = 0 := by
  intro day covariate hvar
  obtain ⟨hne, hcols, hrows, hdate⟩ := cupedPerDate_ok h
  refine ⟨hrows, ?_⟩
  have hday : day ≠ [] := by
    rintro h0
    apply hvar
    simp [covariate, h0, Spec.sumSqDev]
  obtain ⟨r0, hr0⟩ := List.exists_mem_of_ne_nil _ hday
  have hr0 := List.mem_filter.mp hr0
  have hd : d ∈ f.col dateCol := List.mem_map.mpr ⟨r0, hr0.1, by simpa using hr0.2⟩
  obtain ⟨v, hcu, hout⟩ := hdate d hd
  rw [hout]
  unfold cupedOfDate at hcu
  have hm : (day.map (fun r => (r metric).toFl.toOption)).mapM id = some (day.map value) := by
    refine mapM_some fun r hr => ?_
    rw [hv r (List.mem_filter.mp hr).1]
    rfl
  have hc : (day.map (fun r => pretestTotal f metric itemCol periodCol (r itemCol))).mapM id = some covariate := by
    refine mapM_some fun r hr => ?_
    have hr := List.mem_filter.mp hr
    obtain ⟨hnn, p, hp, hp1, hp2⟩ := hpre r hr.1 (by simpa using hr.2)
    have hfilter : f.rows.filter (fun q => decide (q periodCol = .str "pretest" ∧ q itemCol = r itemCol ∧ q itemCol ≠ .null)) =
        f.rows.filter (fun q => decide (q periodCol = .str "pretest" ∧ q itemCol = r itemCol)) := by
      refine List.filter_congr fun q _ => ?_
      simp only [decide_eq_decide]
      constructor
      · rintro ⟨a, b, -⟩; exact ⟨a, b⟩
      · rintro ⟨a, b⟩; exact ⟨a, b, b ▸ hnn⟩
    unfold pretestTotal
    simp only
    rw [hfilter, if_neg, sumCol_fin (fun q hq => hv q (List.mem_filter.mp hq).1)]
    · rfl
    · exact List.ne_nil_of_mem (List.mem_filter.mpr ⟨hp, by simp [hp1, hp2]⟩)
  rw [hm, hc] at hcu
  simp only at hcu
  have h2 : ¬ (day.map value).length ≤ 1 := by
    intro hle
    apply hvar
    have hl : covariate.length ≤ 1 := by simpa [covariate] using hle
    match covariate, hl with
    | [], _ => simp [Spec.sumSqDev]
    | [x], _ => simp [Spec.sumSqDev, Spec.mean]
  rw [if_neg h2] at hcu
  obtain ⟨adj, e1, -, e2, e3, -, e4, -⟩ := C22_cuped_without_trimming R argsort _ _ 0 v hcu (by
    rw [zero_mul]
    have := R.intFix 0 (by norm_num)
    simp only [Int.cast_zero] at this
    rw [this]; simp) hvar
  exact ⟨adj, e1, e2, e4, e3⟩

/-- **C79, the remaining dates.**  On a date where some item has no pretest rows, every adjusted value is missing. -/
theorem C79_item_without_pretest (R : Rounding K) (argsort : List K → List ℕ) (f out : Frame K) (metric itemCol dateCol periodCol newCol : String)
    (h : cupedPerDate R argsort f metric itemCol dateCol periodCol newCol = .ok out) (d : Cell K) (r : Row K) (hr : r ∈ f.rows)
    (hd : r dateCol = d) (hno : ∀ p ∈ f.rows, p itemCol = r itemCol → p periodCol ≠ .str "pretest") :
    ∀ r' ∈ out.rows, r' dateCol = d → (r' newCol).toFl = .nan := by
  obtain ⟨hne, hcols, hrows, hdate⟩ := cupedPerDate_ok h
  obtain ⟨v, hcu, hout⟩ := hdate d (List.mem_map.mpr ⟨r, hr, hd⟩)
  intro r' hr' hd'
  have hmem : (r' newCol).toFl ∈ v := by
    rw [← hout]
    exact List.mem_map.mpr ⟨r', List.mem_filter.mpr ⟨hr', by simpa using hd'⟩, rfl⟩
  unfold cupedOfDate at hcu
  have hnone : ((f.rows.filter (fun r => decide (r dateCol = d))).map (fun r => pretestTotal f metric itemCol periodCol (r itemCol))).mapM id =
      none := by
    refine mapM_none (List.mem_map.mpr ⟨r, List.mem_filter.mpr ⟨hr, by simpa using hd⟩, ?_⟩)
    unfold pretestTotal
    rw [if_pos]
    rw [List.filter_eq_nil_iff]
    intro p hp hcon
    simp only [decide_eq_true_eq] at hcon
    exact hno p hp hcon.2.1 hcon.1
  rw [hnone] at hcu
  have hv : v = ((f.rows.filter (fun r => decide (r dateCol = d))).map (fun r => (r metric).toFl.toOption)).map (fun _ => .nan) := by
    generalize (List.mapM id _ : Option (List K)) = o at hcu
    cases o <;> cases hcu <;> rfl
  rw [hv] at hmem
  simp only [List.mem_map] at hmem
  obtain ⟨_, -, h⟩ := hmem
  exact h.symm

/-- **C79.**  With the columns present, a numeric metric, some pretest rows and no missing date, the adjustment returns. -/
theorem C79_returns (R : Rounding K) (argsort : List K → List ℕ) (ha : ArgsortOk argsort) (f : Frame K)
    (metric itemCol dateCol periodCol newCol : String) (hcols : ∀ c ∈ [metric, itemCol, dateCol, periodCol], c ∈ f.cols)
    (hnum : ∀ r ∈ f.rows, (r metric).isNumeric = true) (hpre : ∃ r ∈ f.rows, r periodCol = .str "pretest")
    (hdate : ∀ r ∈ f.rows, r dateCol ≠ .null) (hne : newCol ≠ dateCol) (hn : f.rows.length ≤ 2 ^ 53) :
    (cupedPerDate R argsort f metric itemCol dateCol periodCol newCol).Returns := by
  simp only [List.forall_mem_cons, List.not_mem_nil, false_implies, implies_true, and_true] at hcols
  obtain ⟨c1, c2, c3, c4⟩ := hcols
  have : ∃ adjusted, (dropDup (f.col dateCol)).mapM (fun d => (do
      let v ← cupedOfDate R argsort ((f.rows.filter (fun r => decide (r dateCol = d))).map (fun r => (r metric).toFl.toOption))
        ((f.rows.filter (fun r => decide (r dateCol = d))).map (fun r => pretestTotal f metric itemCol periodCol (r itemCol)))
      return (d, v) : Py (Cell K × List (Fl K)))) = .ok adjusted := by
    refine mapM_total fun d _ => ?_
    have : ∃ v, cupedOfDate R argsort ((f.rows.filter (fun r => decide (r dateCol = d))).map (fun r => (r metric).toFl.toOption))
        ((f.rows.filter (fun r => decide (r dateCol = d))).map (fun r => pretestTotal f metric itemCol periodCol (r itemCol))) = .ok v := by
      unfold cupedOfDate
      split
      · rename_i m c hm hc
        split
        · exact ⟨_, rfl⟩
        · have hlm := mapM_id_length hm
          have hlc := mapM_id_length hc
          rw [List.length_map] at hlm hlc
          have hle := List.length_filter_le (fun r => decide (r dateCol = d)) f.rows
          have h0 : ⌊R.rnd (0 * (m.length : K))⌋ = 0 := by
            rw [zero_mul]
            have := R.intFix 0 (by norm_num)
            simp only [Int.cast_zero] at this
            rw [this]; simp
          obtain ⟨v, hv⟩ := C22_cuped_returns R argsort ha m c (by omega) (by omega) (by omega) 0 le_rfl (by norm_num)
            (by rw [h0]; omega)
          exact ⟨v, hv⟩
      · exact ⟨_, rfl⟩
    obtain ⟨v, hv⟩ := this
    exact ⟨(d, v), by rw [hv]; rfl⟩
  obtain ⟨adjusted, h⟩ := this
  unfold cupedPerDate
  refine ⟨_, raiseIf_bind_ok.mpr ⟨by simpa using c4, raiseIf_bind_ok.mpr ⟨?_, raiseIf_bind_ok.mpr ⟨by simp [c1, c2],
    raiseIf_bind_ok.mpr ⟨by simpa using hnum, raiseIf_bind_ok.mpr ⟨hne, raiseIf_bind_ok.mpr ⟨by simpa using c3,
    raiseIf_bind_ok.mpr ⟨?_, Py.bind_eq_ok.mpr ⟨_, h, rfl⟩⟩⟩⟩⟩⟩⟩⟩⟩
  · simp only [not_not]
    obtain ⟨r, hr, h⟩ := hpre
    exact List.mem_map.mpr ⟨r, hr, h⟩
  · intro hmem
    obtain ⟨r, hr, h⟩ := List.mem_map.mp hmem
    exact hdate r hr h

/-- A row of daily data for the example. -/
def cupedRow (date : ℤ) (item period : String) (clicks : ℤ) : Row ℚ := fun c =>
  if c = "date" then .time date else if c = "item_id" then .str item else if c = "time_period" then .str period
  else if c = "clicks" then .int clicks else .null

/-- Three items on a pretest and a test day; on the third day a fourth item without pretest appears. -/
def cupedFrame : Frame ℚ :=
  ⟨["date", "item_id", "time_period", "clicks"],
    [cupedRow 0 "a" "pretest" 1, cupedRow 0 "b" "pretest" 2, cupedRow 0 "c" "pretest" 3,
     cupedRow 1 "b" "test" 4, cupedRow 1 "a" "test" 3, cupedRow 1 "c" "test" 8, cupedRow 2 "a" "test" 5, cupedRow 2 "d" "test" 5]⟩

/-- C79 is not vacuous: the example data meets the hypotheses of all three theorems on one of its dates, and the metric is really changed.
The average on the second date stays 5. -/
example : (cupedPerDate (Rounding.exact ℚ) stableArgsort cupedFrame "clicks" "item_id" "date" "time_period" "clicks").map
      (fun out => out.col "clicks") =
    .ok ([.num 2, .num 2, .num 2, .num 4, .num (11/2), .num (11/2), .null, .null]) ∧
    (∀ r ∈ cupedFrame.rows, (r "clicks").isNumeric = true ∧ r "date" ≠ .null) ∧
    (∀ r ∈ cupedFrame.rows, r "date" = .time 1 → r "item_id" ≠ .null ∧
      ∃ p ∈ cupedFrame.rows, p "item_id" = r "item_id" ∧ p "time_period" = .str "pretest") ∧
    Spec.sumSqDev [(2 : ℚ), 1, 3] ≠ 0 := by
  refine ⟨by decide +kernel, by decide +kernel, by decide +kernel, by decide +kernel⟩

end Feedx
