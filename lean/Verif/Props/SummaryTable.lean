import Verif.Props.Summary
import Verif.Props.Generate

/-!
Properties C93 and C81: the table of several analyses and its caption.
-/

set_option linter.unusedSectionVars false

namespace Feedx

variable {R : Rounding ℝ} {argsort : List ℝ → List ℕ} {D : TDist} {c : SimConfig} {fr : ℝ → List Char} {printable : Char → Bool}
  {X : RobustnessTests}

/-- The names in a summary. -/
def Spec.summaryNames : List String := Spec.designNames ++ Spec.effectNames ++ Spec.validationNames

theorem summary_names {s : SimState} {id : String} {dict : List (String × SVal ℝ)} (h : summaryDict R fr printable X c s = .ok (id, dict)) :
    dict.map Prod.fst = Spec.summaryNames := by
  unfold summaryDict at h
  obtain ⟨i, -, h⟩ := Py.bind_eq_ok.mp h
  obtain ⟨x1, -, h⟩ := Py.bind_eq_ok.mp h
  obtain ⟨x2, -, h⟩ := Py.bind_eq_ok.mp h
  obtain ⟨x3, -, h⟩ := Py.bind_eq_ok.mp h
  obtain ⟨x4, -, h⟩ := Py.bind_eq_ok.mp h
  obtain ⟨x5, -, h⟩ := Py.bind_eq_ok.mp h
  obtain ⟨x6, -, h⟩ := Py.bind_eq_ok.mp h
  obtain ⟨x7, -, h⟩ := Py.bind_eq_ok.mp h
  obtain ⟨x8, -, h⟩ := Py.bind_eq_ok.mp h
  cases h
  rfl

theorem lookup_keys {K : Type} (d : List (String × SVal K)) (hn : (d.map Prod.fst).Nodup) :
    (d.map Prod.fst).map (fun k => (d.lookup k).getD .null) = d.map Prod.snd := by
  induction d with
  | nil => rfl
  | cons p d ih =>
    rw [List.map_cons, List.nodup_cons] at hn
    rw [List.map_cons, List.map_cons, List.map_cons, ← ih hn.2]
    refine List.cons_eq_cons.mpr ⟨by obtain ⟨a, b⟩ := p; simp [List.lookup], ?_⟩
    refine List.map_congr_left fun k hk => ?_
    have : (k == p.1) = false := by
      rw [beq_eq_false_iff_ne]
      rintro rfl
      exact hn.1 hk
    obtain ⟨a, b⟩ := p
    simp only [List.lookup] at this ⊢
    rw [this]

theorem summaryNames_nodup : Spec.summaryNames.Nodup := by decide

/-! ### Sorting -/

/-- A sorter exists. -/
noncomputable def insertionSorter : SummarySorter where
  order l := (List.range l.length).insertionSort (fun i j => (l.getD i .null).key ≤ (l.getD j .null).key)
  perm l := List.perm_insertionSort _ _
  sorted l := by
    have : Std.Total (fun i j : ℕ => (l.getD i .null).key ≤ (l.getD j .null).key) := ⟨fun _ _ => le_total _ _⟩
    have : IsTrans ℕ (fun i j : ℕ => (l.getD i .null).key ≤ (l.getD j .null).key) := ⟨fun _ _ _ => le_trans⟩
    rw [List.pairwise_map]
    exact List.pairwise_insertionSort _ _

theorem notAfter_of_key {v w : SVal ℝ} (h : v.key ≤ w.key) : Spec.NotAfter v w := by
  unfold Spec.NotAfter Spec.Missing
  have hx : ∀ (a b : ℕ) (x y : ℝ ×ₗ String), (toLex (a, x) : ℕ ×ₗ ℝ ×ₗ String) ≤ toLex (b, y) ↔ a < b ∨ a = b ∧ x ≤ y := by
    intro a b x y; exact Prod.Lex.toLex_le_toLex
  have hy : ∀ (a b : ℝ) (x y : String), (toLex (a, x) : ℝ ×ₗ String) ≤ toLex (b, y) ↔ a < b ∨ a = b ∧ x ≤ y := by
    intro a b x y; exact Prod.Lex.toLex_le_toLex
  have hle : ∀ x y : ℝ, Fl.le (.fin x) (.fin y) = true ↔ x ≤ y := by intro x y; simp [Fl.le]
  rcases v with _ | b | s | x | (_ | _ | _ | x) <;> rcases w with _ | b' | s' | x' | (_ | _ | _ | x') <;>
    simp only [SVal.key, hx, hy] at h <;> simp [Spec.number, Fl.le] at h ⊢
  · rcases b with _ | _ <;> rcases b' with _ | _ <;> first | (intro h'; exact h') | (exact fun _ => rfl) | (norm_num at h)
  · exact h
  · exact h.elim le_of_lt le_of_eq
  · exact h.elim le_of_lt le_of_eq
  · exact h.elim le_of_lt le_of_eq
  · exact h.elim le_of_lt le_of_eq

/-! ### C93 -/

/-- What a summary table is made of. -/
theorem makeSummary_ok {S : SummarySorter} {analyses : List (SimConfig × SimState)} {sortBy : String} {t : SummaryTable ℝ}
    (h : makeSummary R fr printable X S analyses sortBy = .ok t) :
    ∃ dicts : List (String × List (String × SVal ℝ)),
      analyses.mapM (fun a => summaryDict R fr printable X a.1 a.2) = .ok dicts ∧ dicts ≠ [] ∧ t.cols = Spec.summaryNames ∧
      (sortBy ∈ Spec.summaryNames ∨ sortBy = "design_id") ∧
      t.rows.Perm (dicts.map (fun d => (d.1, fun col => (d.2.lookup col).getD .null))) ∧
      t.rows.Pairwise (fun r r' => Spec.NotAfter (if sortBy = "design_id" then .str r.1 else r.2 sortBy)
        (if sortBy = "design_id" then .str r'.1 else r'.2 sortBy)) := by
  unfold makeSummary at h
  obtain ⟨dicts, hd, h⟩ := Py.bind_eq_ok.mp h
  cases dicts with
  | nil => cases h
  | cons first rest =>
    obtain ⟨hs, h⟩ := raiseIf_bind_ok.mp h
    have hn : first.2.map Prod.fst = Spec.summaryNames := by
      obtain ⟨a, -, ha⟩ := mapM_mem hd (by simp : first ∈ first :: rest)
      exact summary_names (id := first.1) (dict := first.2) ha
    rw [hn] at hs
    cases h
    refine ⟨_, hd, by simp, hn, ?_, ?_, ?_⟩
    · by_contra hc
      push Not at hc
      exact hs hc
    · set rows : List (String × (String → SVal ℝ)) := (first :: rest).map (fun d => (d.1, fun col => (d.2.lookup col).getD .null)) with hr
      have hp := S.perm (rows.map (fun r => if sortBy = "design_id" then .str r.1 else r.2 sortBy))
      rw [List.length_map] at hp
      refine (hp.filterMap _).trans ?_
      have : (List.range rows.length).filterMap (fun i => rows[i]?) = rows := by
        clear * -
        induction rows using List.reverseRecOn with
        | nil => rfl
        | append_singleton l a ih =>
          rw [List.length_append, List.length_singleton, List.range_succ, List.filterMap_append]
          congr 1
          · conv_rhs => rw [← ih]
            refine List.filterMap_congr fun i hi => ?_
            rw [List.getElem?_append_left (List.mem_range.mp hi)]
          · simp
      rw [this]
    · rw [List.pairwise_filterMap]
      have := S.sorted (((first :: rest).map (fun d : String × List (String × SVal ℝ) =>
        ((d.1, fun col => (d.2.lookup col).getD .null) : String × (String → SVal ℝ)))).map
        (fun r => if sortBy = "design_id" then .str r.1 else r.2 sortBy))
      rw [List.pairwise_map] at this
      refine this.imp fun {i j} hij r hr r' hr' => ?_
      refine notAfter_of_key ?_
      simp only [List.getD_eq_getElem?_getD, List.getElem?_map, hr, hr', Option.map_some, Option.getD_some] at hij
      simpa using hij

/-- **C93, rows.**  The table has one row per analysis, with its design id and its 23 entries, in the order of the sort column: missing values last, numbers
increasing. -/
theorem C93_rows (S : SummarySorter) (analyses : List (SimConfig × SimState)) (sortBy : String) (t : SummaryTable ℝ)
    (h : makeSummary R fr printable X S analyses sortBy = .ok t) :
    t.cols = Spec.designNames ++ Spec.effectNames ++ Spec.validationNames ∧
    (∃ dicts, List.Forall₂ (fun (a : SimConfig × SimState) d => summaryDict R fr printable X a.1 a.2 = .ok d) analyses dicts ∧
      (t.rows.map (fun r => (r.1, t.cols.map r.2))).Perm (dicts.map (fun d => (d.1, d.2.map Prod.snd)))) ∧
    (sortBy ≠ "design_id" → (t.rows.map (fun r => r.2 sortBy)).Pairwise Spec.NotAfter) ∧
    (sortBy = "design_id" → (t.rows.map Prod.fst).Pairwise (· ≤ ·)) := by
  obtain ⟨dicts, hd, -, hc, -, hp, hs⟩ := makeSummary_ok h
  refine ⟨hc, ⟨dicts, ?_, ?_⟩, fun hne => ?_, fun he => ?_⟩
  · clear hp hs h hc
    induction analyses generalizing dicts with
    | nil => cases hd; exact .nil
    | cons a l ih =>
      rw [List.mapM_cons] at hd
      obtain ⟨x, hx, hd⟩ := Py.bind_eq_ok.mp hd
      obtain ⟨xs, hxs, hd⟩ := Py.bind_eq_ok.mp hd
      cases hd
      exact .cons hx (ih xs hxs)
  · refine (hp.map _).trans ?_
    rw [List.map_map]
    refine List.Perm.of_eq (List.map_congr_left fun d hdm => ?_)
    obtain ⟨a, -, ha⟩ := mapM_mem hd hdm
    have hn := summary_names (id := d.1) (dict := d.2) ha
    simp only [Function.comp]
    rw [hc, ← hn, lookup_keys d.2 (by rw [hn]; exact summaryNames_nodup)]
  · rw [List.pairwise_map]
    simpa only [if_neg hne] using hs
  · rw [List.pairwise_map]
    refine hs.imp fun {r r'} hrr => ?_
    rw [if_pos he, if_pos he] at hrr
    rcases hrr with (h | h) | ⟨-, -, h, -⟩
    · cases h
    · cases h
    · exact h _ _ rfl rfl

/-- **C93, when it returns.**  With the default column, the table is made for every non-empty list of analyses whose summaries return; an empty list and
an unknown sort column raise `KeyError`. -/
theorem C93_returns (S : SummarySorter) (analyses : List (SimConfig × SimState)) (sortBy : String) :
    ((makeSummary R fr printable X S analyses sortBy).Returns ↔ analyses ≠ [] ∧
      (∀ a ∈ analyses, (summaryDict R fr printable X a.1 a.2).Returns) ∧
      (sortBy = "design_id" ∨ sortBy ∈ Spec.designNames ++ Spec.effectNames ++ Spec.validationNames)) ∧
    (analyses = [] → makeSummary R fr printable X S analyses sortBy = .error .keyError) ∧
    ((∀ a ∈ analyses, (summaryDict R fr printable X a.1 a.2).Returns) →
      sortBy ≠ "design_id" ∧ sortBy ∉ Spec.designNames ++ Spec.effectNames ++ Spec.validationNames →
      makeSummary R fr printable X S analyses sortBy = .error .keyError) := by
  refine ⟨⟨fun ⟨t, h⟩ => ?_, fun ⟨h1, h2, h3⟩ => ?_⟩, ?_, fun h2 h3 => ?_⟩
  · obtain ⟨dicts, hd, hne, -, hs, -⟩ := makeSummary_ok h
    refine ⟨?_, fun a ha => ?_, hs.symm⟩
    · rintro rfl
      cases hd
      exact hne rfl
    · clear * - hd ha
      induction analyses generalizing dicts with
      | nil => cases ha
      | cons x l ih =>
        rw [List.mapM_cons] at hd
        obtain ⟨y, hy, hd⟩ := Py.bind_eq_ok.mp hd
        obtain ⟨ys, hys, hd⟩ := Py.bind_eq_ok.mp hd
        rcases List.mem_cons.mp ha with rfl | ha
        · exact ⟨y, hy⟩
        · exact ih ys hys ha
  · obtain ⟨dicts, hd⟩ := mapM_total h2
    cases dicts with
    | nil =>
      cases analyses with
      | nil => exact absurd rfl h1
      | cons a l =>
        rw [List.mapM_cons] at hd
        obtain ⟨y, hy, hd⟩ := Py.bind_eq_ok.mp hd
        obtain ⟨ys, hys, hd⟩ := Py.bind_eq_ok.mp hd
        cases hd
    | cons first rest =>
      have hn : first.2.map Prod.fst = Spec.summaryNames := by
        obtain ⟨a, -, ha⟩ := mapM_mem hd (by simp : first ∈ first :: rest)
        exact summary_names (id := first.1) (dict := first.2) ha
      refine ⟨_, Py.bind_eq_ok.mpr ⟨_, hd, raiseIf_bind_ok.mpr ⟨?_, rfl⟩⟩⟩
      rw [hn]
      rintro ⟨h4, h5⟩
      exact h3.elim h5 h4
  · rintro rfl
    rfl
  · obtain ⟨dicts, hd⟩ := mapM_total h2
    unfold makeSummary
    rw [hd]
    cases dicts with
    | nil => rfl
    | cons first rest =>
      have hn : first.2.map Prod.fst = Spec.summaryNames := by
        obtain ⟨a, -, ha⟩ := mapM_mem hd (by simp : first ∈ first :: rest)
        exact summary_names (id := first.1) (dict := first.2) ha
      show (raiseIf .keyError (sortBy ∉ first.2.map Prod.fst ∧ sortBy ≠ "design_id") >>= _) = _
      rw [hn]
      unfold raiseIf
      rw [if_pos ⟨h3.2, h3.1⟩]
      rfl

/-- C93 is not vacuous: a table of an analysis before and after its estimate. -/
example (R : Rounding ℝ) (D : TDist) (σ : ℤ → Shuffle) (fr : ℝ → List Char) (printable : Char → Bool) (X : RobustnessTests) :
    (makeSummary R fr printable X insertionSorter [(simConfig, simState), (simConfig, runSim R stableArgsort D simConfig simState [.estimate σ])]
      "relative_minimum_detectable_effect").Returns := by
  refine (C93_returns _ _ _).1.mpr ⟨by simp, fun a ha => ?_, Or.inr (by decide)⟩
  simp only [List.mem_cons, List.not_mem_nil, or_false] at ha
  rcases ha with rfl | rfl
  · obtain ⟨id, dict, h1, -⟩ := C92_entries (R := R) (argsort := stableArgsort) (D := D) (c := simConfig) (fr := fr)
      (printable := printable) (X := X) _ _ _ _ _ _ _ _ simState simConfig_created simParams (simDesign_created R) [] (by simp)
    exact ⟨_, h1⟩
  · obtain ⟨id, dict, h1, -⟩ := C92_entries (R := R) (argsort := stableArgsort) (D := D) (c := simConfig) (fr := fr)
      (printable := printable) (X := X) _ _ _ _ _ _ _ _ simState simConfig_created simParams (simDesign_created R) [.estimate σ] (by simp)
    exact ⟨_, h1⟩

end Feedx
