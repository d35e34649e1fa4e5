import Verif.Proofs.Wide
import Mathlib.Data.Rat.Defs
import Mathlib.Algebra.Order.Field.Rat

/-!
The building blocks of the simulations: bootstrap samples (C67), random assignment (C68) and synthetic effects (C69).
-/

set_option linter.unusedSectionVars false
set_option linter.unusedSimpArgs false

namespace Feedx

variable {K : Type} [Field K] [LinearOrder K]

theorem bootstrap_rows {draws : List ℕ} {w : Wide K} {g : ℕ → List (Cell K) → List (Cell K)} (hd : ∀ p ∈ draws, p < w.rows.length) (k : ℕ) :
    List.Forall₂ (fun (d : ℕ × ℕ) r' => ∃ r, w.rows[d.1]? = some r ∧ r' = (⟨g d.2 r.key, r.val⟩ : WideRow K)) (draws.zipIdx k)
      ((draws.zipIdx k).filterMap (fun p => (w.rows[p.1]?).map (fun r => (⟨g p.2 r.key, r.val⟩ : WideRow K)))) := by
  induction draws generalizing k with
  | nil => exact List.Forall₂.nil
  | cons p l ih =>
    have hp : p < w.rows.length := hd p (by simp)
    have e : w.rows[p]? = some w.rows[p] := List.getElem?_eq_getElem hp
    rw [List.zipIdx_cons, List.filterMap_cons]
    simp only [e, Option.map_some]
    exact List.Forall₂.cons ⟨_, e, rfl⟩ (ih (fun q hq => hd q (by simp [hq])) (k + 1))

/-- **C67.**  Data with one of the two working columns is refused with `ValueError`, and no other data is. -/
theorem C67_working_columns (draws : List ℕ) (w : Wide K) (item : String) :
    ((["n_samples_"] ∈ w.cols ∨ ["dummy_list_"] ∈ w.cols) ↔ bootstrap draws w item = .error .valueError) ∧
    ((["n_samples_"] ∈ w.cols ∨ ["dummy_list_"] ∈ w.cols) ↔ ∀ out, bootstrap draws w item ≠ .ok out) := by
  unfold bootstrap
  constructor
  · constructor
    · intro h
      exact raiseIf_bind_err.mpr (Or.inl ⟨h, rfl⟩)
    · intro h
      rcases raiseIf_bind_err.mp h with ⟨h, -⟩ | ⟨-, h⟩
      · exact h
      · cases h
  · constructor
    · intro h out ho
      exact (raiseIf_bind_ok.mp ho).1 h
    · intro h
      by_contra hc
      exact h _ (raiseIf_bind_ok.mpr ⟨hc, rfl⟩)

/-- Both cases occur. -/
example : bootstrap [] (⟨["item_id"], [["dummy_list_"]], []⟩ : Wide ℚ) "item_id" = .error .valueError ∧
    bootstrap [] (⟨["item_id"], [["clicks", "test"]], []⟩ : Wide ℚ) "item_id" ≠ .error .valueError :=
  ⟨(C67_working_columns [] _ _).1.mp (by simp), fun h => by simpa using (C67_working_columns [] _ _).1.mpr h⟩

/-- **C67.**  Whatever positions are drawn (as many as there are rows), the sample has as many rows as the data and the same columns; its
`i`-th row is a copy of the row drawn, its item id is `i`, and every other index level is that of the row drawn. -/
theorem C67_bootstrap (draws : List ℕ) (w : Wide K) (item : String) (hi : item ∈ w.names)
    (hk : ∀ r ∈ w.rows, r.key.length = w.names.length) (hl : draws.length = w.rows.length) (hd : ∀ p ∈ draws, p < w.rows.length)
    (hc : ["n_samples_"] ∉ w.cols ∧ ["dummy_list_"] ∉ w.cols) :
    ∃ out, bootstrap draws w item = .ok out ∧ out.names = w.names ∧ out.cols = w.cols ∧ out.rows.length = w.rows.length ∧
      (∀ (i p : ℕ) (r' : WideRow K), draws[i]? = some p → out.rows[i]? = some r' → ∃ r, w.rows[p]? = some r ∧ r'.val = r.val ∧
        r'.key.length = r.key.length ∧ ∀ (j : ℕ) (n : String), w.names[j]? = some n →
          r'.key[j]? = if n = item then some (.int (i : ℤ)) else r.key[j]?) ∧
      (out.rows.map (fun r => r.key[w.names.idxOf item]?)).Nodup := by
  have hrows := bootstrap_rows (w := w) (g := fun i k => bootKey w.names item i k) hd 0
  set rows := (draws.zipIdx 0).filterMap (fun p => (w.rows[p.1]?).map (fun r => (⟨bootKey w.names item p.2 r.key, r.val⟩ : WideRow K))) with hr
  have hnames : (if 2 ≤ w.names.length then w.names else [item]) = w.names := by
    split
    · rfl
    · rename_i h2
      obtain ⟨n, hn1⟩ : ∃ n, w.names = [n] := by
        cases hw : w.names with
        | nil => rw [hw] at hi; simp at hi
        | cons a l =>
          cases l with
          | nil => exact ⟨a, rfl⟩
          | cons b l => rw [hw] at h2; simp at h2
      rw [hn1] at hi ⊢
      simp at hi
      rw [hi]
  have hkey : ∀ i (k : List (Cell K)), k.length = w.names.length → (bootKey w.names item i k).length = k.length ∧
      ∀ (j : ℕ) (n : String), w.names[j]? = some n → (bootKey w.names item i k)[j]? = if n = item then some (.int (i : ℤ)) else k[j]? := by
    intro i k hlen
    unfold bootKey
    split
    · refine ⟨by simp [hlen], fun j n hj => ?_⟩
      obtain ⟨hjl, hje⟩ := List.getElem?_eq_some_iff.mp hj
      have hjk : j < k.length := by omega
      rw [List.getElem?_zipWith, hj, List.getElem?_eq_getElem hjk]
      by_cases he : n = item <;> simp [he]
    · rename_i h2
      rw [if_neg h2] at hnames
      rw [← hnames] at hlen ⊢
      refine ⟨by simp [hlen], fun j n hj => ?_⟩
      cases j with
      | zero => simp at hj; simp [hj]
      | succ j => simp at hj
  refine ⟨⟨w.names, w.cols, rows⟩, ?_, rfl, rfl, ?_, ?_, ?_⟩
  · unfold bootstrap
    rw [raiseIf_bind_ok]
    refine ⟨by tauto, ?_⟩
    rw [hnames]
    rfl
  · show rows.length = _
    rw [← hl, ← hrows.length_eq, List.length_zipIdx]
  · intro i p r' hp hr'
    have hz : (draws.zipIdx 0)[i]? = some (p, i) := by simp [List.getElem?_zipIdx, hp]
    obtain ⟨hi1, e1⟩ := List.getElem?_eq_some_iff.mp hz
    obtain ⟨hi2, e2⟩ := List.getElem?_eq_some_iff.mp hr'
    obtain ⟨r, hwr, e3⟩ := hrows.get hi1 hi2
    simp only [List.get_eq_getElem] at hwr e3
    rw [e1] at hwr e3
    have e3 : r' = ⟨bootKey w.names item i r.key, r.val⟩ := by rw [← e2]; exact e3
    have hmem : r ∈ w.rows := List.mem_of_getElem? hwr
    refine ⟨r, hwr, by rw [e3], ?_, fun j n hj => ?_⟩
    · rw [e3]; exact (hkey i r.key (hk r hmem)).1
    · rw [e3]; exact (hkey i r.key (hk r hmem)).2 j n hj
  · show (rows.map _).Nodup
    have e : rows.map (fun r => r.key[w.names.idxOf item]?) = (draws.zipIdx 0).map (fun p => some (Cell.int (p.2 : ℤ))) := by
      apply List.ext_getElem
      · rw [List.length_map, List.length_map, hrows.length_eq]
      · intro i h1 h2
        rw [List.length_map] at h1 h2
        obtain ⟨r, hwr, e3⟩ := hrows.get h2 h1
        simp only [List.get_eq_getElem] at hwr e3
        simp only [List.getElem_map]
        rw [e3]
        have hmem : r ∈ w.rows := List.mem_of_getElem? hwr
        have hix : w.names[w.names.idxOf item]? = some item := by
          rw [List.getElem?_eq_getElem (List.idxOf_lt_length_of_mem hi)]; simp
        rw [(hkey _ r.key (hk r hmem)).2 _ _ hix, if_pos rfl]
    rw [e]
    have e4 : (draws.zipIdx 0).map (fun p => some (Cell.int (K := K) (p.2 : ℤ))) = (List.range draws.length).map (fun i : ℕ => some (Cell.int (i : ℤ))) := by
      rw [List.range_eq_range', ← List.zipIdx_map_snd 0 draws, List.map_map]
      rfl
    rw [e4]
    apply List.Nodup.map _ List.nodup_range
    intro a b hab
    simp only [Option.some.injEq, Cell.int.injEq] at hab
    exact_mod_cast hab

theorem nodup_of_map_inj {α β : Type} {l : List α} {f : α → β} {g : β → α} (h : ∀ a ∈ l, g (f a) = a) (hn : l.Nodup) : (l.map f).Nodup := by
  apply List.Nodup.map_on _ hn
  intro a ha b hb hab
  rw [← h a ha, ← h b hb, hab]

/-- **C68, for ordinary names.**  If all column labels are (metric, period) pairs of ordinary names (no double underscore, no underscore at
either end), the item column has no underscore at either end, and neither the item nor the treatment column is called like "metric__period",
then for any coins the result has the same column labels, and row by row the same values and the same item, which is put in group 0 or 1; two
rows of the same item are in the same group, and the group is the coin of the item.  Missing: other names, for which `C68_false` shows what happens. -/
theorem C68_random_assignment_partial (coins : List Bool) (w : Wide K) (item treat : String) (hn : w.names = [item])
    (hk : ∀ r ∈ w.rows, r.key.length = 1) (hc : ∀ l ∈ w.cols, ∃ m p, l = [m, p] ∧ Spec.PlainName m ∧ Spec.PlainName p) (hnd : w.cols.Nodup)
    (hi : Spec.NoOuterScore item.toList) (hit : item ≠ treat) (htm : ∀ l ∈ w.cols, l.head? ≠ some treat)
    (hcol : ∀ m p, [m, p] ∈ w.cols → item ≠ m ++ "__" ++ p ∧ treat ≠ m ++ "__" ++ p) :
    ∃ out, randomAssign coins w item treat = .ok out ∧ out.names = [item, treat] ∧ out.cols = w.cols ∧
      List.Forall₂ (fun (r r' : WideRow K) => (∃ i : Cell K, ∃ b : Bool, r.key = [i] ∧ r'.key = [i, .int (if b then 1 else 0)]) ∧
        ∀ l ∈ w.cols, r'.val l = r.val l) w.rows out.rows ∧
      (∀ r1 ∈ out.rows, ∀ r2 ∈ out.rows, r1.key[0]? = r2.key[0]? → r1.key = r2.key) ∧
      ((w.rows.map WideRow.key).Nodup → coins.length = w.rows.length →
        out.rows.map (fun r => r.key[1]?) = coins.map (fun b => some (.int (if b then 1 else 0)))) := by
  have hflat : ∀ l ∈ w.cols, unflatName (flatName l) = l := by
    intro l hl
    obtain ⟨m, p, rfl, hm, hp⟩ := hc l hl
    exact unflat_flat hm hp
  have hff : ∀ (s : String), (∀ m p, [m, p] ∈ w.cols → s ≠ m ++ "__" ++ p) → s ∉ w.cols.map flatName := by
    intro s hs hmem
    obtain ⟨l, hl, e⟩ := List.mem_map.mp hmem
    obtain ⟨m, p, rfl, hm, hp⟩ := hc l hl
    apply hs m p hl
    rw [← e]
    apply String.toList_injective
    rw [flatName_two hm hp, String.toList_append, String.toList_append]
    simp
  have hitem := hff item (fun m p h => (hcol m p h).1)
  have htreat := hff treat (fun m p h => (hcol m p h).2)
  have hfn : (w.cols.map flatName).Nodup := nodup_of_map_inj hflat hnd
  have hcols : (w.cols.map flatName).map unflatName = w.cols := by
    have e := List.map_congr_left (f := unflatName ∘ flatName) (g := fun l => l) (l := w.cols) hflat
    rw [List.map_map, e, List.map_id']
  have htop : treat ∉ w.names ++ w.cols.map (fun l => l.headD "") := by
    rw [hn]
    intro h
    rcases List.mem_append.mp h with h | h
    · exact hit (List.mem_singleton.mp h).symm
    · obtain ⟨l, hl, e⟩ := List.mem_map.mp h
      obtain ⟨m, p, rfl, -, -⟩ := hc l hl
      exact htm _ hl (by simpa using e)
  set items := dropDup (w.rows.map (fun r => r.key.headD .null)) with hitems
  refine ⟨⟨[item, treat], w.cols, w.rows.map (fun r => ⟨[r.key.headD .null, .int (if coins.getD (items.idxOf (r.key.headD .null)) false then 1 else 0)],
      fun l => match w.cols.find? (fun l' => unflatName (flatName l') = l) with
        | some l' => r.val l'
        | none => .nan⟩)⟩, ?_, rfl, rfl, ?_, ?_, ?_⟩
  · unfold randomAssign
    refine raiseIf_bind_ok.mpr ⟨htop, raiseIf_bind_ok.mpr ⟨?_, raiseIf_bind_ok.mpr ⟨not_not.mpr hn, raiseIf_bind_ok.mpr ⟨?_,
      raiseIf_bind_ok.mpr ⟨?_, raiseIf_bind_ok.mpr ⟨htreat, ?_⟩⟩⟩⟩⟩⟩
    · rw [hn]; simp
    · rw [flatName_item hi]
      tauto
    · rw [flatName_item hi]; simp
    · rw [hcols]; rfl
  · rw [List.forall₂_map_right_iff, List.forall₂_same]
    intro r hr
    refine ⟨?_, fun l hl => ?_⟩
    · obtain ⟨c, hc1⟩ := List.length_eq_one_iff.mp (hk r hr)
      exact ⟨c, _, hc1, by simp [hc1]; rfl⟩
    · have : w.cols.find? (fun l' => unflatName (flatName l') = l) = some l := by
        rw [List.find?_eq_some_iff_append]
        refine ⟨by simpa using hflat l hl, ?_⟩
        obtain ⟨as, bs, e⟩ := List.append_of_mem hl
        refine ⟨as, bs, e, fun x hx => ?_⟩
        have hx' : x ∈ w.cols := by rw [e]; simp [hx]
        have hne : x ≠ l := by
          rw [e] at hnd
          intro hc
          subst hc
          exact (List.nodup_append.mp hnd).2.2 x hx x (by simp) rfl
        simpa [hflat x hx'] using hne
      simp only [this]
  · intro r1 h1 r2 h2 he
    obtain ⟨s1, -, rfl⟩ := List.mem_map.mp h1
    obtain ⟨s2, -, rfl⟩ := List.mem_map.mp h2
    simp only [List.getElem?_cons_zero, Option.some.injEq] at he
    simp only [he]
  · intro hnod hlen
    have hinj : ∀ r ∈ w.rows, ∀ c, r.key.headD .null = c → r.key = [c] := by
      intro r hr c hrc
      obtain ⟨c', hc1⟩ := List.length_eq_one_iff.mp (hk r hr)
      rw [hc1] at hrc ⊢
      simpa using hrc
    have hnod' : (w.rows.map (fun r => r.key.headD .null)).Nodup := by
      have e : w.rows.map WideRow.key = (w.rows.map (fun r => r.key.headD .null)).map (fun c => [c]) := by
        rw [List.map_map]
        exact List.map_congr_left (fun r hr => hinj r hr _ rfl)
      rw [e] at hnod
      exact List.Nodup.of_map _ hnod
    have hit' : items = w.rows.map (fun r => r.key.headD .null) := dropDup_eq_self hnod'
    apply List.ext_getElem
    · simp [hlen]
    · intro j h1 h2
      simp only [List.length_map] at h1 h2
      simp only [List.getElem_map, List.getElem?_cons_succ, List.getElem?_cons_zero]
      have hj : items.idxOf (w.rows[j].key.headD .null) = j := by
        have hjl : j < items.length := by rw [hit']; simpa using h1
        have e : items[j] = w.rows[j].key.headD .null := by simp [hit']
        rw [← e]
        exact List.Nodup.idxOf_getElem (hit' ▸ hnod') j hjl
      rw [hj, List.getD_eq_getElem?_getD, List.getElem?_eq_getElem h2]
      simp

/-- The full statement of C68: whatever the names, the column labels are preserved. -/
def C68_full : Prop := ∀ (coins : List Bool) (w out : Wide ℚ) (item treat : String), w.names = [item] →
  (∀ l ∈ w.cols, ∃ m p, l = [m, p]) → w.cols.Nodup → randomAssign coins w item treat = .ok out → out.cols = w.cols

/-- Two items with one metric in one period. -/
def twoItems (metric : String) : Wide ℚ := ⟨["item"], [[metric, "test"], [metric, "pretest"]],
  [⟨[.str "a"], fun l => if l = [metric, "test"] then .fin 3 else .fin 1⟩, ⟨[.str "b"], fun l => if l = [metric, "test"] then .fin 5 else .fin 2⟩]⟩

/-- **C68 is false**: a metric whose name contains a double underscore, or starts or ends with an underscore, comes back under another label. -/
theorem C68_false : ¬ C68_full ∧
    (∃ out, randomAssign [true, false] (twoItems "cost__usd") "item" "treatment" = .ok out ∧
      out.cols = [["cost", "usd", "test"], ["cost", "usd", "pretest"]]) ∧
    (∃ out, randomAssign [true, false] (twoItems "cost_") "item" "treatment" = .ok out ∧
      out.cols = [["cost", "_test"], ["cost", "_pretest"]]) ∧
    (∃ out, randomAssign [true, false] (twoItems "_cost") "item" "treatment" = .ok out ∧
      out.cols = [["cost", "test"], ["cost", "pretest"]]) ∧
    randomAssign [true, false] { twoItems "cost" with names := ["_item"] } "_item" "treatment" = .error .keyError := by
  have key : ∃ out, randomAssign [true, false] (twoItems "cost__usd") "item" "treatment" = .ok out ∧
      out.cols = [["cost", "usd", "test"], ["cost", "usd", "pretest"]] := ⟨_, rfl, by decide +kernel⟩
  refine ⟨fun h => ?_, key, ⟨_, rfl, by decide +kernel⟩, ⟨_, rfl, by decide +kernel⟩, by rfl⟩
  obtain ⟨out, ho, hc⟩ := key
  have := h _ _ _ _ _ rfl (by intro l hl; simp [twoItems] at hl; rcases hl with rfl | rfl <;> exact ⟨_, _, rfl⟩) (by decide +kernel) ho
  rw [hc] at this
  exact absurd this (by decide +kernel)

theorem levelOf_iff {names : List String} (hn : names.Nodup) {name : String} {k : List (Cell K)} (hl : k.length = names.length) {c : Cell K}
    (hm : name ∈ names) : levelOf names name k = c ↔ Spec.LevelIs names name k c := by
  unfold levelOf Spec.LevelIs
  induction names generalizing k with
  | nil => simp at hm
  | cons n names ih =>
    cases k with
    | nil => simp at hl
    | cons x k =>
      simp only [List.zip_cons_cons, List.lookup_cons]
      by_cases he : name = n
      · subst he
        simp only [beq_self_eq_true, Option.getD_some]
        constructor
        · rintro rfl; exact ⟨0, by simp, by simp⟩
        · rintro ⟨j, h1, h2⟩
          cases j with
          | zero => simpa using h2
          | succ j =>
            simp only [List.getElem?_cons_succ] at h1
            exact absurd (List.mem_of_getElem? h1) (List.nodup_cons.mp hn).1
      · have hb : (name == n) = false := by simpa using he
        rw [hb]
        simp only
        rw [ih (List.nodup_cons.mp hn).2 (by simpa using hl) (by simpa [he] using hm)]
        constructor
        · rintro ⟨j, h1, h2⟩; exact ⟨j + 1, by simpa using h1, by simpa using h2⟩
        · rintro ⟨j, h1, h2⟩
          cases j with
          | zero => simp at h1; exact absurd h1.symm he
          | succ j => exact ⟨j, by simpa using h1, by simpa using h2⟩

theorem isTreated_iff [IsStrictOrderedRing K] {names : List String} (hn : names.Nodup) {name : String} {k : List (Cell K)}
    (hl : k.length = names.length) (hm : name ∈ names) : isTreated names name k = true ↔ Spec.Treated names name k := by
  unfold isTreated Spec.Treated
  rw [decide_eq_true_iff, ← levelOf_iff hn hl hm, ← levelOf_iff hn hl hm]
  generalize levelOf names name k = c
  cases c <;> simp [Cell.toFl]
  rename_i b
  cases b <;> simp

/-- **C69.**  When the treatment level and the test columns exist, the effect is added exactly to the values the property names: the test
value of treated items in a regular experiment, the first test value of treated and the second test value of all other items in a
crossover; index, labels and every other value stay.  Otherwise `ValueError` is raised. -/
theorem C69_effect [IsStrictOrderedRing K] (w : Wide K) (metric : String) (isCrossover : Bool) (effect : Fl K) (treat : String)
    (hn : w.names.Nodup) (hk : ∀ r ∈ w.rows, r.key.length = w.names.length) :
    let complete := treat ∈ w.names ∧ (isCrossover = false → [metric, "test"] ∈ w.cols) ∧
      (isCrossover = true → [metric, "test_1"] ∈ w.cols ∧ [metric, "test_2"] ∈ w.cols)
    (¬ complete → applyEffect w metric isCrossover effect treat = .error .valueError) ∧
    (complete → ∃ out, applyEffect w metric isCrossover effect treat = .ok out ∧ out.names = w.names ∧ out.cols = w.cols ∧
      List.Forall₂ (fun (r r' : WideRow K) => r'.key = r.key ∧ ∀ l,
        let gets := (isCrossover = false ∧ l = [metric, "test"] ∧ Spec.Treated w.names treat r.key) ∨
          (isCrossover = true ∧ l = [metric, "test_1"] ∧ Spec.Treated w.names treat r.key) ∨
          (isCrossover = true ∧ l = [metric, "test_2"] ∧ ¬ Spec.Treated w.names treat r.key)
        (gets → r'.val l = r.val l + effect) ∧ (¬ gets → r'.val l = r.val l)) w.rows out.rows) := by
  intro complete
  constructor
  · intro h
    unfold applyEffect
    rw [raiseIf_bind_err]
    by_cases ht : treat ∈ w.names
    · refine Or.inr ⟨not_not.mpr ht, raiseIf_bind_err.mpr (Or.inl ⟨?_, rfl⟩)⟩
      cases isCrossover
      · simp only [complete, ht, true_and] at h
        simpa using h
      · simp only [complete, ht, true_and] at h
        simp only [Bool.true_eq_false, false_imp_iff, true_and, forall_const] at h
        simp only [if_true, List.any_cons, List.any_nil, Bool.or_false, Bool.or_eq_true, decide_eq_true_eq]
        tauto
    · exact Or.inl ⟨ht, rfl⟩
  · rintro ⟨ht, h1, h2⟩
    have htr : ∀ r ∈ w.rows, (isTreated w.names treat r.key = true ↔ Spec.Treated w.names treat r.key) :=
      fun r hr => isTreated_iff hn (hk r hr) ht
    cases isCrossover
    · refine ⟨addWhere w (isTreated w.names treat) [metric, "test"] effect, ?_, rfl, rfl, ?_⟩
      · unfold applyEffect
        refine raiseIf_bind_ok.mpr ⟨not_not.mpr ht, raiseIf_bind_ok.mpr ⟨?_, rfl⟩⟩
        simpa using h1 rfl
      · unfold addWhere
        rw [List.forall₂_map_right_iff, List.forall₂_same]
        intro r hr
        refine ⟨rfl, fun l => ?_⟩
        simp only [true_and, Bool.false_eq_true, false_and, or_false, ← htr r hr]
        exact ⟨fun h => if_pos h, fun h => if_neg h⟩
    · refine ⟨addWhere (addWhere w (isTreated w.names treat) [metric, "test_1"] effect)
        (fun k => !isTreated w.names treat k) [metric, "test_2"] effect, ?_, rfl, rfl, ?_⟩
      · unfold applyEffect
        refine raiseIf_bind_ok.mpr ⟨not_not.mpr ht, raiseIf_bind_ok.mpr ⟨?_, rfl⟩⟩
        simpa using h2 rfl
      · unfold addWhere
        simp only [List.map_map]
        rw [List.forall₂_map_right_iff, List.forall₂_same]
        intro r hr
        refine ⟨rfl, fun l => ?_⟩
        have hb := htr r hr
        simp only [Function.comp_apply]
        by_cases hT : Spec.Treated w.names treat r.key
        · have hb' := hb.mpr hT
          by_cases hl : l = [metric, "test_1"]
          · subst hl; simp [hb', hT]
          · simp [hb', hT, hl]
        · have hb' : isTreated w.names treat r.key = false := by
            rw [← Bool.not_eq_true]; exact fun hc => hT (hb.mp hc)
          by_cases hl : l = [metric, "test_2"]
          · subst hl; simp [hb', hT]
          · simp [hb', hT, hl]

/-! Non-trivial instances. -/

/-- A sample of the two items that picks the second one twice. -/
example : ∃ out, bootstrap [1, 1] (twoItems "cost") "item" = .ok out ∧ out.rows.map WideRow.key = [[.int 0], [.int 1]] ∧
    out.rows.map (fun r => r.val ["cost", "test"]) = [.fin 5, .fin 5] := ⟨_, rfl, by decide +kernel, by decide +kernel⟩

example : ∃ out, bootstrap [1, 1] (twoItems "cost") "item" = .ok out ∧ out.rows.length = 2 := by
  obtain ⟨out, h, -, -, hl, -⟩ := C67_bootstrap [1, 1] (twoItems "cost") "item" (by decide) (by decide +kernel) rfl (by decide)
    (by decide +kernel)
  exact ⟨out, h, hl⟩

/-- Two index levels: only the item id is replaced. -/
example : ∃ out, bootstrap [1, 1] (⟨["item", "treatment"], [["cost", "test"]],
    [⟨[.str "a", .int 0], fun _ => .fin 1⟩, ⟨[.str "b", .int 1], fun _ => .fin 2⟩]⟩ : Wide ℚ) "item" = .ok out ∧
    out.rows.map WideRow.key = [[.int 0, .int 1], [.int 1, .int 1]] := ⟨_, rfl, by decide +kernel⟩

theorem plain_cost : Spec.PlainName "cost" ∧ Spec.PlainName "test" ∧ Spec.PlainName "pretest" := by
  have h : ∀ s : List Char, s.all (fun c => c ≠ '_') = true → ¬ Spec.HasDoubleScore s := by
    rintro s hs ⟨a, b, rfl⟩
    simp at hs
  refine ⟨⟨by decide, h _ (by decide), by constructor <;> decide⟩, ⟨by decide, h _ (by decide), by constructor <;> decide⟩,
    ⟨by decide, h _ (by decide), by constructor <;> decide⟩⟩

/-- The hypotheses of C68 for the two items. -/
example : ∃ out, randomAssign [true, false] (twoItems "cost") "item" "treatment" = .ok out ∧ out.cols = (twoItems "cost").cols ∧
    out.rows.map WideRow.key = [[.str "a", .int 1], [.str "b", .int 0]] := by
  obtain ⟨out, h, -, hc, -⟩ := C68_random_assignment_partial [true, false] (twoItems "cost") "item" "treatment" rfl (by decide +kernel)
    (by
      intro l hl
      simp only [twoItems, List.mem_cons, List.not_mem_nil, or_false] at hl
      rcases hl with rfl | rfl
      · exact ⟨_, _, rfl, plain_cost.1, plain_cost.2.1⟩
      · exact ⟨_, _, rfl, plain_cost.1, plain_cost.2.2⟩)
    (by decide +kernel) (by constructor <;> decide) (by decide) (by decide +kernel)
    (by
      intro m p hl
      simp only [twoItems, List.mem_cons, List.not_mem_nil, or_false, List.cons.injEq, and_true] at hl
      rcases hl with ⟨rfl, rfl⟩ | ⟨rfl, rfl⟩ <;> exact ⟨by decide, by decide⟩)
  refine ⟨out, h, hc, ?_⟩
  cases h
  decide +kernel

/-- The effect on a crossover with one item of each kind. -/
example : ∃ out, applyEffect (⟨["item", "treatment"], [["cost", "test_1"], ["cost", "test_2"]],
    [⟨[.str "a", .int 0], fun _ => .fin 1⟩, ⟨[.str "b", .int 1], fun _ => .fin 2⟩]⟩ : Wide ℚ) "cost" true (.fin 10) "treatment" = .ok out ∧
    out.rows.map (fun r => out.cols.map r.val) = [[.fin 1, .fin 11], [.fin 12, .fin 2]] := ⟨_, rfl, by decide +kernel⟩

/-- The effect on a regular experiment. -/
example : ∃ out, applyEffect (⟨["item", "treatment"], [["cost", "test"], ["cost", "pretest"]],
    [⟨[.str "a", .int 0], fun _ => .fin 1⟩, ⟨[.str "b", .int 1], fun _ => .fin 2⟩]⟩ : Wide ℚ) "cost" false (.fin 10) "treatment" = .ok out ∧
    out.rows.map (fun r => out.cols.map r.val) = [[.fin 1, .fin 1], [.fin 12, .fin 2]] := ⟨_, rfl, by decide +kernel⟩

end Feedx
