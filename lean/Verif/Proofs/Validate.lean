import Verif.Model.Validate
import Verif.Spec.Validate
import Verif.Proofs.Weeks

/-! What each validation check computes. -/

set_option linter.unusedSectionVars false
set_option linter.unusedSimpArgs false

namespace Feedx

variable {K : Type} [Field K] [LinearOrder K]

theorem runCheck_ok {skip : List String} {name : String} {c : Py Bool} {u : Unit} :
    runCheck skip name c = .ok u ↔ ∃ b, c = .ok b ∧ (b = true → name ∈ skip) := by
  unfold runCheck
  cases c with
  | error e => simp [bind, Except.bind]
  | ok b =>
    simp only [bind, Except.bind, Except.ok.injEq, exists_eq_left']
    rw [raiseIf_ok]
    tauto

theorem seq_ok {a b : Py Unit} : (a >>= fun _ => b) = .ok () ↔ a = .ok () ∧ b = .ok () := by
  rw [Py.bind_eq_ok]
  exact ⟨fun ⟨_, h1, h2⟩ => ⟨h1, h2⟩, fun ⟨h1, h2⟩ => ⟨(), h1, h2⟩⟩

theorem Spec.Verdict.seq {a b : Py Unit} {P Q : Prop} (ha : Spec.Verdict a P) (hb : Spec.Verdict b Q) :
    Spec.Verdict (a >>= fun _ => b) (P ∧ Q) := by
  refine ⟨by rw [seq_ok, ha.1, hb.1], fun h => ?_⟩
  by_cases hp : P
  · rw [ha.1.mpr hp]
    exact hb.2 fun hq => h ⟨hp, hq⟩
  · rw [ha.2 hp]
    rfl

/-- A check that comes to a verdict. -/
theorem runCheck_verdict {skip : List String} {name : String} {c : Py Bool} {P : Prop} (h : ∃ b, c = .ok b ∧ (b = false ↔ P)) :
    Spec.Verdict (runCheck skip name c) (name ∈ skip ∨ P) := by
  obtain ⟨b, rfl, hb⟩ := h
  constructor
  · rw [runCheck_ok]
    cases b <;> simp_all
  · intro hn
    push Not at hn
    unfold runCheck
    simp only [bind, Except.bind]
    rw [raiseIf_err]
    cases b <;> simp_all

theorem checkNulls_verdict (f : Frame K) : ∃ b, checkNulls f = .ok b ∧ (b = false ↔ Spec.NoNulls f) := by
  refine ⟨_, rfl, ?_⟩
  rw [Bool.eq_false_iff, ne_eq, List.any_eq_true]
  unfold Spec.NoNulls
  constructor
  · intro h r hr c hc e
    exact h ⟨r, hr, List.any_eq_true.mpr ⟨c, hc, isNull_iff.mpr e⟩⟩
  · rintro h ⟨r, hr, hx⟩
    obtain ⟨c, hc, e⟩ := List.any_eq_true.mp hx
    exact h r hr c hc (isNull_iff.mp e)

theorem itemsOn_eq (f : Frame K) (itemCol dateCol : String) (d : Cell K) :
    itemsOn f itemCol dateCol [d] = Spec.itemsAt f itemCol dateCol d := by
  unfold itemsOn groupRows Spec.itemsAt
  congr 1
  · funext c
    cases c <;> simp [Cell.isNull]
  · congr 1
    refine List.filter_congr fun r _ => ?_
    simp

theorem length_eq_nunique {l : List (Cell K)} (hl : ∀ c ∈ l, c ≠ .null) : l.length = nunique l ↔ l.Nodup := by
  rw [nunique_eq, Finset.erase_eq_of_notMem (by rw [List.mem_toFinset]; exact fun h => hl _ h rfl)]
  constructor
  · intro h
    rw [← Multiset.coe_nodup, ← Multiset.dedup_eq_self]
    refine Multiset.eq_of_le_of_card_le (Multiset.dedup_le _) ?_
    have : l.toFinset.card = (Multiset.dedup (l : Multiset (Cell K))).card := by
      rw [List.card_toFinset, Multiset.coe_dedup, Multiset.coe_card]
    rw [← this, ← h, Multiset.coe_card]
  · intro h
    exact (List.toFinset_card_of_nodup h).symm

theorem dateKeys {f : Frame K} {dateCol : String} (ht : ∀ r ∈ f.rows, ∃ t, r dateCol = .time t) {k : List (Cell K)} :
    k ∈ groupKeys f.rows [dateCol] ↔ ∃ t, Spec.HasDate f dateCol t ∧ k = [.time t] := by
  rw [mem_groupKeys]
  constructor
  · rintro ⟨⟨r, hr, rfl⟩, -⟩
    obtain ⟨t, e⟩ := ht r hr
    exact ⟨t, ⟨r, hr, e⟩, by simp [e]⟩
  · rintro ⟨t, ⟨r, hr, e⟩, rfl⟩
    exact ⟨⟨r, hr, by simp [e]⟩, by simp⟩

theorem checkDuplicates_verdict {f : Frame K} {itemCol dateCol : String} (hi : itemCol ∈ f.cols) (hd : dateCol ∈ f.cols)
    (hne : itemCol ≠ dateCol) (h0 : f.rows ≠ []) (ht : ∀ r ∈ f.rows, ∃ t, r dateCol = .time t) :
    ∃ b, checkDuplicates f itemCol dateCol = .ok b ∧ (b = false ↔ Spec.SameItemCounts f itemCol dateCol) := by
  have hnn : ∀ d, ∀ c ∈ Spec.itemsAt f itemCol dateCol d, c ≠ .null := by
    intro d c hc
    simpa using (List.mem_filter.mp hc).2
  have hgr : ∀ l, l ∈ (groupKeys f.rows [dateCol]).map (itemsOn f itemCol dateCol) ↔
      ∃ t, Spec.HasDate f dateCol t ∧ l = Spec.itemsAt f itemCol dateCol (.time t) := by
    intro l
    rw [List.mem_map]
    constructor
    · rintro ⟨k, hk, rfl⟩
      obtain ⟨t, h1, rfl⟩ := (dateKeys ht).mp hk
      exact ⟨t, h1, itemsOn_eq _ _ _ _⟩
    · rintro ⟨t, h1, rfl⟩
      exact ⟨_, (dateKeys ht).mpr ⟨t, h1, rfl⟩, itemsOn_eq _ _ _ _⟩
  unfold checkDuplicates
  generalize hg : (groupKeys f.rows [dateCol]).map (itemsOn f itemCol dateCol) = groups at hgr
  by_cases hdup : groups.any (fun l => decide (l.length ≠ nunique l)) = true
  · refine ⟨true, raiseIf_bind_ok.mpr ⟨by push Not; exact ⟨hd, hi⟩, raiseIf_bind_ok.mpr ⟨hne, ?_⟩⟩, ?_⟩
    · simp only [hg, hdup, if_true]
      rfl
    · simp only [Bool.true_eq_false, false_iff]
      rintro ⟨h1, -⟩
      obtain ⟨l, hl, e⟩ := List.any_eq_true.mp hdup
      obtain ⟨t, h2, rfl⟩ := (hgr l).mp hl
      exact (decide_eq_true_eq.mp e) ((length_eq_nunique (hnn _)).mpr (h1 t h2))
  · have hnd : ∀ t, Spec.HasDate f dateCol t → (Spec.itemsAt f itemCol dateCol (.time t)).Nodup := by
      intro t h2
      rw [← length_eq_nunique (hnn _)]
      by_contra hc
      exact hdup (List.any_eq_true.mpr ⟨_, (hgr _).mpr ⟨t, h2, rfl⟩, decide_eq_true hc⟩)
    cases hgs : groups with
    | nil =>
      obtain ⟨r, hr⟩ := List.exists_mem_of_ne_nil _ h0
      obtain ⟨t, e⟩ := ht r hr
      have := (hgr _).mpr ⟨t, ⟨r, hr, e⟩, rfl⟩
      rw [hgs] at this
      simp at this
    | cons g rest =>
      rw [hgs] at hg hdup
      refine ⟨(g :: rest).any (fun l => decide (l.length ≠ g.length)),
        raiseIf_bind_ok.mpr ⟨by push Not; exact ⟨hd, hi⟩, raiseIf_bind_ok.mpr ⟨hne, ?_⟩⟩, ?_⟩
      · simp only [if_neg hdup]
        rfl
      · rw [Bool.eq_false_iff, ne_eq, List.any_eq_true]
        obtain ⟨t0, h0, e0⟩ := (hgr g).mp (by rw [hgs]; simp)
        constructor
        · intro h
          have hall : ∀ t, Spec.HasDate f dateCol t → (Spec.itemsAt f itemCol dateCol (.time t)).length = g.length := by
            intro t h2
            by_contra hc
            exact h ⟨_, by rw [← hgs]; exact (hgr _).mpr ⟨t, h2, rfl⟩, decide_eq_true hc⟩
          exact ⟨hnd, fun s t hs ht' => (hall s hs).trans (hall t ht').symm⟩
        · rintro ⟨-, h⟩ ⟨l, hl, e⟩
          rw [← hgs] at hl
          obtain ⟨t, h2, rfl⟩ := (hgr l).mp hl
          refine (decide_eq_true_eq.mp e) ?_
          rw [e0]
          exact h t t0 h2 h0

theorem isTimeColumn_of {f : Frame K} {dateCol : String} (ht : ∀ r ∈ f.rows, ∃ t, r dateCol = .time t) :
    isTimeColumn (f.col dateCol) = true := by
  rw [isTimeColumn_iff]
  intro c hc
  obtain ⟨r, hr, rfl⟩ := List.mem_map.mp hc
  exact Or.inr (ht r hr)

theorem checkSpacing_verdict {f : Frame K} {dateCol : String} (hd : dateCol ∈ f.cols)
    (ht : ∀ r ∈ f.rows, ∃ t, r dateCol = .time t) :
    ∃ b, checkSpacing f dateCol = .ok b ∧ (b = false ↔ Spec.DailyOrWeekly f dateCol) := by
  unfold checkSpacing
  refine ⟨_, raiseIf_bind_ok.mpr ⟨not_not.mpr hd, raiseIf_bind_ok.mpr ⟨by simp [isTimeColumn_of ht], rfl⟩⟩, ?_⟩
  rw [Bool.not_eq_false', Bool.or_eq_true, spacedBy_iff, spacedBy_iff]
  rfl

theorem stepsOk_iff {l : List (ℤ × ℤ)} (hl : l.Pairwise (fun a b => a.2 < b.2)) :
    stepsOk (l.map (fun p => (Cell.int p.1 : Cell K))) = true ↔
      ∀ a ∈ l, ∀ b ∈ l, a.2 < b.2 → (∀ t ∈ l, ¬ (a.2 < t.2 ∧ t.2 < b.2)) → b.1 = a.1 ∨ b.1 = a.1 + 1 := by
  match l with
  | [] => simp [stepsOk]
  | [a] =>
    simp only [List.map_cons, List.map_nil, stepsOk, List.mem_singleton, true_iff]
    rintro x rfl y rfl h
    exact absurd h (lt_irrefl _)
  | a :: b :: l =>
    have ih := stepsOk_iff (List.pairwise_cons.mp hl).2
    rw [List.map_cons] at ih
    rw [List.map_cons, List.map_cons, stepsOk, Bool.and_eq_true, ih]
    have hab : a.2 < b.2 := (List.pairwise_cons.mp hl).1 b (by simp)
    have hal : ∀ x ∈ b :: l, a.2 < x.2 := (List.pairwise_cons.mp hl).1
    have hbl : ∀ x ∈ l, b.2 < x.2 := (List.pairwise_cons.mp (List.pairwise_cons.mp hl).2).1
    have hgap : (decide (b.1 - a.1 = 0 ∨ b.1 - a.1 = 1)) = true ↔ b.1 = a.1 ∨ b.1 = a.1 + 1 := by
      rw [decide_eq_true_eq]
      omega
    rw [hgap]
    constructor
    · rintro ⟨h1, h2⟩ x hx y hy hxy hno
      rcases List.mem_cons.mp hx with rfl | hx'
      · rcases List.mem_cons.mp hy with rfl | hy
        · exact absurd hxy (lt_irrefl _)
        · rcases List.mem_cons.mp hy with rfl | hy
          · exact h1
          · exact absurd ⟨hab, hbl y hy⟩ (hno b (by simp))
      · rcases List.mem_cons.mp hy with rfl | hy'
        · exact absurd (hal x hx') (not_lt.mpr hxy.le)
        · exact h2 x hx' y hy' hxy fun t ht => hno t (List.mem_cons_of_mem _ ht)
    · intro h
      refine ⟨h a (by simp) b (by simp) hab ?_, ?_⟩
      · intro t ht ⟨h1, h2⟩
        rcases List.mem_cons.mp ht with rfl | ht
        · exact lt_irrefl _ h1
        · rcases List.mem_cons.mp ht with rfl | ht
          · exact lt_irrefl _ h2
          · exact absurd (hbl t ht) (not_lt.mpr h2.le)
      · intro x hx y hy hxy hno
        refine h x (List.mem_cons_of_mem _ hx) y (List.mem_cons_of_mem _ hy) hxy ?_
        intro t ht hb
        rcases List.mem_cons.mp ht with rfl | ht
        · exact absurd (hal x hx) (not_lt.mpr hb.1.le)
        · exact hno t ht hb

theorem intTime_list {l : List (Cell K × Cell K)} (h : ∀ p ∈ l, ∃ w t, p = (.int w, .time t)) :
    ∃ m : List (ℤ × ℤ), l = m.map (fun p => (.int p.1, .time p.2)) := by
  induction l with
  | nil => exact ⟨[], rfl⟩
  | cons p l ih =>
    obtain ⟨w, t, rfl⟩ := h p (by simp)
    obtain ⟨m, rfl⟩ := ih fun q hq => h q (by simp [hq])
    exact ⟨(w, t) :: m, rfl⟩

theorem checkWeekIds_verdict {S : DateSorter K} {f : Frame K} {weekCol dateCol : String} (hw : weekCol ∈ f.cols) (hd : dateCol ∈ f.cols)
    (hne : weekCol ≠ dateCol) (ht : ∀ r ∈ f.rows, ∃ t, r dateCol = .time t) (hi : ∀ r ∈ f.rows, ∃ w, r weekCol = .int w)
    (hfun : ∀ r ∈ f.rows, ∀ r' ∈ f.rows, r dateCol = r' dateCol → r weekCol = r' weekCol) :
    ∃ b, checkWeekIds S f weekCol dateCol = .ok b ∧ (b = false ↔ Spec.WeekSteps f weekCol dateCol) := by
  unfold checkWeekIds
  refine ⟨_, raiseIf_bind_ok.mpr ⟨not_not.mpr hw, raiseIf_bind_ok.mpr ⟨?_, raiseIf_bind_ok.mpr ⟨not_not.mpr hd,
    raiseIf_bind_ok.mpr ⟨by simp [hne, isTimeColumn_of ht], rfl⟩⟩⟩⟩, ?_⟩
  · rw [Bool.eq_false_iff, not_not, List.all_eq_true]
    intro c hc
    obtain ⟨r, hr, rfl⟩ := List.mem_map.mp hc
    obtain ⟨w, e⟩ := hi r hr
    simp [e]
  · set pairs := dropDup (f.rows.map (fun r => (r weekCol, r dateCol))) with hpairs
    have hmem : ∀ p, p ∈ S.sort pairs ↔ ∃ r ∈ f.rows, (r weekCol, r dateCol) = p := by
      intro p
      rw [(S.perm pairs).mem_iff, hpairs, mem_dropDup, List.mem_map]
    obtain ⟨m, hm⟩ := intTime_list (l := S.sort pairs) (by
      intro p hp
      obtain ⟨r, hr, rfl⟩ := (hmem p).mp hp
      obtain ⟨w, e1⟩ := hi r hr
      obtain ⟨t, e2⟩ := ht r hr
      exact ⟨w, t, by rw [e1, e2]⟩)
    have hmem2 : ∀ w t, (w, t) ∈ m ↔ ∃ r ∈ f.rows, r weekCol = .int w ∧ r dateCol = .time t := by
      intro w t
      have := hmem (.int w, .time t)
      rw [hm, List.mem_map] at this
      constructor
      · intro h
        obtain ⟨r, hr, e⟩ := this.mp ⟨(w, t), h, rfl⟩
        exact ⟨r, hr, (Prod.mk.inj e).1, (Prod.mk.inj e).2⟩
      · rintro ⟨r, hr, e1, e2⟩
        obtain ⟨q, hq, e⟩ := this.mpr ⟨r, hr, by rw [e1, e2]⟩
        obtain ⟨e3, e4⟩ := Prod.mk.inj e
        cases e3
        cases e4
        exact hq
    have hnd : m.Nodup := by
      have h1 : (S.sort pairs).Nodup := (S.perm pairs).nodup_iff.mpr (nodup_dropDup _)
      rw [hm] at h1
      exact h1.of_map _
    have hsorted : m.Pairwise (fun a b => a.2 < b.2) := by
      have h1 := S.sorted pairs
      rw [hm, List.pairwise_map] at h1
      refine (h1.and hnd).imp_of_mem ?_
      rintro ⟨w1, t1⟩ ⟨w2, t2⟩ ha hb ⟨hle, hne'⟩
      have hle' : t1 ≤ t2 := hle
      refine lt_of_le_of_ne hle' ?_
      rintro rfl
      refine hne' ?_
      obtain ⟨r, hr, e1, e2⟩ := (hmem2 _ _).mp ha
      obtain ⟨r', hr', e3, e4⟩ := (hmem2 _ _).mp hb
      have := hfun r hr r' hr' (e2.trans e4.symm)
      rw [e1, e3] at this
      cases this
      rfl
    rw [Bool.not_eq_false', hm, List.map_map]
    have hs := stepsOk_iff (K := K) hsorted
    rw [show (Prod.fst ∘ fun p : ℤ × ℤ => ((Cell.int p.1 : Cell K), (Cell.time p.2 : Cell K))) = fun p => (Cell.int p.1 : Cell K) from rfl, hs]
    constructor
    · intro h r hr r' hr' v w s t e1 e2 e3 e4 hlt hno
      refine h (v, s) ((hmem2 _ _).mpr ⟨r, hr, e1, e2⟩) (w, t) ((hmem2 _ _).mpr ⟨r', hr', e3, e4⟩) hlt ?_
      rintro ⟨u1, u2⟩ hu
      obtain ⟨r2, hr2, -, e⟩ := (hmem2 _ _).mp hu
      exact hno u2 ⟨r2, hr2, e⟩
    · rintro h ⟨v, s⟩ ha ⟨w, t⟩ hb hlt hno
      obtain ⟨r, hr, e1, e2⟩ := (hmem2 _ _).mp ha
      obtain ⟨r', hr', e3, e4⟩ := (hmem2 _ _).mp hb
      refine h r hr r' hr' v w s t e1 e2 e3 e4 hlt ?_
      rintro u ⟨r2, hr2, e⟩
      obtain ⟨x, ex⟩ := hi r2 hr2
      exact hno (x, u) ((hmem2 _ _).mpr ⟨r2, hr2, ex, e⟩)

theorem isNumeric_iff {c : Cell K} : c.isNumeric = true ↔ Spec.IsNumber c := by
  unfold Spec.IsNumber
  cases c <;> simp [Cell.isNumeric]

theorem isFinite_iff {c : Cell K} : c.toFl.isFinite = true ↔ Spec.IsFinite c := by
  unfold Spec.IsFinite
  cases c with
  | inf b => cases b <;> simp [Cell.toFl, Fl.isFinite]
  | _ => simp [Cell.toFl, Fl.isFinite]

theorem isNegative_iff [IsStrictOrderedRing K] {c : Cell K} : Fl.lt c.toFl (.fin 0) = true ↔ Spec.IsNegative c := by
  unfold Spec.IsNegative
  cases c with
  | inf b => cases b <;> simp [Cell.toFl, Fl.lt]
  | _ => simp [Cell.toFl, Fl.lt]

theorem checkFinite_verdict {f : Frame K} {metrics : List String} (hc : ∀ m ∈ metrics, m ∈ f.cols)
    (hn : ∀ m ∈ metrics, ∀ r ∈ f.rows, Spec.IsNumber (r m)) :
    ∃ b, checkFinite f metrics = .ok b ∧ (b = false ↔ Spec.AllFinite f metrics) := by
  induction metrics with
  | nil => exact ⟨false, rfl, by simp [Spec.AllFinite]⟩
  | cons m rest ih =>
    obtain ⟨b, hb, hiff⟩ := ih (fun x hx => hc x (by simp [hx])) (fun x hx => hn x (by simp [hx]))
    unfold checkFinite
    have hs : ¬ ((f.col m).any (fun c => match c with | .str _ => true | _ => false) = true) := by
      rw [List.any_eq_true]
      rintro ⟨c, hc', e⟩
      obtain ⟨r, hr, rfl⟩ := List.mem_map.mp hc'
      have := hn m (by simp) r hr
      cases hx : r m <;> simp_all [Spec.IsNumber]
    have hs2 : ¬ ((f.col m).any (fun c => !c.isNumeric) = true) := by
      rw [List.any_eq_true]
      rintro ⟨c, hc', e⟩
      obtain ⟨r, hr, rfl⟩ := List.mem_map.mp hc'
      rw [isNumeric_iff.mpr (hn m (by simp) r hr)] at e
      simp at e
    by_cases hf : (f.col m).any (fun c => !c.toFl.isFinite) = true
    · refine ⟨true, raiseIf_bind_ok.mpr ⟨not_not.mpr (hc m (by simp)), raiseIf_bind_ok.mpr ⟨hs, raiseIf_bind_ok.mpr ⟨hs2, ?_⟩⟩⟩, ?_⟩
      · rw [if_pos hf]
        rfl
      · simp only [Bool.true_eq_false, false_iff]
        intro h
        obtain ⟨c, hc', e⟩ := List.any_eq_true.mp hf
        obtain ⟨r, hr, rfl⟩ := List.mem_map.mp hc'
        rw [isFinite_iff.mpr (h m (by simp) r hr)] at e
        simp at e
    · refine ⟨b, raiseIf_bind_ok.mpr ⟨not_not.mpr (hc m (by simp)), raiseIf_bind_ok.mpr ⟨hs, raiseIf_bind_ok.mpr ⟨hs2, ?_⟩⟩⟩, ?_⟩
      · rw [if_neg hf]
        exact hb
      · rw [hiff]
        unfold Spec.AllFinite
        simp only [List.mem_cons, forall_eq_or_imp]
        constructor
        · intro h
          refine ⟨fun r hr => ?_, h⟩
          rw [← isFinite_iff]
          by_contra hcon
          exact hf (List.any_eq_true.mpr ⟨r m, List.mem_map.mpr ⟨r, hr, rfl⟩, by simp [hcon]⟩)
        · exact fun h => h.2

theorem checkNonNegative_verdict [IsStrictOrderedRing K] {f : Frame K} {metrics : List String} (hc : ∀ m ∈ metrics, m ∈ f.cols)
    (hn : ∀ m ∈ metrics, ∀ r ∈ f.rows, Spec.IsNumber (r m)) :
    ∃ b, checkNonNegative f metrics = .ok b ∧ (b = false ↔ Spec.NoneNegative f metrics) := by
  induction metrics with
  | nil => exact ⟨false, rfl, by simp [Spec.NoneNegative]⟩
  | cons m rest ih =>
    obtain ⟨b, hb, hiff⟩ := ih (fun x hx => hc x (by simp [hx])) (fun x hx => hn x (by simp [hx]))
    unfold checkNonNegative
    have hs2 : ¬ ((f.col m).any (fun c => !c.isNumeric) = true) := by
      rw [List.any_eq_true]
      rintro ⟨c, hc', e⟩
      obtain ⟨r, hr, rfl⟩ := List.mem_map.mp hc'
      rw [isNumeric_iff.mpr (hn m (by simp) r hr)] at e
      simp at e
    by_cases hf : (f.col m).any (fun c => Fl.lt c.toFl (.fin 0)) = true
    · refine ⟨true, raiseIf_bind_ok.mpr ⟨not_not.mpr (hc m (by simp)), raiseIf_bind_ok.mpr ⟨hs2, ?_⟩⟩, ?_⟩
      · rw [if_pos hf]
        rfl
      · simp only [Bool.true_eq_false, false_iff]
        intro h
        obtain ⟨c, hc', e⟩ := List.any_eq_true.mp hf
        obtain ⟨r, hr, rfl⟩ := List.mem_map.mp hc'
        exact h m (by simp) r hr (isNegative_iff.mp e)
    · refine ⟨b, raiseIf_bind_ok.mpr ⟨not_not.mpr (hc m (by simp)), raiseIf_bind_ok.mpr ⟨hs2, ?_⟩⟩, ?_⟩
      · rw [if_neg hf]
        exact hb
      · rw [hiff]
        unfold Spec.NoneNegative
        simp only [List.mem_cons, forall_eq_or_imp]
        constructor
        · intro h
          refine ⟨fun r hr hneg => ?_, h⟩
          exact hf (List.any_eq_true.mpr ⟨r m, List.mem_map.mpr ⟨r, hr, rfl⟩, isNegative_iff.mpr hneg⟩)
        · exact fun h => h.2

theorem checkItemCount_verdict {f : Frame K} {d : Design K} {itemCol : String} (hi : itemCol ∈ f.cols) :
    ∃ b, checkItemCount f d itemCol = .ok b ∧ (b = false ↔ ((Spec.itemSet f itemCol).card : ℤ) = d.nAfterPre) := by
  unfold checkItemCount
  refine ⟨_, raiseIf_bind_ok.mpr ⟨not_not.mpr hi, rfl⟩, ?_⟩
  rw [decide_eq_false_iff_not, not_not, nunique_eq]
  rfl

theorem minTime_any {f : Frame K} {dateCol : String} {x : ℤ} (h0 : f.rows ≠ []) (ht : ∀ r ∈ f.rows, ∃ t, r dateCol = .time t) :
    (minTime (f.col dateCol)).any (fun t => decide (t > x)) = true ↔ ¬ ∃ t, Spec.HasDate f dateCol t ∧ t ≤ x := by
  obtain ⟨r, hr⟩ := List.exists_mem_of_ne_nil _ h0
  obtain ⟨t, e⟩ := ht r hr
  cases hm : minTime (f.col dateCol) with
  | none => exact absurd (List.mem_map.mpr ⟨r, hr, e⟩) (minTime_none hm t)
  | some m =>
    have hl := minTime_some hm
    simp only [Option.any_some, decide_eq_true_eq]
    constructor
    · rintro h ⟨t', ⟨r', hr', e'⟩, hle⟩
      have := hl.2 (List.mem_map.mpr ⟨r', hr', e'⟩)
      omega
    · intro h
      by_contra hc
      obtain ⟨r', hr', e'⟩ := List.mem_map.mp hl.1
      exact h ⟨m, ⟨r', hr', e'⟩, by omega⟩

theorem maxTime_any {f : Frame K} {dateCol : String} {x : ℤ} (h0 : f.rows ≠ []) (ht : ∀ r ∈ f.rows, ∃ t, r dateCol = .time t) :
    (maxTime (f.col dateCol)).any (fun t => decide (t < x)) = true ↔ ¬ ∃ t, Spec.HasDate f dateCol t ∧ x ≤ t := by
  obtain ⟨r, hr⟩ := List.exists_mem_of_ne_nil _ h0
  obtain ⟨t, e⟩ := ht r hr
  cases hm : maxTime (f.col dateCol) with
  | none =>
    exfalso
    unfold maxTime at hm
    rw [List.max?_eq_none_iff] at hm
    have hx : t ∈ times (f.col dateCol) := mem_times.mpr (List.mem_map.mpr ⟨r, hr, e⟩)
    rw [hm] at hx
    simp at hx
  | some m =>
    have hl := maxTime_some hm
    simp only [Option.any_some, decide_eq_true_eq]
    constructor
    · rintro h ⟨t', ⟨r', hr', e'⟩, hle⟩
      have := hl.2 (List.mem_map.mpr ⟨r', hr', e'⟩)
      omega
    · intro h
      by_contra hc
      obtain ⟨r', hr', e'⟩ := List.mem_map.mp hl.1
      exact h ⟨m, ⟨r', hr', e'⟩, by omega⟩

theorem checkDateRange_verdict {E : Ext K} {f : Frame K} {d : Design K} {dateCol startDate : String} {start : ℤ} {concluded : Bool}
    (hs : E.strptime startDate = some start) (hd : dateCol ∈ f.cols) (h0 : f.rows ≠ [])
    (ht : ∀ r ∈ f.rows, ∃ t, r dateCol = .time t) :
    ∃ b, checkDateRange E f d dateCol startDate concluded = .ok b ∧
      (b = false ↔ Spec.CoversDates f dateCol start d.pretest d.runtime concluded) := by
  unfold checkDateRange
  simp only [hs]
  have e1 : start - d.pretest * 7 * dayNs = start - d.pretest * (7 * 86400000000000) := by unfold dayNs; ring
  have e2 : start + (d.runtime - 1) * 7 * dayNs = start + (d.runtime - 1) * (7 * 86400000000000) := by unfold dayNs; ring
  rw [e1, e2]
  have m1 := minTime_any (x := start - d.pretest * (7 * 86400000000000)) h0 ht
  have m2 := maxTime_any (x := start + (d.runtime - 1) * (7 * 86400000000000)) h0 ht
  unfold Spec.CoversDates
  by_cases h1 : (minTime (f.col dateCol)).any (fun t => decide (t > start - d.pretest * (7 * 86400000000000))) = true
  · refine ⟨true, raiseIf_bind_ok.mpr ⟨not_not.mpr hd, raiseIf_bind_ok.mpr ⟨by simp [isTimeColumn_of ht], ?_⟩⟩, ?_⟩
    · rw [if_pos h1]
      rfl
    · simp only [Bool.true_eq_false, false_iff]
      exact fun h => m1.mp h1 h.1
  · have c1 : ∃ t, Spec.HasDate f dateCol t ∧ t ≤ start - d.pretest * (7 * 86400000000000) := by
      by_contra hc
      exact h1 (m1.mpr hc)
    cases concluded with
    | false =>
      refine ⟨false, raiseIf_bind_ok.mpr ⟨not_not.mpr hd, raiseIf_bind_ok.mpr ⟨by simp [isTimeColumn_of ht], ?_⟩⟩, ?_⟩
      · rw [if_neg h1]
        rfl
      · simp only [true_iff]
        exact ⟨c1, fun h => by simp at h⟩
    | true =>
      by_cases h2 : (maxTime (f.col dateCol)).any (fun t => decide (t < start + (d.runtime - 1) * (7 * 86400000000000))) = true
      · refine ⟨true, raiseIf_bind_ok.mpr ⟨not_not.mpr hd, raiseIf_bind_ok.mpr ⟨by simp [isTimeColumn_of ht], ?_⟩⟩, ?_⟩
        · rw [if_neg h1, if_pos rfl, if_pos h2]
          rfl
        · simp only [Bool.true_eq_false, false_iff]
          exact fun h => m2.mp h2 (h.2 (by simp))
      · refine ⟨false, raiseIf_bind_ok.mpr ⟨not_not.mpr hd, raiseIf_bind_ok.mpr ⟨by simp [isTimeColumn_of ht], ?_⟩⟩, ?_⟩
        · rw [if_neg h1, if_pos rfl, if_neg h2]
          rfl
        · simp only [true_iff]
          refine ⟨c1, fun _ => ?_⟩
          by_contra hc
          exact h2 (m2.mpr hc)

theorem checkUnique_verdict {f : Frame K} {itemCol treatCol : String} (hi : itemCol ∈ f.cols) (hc : treatCol ∈ f.cols) :
    ∃ b, checkUnique f itemCol treatCol = .ok b ∧ (b = false ↔ Spec.AssignedOnce f itemCol treatCol) := by
  unfold checkUnique
  refine ⟨_, raiseIf_bind_ok.mpr ⟨by push Not; exact ⟨hi, hc⟩, rfl⟩, ?_⟩
  have key : ∀ i, nunique ((groupRows f.rows [itemCol] [i]).map (fun r => r treatCol)) = 1 ↔
      ∃ a, a ≠ .null ∧ (∃ r ∈ f.rows, r itemCol = i ∧ r treatCol = a) ∧
        ∀ r ∈ f.rows, r itemCol = i → r treatCol = a ∨ r treatCol = .null := by
    intro i
    have hmem : ∀ a, a ∈ ((groupRows f.rows [itemCol] [i]).map (fun r => r treatCol)).toFinset.erase .null ↔
        a ≠ .null ∧ ∃ r ∈ f.rows, r itemCol = i ∧ r treatCol = a := by
      intro a
      rw [Finset.mem_erase, List.mem_toFinset, List.mem_map]
      unfold groupRows
      simp [List.mem_filter, and_assoc]
    rw [nunique_eq, Finset.card_eq_one]
    constructor
    · rintro ⟨a, e⟩
      have ha := (hmem a).mp (by rw [e]; simp)
      refine ⟨a, ha.1, ha.2, fun r hr e1 => ?_⟩
      by_cases hn : r treatCol = .null
      · exact Or.inr hn
      · have := (hmem (r treatCol)).mpr ⟨hn, r, hr, e1, rfl⟩
        rw [e, Finset.mem_singleton] at this
        exact Or.inl this
    · rintro ⟨a, h1, h2, h3⟩
      refine ⟨a, ?_⟩
      ext x
      rw [hmem, Finset.mem_singleton]
      constructor
      · rintro ⟨hx, r, hr, e1, rfl⟩
        exact (h3 r hr e1).resolve_right hx
      · rintro rfl
        exact ⟨h1, h2⟩
  rw [Bool.eq_false_iff, ne_eq, List.any_eq_true]
  constructor
  · intro h i hi' hn
    rw [← key i]
    by_contra hcon
    obtain ⟨r, hr, rfl⟩ := List.mem_map.mp hi'
    exact h ⟨[r itemCol], mem_groupKeys.mpr ⟨⟨r, hr, rfl⟩, by simpa using hn⟩, decide_eq_true hcon⟩
  · rintro h ⟨k, hk, e⟩
    obtain ⟨⟨r, hr, rfl⟩, hn⟩ := mem_groupKeys.mp hk
    refine (decide_eq_true_eq.mp e) ((key (r itemCol)).mpr (h _ (List.mem_map.mpr ⟨r, hr, rfl⟩) ?_))
    exact hn _ (by simp)

theorem isNat_iff [IsStrictOrderedRing K] {c : Cell K} {n : ℕ} : c.toFl = .fin (n : K) ↔ Spec.IsNat c n := by
  unfold Spec.IsNat
  cases c with
  | inf b => cases b <;> simp [Cell.toFl]
  | int i =>
    simp only [Cell.toFl, Fl.fin.injEq, Cell.int.injEq, reduceCtorEq, or_false]
    exact_mod_cast Iff.rfl
  | _ => simp [Cell.toFl]

theorem checkCoinflip_verdict [IsStrictOrderedRing K] {E : Ext K} {f : Frame K} {d : Design K} {itemCol treatCol salt : String}
    (hi : itemCol ∈ f.cols) (hc : treatCol ∈ f.cols) (hs : d.salt = some salt) (hs0 : salt ≠ "") :
    ∃ b, checkCoinflip E f d treatCol itemCol = .ok b ∧
      (b = false ↔ ∀ r ∈ f.rows, Spec.IsNat (r treatCol) ((Coinflip.mk salt).flip (E.toStr (r itemCol)))) := by
  unfold checkCoinflip
  refine ⟨_, raiseIf_bind_ok.mpr ⟨not_not.mpr hc, Py.bind_eq_ok.mpr ⟨⟨salt⟩, ?_, raiseIf_bind_ok.mpr ⟨not_not.mpr hi, rfl⟩⟩⟩, ?_⟩
  · rw [hs]
    unfold mkCoinflip
    simp [hs0]
  · rw [Bool.not_eq_false', List.all_eq_true]
    refine forall_congr' fun r => forall_congr' fun _ => ?_
    rw [decide_eq_true_eq, isNat_iff]

theorem armSize_eq [IsStrictOrderedRing K] (f : Frame K) (itemCol treatCol : String) (a : ℕ) :
    armSize f itemCol treatCol (a : K) = (Spec.arm f itemCol treatCol a).card := by
  unfold armSize Spec.arm
  rw [nunique_eq]
  congr 3
  congr 1
  refine List.filter_congr fun r _ => ?_
  exact decide_eq_decide.mpr isNat_iff

theorem checkRatio_verdict [IsStrictOrderedRing K] {binom : ℕ → ℕ → Py K} {f : Frame K} {itemCol treatCol : String} {p : K}
    (hi : itemCol ∈ f.cols) (hc : treatCol ∈ f.cols)
    (hp : binom (Spec.arm f itemCol treatCol 1).card ((Spec.arm f itemCol treatCol 1).card + (Spec.arm f itemCol treatCol 0).card) = .ok p) :
    ∃ b, checkRatio binom f itemCol treatCol = .ok b ∧ (b = false ↔ 1 / 1000 ≤ p) := by
  unfold checkRatio
  have a1 := armSize_eq f itemCol treatCol 1
  have a0 := armSize_eq f itemCol treatCol 0
  push_cast at a1 a0
  rw [a1, a0, hp]
  refine ⟨_, raiseIf_bind_ok.mpr ⟨by push Not; exact ⟨hc, hi⟩, rfl⟩, ?_⟩
  rw [decide_eq_false_iff_not, not_lt]

theorem checkPrimary_verdict (metrics : List String) (primary : String) :
    ∃ b, checkPrimary metrics primary = .ok b ∧ (b = false ↔ primary ∈ metrics) := by
  refine ⟨_, rfl, ?_⟩
  rw [decide_eq_false_iff_not, not_not]

end Feedx
