import Verif.Props.DesignValidate
import Verif.Proofs.StudyItems

/-!
The designer's export cells return, also for designs that cut items before the assignment (C118).
-/

set_option linter.unusedSectionVars false
set_option linter.unusedSimpArgs false

namespace Feedx

/-- The items of the experiment can be computed for accepted data and every created design with its metric. -/
theorem eligible_returns {R : Rounding ℝ} {rng : Sampler (Cell ℝ)} {E : Ext ℝ} {S : DateSorter ℝ} {raw data : Frame ℝ}
    {itemCol dateCol primary primaryCol : String} {fraction : ℝ}
    (h : prepareHistorical R rng E S raw itemCol dateCol primary primaryCol fraction [] = .ok data)
    {p : DesignParams ℝ} {d : Design ℝ} (hd : mkDesign R p = .ok d) (hm : d.primaryMetric = Spec.metricName primary primaryCol) (σ : Shuffle) :
    ∃ kept, eligibleItems R σ data d "item_id" (some "week_id") = .ok kept := by
  obtain ⟨hne, -, hfin, ⟨first, -, hweeks⟩, -⟩ := C62_weekly_panel R rng E S raw data itemCol dateCol primary primaryCol fraction h
  obtain ⟨hnull, hi, hw, hmc, hcols⟩ := accepted_facts h
  obtain ⟨hdd, hvalid⟩ := (mkDesign_ok_iff R p d).mp hd
  obtain ⟨hleg, -⟩ := (validateDesign_ok_iff R _).mp hvalid
  have hitem := accepted_items h
  have hfin' : ∀ r ∈ data.rows, Spec.IsFinite (r d.primaryMetric) := by
    intro r hr
    have := (hfin r hr).1
    rwa [show (if primary = "other" then primaryCol else primary) = d.primaryMetric from hm.symm] at this
  have hmi : d.primaryMetric ≠ "item_id" := by
    intro e
    obtain ⟨r, hr⟩ := List.exists_mem_of_ne_nil _ hne
    have h1 := hfin' r hr
    obtain ⟨q, -, h2⟩ := hitem r hr
    rw [e, h2] at h1
    rcases h1 with ⟨i, h1⟩ | ⟨x, h1⟩ <;> cases h1
  unfold eligibleItems
  by_cases ht : d.hasPreTrim
  · rw [if_pos ht]
    have h1 : pretestTotals data d "item_id" "week_id" = .ok ⟨["item_id", d.primaryMetric],
        (groupKeys (pretestRows data "week_id" d.pretest) ["item_id"]).map (weekRow (pretestRows data "week_id" d.pretest) ["item_id"])⟩ := by
      unfold pretestTotals
      refine raiseIf_bind_ok.mpr ⟨?_, raiseIf_bind_ok.mpr ⟨?_, raiseIf_bind_ok.mpr ⟨?_, rfl⟩⟩⟩
      · rw [Bool.not_eq_false, List.all_eq_true]
        intro c hc
        obtain ⟨r, hr, rfl⟩ := List.mem_map.mp hc
        obtain ⟨w, e, -⟩ := hweeks r hr
        rw [e]
      · rw [hm]
        exact fun hx => hx hmc
      · rintro (e | e)
        · exact hmi e
        · obtain ⟨r, hr, e⟩ := List.any_eq_true.mp e
          rcases hfin' r hr with ⟨i, h1⟩ | ⟨x, h1⟩ <;> rw [h1] at e <;> simp [Cell.isNumeric] at e
    have h2 : ∃ t, trimOutliers R σ ⟨["item_id", d.primaryMetric],
        (groupKeys (pretestRows data "week_id" d.pretest) ["item_id"]).map (weekRow (pretestRows data "week_id" d.pretest) ["item_id"])⟩
        d.primaryMetric d.preTop.val d.preBottom.val = .ok t := by
      unfold trimOutliers
      have hkey : d.primaryMetric ∈ ["item_id", d.primaryMetric] := by simp
      suffices hnum : ¬ (((groupKeys (pretestRows data "week_id" d.pretest) ["item_id"]).map
          (weekRow (pretestRows data "week_id" d.pretest) ["item_id"])).any (fun r => !(r d.primaryMetric).isNumeric) = true) by
        by_cases h0 : R.floorMul d.preTop.val ((groupKeys (pretestRows data "week_id" d.pretest) ["item_id"]).map
            (weekRow (pretestRows data "week_id" d.pretest) ["item_id"])).length = 0 ∧
          R.floorMul d.preBottom.val ((groupKeys (pretestRows data "week_id" d.pretest) ["item_id"]).map
            (weekRow (pretestRows data "week_id" d.pretest) ["item_id"])).length = 0
        · exact ⟨_, raiseIf_bind_ok.mpr ⟨not_lt.mpr hleg.top_nonneg, raiseIf_bind_ok.mpr ⟨not_lt.mpr hleg.bottom_nonneg,
            raiseIf_bind_ok.mpr ⟨not_le.mpr hleg.pre_lt_one, if_pos h0⟩⟩⟩⟩
        · exact ⟨_, raiseIf_bind_ok.mpr ⟨not_lt.mpr hleg.top_nonneg, raiseIf_bind_ok.mpr ⟨not_lt.mpr hleg.bottom_nonneg,
            raiseIf_bind_ok.mpr ⟨not_le.mpr hleg.pre_lt_one, (if_neg h0).trans (raiseIf_bind_ok.mpr ⟨fun hk => hk hkey,
              raiseIf_bind_ok.mpr ⟨hnum, rfl⟩⟩)⟩⟩⟩⟩
      intro e
      obtain ⟨r, hr, e⟩ := List.any_eq_true.mp e
      obtain ⟨k, hk, rfl⟩ := List.mem_map.mp hr
      obtain ⟨⟨q, -, rfl⟩, -⟩ := mem_groupKeys.mp hk
      have := (weekRow_item (pretestRows data "week_id" d.pretest) "item_id" d.primaryMetric (q "item_id")).2 hmi
      rw [show ["item_id"].map q = [q "item_id"] from rfl, this] at e
      unfold sumCell at e
      split at e
      · simp [Cell.isNumeric] at e
      · cases hx : sumCol (groupRows (pretestRows data "week_id" d.pretest) ["item_id"] [q "item_id"]) d.primaryMetric <;>
          rw [hx] at e <;> simp [Cell.ofFl, Cell.isNumeric] at e
    obtain ⟨t, h2⟩ := h2
    refine ⟨t.col "item_id", ?_⟩
    rw [Option.getD_some, h1]
    simp only [bind, Except.bind, h2]
    rfl
  · rw [if_neg ht]
    exact ⟨_, rfl⟩

variable {K : Type} [Field K] [LinearOrder K] [IsStrictOrderedRing K] [FloorRing K]

/-- The assignment when the items of the experiment are known: it returns exactly if the sample ratio test of their coinflips does not fail. -/
theorem assignment_returns {R : Rounding K} {σ : Shuffle} {E : Ext K} {binom : ℕ → ℕ → Py K} {bytes : List ℕ} {f : Frame K} {d : Design K}
    {itemCol weekCol treatCol : String} {kept : List (Cell K)} (hi : itemCol ∈ f.cols) (hw : weekCol ∈ f.cols) (hne : itemCol ≠ treatCol)
    (hel : eligibleItems R σ f d itemCol (some weekCol) = .ok kept) (hnd : kept.Nodup) (hnull : .null ∉ kept) {coin : Coinflip}
    (hcoin : chooseCoin d bytes = .ok coin) {p : K} (hp : 1 / 1000 ≤ p)
    (hb : binom (kept.countP (fun i => decide (coin.flip (E.toStr i) = 1))) kept.length = .ok p) :
    performAssignment R σ E binom bytes f d itemCol (some weekCol) treatCol =
      ({ d with salt := some coin.salt }, .ok (assignedFrame E coin itemCol treatCol kept)) := by
  have harm : ∀ a : ℕ, armSize (assignedFrame E coin itemCol treatCol kept) itemCol treatCol (a : K) =
      kept.countP (fun i => decide (coin.flip (E.toStr i) = a)) := by
    intro a
    have e : ((assignedFrame E coin itemCol treatCol kept).rows.filter (fun r => decide ((r treatCol).toFl = .fin (a : K)))).map (fun r => r itemCol) =
        kept.filter (fun i => decide (coin.flip (E.toStr i) = a)) := by
      unfold assignedFrame
      simp only [List.filter_map, List.map_map]
      have e1 : ((fun r : Row K => r itemCol) ∘ fun (i : Cell K) c => if c = itemCol then i else if c = treatCol then .int (coin.flip (E.toStr i)) else .null) = id := by
        funext i; simp
      rw [e1, List.map_id]
      refine List.filter_congr ?_
      intro i _
      simp [hne.symm, Cell.toFl]
    unfold armSize
    rw [e]
    have hsub : (kept.filter (fun i => decide (coin.flip (E.toStr i) = a))).Sublist kept := List.filter_sublist
    rw [nunique_notNull (fun c hc e => hnull (e ▸ hsub.subset hc)), dropDup_eq_self (hnd.sublist hsub), List.countP_eq_length_filter]
  have h1 := harm 1
  have h0 := harm 0
  rw [Nat.cast_one] at h1
  rw [Nat.cast_zero] at h0
  have hsum : armSize (assignedFrame E coin itemCol treatCol kept) itemCol treatCol 1 + armSize (assignedFrame E coin itemCol treatCol kept) itemCol treatCol 0 =
      kept.length := by
    rw [h1, h0, List.length_eq_countP_add_countP (fun i => decide (coin.flip (E.toStr i) = 1))]
    congr 1
    refine List.countP_congr ?_
    intro i _
    have := (C07_coinflip_is_digest_parity coin (E.toStr i)).1
    simp only [decide_eq_true_eq, decide_not, Bool.not_eq_true', decide_eq_false_iff_not]
    omega
  have hratio : checkRatio binom (assignedFrame E coin itemCol treatCol kept) itemCol treatCol = .ok false := by
    unfold checkRatio
    refine raiseIf_bind_ok.mpr ⟨by simp [assignedFrame], ?_⟩
    rw [hsum, h1, hb]
    simp only [bind, Except.bind, pure, Except.pure, not_lt.mpr hp, decide_false]
  unfold performAssignment
  rw [if_neg (by simp), if_neg (by push Not; exact ⟨hi, fun _ => hw⟩), if_neg hne, hcoin]
  simp only [hel, hratio, bind, Except.bind]
  rfl

/-- **C118, the export cells for every design.**  After any cells, for a validated design that passes the five checks there are items of the data, as many as
the design counts after its first cutting, that depend only on the order in which ties are broken, such that: the design is exported, with a table of exactly
those items, whenever the random salt has a byte, the file name ends in ".yaml", and the p-value of the sample ratio test of these items' coinflips, with the
design's salt or else the random one, is not below 1/1000. -/
theorem C118_every_design_exported (V : StudyEnv) (form : StudyForm) (raw data : Frame ℝ) (s : Study) (h : openStudy V form raw = .ok (data, s))
    (hskip : form.skip = []) (hsize : data.rows.length ≤ 2 ^ 51) (cells : List StudyCell) (e : List Char × (SimConfig × SimState))
    (he : e ∈ runCells V data s cells) (mde : Fl ℝ) (aa ab : List TestResult) (hm : e.2.2.mde = some mde) (haa : e.2.2.aa = some aa)
    (hab : e.2.2.ab = some ab) (hne : aa ≠ []) (hpass : Spec.PassesChecks V.tests mde aa ab) (σ : Shuffle) :
    ∃ kept : List (Cell ℝ), kept.Nodup ∧ (kept.length : ℤ) = e.2.1.design.nAfterPre ∧ (∀ i ∈ kept, i ∈ data.col "item_id") ∧
      ∀ (binom : ℕ → ℕ → Py ℝ) (bytes : List ℕ), bytes ≠ [] →
        (∀ salt, (e.2.1.design.salt = some salt ∨ (e.2.1.design.salt.getD "" = "" ∧ salt = String.ofList (Md5.hex bytes))) →
          ∃ p, 1 / 1000 ≤ p ∧ binom (kept.countP (fun i => decide ((Coinflip.mk salt).flip (V.ext.toStr i) = 1))) kept.length = .ok p) →
        ∀ fileName : String, ".yaml".toList.isSuffixOf fileName.toList = true →
        ∃ items file s', exportStudy V binom σ bytes data e.1 fileName (runCells V data s cells) = (.ok (items, file), s') ∧
          items.col "item_id" = kept := by
  obtain ⟨hd, hkeys, designs, hg, _, hent⟩ := opened_entry h
  obtain ⟨e0, he0, hlat, hpair, -⟩ := reached_entry h cells he
  obtain ⟨hdm, hid, hth, -⟩ := hent e0 he0
  obtain ⟨hmk, hnb, hpm, hal, hpw, -⟩ := (C64_members V.R _ designs hg e0.2.1.design).mp hdm
  have hkeys' : ((runCells V data s cells).map Prod.fst).Nodup := by
    have hk : (runCells V data s cells).map Prod.fst = s.map Prod.fst := by
      have := C117_history V data s cells
      generalize runCells V data s cells = l at this
      clear * - this
      induction this with
      | nil => rfl
      | cons h _ ih => rw [List.map_cons, List.map_cons, ih, h.id]
    rw [hk]
    exact hkeys
  have hl := study_mem_lookup hkeys' he
  have hne' : ab ≠ [] := by
    rcases hpair with ⟨n, -⟩ | ⟨x, y, hx, hy, hlen⟩
    · rw [haa] at n; cases n
    · rw [haa] at hx; rw [hab] at hy
      cases hx; cases hy
      rintro rfl
      exact hne (List.length_eq_zero_iff.mp hlen)
  have hda : e.2.1.design = { e0.2.1.design with salt := e.2.1.design.salt } := congrArg SimConfig.design hlat.design
  have halpha : e.2.1.design.alpha.val = 1 / 20 := by rw [hda]; show e0.2.1.design.alpha.val = _; rw [hal]; rfl
  have hpower : e.2.1.design.power.val = 4 / 5 := by rw [hda]; show e0.2.1.design.power.val = _; rw [hpw]; rfl
  have hthr : e.2.1.threshold = 1 / 10000 := by rw [congrArg SimConfig.threshold hlat.design]; exact hth
  obtain ⟨b, hb1, hiff⟩ := C73_true_iff_five_checks (c := e.2.1) V.tests e.2.2 aa ab mde haa hab hm hne hne'
  rw [halpha, hpower, hthr] at hiff
  have hb2 : b = true := hiff.mpr hpass
  subst hb2
  obtain ⟨rate, hrate⟩ : ∃ r, falsePositiveRate e.2.1.design e.2.2 = .ok (some r) := by
    unfold falsePositiveRate significant resultColumn
    rw [haa]
    simp [raiseIf, bind, Except.bind, pure, Except.pure, hne]
  rw [hskip] at hd
  obtain ⟨hnull, hic, hwc, -⟩ := accepted_facts hd
  have hmka : mkDesign V.R e.2.1.design.toDesignParams = .ok e.2.1.design := by
    obtain ⟨hdd, hval⟩ := (mkDesign_ok_iff V.R _ _).mp hmk
    rw [mkDesign_ok_iff]
    refine ⟨?_, ?_⟩
    · rw [hda]
      show _ = deriveCounts V.R { e0.2.1.design.toDesignParams with salt := e.2.1.design.salt }
      conv_lhs => rw [hdd]
      rfl
    · rw [hda]
      exact hval
  obtain ⟨kept, hkept⟩ := eligible_returns hd hmka (by rw [hda]; exact hpm) σ
  have hcn : ∀ (l : List (Cell ℝ)), (∀ i ∈ l, i ∈ data.col "item_id") → Cell.null ∉ l := by
    intro l hl hx
    obtain ⟨r, hr, hx⟩ := List.mem_map.mp (hl _ hx)
    exact hnull r hr hx
  -- the coin
  have hcoins : ∀ bytes : List ℕ, bytes ≠ [] → ∃ coin, chooseCoin e.2.1.design bytes = .ok coin := by
    intro bytes hbytes
    unfold chooseCoin mkCoinflip coinflipOfBytes mkCoinflip
    by_cases hs : e.2.1.design.salt.getD "" ≠ ""
    · rw [if_pos hs, if_neg hs]
      exact ⟨_, rfl⟩
    · rw [if_neg hs, if_neg]
      · exact ⟨_, rfl⟩
      · intro hx
        have := congrArg String.toList hx
        obtain ⟨b, bs, rfl⟩ := List.exists_cons_of_ne_nil hbytes
        simp [Md5.hex] at this
  -- the items that are kept: an assignment whose ratio test always passes has them
  have hfacts : kept.Nodup ∧ (kept.length : ℤ) = e.2.1.design.nAfterPre ∧ ∀ i ∈ kept, i ∈ data.col "item_id" := by
    obtain ⟨coin, hcoin⟩ := hcoins [0] (by simp)
    have hperf : performAssignment V.R σ V.ext (fun _ _ => .ok 1) [0] data e.2.1.design "item_id" (some "week_id") "treatment_assignment" =
        ({ e.2.1.design with salt := some coin.salt }, .ok (assignedFrame V.ext coin "item_id" "treatment_assignment" kept)) := by
      unfold performAssignment
      rw [if_neg (by simp), if_neg (by push Not; exact ⟨hic, fun _ => hwc⟩), if_neg (by decide), hcoin]
      have hr : checkRatio (fun _ _ => .ok 1) (assignedFrame V.ext coin "item_id" "treatment_assignment" kept) "item_id" "treatment_assignment" = .ok false := by
        unfold checkRatio
        refine raiseIf_bind_ok.mpr ⟨by simp [assignedFrame], ?_⟩
        have : ¬ ((1 : ℝ) < 1 / 1000) := by norm_num
        simp only [bind, Except.bind, pure, Except.pure, this, decide_false]
      simp only [hkept, hr, bind, Except.bind]
      rfl
    have hcol := (assignedFrame_cols V.ext coin (show "item_id" ≠ "treatment_assignment" by decide) kept).1
    obtain ⟨-, -, hnd, -⟩ := C57_each_eligible_item_once _ _ _ _ _ _ _ _ _ _ _ _ hsize hperf
    obtain ⟨hc, hi⟩ := assigned_accepted hd hmka (by rw [hda]; exact hnb) (by rw [hda]; exact hpm) hsize hperf
    rw [hcol] at hnd hi
    refine ⟨hnd, ?_, fun i hk => (hi i hk).1⟩
    rw [← hc]
    simp [assignedFrame]
  refine ⟨kept, hfacts.1, hfacts.2.1, hfacts.2.2, ?_⟩
  intro binom bytes hbytes hb fileName hy
  obtain ⟨coin, hcoin⟩ := hcoins bytes hbytes
  obtain ⟨p, hp, hpk⟩ := hb coin.salt (by
    obtain ⟨-, c1, c2⟩ := chooseCoin_ok hcoin
    by_cases hs : e.2.1.design.salt.getD "" = ""
    · exact Or.inr ⟨hs, c2 hs⟩
    · left
      rw [c1 hs]
      cases hx : e.2.1.design.salt with
      | none => rw [hx] at hs; exact absurd rfl hs
      | some x => rfl)
  have hout := assignment_returns (E := V.ext) (binom := binom) (treatCol := "treatment_assignment") hic hwc (by decide) hkept hfacts.1
    (hcn kept hfacts.2.2) hcoin hp hpk
  have hget : Study.get (runCells V data s cells) e.1 = .ok e.2 := by
    unfold Study.get
    rw [hl]
  refine ⟨assignedFrame V.ext coin "item_id" "treatment_assignment" kept, ({ e.2.1.design with salt := some coin.salt } : Design ℝ).asDict,
    dictSet e.1 ({ e.2.1 with design := { e.2.1.design with salt := some coin.salt } }, e.2.2) (runCells V data s cells), ?_,
    (assignedFrame_cols V.ext coin (by decide) kept).1⟩
  unfold exportStudy
  rw [hget]
  simp only [hrate, hb1, hout]
  simp only [raiseIf, bind, Except.bind, pure, Except.pure, hy]
  simp

end Feedx
