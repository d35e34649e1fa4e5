import Verif.Proofs.DesignNames
import Verif.Props.DesignExportExample
import Verif.Props.ItemNames

/-!
C139: a session of the experiment designer does not depend on what the items are called.
-/

set_option linter.unusedSectionVars false

namespace Feedx

open Spec (named)

/-- **C139, the data.**  Give the items of the history new names that sort like the old ones (with a common prefix, say).  Both histories are prepared and accepted, or
refused with the same error; and the prepared tables are the same except for the names. -/
theorem C139_prepared_data {K : Type} [Field K] [LinearOrder K] [FloorRing K] (ρ : String → String) (hρ : StrictMono ρ) (R : Rounding K) (rng : Sampler (Cell K))
    (hr : Spec.PicksPositions rng) (E : Ext K) (D : DateSorter K) (raw raw' : Frame K) (itemCol dateCol primary primaryCol : String) (fraction : K)
    (skip : List String) (h : Spec.RawNamed E itemCol ρ raw raw') :
    Spec.SameOutcome (Spec.TableNamed ρ) (prepareHistorical R rng E D raw itemCol dateCol primary primaryCol fraction skip)
      (prepareHistorical R rng E D raw' itemCol dateCol primary primaryCol fraction skip) := by
  rw [prepareHistorical_named hρ hr h]
  cases prepareHistorical R rng E D raw itemCol dateCol primary primaryCol fraction skip with
  | error e => rfl
  | ok f => exact namedFrame_table f

theorem namedStudy_session {ρ : String → String} (s : Study) : Spec.SessionNamed ρ s (namedStudy ρ s) := by
  unfold Spec.SessionNamed namedStudy
  rw [List.forall₂_map_right_iff, List.forall₂_same]
  exact fun e _ => ⟨rfl, rfl, namedFrame_table _, rfl, rfl, rfl, rfl, rfl, rfl⟩

/-- **C139.**  Take two raw tables that are the same except that the items of the second one have new names that sort like the old ones.  With the same form and the
same random draws the designer opens a session for both, or raises the same error for both.  The prepared histories are the same except for the names, and the designs,
their estimates and later their simulation results are the same.  After any sequence of validations and assignments this is still so; the next validation returns in
both sessions, or raises the same error in both; and the table that is shown is the same.  The next assignment takes the same items in both sessions, under their
respective names and in the same order, and writes the same design file; or it raises the same error in both; or it returns in one of them and raises a `ValueError` in
the other (who is treated does depend on the names, and so does the check of the sizes of the two groups).  The last case is impossible if the test of the sizes finds
no sizes too unlikely. -/
theorem C139_session_names (ρ : String → String) (hρ : StrictMono ρ) (V : StudyEnv) (hr : Spec.PicksPositions V.rng) (form : StudyForm) {raw raw' : Frame ℝ}
    (hraw : Spec.RawNamed V.ext form.itemCol ρ raw raw') :
    Spec.SameOutcome (fun (S S' : Frame ℝ × Study) => Spec.TableNamed ρ S.1 S'.1 ∧ ∀ cells : List StudyCell,
        let s := runCells V S.1 S.2 cells
        let s' := runCells V S'.1 S'.2 cells
        Spec.SessionNamed ρ s s' ∧
        (∀ force targets, (validateStudy V force targets s').1 = (validateStudy V force targets s).1) ∧
        (∀ sorter text withValidation, showStudy V sorter text withValidation s' = showStudy V sorter text withValidation s) ∧
        (∀ binom σ bytes id fileName, (∀ k n, ∃ p, binom k n = .ok p) →
          Spec.SameButRatio (fun out out' => out'.2 = out.2 ∧ out'.1.cols = out.1.cols ∧ out'.1.col "item_id" = (out.1.col "item_id").map (named ρ))
            (exportStudy V binom σ bytes S.1 id fileName s).1 (exportStudy V binom σ bytes S'.1 id fileName s').1) ∧
        ∀ binom σ bytes id fileName, (∀ k n, ∃ p, 1 / 1000 ≤ p ∧ binom k n = .ok p) →
          Spec.SameOutcome (fun out out' => out'.2 = out.2 ∧ out'.1.cols = out.1.cols ∧ out'.1.col "item_id" = (out.1.col "item_id").map (named ρ))
            (exportStudy V binom σ bytes S.1 id fileName s).1 (exportStudy V binom σ bytes S'.1 id fileName s').1)
      (openStudy V form raw) (openStudy V form raw') := by
  rw [openStudy_named hρ V hr form hraw]
  cases e : openStudy V form raw with
  | error x => rfl
  | ok S =>
    have hn : StudyColumns S.2 := fun T hT => openStudy_names hT e
    refine ⟨namedFrame_table S.1, fun cells => ?_⟩
    obtain ⟨h1, h2⟩ := runCells_named hρ V S.1 cells hn
    simp only
    rw [h1]
    exact ⟨namedStudy_session _, fun force targets => by rw [(validateStudy_named hρ V force targets h2).1], fun sorter text b => showStudy_named V sorter text b _,
      fun binom σ bytes id fileName hb => exportStudy_named hρ V hb σ bytes S.1 id fileName _,
      fun binom σ bytes id fileName hb => exportStudy_accepted hρ V hb σ bytes S.1 id fileName _⟩

/-- The generator of the examples picks positions. -/
theorem takeSampler_positions (α : Type) : Spec.PicksPositions (takeSampler α) := fun g l n => (List.map_take (f := g) (l := l) (i := n)).symm

/-- C139 for a session that is opened. -/
theorem session_names_ok (ρ : String → String) (hρ : StrictMono ρ) (V : StudyEnv) (hr : Spec.PicksPositions V.rng) (form : StudyForm) {raw raw' : Frame ℝ}
    (hraw : Spec.RawNamed V.ext form.itemCol ρ raw raw') {data : Frame ℝ} {s : Study} (h : openStudy V form raw = .ok (data, s)) :
    ∃ data' s', openStudy V form raw' = .ok (data', s') ∧ Spec.SessionNamed ρ s s' ∧ ∀ {cells binom σ bytes id fileName}, (∀ k n, ∃ p, 1 / 1000 ≤ p ∧ binom k n = .ok p) →
      Spec.SameOutcome (fun out out' => out'.2 = out.2 ∧ out'.1.cols = out.1.cols ∧ out'.1.col "item_id" = (out.1.col "item_id").map (named ρ))
        (exportStudy V binom σ bytes data id fileName (runCells V data s cells)).1
        (exportStudy V binom σ bytes data' id fileName (runCells V data' s' cells)).1 := by
  have key := C139_session_names ρ hρ V hr form hraw
  rw [h] at key
  cases h' : openStudy V form raw' with
  | error e => rw [h'] at key; exact key.elim
  | ok S' =>
    rw [h'] at key
    exact ⟨S'.1, S'.2, rfl, (key.2 []).1, fun {cells} {_} {_} {_} {_} {_} hb => (key.2 cells).2.2.2.2 _ _ _ _ _ hb⟩

/-- `C139_session_names` is not vacuous: the study of C118 that cuts items, with sixty items over five weeks, is opened and validated for the same items with a prefix
too, with the same estimates.  It is exported with 54 items, and with the prefix it is exported with the same 54 items and the same design file. -/
example : ∃ (V : StudyEnv) (data data' : Frame ℝ) (s s' : Study) (cells : List StudyCell) (id : List Char) (items : Frame ℝ) (file : Dict (YVal ℝ)),
    openStudy V trimForm (studyRaw "profit") = .ok (data, s) ∧
    openStudy V trimForm (renamedRaw studyExt "id" (fun t => "sku-" ++ t) (studyRaw "profit")) = .ok (data', s') ∧ Spec.SessionNamed (fun t => "sku-" ++ t) s s' ∧
    items.rows.length = 54 ∧ (exportStudy V (fun _ _ => .ok 1) noShuffle [1] data id "design.yaml" (runCells V data s cells)).1 = .ok (items, file) ∧
    ∃ items', (exportStudy V (fun _ _ => .ok 1) noShuffle [1] data' id "design.yaml" (runCells V data' s' cells)).1 = .ok (items', file) ∧
      items'.col "item_id" = (items.col "item_id").map (named fun t => "sku-" ++ t) := by
  obtain ⟨V, data, s, cells, id, hg, hV, -, -, h, -, items, file, s1, hexp, hlen⟩ := trimForm_exported_take
  have k : Spec.RawNamed V.ext trimForm.itemCol (fun t => "sku-" ++ t) (studyRaw "profit") (renamedRaw studyExt "id" (fun t => "sku-" ++ t) (studyRaw "profit")) := by
    rw [hV]
    exact renamedRaw_named _ _ _ _
  obtain ⟨data', s', h', hs, k⟩ := session_names_ok _ (prefix_strictMono "sku-") V (by rw [hg]; exact takeSampler_positions _) trimForm k h
  have k := k (cells := cells) (binom := fun _ _ => .ok 1) (σ := noShuffle) (bytes := [1]) (id := id) (fileName := "design.yaml") (fun _ _ => ⟨1, by norm_num, rfl⟩)
  refine ⟨V, data, data', s, s', cells, id, items, file, h, h', hs, hlen, by rw [hexp], ?_⟩
  rw [hexp] at k
  cases e : (exportStudy V (fun _ _ => .ok 1) noShuffle [1] data' id "design.yaml" (runCells V data' s' cells)).1 with
  | error x =>
    rw [e] at k
    exact k.elim
  | ok out =>
    rw [e] at k
    obtain ⟨k1, -, k2⟩ : _ ∧ _ ∧ _ := k
    exact ⟨out.1, congrArg Except.ok (Prod.ext rfl k1), k2⟩

end Feedx
