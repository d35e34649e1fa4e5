import Verif.Props.Units
import Verif.Props.RawEstimateExample

/-!
A concrete case for C127: the sixty items of the example study, with the values in cents.
-/

namespace Feedx

/-- The row of the example study with its value times a hundred. -/
noncomputable def centsRow (p : ℕ × ℕ) : Row ℝ := fun c => if c = "profit" then .num (100 * (p.1 + 1)) else studyRow "profit" p c

/-- The example study in cents. -/
noncomputable def centsRaw : Frame ℝ where
  cols := ["id", "day", "profit"]
  rows := (List.range 60 ×ˢ List.range 5).map centsRow

theorem centsRow_value (p : ℕ × ℕ) : centsRow p "profit" = .num (100 * (p.1 + 1 : ℝ)) := rfl

theorem centsRow_id (p : ℕ × ℕ) : centsRow p "id" = .str (itemText p.1) := rfl

theorem centsRow_day (p : ℕ × ℕ) : centsRow p "day" = .time (p.2 * (7 * 86400000000000)) := rfl

theorem cents_units : Spec.InOtherUnits studyExt "id" 100 (studyRaw "profit") centsRaw studyTime studyTime (studyValue "profit") (studyValue "profit") := by
  show List.Forall₂ _ (List.map _ _) (List.map _ _)
  rw [List.forall₂_map_left_iff, List.forall₂_map_right_iff, List.forall₂_same]
  intro p _
  refine ⟨rfl, rfl, ?_⟩
  unfold studyValue
  rw [centsRow_value, studyRow_value (by decide) (by decide)]

theorem cents_mem {r : Row ℝ} (h : r ∈ centsRaw.rows) : ∃ i w, i < 60 ∧ w < 5 ∧ r = centsRow (i, w) := by
  obtain ⟨⟨i, w⟩, hp, rfl⟩ := List.mem_map.mp h
  rw [List.mem_product, List.mem_range, List.mem_range] at hp
  exact ⟨i, w, hp.1, hp.2, rfl⟩

theorem mem_cents {i w : ℕ} (hi : i < 60) (hw : w < 5) : centsRow (i, w) ∈ centsRaw.rows :=
  List.mem_map.mpr ⟨(i, w), List.mem_product.mpr ⟨List.mem_range.mpr hi, List.mem_range.mpr hw⟩, rfl⟩

theorem cents_usable : Spec.UsableRaw studyExt centsRaw "id" "day" "other" "profit" 0 7 5 studyTime (studyValue "profit") := by
  refine ⟨by decide, fun _ hc => absurd hc (by decide), ?_, ?_, ?_, ?_, ?_, ?_⟩
  · simp [centsRaw]
  · exact ⟨by decide, by decide, by decide⟩
  · intro r hr
    obtain ⟨i, w, -, -, rfl⟩ := cents_mem hr
    rfl
  · intro r hr
    obtain ⟨i, w, -, -, rfl⟩ := cents_mem hr
    unfold studyValue
    rw [centsRow_value]
    rfl
  · intro t
    constructor
    · rintro ⟨r, hr, rfl⟩
      obtain ⟨i, w, -, hw, rfl⟩ := cents_mem hr
      exact ⟨w, by omega, by omega, by change (w : ℤ) * (7 * 86400000000000) = _; omega⟩
    · rintro ⟨k, h0, hk, rfl⟩
      obtain ⟨n, rfl⟩ := Int.eq_ofNat_of_zero_le h0
      refine ⟨_, mem_cents (i := 0) (w := n) (by norm_num) (by omega), ?_⟩
      change (n : ℤ) * (7 * 86400000000000) = _
      omega
  · refine Or.inr ⟨rfl, by norm_num, ?_⟩
    show List.Pairwise _ (List.map _ _)
    rw [List.pairwise_map]
    refine (List.Nodup.product List.nodup_range List.nodup_range).imp ?_
    rintro ⟨i, w⟩ ⟨i', w'⟩ hne ⟨e1, e2⟩
    apply hne
    have e1 : itemText i = itemText i' := e1
    have e2 : (w : ℤ) * (7 * 86400000000000) = (w' : ℤ) * (7 * 86400000000000) := e2
    rw [itemText_inj e1, show w = w' by omega]

theorem cents_study (V : StudyEnv) (hV : V.ext = studyExt) (x : Bool) :
    Spec.RawStudy V (oneForm x) centsRaw 0 7 5 studyTime (studyValue "profit") := by
  have hc : (centsRaw.rows.map (fun q => studyExt.toStr (q "id"))).toFinset.card = 60 := by
    rw [← studyRaw_items "profit"]
    refine congrArg (fun l : List String => l.toFinset.card) ?_
    unfold centsRaw studyRaw
    dsimp only
    rw [List.map_map, List.map_map]
    exact List.map_congr_left (fun p _ => rfl)
  refine ⟨?_, ?_, ?_, ?_, ?_⟩
  · rw [hV]
    exact cents_usable
  · show (0 : ℝ) < 1; norm_num
  · show (1 : ℝ) ≤ 1; norm_num
  · rw [hV]
    show (1 : ℝ) ≤ (1 : ℝ) * (((centsRaw.rows.map (fun q => studyExt.toStr (q "id"))).toFinset.card : ℕ) : ℝ)
    rw [hc]; norm_num
  · rw [hV]
    show (centsRaw.rows.map (fun q => studyExt.toStr (q "id"))).toFinset.card ≤ _
    rw [hc]; norm_num

/-- C127 applies: in cents the average is 3050 instead of 61/2, and the relative effect is the same. -/
theorem cents_estimates (V : StudyEnv) (hV : V.ext = studyExt) (ha : ArgsortOk V.argsort) (x : Bool) :
    ∃ data s data' s', openStudy V (oneForm x) (studyRaw "profit") = .ok (data, s) ∧ openStudy V (oneForm x) centsRaw = .ok (data', s') ∧ s ≠ [] ∧
      List.Forall₂ (fun e e' => Spec.TimesOrNan 100 e.2.2.average e'.2.2.average ∧ e'.2.2.relativeMde = e.2.2.relativeMde) s s' := by
  obtain ⟨data, s, h, hs, -, hall⟩ := oneForm_opened x V hV ha
  have A := study_raw V hV (oneForm x) ⟨rfl, rfl, rfl, rfl, rfl⟩
  obtain ⟨data', s', h', hp⟩ := C127_relative_effect V ha (oneForm x) _ _ 0 7 5 _ _ _ _ A (cents_study V hV x) 100 (by norm_num)
    (by rw [hV]; exact cents_units) rfl (fun hh => absurd hh.2 (by show "profit" ≠ _; decide)) rfl data s h
  refine ⟨data, s, data', s', h, h', hs, forall₂_imp_mem hp (fun e he e' _ hee => ?_)⟩
  obtain ⟨-, -, -, -, m2, m3, m4, -, m5⟩ := hall e he
  obtain ⟨r1, -, -, r4⟩ := hee.2.2 ⟨m2, m3, m5⟩
  exact ⟨r1, r4⟩

end Feedx
