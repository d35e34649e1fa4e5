import Verif.Props.Design
import Verif.Proofs.DesignId
import Verif.Model.Coinflip

/-!
Properties C05-C07 and C82: design ids and the coinflip.
-/

set_option linter.unusedSectionVars false

namespace Feedx

variable {K : Type} [Field K] [LinearOrder K] [IsStrictOrderedRing K] [FloorRing K]

theorem designIdText_of_created (R : Rounding K) (fr : K → List Char) (pr : Char → Bool)
    {p : DesignParams K} {d : Design K} (h : mkDesign R p = .ok d) (s : Option String) :
    designIdText R fr pr { d with salt := s } = .ok (reprDesign fr pr { d with salt := none }) := by
  obtain ⟨rfl, hv⟩ := (mkDesign_ok_iff R p d).mp h
  have : mkDesign R { p with salt := none } = .ok { deriveCounts R p with salt := none } := by
    rw [mkDesign_ok_iff]
    refine ⟨rfl, ?_⟩
    rw [validateDesign_ok_iff] at hv ⊢
    exact ⟨⟨hv.1.1, hv.1.2, hv.1.3, hv.1.4, hv.1.5, hv.1.6, hv.1.7, hv.1.8, hv.1.9⟩, hv.2⟩
  unfold designIdText
  show (mkDesign R { p with salt := none } >>= _) = _
  rw [this]
  rfl

/-- **C05.**  `design_id` is defined for every created design and does not change whatever salt is
stored in it. -/
theorem C05_design_id_ignores_salt (R : Rounding K) (fr : K → List Char) (pr : Char → Bool)
    (p : DesignParams K) (d : Design K) (h : mkDesign R p = .ok d) (s s' : Option String) :
    designId R fr pr { d with salt := s } = designId R fr pr { d with salt := s' } ∧
      ∃ hex, designId R fr pr { d with salt := s } = .ok hex := by
  unfold designId
  rw [designIdText_of_created R fr pr h, designIdText_of_created R fr pr h]
  exact ⟨rfl, _, rfl⟩

/-- **C05.**  Two designs created with the same arguments except the salt have the same id. -/
theorem C05_same_arguments_same_id (R : Rounding K) (fr : K → List Char) (pr : Char → Bool)
    (p : DesignParams K) (s s' : Option String) (d d' : Design K)
    (h : mkDesign R { p with salt := s } = .ok d) (h' : mkDesign R { p with salt := s' } = .ok d') :
    designId R fr pr d = designId R fr pr d' := by
  have e : d' = { d with salt := s' } := by
    obtain ⟨rfl, -⟩ := (mkDesign_ok_iff R _ d).mp h
    obtain ⟨rfl, -⟩ := (mkDesign_ok_iff R _ d').mp h'
    rfl
  have e0 : d = { d with salt := s } := by
    obtain ⟨rfl, -⟩ := (mkDesign_ok_iff R _ d).mp h
    rfl
  rw [e]
  conv_lhs => rw [e0]
  exact (C05_design_id_ignores_salt R fr pr _ d h s s').1

/-- **C06.**  The texts hashed for the ids of two created designs are equal only if the designs agree
in every field except possibly the salt. -/
theorem C06_hashed_text_separates_designs (R : Rounding K) (fr : K → List Char)
    (F : FloatReprOk fr) (pr : Char → Bool) (p p' : DesignParams K) (d d' : Design K)
    (h : mkDesign R p = .ok d) (h' : mkDesign R p' = .ok d')
    (heq : designIdText R fr pr d = designIdText R fr pr d') :
    { d with salt := none } = { d' with salt := none } := by
  have e1 := designIdText_of_created R fr pr h d.salt
  have e2 := designIdText_of_created R fr pr h' d'.salt
  have e1' : designIdText R fr pr d = .ok (reprDesign fr pr { d with salt := none }) := e1
  have e2' : designIdText R fr pr d' = .ok (reprDesign fr pr { d' with salt := none }) := e2
  rw [e1', e2'] at heq
  exact reprDesign_inj F pr rfl rfl (by simpa using heq)

/-- **C06.**  If two created designs that differ in a field other than the salt have the same id,
then their (different) texts are an MD5 collision. -/
theorem C06_design_id_separates_designs (R : Rounding K) (fr : K → List Char)
    (F : FloatReprOk fr) (pr : Char → Bool) (p p' : DesignParams K) (d d' : Design K)
    (h : mkDesign R p = .ok d) (h' : mkDesign R p' = .ok d')
    (hne : ({ d with salt := none } : Design K) ≠ { d' with salt := none })
    (hid : designId R fr pr d = designId R fr pr d') :
    ∃ t t', designIdText R fr pr d = .ok t ∧ designIdText R fr pr d' = .ok t' ∧ t ≠ t' ∧
      Md5.md5Hex t = Md5.md5Hex t' := by
  have e1 : designIdText R fr pr d = .ok (reprDesign fr pr { d with salt := none }) :=
    designIdText_of_created R fr pr h d.salt
  have e2 : designIdText R fr pr d' = .ok (reprDesign fr pr { d' with salt := none }) :=
    designIdText_of_created R fr pr h' d'.salt
  refine ⟨_, _, e1, e2, ?_, ?_⟩
  · intro ht
    exact hne (reprDesign_inj F pr rfl rfl ht)
  · unfold designId at hid
    rw [e1, e2] at hid
    simpa [bind, Except.bind, pure, Except.pure] using hid

/-- A `repr` for rationals meeting the contract (`numerator/denominator`), showing that the
hypotheses of C06 can be met. -/
def ratRepr (x : ℚ) : List Char := reprInt x.num ++ '/' :: reprNat x.den

theorem ratRepr_ok : FloatReprOk ratRepr where
  inj := by
    intro x y h
    have hsl : ∀ i, '/' ∉ reprInt i := by
      intro i hi; have := reprInt_mem hi; revert this; decide
    have key : ∀ u u' r r' : List Char, '/' ∉ u → '/' ∉ u' → u ++ '/' :: r = u' ++ '/' :: r' →
        u = u' ∧ r = r' := by
      intro u
      induction u with
      | nil =>
        intro u' r r' _ hu' h
        cases u' with
        | nil => simpa using h
        | cons c u' => simp at h; exact absurd (by rw [h.1]; simp) hu'
      | cons c u ih =>
        intro u' r r' hu hu' h
        cases u' with
        | nil => simp at h; exact absurd (by rw [← h.1]; simp) hu
        | cons c' u' =>
          simp only [List.cons_append, List.cons.injEq] at h
          simp only [List.mem_cons, not_or] at hu hu'
          obtain ⟨a, b⟩ := ih u' r r' hu.2 hu'.2 h.2
          exact ⟨by rw [h.1, a], b⟩
    obtain ⟨a, b⟩ := key _ _ _ _ (hsl _) (hsl _) h
    exact Rat.ext (reprInt_inj a) (reprNat_inj b)
  noDelim := by
    intro x c hc
    simp only [ratRepr, List.mem_append, List.mem_cons] at hc
    rcases hc with hc | rfl | hc
    · exact ⟨fun e => reprInt_noDelim _ _ hc (.inl e), fun e => reprInt_noDelim _ _ hc (.inr e)⟩
    · decide
    · have hc' : c ∈ reprInt (Int.ofNat x.den) := hc
      exact ⟨fun e => reprInt_noDelim _ _ hc' (.inl e), fun e => reprInt_noDelim _ _ hc' (.inr e)⟩
  neInt := by
    intro x i h
    have : '/' ∈ reprInt i := by rw [← h]; simp [ratRepr]
    have := reprInt_mem this
    revert this; decide

/-- The float literals of the repository's unit test, as Python prints them. -/
def fixtureRepr (x : ℚ) : List Char :=
  if x = 1 / 100 then "0.01".toList else if x = 2 / 100 then "0.02".toList
  else if x = 5 / 100 then "0.05".toList else if x = 8 / 10 then "0.8".toList else "?".toList

/-- Fidelity check: the model computes the design id asserted in
`feedx/experiment_design_test.py` for the same design. -/
example : designId (.exact ℚ) fixtureRepr (fun _ => true)
    { exampleParams with nAfterPre := 970, nAfterPost := 952 } =
    .ok "b9095ff233d9cccc342d62b2aef06ecb".toList := by decide +kernel

/-- C06 on a pair that differs only in a metric name containing a quote and the text of a field. -/
example : ∃ d d' : Design ℚ,
    mkDesign (.exact ℚ) { exampleParams with primaryMetric := "a', pretest_weeks=4" } = .ok d ∧
    mkDesign (.exact ℚ) exampleParams = .ok d' ∧
    designIdText (.exact ℚ) ratRepr (fun _ => true) d ≠
      designIdText (.exact ℚ) ratRepr (fun _ => true) d' := by
  have h1 : mkDesign (.exact ℚ) { exampleParams with primaryMetric := "a', pretest_weeks=4" } =
    .ok { exampleParams with primaryMetric := "a', pretest_weeks=4", nAfterPre := 970,
                             nAfterPost := 952 } := by decide +kernel
  have h2 : mkDesign (.exact ℚ) exampleParams =
    .ok { exampleParams with nAfterPre := 970, nAfterPost := 952 } := by decide +kernel
  refine ⟨_, _, h1, h2, fun h => ?_⟩
  have := C06_hashed_text_separates_designs _ _ ratRepr_ok _ _ _ _ _ h1 h2 h
  have := congrArg (fun d : Design ℚ => d.primaryMetric) this
  simp [exampleParams] at this

/-- Python's `==` on designs: dataclass equality compares the fields, numbers by value. -/
def Design.pyEq (d d' : Design K) : Prop :=
  d.nBefore = d'.nBefore ∧ d.runtime = d'.runtime ∧ d.primaryMetric = d'.primaryMetric ∧
  d.pretest = d'.pretest ∧ d.isCrossover = d'.isCrossover ∧ d.preTop.val = d'.preTop.val ∧
  d.preBottom.val = d'.preBottom.val ∧ d.postTrim.val = d'.postTrim.val ∧
  d.washout = d'.washout ∧ d.alpha.val = d'.alpha.val ∧ d.power.val = d'.power.val ∧
  d.salt = d'.salt ∧ d.nAfterPre = d'.nAfterPre ∧ d.nAfterPost = d'.nAfterPost

/-- **C82 fails.**  Two designs that compare equal can have different hashed texts (hence different
ids): a trim fraction given as the int `0` prints differently from the float `0.0`.  This holds for
every `repr` of floats meeting the contract. -/
theorem C82_equal_designs_same_id_false (fr : ℚ → List Char) (F : FloatReprOk fr)
    (pr : Char → Bool) :
    ∃ d d' : Design ℚ,
      mkDesign (.exact ℚ) d.toDesignParams = .ok d ∧ mkDesign (.exact ℚ) d'.toDesignParams = .ok d' ∧
      d.pyEq d' ∧ designIdText (.exact ℚ) fr pr d ≠ designIdText (.exact ℚ) fr pr d' := by
  have h1 : mkDesign (.exact ℚ) { exampleParams with postTrim := .int 0 } =
    .ok { exampleParams with postTrim := .int 0, nAfterPre := 970, nAfterPost := 970 } := by
      decide +kernel
  have h2 : mkDesign (.exact ℚ) { exampleParams with postTrim := .float 0 } =
    .ok { exampleParams with postTrim := .float 0, nAfterPre := 970, nAfterPost := 970 } := by
      decide +kernel
  refine ⟨{ exampleParams with postTrim := .int 0, nAfterPre := 970, nAfterPost := 970 },
    { exampleParams with postTrim := .float 0, nAfterPre := 970, nAfterPost := 970 },
    h1, h2, ?_, fun h => ?_⟩
  · simp [Design.pyEq, PyNum.val]
  · have := C06_hashed_text_separates_designs _ _ F _ _ _ _ _ h1 h2 h
    have := congrArg (fun d : Design ℚ => d.postTrim) this
    simp at this

/-- **C82, the part that holds.**  Created designs whose numbers are given with the same Python types
and that compare equal have the same id. -/
theorem C82_equal_designs_same_id_partial (R : Rounding K) (fr : K → List Char) (pr : Char → Bool)
    (d d' : Design K) (heq : d.pyEq d')
    (ht : ∀ f : Design K → PyNum K, f = (fun d => d.preTop) ∨ f = (fun d => d.preBottom) ∨
      f = (fun d => d.postTrim) ∨ f = (fun d => d.alpha) ∨ f = (fun d => d.power) →
      ((∃ i, f d = .int i) ↔ ∃ i, f d' = .int i)) :
    designId R fr pr d = designId R fr pr d' := by
  have key : ∀ a b : PyNum K, a.val = b.val → ((∃ i, a = .int i) ↔ ∃ i, b = .int i) → a = b := by
    intro a b hv hi
    cases a with
    | int i =>
      obtain ⟨j, rfl⟩ := hi.mp ⟨i, rfl⟩
      simp only [PyNum.val, Int.cast_inj] at hv; rw [hv]
    | float x =>
      cases b with
      | int j => obtain ⟨i, h⟩ := hi.mpr ⟨j, rfl⟩; cases h
      | float y => simp only [PyNum.val] at hv; rw [hv]
  obtain ⟨h1, h2, h3, h4, h5, h6, h7, h8, h9, h10, h11, h12, h13, h14⟩ := heq
  have g1 := key _ _ h6 (ht _ (.inl rfl))
  have g2 := key _ _ h7 (ht _ (.inr (.inl rfl)))
  have g3 := key _ _ h8 (ht _ (.inr (.inr (.inl rfl))))
  have g4 := key _ _ h10 (ht _ (.inr (.inr (.inr (.inl rfl)))))
  have g5 := key _ _ h11 (ht _ (.inr (.inr (.inr (.inr rfl)))))
  obtain ⟨⟨n, rt, pm, pt, ic, t, b, po, w, al, pw, s⟩, a1, a2⟩ := d
  obtain ⟨⟨n', rt', pm', pt', ic', t', b', po', w', al', pw', s'⟩, a1', a2'⟩ := d'
  simp only at *
  subst h1 h2 h3 h4 h5 h9 h12 h13 h14 g1 g2 g3 g4 g5
  rfl

/-! ### Coinflip -/

theorem hexVal_hexDigit {n : ℕ} (h : n < 16) : Md5.hexVal (Md5.hexDigit n) = n := by
  have : ∀ n : Fin 16, Md5.hexVal (Md5.hexDigit n.1) = n.1 := by decide
  exact this ⟨n, h⟩

theorem intBase16_hex (l : List ℕ) (h : ∀ b ∈ l, b < 256) :
    Md5.intBase16 (Md5.hex l) = l.foldl (fun acc b => 256 * acc + b) 0 := by
  unfold Md5.intBase16
  generalize 0 = acc
  induction l generalizing acc with
  | nil => rfl
  | cons b l ih =>
    have hb := h b (by simp)
    have e1 := hexVal_hexDigit (n := b / 16) (by omega)
    have e2 := hexVal_hexDigit (n := b % 16) (by omega)
    simp only [Md5.hex, List.flatMap_cons, List.cons_append, List.nil_append, List.foldl_cons] at ih ⊢
    rw [ih (fun b hb => h b (by simp [hb])), e1, e2]
    congr 1
    omega

theorem digest_lt (l : List ℕ) : ∀ b ∈ Md5.digest l, b < 256 := by
  intro b hb
  simp only [Md5.digest, Md5.wordBytes, List.mem_append, List.mem_cons, List.not_mem_nil,
    or_false] at hb
  omega

/-- **C07.**  A coinflip with a non-empty salt exists; an empty salt raises `ValueError`; a coinflip
made from any non-empty random bytes exists. -/
theorem C07_salt_required (salt : String) :
    (salt = "" → mkCoinflip salt = .error .valueError) ∧
      (salt ≠ "" → mkCoinflip salt = .ok ⟨salt⟩) := by
  unfold mkCoinflip
  constructor <;> intro h <;> simp [h]

/-- **C07.**  The coinflip of an item is 0 or 1 and is the parity of the MD5 digest of salt followed by
item id, read as a big-endian number. -/
theorem C07_coinflip_is_digest_parity (c : Coinflip) (item : String) :
    (c.flip item = 0 ∨ c.flip item = 1) ∧
      c.flip item =
        (Md5.digest (Md5.utf8 (c.salt.toList ++ item.toList))).foldl (fun acc b => 256 * acc + b) 0 % 2 := by
  unfold Coinflip.flip
  refine ⟨by omega, ?_⟩
  rw [String.toList_append, Md5.md5Hex, intBase16_hex _ (digest_lt _)]

/-- **C07.**  Only the concatenation of salt and item id matters: nothing else can influence the
coinflip (and different salt/item splits of the same text always agree). -/
theorem C07_depends_only_on_salted_id (c c' : Coinflip) (item item' : String)
    (h : c.salt ++ item = c'.salt ++ item') : c.flip item = c'.flip item' := by
  unfold Coinflip.flip
  rw [h]

/-- Both outcomes occur: concrete salts/items (values computed with CPython's hashlib). -/
example : (⟨"abc"⟩ : Coinflip).flip "item_1" = 0 := by decide +kernel
example : (⟨"abc"⟩ : Coinflip).flip "item_2" = 1 := by decide +kernel
example : mkCoinflip "" = .error .valueError := rfl

end Feedx
