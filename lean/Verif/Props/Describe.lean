import Verif.Model.Describe
import Verif.Spec.Describe
import Verif.Props.Design
import Verif.Props.DesignId
import Verif.Props.TimePeriod

/-!
Property C95: the printed description of a design.
-/

set_option linter.unusedSectionVars false
set_option linter.unusedSimpArgs false

namespace Feedx

/-- Two texts differ in a place that both have. -/
def differ : List Char → List Char → Bool
  | a :: l, b :: l' => decide (a ≠ b) || differ l l'
  | _, _ => false

theorem differ_ne {p q : List Char} (h : differ p q = true) (x y : List Char) : p ++ x ≠ q ++ y := by
  induction p generalizing q with
  | nil => simp [differ] at h
  | cons a p ih =>
    cases q with
    | nil => simp [differ] at h
    | cons b q =>
      simp only [differ, Bool.or_eq_true, decide_eq_true_eq] at h
      intro he
      simp only [List.cons_append, List.cons.injEq] at he
      rcases h with h | h
      · exact h he.1
      · exact ih h he.2

theorem differ_nil {p : List Char} (h : p ≠ []) (x : List Char) : p ++ x ≠ [] := by simp [h]

/-- The beginnings of the lines. -/
inductive Head where
  | design | blank | type | metric | pretest | runtime | crossTitle | swap | washoutCount | washoutWeeks | eligible | top | bottom | inExperiment | topBottom | inAnalysis | itemsTitle | items | noTrim | extraTitle | alpha | power | salt
  deriving DecidableEq

/-- The text of a beginning. -/
def Head.str : Head → String
  | .design => "Design "
  | .blank => ""
  | .type => "\tExperiment type: "
  | .metric => "\tPrimary metric: "
  | .pretest => "\tNumber of weeks of data before start of experiment used for analysis: "
  | .runtime => "\tTotal experiment runtime weeks: "
  | .crossTitle => "Crossover Details:"
  | .swap => "\tControl and treatment to be swapped "
  | .washoutCount => "\tNumber of crossover washout weeks to ignore at start of each period: "
  | .washoutWeeks => "\tWeeks "
  | .eligible => "\tNumber of items eligible for experimentation (before trimming): "
  | .top => "\tTop "
  | .bottom => "\tBottom "
  | .inExperiment => "\tNumber of items remaining after trimming for the experiment: "
  | .topBottom => "\tTop and bottom "
  | .inAnalysis => "\tNumber of items remaining after trimming for the analysis: "
  | .itemsTitle => "Number of items for testing:"
  | .items => "\tNumber of items: "
  | .noTrim => "\tNo hero / outlier trimming used"
  | .extraTitle => "Extra details:"
  | .alpha => "\tAlpha threshold: "
  | .power => "\tPower: "
  | .salt => "\tCoinflip salt: "

/-- Different beginnings differ in a place both have, apart from the empty one and the two that begin with "Top". -/
theorem heads_differ (a b : Head) (hab : a ≠ b) (ha : a ≠ .blank) (hb : b ≠ .blank) (h : a ≠ .top) (h' : b ≠ .top) :
    differ a.str.toList b.str.toList = true := by
  cases a <;> first | exact absurd rfl ha | exact absurd rfl h | (cases b <;> first | exact absurd rfl hab | exact absurd rfl hb | exact absurd rfl h' | decide)

theorem head_ne_nil (a : Head) (ha : a ≠ .blank) : a.str.toList ≠ [] := by
  cases a <;> first | exact absurd rfl ha | decide

/-- A line, as a fixed beginning and the rest. -/
structure Line where
  head : Head
  rest : List Char

/-- The line as text. -/
def Line.text (l : Line) : List Char := l.head.str.toList ++ l.rest

/-- Only the lines with the beginning of a sentence can be equal to it. -/
theorem mem_lines {ls : List Line} {q : Head} {x : List Char} (hq : q ≠ .blank) (hq' : q ≠ .top)
    (hb : ∀ l ∈ ls, l.head = .blank → l.rest = []) (htop : differ q.str.toList Head.top.str.toList = true) :
    q.str.toList ++ x ∈ ls.map Line.text ↔ ⟨q, x⟩ ∈ ls := by
  rw [List.mem_map]
  constructor
  · rintro ⟨⟨h, r⟩, hl, e⟩
    by_cases hqh : h = q
    · subst hqh
      have : r = x := by simpa [Line.text] using e
      rwa [this] at hl
    · exfalso
      by_cases hblank : h = .blank
      · subst hblank
        have hr := hb _ hl rfl
        simp only at hr
        subst hr
        have e' : ([] : List Char) = q.str.toList ++ x := by simpa [Line.text, Head.str] using e
        exact head_ne_nil q hq (List.append_eq_nil_iff.mp e'.symm).1
      · by_cases ht : h = .top
        · subst ht
          exact differ_ne htop x r e.symm
        · exact differ_ne (heads_differ q h (Ne.symm hqh) hq hblank hq' ht) x r e.symm
  · rintro h
    exact ⟨_, h, rfl⟩

section
variable {K : Type} [Field K] [LinearOrder K] [IsStrictOrderedRing K] [FloorRing K] {R : Rounding K} {fr : K → List Char} {printable : Char → Bool}

/-- The lines about the crossover. -/
def crossoverPart (d : Design K) (w : ℤ) : List Line :=
  [⟨.blank, []⟩, ⟨.crossTitle, []⟩, ⟨.blank, []⟩,
    ⟨.swap, reprInt (d.runtime / 2) ++ " weeks after starting the experiment".toList⟩,
    ⟨.washoutCount, reprInt w⟩,
    ⟨.washoutWeeks, reprInts (printedWashoutWeeks d.runtime w) ++ " are the washout weeks to be excluded from the analysis".toList⟩]

/-- The lines about the trimmed items. -/
def trimPart (R : Rounding K) (d : Design K) : List Line :=
  ⟨.eligible, reprInt d.nBefore⟩ ::
  ((if d.nAfterPre < d.nBefore then
    ⟨.blank, []⟩ ::
    ((if 0 < d.preTop.val then [⟨.top, fractionText R d.preTop ++ (" of items with highest ".toList ++ (d.primaryMetric.toList ++
      " in pre-test period will not be included in experiment".toList))⟩] else []) ++
    ((if 0 < d.preBottom.val then [⟨.bottom, fractionText R d.preBottom ++ (" items with lowest ".toList ++ (d.primaryMetric.toList ++
      " in pre-test period will not be included in experiment".toList))⟩] else []) ++
    [⟨.inExperiment, reprInt d.nAfterPre⟩]))
  else []) ++
  (if d.nAfterPost < d.nAfterPre then
    [⟨.blank, []⟩, ⟨.topBottom, fractionText R d.postTrim ++ (" of items with highest / lowest ".toList ++ (d.primaryMetric.toList ++
      " during experiment runtime will be excluded from the analysis".toList))⟩,
     ⟨.inAnalysis, reprInt d.nAfterPost⟩]
  else []))

/-- All lines. -/
def linesOf (R : Rounding K) (fr : K → List Char) (d : Design K) (id : List Char) : List Line :=
  [⟨.design, id⟩, ⟨.blank, []⟩, ⟨.type, experimentType d⟩, ⟨.metric, d.primaryMetric.toList⟩,
    ⟨.pretest, reprInt d.pretest⟩,
    ⟨.runtime, reprInt d.runtime⟩] ++
  ((if d.isCrossover then crossoverPart d (d.washout.getD 0) else []) ++
  ([⟨.blank, []⟩, ⟨.itemsTitle, []⟩, ⟨.blank, []⟩] ++
  ((if d.nBefore = d.nAfterPost then [⟨.items, reprInt d.nBefore⟩, ⟨.noTrim, []⟩]
    else trimPart R d) ++
  [⟨.blank, []⟩, ⟨.extraTitle, []⟩, ⟨.blank, []⟩, ⟨.alpha, reprNum fr d.alpha⟩,
    ⟨.power, reprNum fr d.power⟩, ⟨.salt, optText d.salt⟩])))

theorem describe_lines {d : Design K} {lines : List (List Char)} (h : describeLines R fr printable d = .ok lines) :
    ∃ id, designId R fr printable d = .ok id ∧ lines = (linesOf R fr d id).map Line.text := by
  unfold describeLines at h
  obtain ⟨id, hid, h⟩ := Py.bind_eq_ok.mp h
  obtain ⟨cl, hc, h⟩ := Py.bind_eq_ok.mp h
  cases h
  refine ⟨id, hid, ?_⟩
  have hcl : cl = (if d.isCrossover then crossoverPart d (d.washout.getD 0) else []).map Line.text := by
    unfold crossoverLines at hc
    split at hc
    · rename_i hx
      split at hc
      · cases hc
      · rename_i w hw
        cases hc
        simp only [hx, if_true, hw, Option.getD_some, crossoverPart, List.map_cons, List.map_nil, Line.text, Head.str, String.toList_empty, List.append_assoc, List.append_nil, List.nil_append]
    · rename_i hx
      cases hc
      simp only [hx, if_false, List.map_nil, Bool.false_eq_true]
  rw [hcl]
  unfold linesOf itemLines trimPart preTrimLines postTrimLines
  simp only [List.map_cons, List.map_nil, List.map_append, apply_ite (List.map Line.text), Line.text, Head.str, String.toList_empty, List.append_assoc, List.append_nil, List.nil_append,
    List.cons_append, List.singleton_append]

theorem mem_ite_list {α : Type} {c : Prop} [Decidable c] {a b : List α} {x : α} : x ∈ (if c then a else b) ↔ (c ∧ x ∈ a) ∨ (¬ c ∧ x ∈ b) := by
  split <;> simp [*]

theorem linesOf_blank {d : Design K} {id : List Char} : ∀ l ∈ linesOf R fr d id, l.head = .blank → l.rest = [] := by
  rintro ⟨h, r⟩ hl hb
  simp only at hb
  subst hb
  unfold linesOf trimPart crossoverPart at hl
  simp only [List.mem_append, List.mem_cons, List.not_mem_nil, or_false, mem_ite_list, false_or, Line.mk.injEq, reduceCtorEq, false_and, and_false, true_and] at hl
  show r = []
  tauto

/-- A sentence with the beginning `q` is among the lines exactly if the line is. -/
theorem sentence_mem {d : Design K} {id : List Char} (q : Head) (x : List Char) (hq : q ≠ .blank) (hq' : q ≠ .top)
    (htop : differ q.str.toList Head.top.str.toList = true) :
    q.str.toList ++ x ∈ (linesOf R fr d id).map Line.text ↔ ⟨q, x⟩ ∈ linesOf R fr d id :=
  mem_lines hq hq' linesOf_blank htop

theorem about_mem {d : Design K} {id : List Char} {S : Spec.Sentence} {q : Head} {x : List Char} (h1 : S.before = q.str) (h2 : S.after = "") (h3 : q ≠ .blank)
    (h4 : q ≠ .top) (h5 : differ q.str.toList Head.top.str.toList = true) :
    S.about x ∈ (linesOf R fr d id).map Line.text ↔ ⟨q, x⟩ ∈ linesOf R fr d id := by
  rw [← sentence_mem q x h3 h4 h5]
  unfold Spec.Sentence.about
  rw [h1, h2]
  simp

theorem created_counts {p : DesignParams K} {d : Design K} (h : mkDesign R p = .ok d) (hn : 0 ≤ d.nBefore) (hn' : d.nBefore ≤ 2 ^ 53) :
    d.nAfterPost ≤ d.nAfterPre ∧ d.nAfterPre ≤ d.nBefore := by
  have e : d.nBefore = p.nBefore := by
    obtain ⟨rfl, -⟩ := (mkDesign_ok_iff R p d).mp h
    rfl
  obtain ⟨-, -, -, h1, h2, -⟩ := C02_item_counts R p d h (e ▸ hn) (e ▸ hn')
  exact ⟨h1, h2⟩

/-- **C95, it can be printed.**  Every design can be printed; the first line is the id of the design. -/
theorem C95_printed (p : DesignParams K) (d : Design K) (h : mkDesign R p = .ok d) :
    ∃ id lines, designId R fr printable d = .ok id ∧ describeLines R fr printable d = .ok (("Design ".toList ++ id) :: lines) ∧
      describe R fr printable d = .ok (String.ofList (List.intercalate ['\n'] (("Design ".toList ++ id) :: lines))) := by
  obtain ⟨id, hid⟩ := (C05_design_id_ignores_salt R fr printable p d h d.salt none).2
  have hid : designId R fr printable d = .ok id := hid
  have hc : ∃ cl, crossoverLines d = .ok cl := by
    unfold crossoverLines
    split
    · rename_i hx
      obtain ⟨w, hw, -⟩ := created_crossover h hx
      rw [hw]
      exact ⟨_, rfl⟩
    · exact ⟨_, rfl⟩
  obtain ⟨cl, hc⟩ := hc
  have hl : ∃ lines, describeLines R fr printable d = .ok (("Design ".toList ++ id) :: lines) := by
    unfold describeLines
    rw [hid, hc]
    exact ⟨_, rfl⟩
  obtain ⟨lines, hl⟩ := hl
  refine ⟨id, lines, hid, hl, ?_⟩
  unfold describe
  rw [hl]
  rfl

/-- **C95, settings.**  The printed settings are those of the design. -/
theorem C95_settings (p : DesignParams K) (d : Design K) (h : mkDesign R p = .ok d) (lines : List (List Char))
    (hl : describeLines R fr printable d = .ok lines) :
    (∀ x, Spec.typeSentence.about x ∈ lines ↔ x = (Spec.kind d.toDesignParams).toList) ∧
    (∀ x, Spec.metricSentence.about x ∈ lines ↔ x = d.primaryMetric.toList) ∧
    (∀ n, Spec.pretestSentence.about (reprInt n) ∈ lines ↔ n = d.pretest) ∧
    (∀ n, Spec.runtimeSentence.about (reprInt n) ∈ lines ↔ n = d.runtime) ∧
    (∀ x, Spec.alphaSentence.about x ∈ lines ↔ x = reprNum fr d.alpha) ∧
    (∀ x, Spec.powerSentence.about x ∈ lines ↔ x = reprNum fr d.power) ∧
    (∀ s : String, d.salt = some s → ∀ x, Spec.saltSentence.about x ∈ lines ↔ x = s.toList) ∧
    (d.salt = none → ∀ x, Spec.saltSentence.about x ∈ lines ↔ x = "None".toList) := by
  obtain ⟨id, -, rfl⟩ := describe_lines hl
  have key := fun S q x => about_mem (R := R) (fr := fr) (d := d) (id := id) (S := S) (q := q) (x := x)
  have hpre : 0 ≤ d.pretest := by
    obtain ⟨rfl, hv⟩ := (mkDesign_ok_iff R p d).mp h
    exact ((validateDesign_ok_iff R _).mp hv).1.pretest_nonneg
  have hkind : experimentType d = (Spec.kind d.toDesignParams).toList := by
    unfold experimentType Spec.kind
    cases d.isCrossover
    · by_cases h0 : d.pretest = 0
      · simp [h0]
      · have : 0 < d.pretest := by omega
        simp [h0, this]
    · rfl
  refine ⟨fun x => ?_, fun x => ?_, fun n => ?_, fun n => ?_, fun x => ?_, fun x => ?_, fun s hs x => ?_, fun hs x => ?_⟩
  · rw [key Spec.typeSentence .type x rfl rfl (by decide) (by decide) (by decide), ← hkind]
    unfold linesOf trimPart crossoverPart
    simp only [List.mem_append, List.mem_cons, List.not_mem_nil, or_false, mem_ite_list, false_or, Line.mk.injEq, reduceCtorEq, false_and, and_false, true_and]
  · rw [key Spec.metricSentence .metric x rfl rfl (by decide) (by decide) (by decide)]
    unfold linesOf trimPart crossoverPart
    simp only [List.mem_append, List.mem_cons, List.not_mem_nil, or_false, mem_ite_list, false_or, Line.mk.injEq, reduceCtorEq, false_and, and_false, true_and]
  · rw [key Spec.pretestSentence .pretest _ rfl rfl (by decide) (by decide) (by decide)]
    unfold linesOf trimPart crossoverPart
    simp only [List.mem_append, List.mem_cons, List.not_mem_nil, or_false, mem_ite_list, false_or, Line.mk.injEq, reduceCtorEq, false_and, and_false, true_and]
    exact ⟨reprInt_inj, fun h => by rw [h]⟩
  · rw [key Spec.runtimeSentence .runtime _ rfl rfl (by decide) (by decide) (by decide)]
    unfold linesOf trimPart crossoverPart
    simp only [List.mem_append, List.mem_cons, List.not_mem_nil, or_false, mem_ite_list, false_or, Line.mk.injEq, reduceCtorEq, false_and, and_false, true_and]
    exact ⟨reprInt_inj, fun h => by rw [h]⟩
  · rw [key Spec.alphaSentence .alpha _ rfl rfl (by decide) (by decide) (by decide)]
    unfold linesOf trimPart crossoverPart
    simp only [List.mem_append, List.mem_cons, List.not_mem_nil, or_false, mem_ite_list, false_or, Line.mk.injEq, reduceCtorEq, false_and, and_false, true_and]
  · rw [key Spec.powerSentence .power _ rfl rfl (by decide) (by decide) (by decide)]
    unfold linesOf trimPart crossoverPart
    simp only [List.mem_append, List.mem_cons, List.not_mem_nil, or_false, mem_ite_list, false_or, Line.mk.injEq, reduceCtorEq, false_and, and_false, true_and]
  · rw [key Spec.saltSentence .salt _ rfl rfl (by decide) (by decide) (by decide)]
    unfold linesOf trimPart crossoverPart
    simp only [List.mem_append, List.mem_cons, List.not_mem_nil, or_false, mem_ite_list, false_or, Line.mk.injEq, reduceCtorEq, false_and, and_false, true_and, hs, optText]
  · rw [key Spec.saltSentence .salt _ rfl rfl (by decide) (by decide) (by decide)]
    unfold linesOf trimPart crossoverPart
    simp only [List.mem_append, List.mem_cons, List.not_mem_nil, or_false, mem_ite_list, false_or, Line.mk.injEq, reduceCtorEq, false_and, and_false, true_and, hs, optText]

/-- **C95, crossover.**  The time of the swap, the number of washout weeks and the list of washout weeks are printed exactly for crossovers; the swap is in the
middle and the listed weeks are those that the analysis labels as washout. -/
theorem C95_crossover (p : DesignParams K) (d : Design K) (h : mkDesign R p = .ok d) (lines : List (List Char))
    (hl : describeLines R fr printable d = .ok lines) :
    (∀ n, Spec.swapSentence.about (reprInt n) ∈ lines ↔ d.isCrossover = true ∧ 2 * n = d.runtime) ∧
    (∀ n, Spec.washoutCountSentence.about (reprInt n) ∈ lines ↔ d.isCrossover = true ∧ d.washout = some n) ∧
    (d.isCrossover = false → ∀ x, Spec.washoutWeeksSentence.about x ∉ lines) ∧
    (d.isCrossover = true → ∃ weeks : List ℤ, Spec.washoutWeeksSentence.about (reprInts weeks) ∈ lines ∧
      ∀ start k : ℤ, k ∈ weeks ↔
        designLabel d.toDesignParams start (.fin ((start + (k - 1) : ℤ) : K)) = .ok (some "washout_1") ∨
        designLabel d.toDesignParams start (.fin ((start + (k - 1) : ℤ) : K)) = .ok (some "washout_2")) := by
  obtain ⟨id, -, rfl⟩ := describe_lines hl
  refine ⟨fun n => ?_, fun n => ?_, fun hx x => ?_, fun hx => ?_⟩
  · have : Spec.swapSentence.about (reprInt n) = Head.swap.str.toList ++ (reprInt n ++ " weeks after starting the experiment".toList) := by
      unfold Spec.swapSentence Spec.Sentence.about
      rw [List.append_assoc]
      rfl
    rw [this, sentence_mem .swap _ (by decide) (by decide) (by decide)]
    unfold linesOf trimPart crossoverPart
    simp only [List.mem_append, List.mem_cons, List.not_mem_nil, or_false, mem_ite_list, false_or, Line.mk.injEq, reduceCtorEq, false_and, and_false, true_and,
      List.append_left_inj]
    refine and_congr_right fun hx => ?_
    obtain ⟨w, -, -, -, he⟩ := created_crossover h hx
    obtain ⟨k, hk⟩ := he
    constructor
    · intro e
      rw [reprInt_inj e]
      omega
    · intro e
      have : n = d.runtime / 2 := by omega
      rw [this]
  · have : Spec.washoutCountSentence.about (reprInt n) = Head.washoutCount.str.toList ++ reprInt n := by
      unfold Spec.washoutCountSentence Spec.Sentence.about
      simp [Head.str]
    rw [this, sentence_mem .washoutCount _ (by decide) (by decide) (by decide)]
    unfold linesOf trimPart crossoverPart
    simp only [List.mem_append, List.mem_cons, List.not_mem_nil, or_false, mem_ite_list, false_or, Line.mk.injEq, reduceCtorEq, false_and, and_false, true_and]
    refine and_congr_right fun hx => ?_
    obtain ⟨w, hw, -⟩ := created_crossover h hx
    rw [hw]
    constructor
    · intro e
      rw [reprInt_inj e]
      rfl
    · intro e
      cases e
      rfl
  · have : Spec.washoutWeeksSentence.about x = Head.washoutWeeks.str.toList ++ (x ++ " are the washout weeks to be excluded from the analysis".toList) := by
      unfold Spec.washoutWeeksSentence Spec.Sentence.about
      rw [List.append_assoc]
      rfl
    rw [this, sentence_mem .washoutWeeks _ (by decide) (by decide) (by decide)]
    unfold linesOf trimPart crossoverPart
    simp only [List.mem_append, List.mem_cons, List.not_mem_nil, or_false, mem_ite_list, false_or, Line.mk.injEq, reduceCtorEq, false_and, and_false, true_and,
      hx, not_false_eq_true]
  · obtain ⟨w, hw, -⟩ := created_crossover h hx
    refine ⟨printedWashoutWeeks d.runtime w, ?_, fun start k => ?_⟩
    · have : Spec.washoutWeeksSentence.about (reprInts (printedWashoutWeeks d.runtime w)) = Head.washoutWeeks.str.toList ++
          (reprInts (printedWashoutWeeks d.runtime w) ++ " are the washout weeks to be excluded from the analysis".toList) := by
        unfold Spec.washoutWeeksSentence Spec.Sentence.about
        rw [List.append_assoc]
        rfl
      rw [this, sentence_mem .washoutWeeks _ (by decide) (by decide) (by decide)]
      unfold linesOf trimPart crossoverPart
      simp only [List.mem_append, List.mem_cons, List.not_mem_nil, or_false, mem_ite_list, false_or, Line.mk.injEq, reduceCtorEq, false_and, and_false, true_and,
        hx, hw, Option.getD_some]
    · obtain ⟨w', hw', h'⟩ := C08_printed_washout_weeks R p d h hx start k
      rw [hw] at hw'
      cases hw'
      exact h'

set_option maxHeartbeats 800000 in
/-- **C95, items.**  The printed numbers of items are those of the design; a stage of trimming is mentioned exactly if it removes items, and "no trimming" is printed
exactly if no stage does. -/
theorem C95_items (p : DesignParams K) (d : Design K) (h : mkDesign R p = .ok d) (hn : 0 ≤ d.nBefore) (hn' : d.nBefore ≤ 2 ^ 53)
    (lines : List (List Char)) (hl : describeLines R fr printable d = .ok lines) :
    (Spec.noTrimSentence ∈ lines ↔ d.nAfterPre = d.nBefore ∧ d.nAfterPost = d.nAfterPre) ∧
    (∀ n, (Spec.itemsSentence.about (reprInt n) ∈ lines ∨ Spec.eligibleSentence.about (reprInt n) ∈ lines) ↔ n = d.nBefore) ∧
    (∀ n, Spec.inExperimentSentence.about (reprInt n) ∈ lines ↔ n = d.nAfterPre ∧ d.nAfterPre < d.nBefore) ∧
    (∀ n, Spec.inAnalysisSentence.about (reprInt n) ∈ lines ↔ n = d.nAfterPost ∧ d.nAfterPost < d.nAfterPre) := by
  obtain ⟨id, -, rfl⟩ := describe_lines hl
  obtain ⟨h1, h2⟩ := created_counts h hn hn'
  have key := fun S q x => about_mem (R := R) (fr := fr) (d := d) (id := id) (S := S) (q := q) (x := x)
  have hinj : ∀ a b : ℤ, reprInt a = reprInt b ↔ a = b := fun a b => ⟨reprInt_inj, fun h => by rw [h]⟩
  refine ⟨?_, fun n => ?_, fun n => ?_, fun n => ?_⟩
  · have : Spec.noTrimSentence = Head.noTrim.str.toList ++ [] := (List.append_nil _).symm
    rw [this, sentence_mem .noTrim _ (by decide) (by decide) (by decide)]
    unfold linesOf trimPart crossoverPart
    simp only [List.mem_append, List.mem_cons, List.not_mem_nil, or_false, mem_ite_list, false_or, Line.mk.injEq, reduceCtorEq, false_and, and_false, true_and,
      and_true]
    omega
  · rw [key Spec.itemsSentence .items _ rfl rfl (by decide) (by decide) (by decide),
      key Spec.eligibleSentence .eligible _ rfl rfl (by decide) (by decide) (by decide)]
    unfold linesOf trimPart crossoverPart
    simp only [List.mem_append, List.mem_cons, List.not_mem_nil, or_false, mem_ite_list, false_or, Line.mk.injEq, reduceCtorEq, false_and, and_false, true_and, hinj]
    tauto
  · rw [key Spec.inExperimentSentence .inExperiment _ rfl rfl (by decide) (by decide) (by decide)]
    unfold linesOf trimPart crossoverPart
    simp only [List.mem_append, List.mem_cons, List.not_mem_nil, or_false, mem_ite_list, false_or, Line.mk.injEq, reduceCtorEq, false_and, and_false, true_and, hinj]
    omega
  · rw [key Spec.inAnalysisSentence .inAnalysis _ rfl rfl (by decide) (by decide) (by decide)]
    unfold linesOf trimPart crossoverPart
    simp only [List.mem_append, List.mem_cons, List.not_mem_nil, or_false, mem_ite_list, false_or, Line.mk.injEq, reduceCtorEq, false_and, and_false, true_and, hinj]
    omega

theorem reverse_differ_ne {p q x y : List Char} (h : differ p.reverse q.reverse = true) : x ++ p ≠ y ++ q := by
  intro e
  have := congrArg List.reverse e
  simp only [List.reverse_append] at this
  exact differ_ne h _ _ this

/-- When the printed text mentions items left out at the top and at the bottom. -/
theorem mentions {d : Design K} {lines : List (List Char)} (hl : describeLines R fr printable d = .ok lines) (hne : d.nBefore ≠ d.nAfterPost ∨ d.nAfterPre = d.nBefore) :
    ((∃ x, (Spec.topSentence d.primaryMetric).about x ∈ lines) ↔ 0 < d.preTop.val ∧ d.nAfterPre < d.nBefore) ∧
    ((∃ x, (Spec.bottomSentence d.primaryMetric).about x ∈ lines) ↔ 0 < d.preBottom.val ∧ d.nAfterPre < d.nBefore) := by
  obtain ⟨id, -, rfl⟩ := describe_lines hl
  constructor
  · constructor
    · rintro ⟨x, hx⟩
      rw [List.mem_map] at hx
      obtain ⟨⟨q, r⟩, hl', e⟩ := hx
      have hab : (Spec.topSentence d.primaryMetric).about x = Head.top.str.toList ++
          (x ++ (" of items with highest " ++ d.primaryMetric ++ " in pre-test period will not be included in experiment").toList) := by
        unfold Spec.topSentence Spec.Sentence.about
        rw [List.append_assoc]
        rfl
      by_cases hq : q = .top
      · subst hq
        unfold linesOf trimPart crossoverPart at hl'
        simp only [List.mem_append, List.mem_cons, List.not_mem_nil, or_false, mem_ite_list, false_or, Line.mk.injEq, reduceCtorEq, false_and, and_false,
          true_and] at hl'
        tauto
      · exfalso
        rw [hab] at e
        by_cases hb : q = .blank
        · subst hb
          have hr := linesOf_blank _ hl' rfl
          simp only at hr
          subst hr
          simp [Line.text, Head.str] at e
        · by_cases ht : q = .topBottom
          · subst ht
            unfold linesOf trimPart crossoverPart at hl'
            simp only [List.mem_append, List.mem_cons, List.not_mem_nil, or_false, mem_ite_list, false_or, Line.mk.injEq, reduceCtorEq, false_and, and_false,
              true_and] at hl'
            have hr : r = fractionText R d.postTrim ++ (" of items with highest / lowest ".toList ++ (d.primaryMetric.toList ++
                " during experiment runtime will be excluded from the analysis".toList)) := by tauto
            rw [hr] at e
            simp only [Line.text, String.toList_append, ← List.append_assoc] at e
            exact reverse_differ_ne (by decide) e
          · have : differ q.str.toList Head.top.str.toList = true := by
              cases q <;> first | exact absurd rfl hq | exact absurd rfl hb | exact absurd rfl ht | decide
            exact differ_ne this _ _ e
    · rintro ⟨h1, h2⟩
      refine ⟨fractionText R d.preTop, List.mem_map.mpr ⟨⟨.top, fractionText R d.preTop ++ (" of items with highest ".toList ++ (d.primaryMetric.toList ++
        " in pre-test period will not be included in experiment".toList))⟩, ?_, ?_⟩⟩
      · unfold linesOf trimPart crossoverPart
        simp only [List.mem_append, List.mem_cons, List.not_mem_nil, or_false, mem_ite_list, false_or, Line.mk.injEq, reduceCtorEq, false_and, and_false,
          true_and, h1, h2]
        have : d.nBefore ≠ d.nAfterPost := by
          rcases hne with h | h
          · exact h
          · omega
        simp [this]
      · unfold Spec.topSentence Spec.Sentence.about Line.text
        simp only [String.toList_append, List.append_assoc]
        rfl
  · constructor
    · rintro ⟨x, hx⟩
      have hab : (Spec.bottomSentence d.primaryMetric).about x = Head.bottom.str.toList ++
          (x ++ (" items with lowest " ++ d.primaryMetric ++ " in pre-test period will not be included in experiment").toList) := by
        unfold Spec.bottomSentence Spec.Sentence.about
        rw [List.append_assoc]
        rfl
      rw [hab, sentence_mem .bottom _ (by decide) (by decide) (by decide)] at hx
      unfold linesOf trimPart crossoverPart at hx
      simp only [List.mem_append, List.mem_cons, List.not_mem_nil, or_false, mem_ite_list, false_or, Line.mk.injEq, reduceCtorEq, false_and, and_false,
        true_and] at hx
      tauto
    · rintro ⟨h1, h2⟩
      refine ⟨fractionText R d.preBottom, List.mem_map.mpr ⟨⟨.bottom, fractionText R d.preBottom ++ (" items with lowest ".toList ++ (d.primaryMetric.toList ++
        " in pre-test period will not be included in experiment".toList))⟩, ?_, ?_⟩⟩
      · unfold linesOf trimPart crossoverPart
        simp only [List.mem_append, List.mem_cons, List.not_mem_nil, or_false, mem_ite_list, false_or, Line.mk.injEq, reduceCtorEq, false_and, and_false,
          true_and, h1, h2]
        have : d.nBefore ≠ d.nAfterPost := by
          rcases hne with h | h
          · exact h
          · omega
        simp [this]
      · unfold Spec.bottomSentence Spec.Sentence.about Line.text
        simp only [String.toList_append, List.append_assoc]
        rfl

end

/-- **C95, full statement of the last part.**  Leaving out the items with the highest (lowest) values is mentioned exactly if there are such items. -/
def C95_full : Prop :=
  ∀ (R : Rounding ℚ) (fr : ℚ → List Char) (printable : Char → Bool) (p : DesignParams ℚ) (d : Design ℚ), mkDesign R p = .ok d → 0 ≤ d.nBefore →
    d.nBefore ≤ 2 ^ 53 → ∀ lines, describeLines R fr printable d = .ok lines →
    ((∃ x, (Spec.topSentence d.primaryMetric).about x ∈ lines) ↔ 0 < ⌊R.rnd (d.preTop.val * d.nBefore)⌋) ∧
    ((∃ x, (Spec.bottomSentence d.primaryMetric).about x ∈ lines) ↔ 0 < ⌊R.rnd (d.preBottom.val * d.nBefore)⌋)

/-- **C95, left-out items.**  All items that are left out are mentioned; a mention without such items occurs exactly if the requested fraction is less than one item
but items are left out at the other end. -/
theorem C95_left_out_partial {K : Type} [Field K] [LinearOrder K] [IsStrictOrderedRing K] [FloorRing K] (R : Rounding K) (fr : K → List Char)
    (printable : Char → Bool) (p : DesignParams K) (d : Design K) (h : mkDesign R p = .ok d) (hn : 0 ≤ d.nBefore)
    (hn' : d.nBefore ≤ 2 ^ 53) (lines : List (List Char)) (hl : describeLines R fr printable d = .ok lines) :
    ((∃ x, (Spec.topSentence d.primaryMetric).about x ∈ lines) ↔ 0 < ⌊R.rnd (d.preTop.val * d.nBefore)⌋ ∨
      (0 < d.preTop.val ∧ 0 < ⌊R.rnd (d.preBottom.val * d.nBefore)⌋)) ∧
    ((∃ x, (Spec.bottomSentence d.primaryMetric).about x ∈ lines) ↔ 0 < ⌊R.rnd (d.preBottom.val * d.nBefore)⌋ ∨
      (0 < d.preBottom.val ∧ 0 < ⌊R.rnd (d.preTop.val * d.nBefore)⌋)) := by
  obtain ⟨h1, h2⟩ := created_counts h hn hn'
  obtain ⟨hm1, hm2⟩ := mentions hl (by omega)
  rw [hm1, hm2]
  obtain ⟨rfl, hv⟩ := (mkDesign_ok_iff R p d).mp h
  obtain ⟨hleg, -⟩ := (validateDesign_ok_iff R _).mp hv
  have htop : 0 ≤ R.floorMul p.preTop.val p.nBefore := floorMul_nonneg R hleg.top_nonneg hn
  have hbot : 0 ≤ R.floorMul p.preBottom.val p.nBefore := floorMul_nonneg R hleg.bottom_nonneg hn
  have hpre : (deriveCounts R p).nAfterPre = p.nBefore - R.floorMul p.preTop.val p.nBefore - R.floorMul p.preBottom.val p.nBefore := rfl
  have hzero : ∀ x : PyNum K, 0 ≤ x.val → 0 < R.floorMul x.val p.nBefore → 0 < x.val := by
    intro x hx hf
    rcases hx.lt_or_eq with hx | hx
    · exact hx
    · exfalso
      rw [← hx] at hf
      unfold Rounding.floorMul at hf
      rw [zero_mul] at hf
      have h0 := R.intFix 0 (by norm_num)
      rw [Int.cast_zero] at h0
      rw [h0] at hf
      simp at hf
  have e1 : ⌊R.rnd ((deriveCounts R p).preTop.val * ((deriveCounts R p).nBefore : K))⌋ = R.floorMul p.preTop.val p.nBefore := rfl
  have e2 : ⌊R.rnd ((deriveCounts R p).preBottom.val * ((deriveCounts R p).nBefore : K))⌋ = R.floorMul p.preBottom.val p.nBefore := rfl
  rw [e1, e2, hpre]
  have e3 : (deriveCounts R p).nBefore = p.nBefore := rfl
  rw [e3]
  constructor
  · constructor
    · rintro ⟨h3, h4⟩
      by_cases h5 : 0 < R.floorMul p.preTop.val p.nBefore
      · exact Or.inl h5
      · exact Or.inr ⟨h3, by omega⟩
    · rintro (h3 | ⟨h3, h4⟩)
      · exact ⟨hzero _ hleg.top_nonneg h3, by omega⟩
      · exact ⟨h3, by omega⟩
  · constructor
    · rintro ⟨h3, h4⟩
      by_cases h5 : 0 < R.floorMul p.preBottom.val p.nBefore
      · exact Or.inl h5
      · exact Or.inr ⟨h3, by omega⟩
    · rintro (h3 | ⟨h3, h4⟩)
      · exact ⟨hzero _ hleg.bottom_nonneg h3, by omega⟩
      · exact ⟨h3, by omega⟩

/-- A design that asks for less than one item at the top, and for 20 items at the bottom. -/
def smallTopParams : DesignParams ℚ := { exampleParams with preTop := .float (1 / 2000) }

/-- **C95: the code violates it.**  Of 1000 items, 0.05% at the top are none, but the text says that the top 0.05% will not be included. -/
theorem C95_top_mentioned_false : ¬ C95_full := by
  intro hfull
  have hd : mkDesign (.exact ℚ) smallTopParams = .ok { smallTopParams with nAfterPre := 980, nAfterPost := 962 } := by decide +kernel
  obtain ⟨id, lines, -, hl, -⟩ := C95_printed (R := .exact ℚ) (fr := fun _ => []) (printable := fun _ => true) _ _ hd
  have h := (hfull (.exact ℚ) (fun _ => []) (fun _ => true) _ _ hd (by decide) (by decide) _ hl).1
  have h' := (C95_left_out_partial (.exact ℚ) (fun _ => []) (fun _ => true) _ _ hd (by decide) (by decide) _ hl).1
  rw [h] at h'
  revert h'
  decide +kernel

/-- C95 is not vacuous: both example designs are printed, and the lines of the second. -/
example : (describeLines (.exact ℚ) (fun _ => "0.05".toList) (fun _ => true)
      ({ exampleCrossover with nAfterPre := 970, nAfterPost := 952, salt := some "s" } : Design ℚ)).map (fun l => (l.drop 2).map String.ofList) =
    .ok ["\tExperiment type: crossover experiment", "\tPrimary metric: clicks",
      "\tNumber of weeks of data before start of experiment used for analysis: 4", "\tTotal experiment runtime weeks: 8", "", "Crossover Details:", "",
      "\tControl and treatment to be swapped 4 weeks after starting the experiment",
      "\tNumber of crossover washout weeks to ignore at start of each period: 2",
      "\tWeeks [1, 2, 5, 6] are the washout weeks to be excluded from the analysis", "", "Number of items for testing:", "",
      "\tNumber of items eligible for experimentation (before trimming): 1000", "",
      "\tTop 1.00% of items with highest clicks in pre-test period will not be included in experiment",
      "\tBottom 2.00% items with lowest clicks in pre-test period will not be included in experiment",
      "\tNumber of items remaining after trimming for the experiment: 970", "",
      "\tTop and bottom 1.00% of items with highest / lowest clicks during experiment runtime will be excluded from the analysis",
      "\tNumber of items remaining after trimming for the analysis: 952", "", "Extra details:", "", "\tAlpha threshold: 0.05", "\tPower: 0.05",
      "\tCoinflip salt: s"] := by
  decide +kernel

end Feedx
