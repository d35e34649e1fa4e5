import Verif.Spec.EndToEnd
import Verif.Spec.Analysis

/-!
Specification for C115: the values of the items that an analysis compares, from the rows of the data.
-/

namespace Feedx.Spec

/-- The number in a cell; a missing value counts as 0. -/
noncomputable def cellNumber (c : Cell ℝ) : ℝ :=
  match c.toFl with
  | .fin y => y
  | _ => 0

open Classical in
/-- The total of the column `c` over the rows of item `i` in the weeks `lo, ..., hi - 1`, per week. -/
noncomputable def weeklyValue (f : Frame ℝ) (itemCol weekCol c : String) (lo hi : ℤ) (i : Cell ℝ) : ℝ :=
  ((f.rows.filter (fun r => decide (r itemCol = i ∧ ∃ w : ℤ, r weekCol = .int w ∧ lo ≤ w ∧ w < hi))).map (fun r => cellNumber (r c))).sum /
    ((hi - lo : ℤ) : ℝ)

/-- `items` lists the items of the data, each once. -/
def ListsAll (f : Frame ℝ) (itemCol : String) (items : List (Cell ℝ)) : Prop := items.Nodup ∧ ∀ i, i ∈ items ↔ ∃ r ∈ f.rows, r itemCol = i

/-- The item belongs to group 1 (`b` is true) or to group 0. -/
def InGroup (f : Frame ℝ) (itemCol treatCol : String) (b : Bool) (i : Cell ℝ) : Prop :=
  ∃ r ∈ f.rows, r itemCol = i ∧ r treatCol = .int (if b then 1 else 0)

open Classical in
/-- The values of the items for which `P` holds. -/
noncomputable def valuesIn {ι : Type} (items : List ι) (P : ι → Prop) (y : ι → ℝ) : List ℝ := (items.filter (fun i => decide (P i))).map y

/-- The values of the items compared in a regular experiment, where `val lo hi` are the values of the weeks `lo, ..., hi - 1`: those of the runtime,
adjusted (CUPED) if there are pretest weeks. -/
def Compared {ι : Type} (R : Rounding ℝ) (argsort : List ℝ → List ℕ) (d : Design ℝ) (items : List ι) (val : ℤ → ℤ → ι → ℝ) (q : ℝ) (y : ι → ℝ) : Prop :=
  (d.pretest = 0 ∧ y = val 0 d.runtime) ∨
  (0 < d.pretest ∧ cuped R argsort (items.map (val 0 d.runtime)) (items.map (val (-d.pretest) 0)) q = .ok (items.map (fun i => .fin (y i))))

/-- There are pretest weeks, but all items have the same value in them and nothing is trimmed: the adjustment has nothing to work with. -/
def NothingToAdjust {ι : Type} (R : Rounding ℝ) (d : Design ℝ) (items : List ι) (val : ℤ → ℤ → ι → ℝ) (q : ℝ) : Prop :=
  0 < d.pretest ∧ (∃ x, ∀ i ∈ items, val (-d.pretest) 0 i = x) ∧ ⌊R.rnd (q * (items.length : ℝ))⌋ ≤ 0

/-- What a regular analysis reports for a metric of the items, where `group b` are the items of group 1 (`b` is true) or 0, and `val c lo hi` are the values of the
column `c` in the weeks `lo, ..., hi - 1`: the t-test with unequal variances (Yuen-Welch) of the values of the two groups, or of their ratios.  If a
column is constant in the pretest weeks then there is no estimate (C124). -/
def RegularReport {ι : Type} (R : Rounding ℝ) (argsort : List ℝ → List ℕ) (D : TDist) (d : Design ℝ) (items : List ι) (group : Bool → ι → Prop)
    (val : String → ℤ → ℤ → ι → ℝ) (m : Metric) (r : TestResult) : Prop :=
  ((∃ c ∈ m.column :: m.denominator.toList, NothingToAdjust R d items (val c) (m.override.getD d.postTrim.val)) → NoEstimate r items.length) ∧
  ((∀ c ∈ m.column :: m.denominator.toList, ¬ NothingToAdjust R d items (val c) (m.override.getD d.postTrim.val)) →
    ∃ y, Compared R argsort d items (val m.column) (m.override.getD d.postTrim.val) y ∧
    match m.denominator with
    | none => indTest R argsort D (valuesIn items (group true) y) (valuesIn items (group false) y)
        (m.override.getD d.postTrim.val) none none false "two-sided" (1 / 20) = .ok r
    | some c => ∃ z, Compared R argsort d items (val c) (m.override.getD d.postTrim.val) z ∧
        indTest R argsort D (valuesIn items (group true) y) (valuesIn items (group false) y)
          (m.override.getD d.postTrim.val) (some (valuesIn items (group true) z)) (some (valuesIn items (group false) z))
          false "two-sided" (1 / 20) = .ok r)

/-- An item of a crossover experiment with its values in the two test periods, each the second part of a half of the runtime. -/
noncomputable def crossoverOf {ι : Type} (d : Design ℝ) (group : Bool → ι → Prop) (val : ℤ → ℤ → ι → ℝ) (i : ι) : CrossoverItem where
  treatedFirst := group true i
  first := val (d.washout.getD 0) (d.runtime / 2) i
  second := val (d.runtime / 2 + d.washout.getD 0) d.runtime i

/-- The values of the items in the second test period lose their fractions: the metric is held as integers (`whole`), and all items have whole values in the
first test period. -/
def LosesFractions {ι : Type} (whole : Prop) (d : Design ℝ) (items : List ι) (val : ℤ → ℤ → ι → ℝ) : Prop :=
  whole ∧ ∀ i ∈ items, ∃ n : ℤ, val (d.washout.getD 0) (d.runtime / 2) i = n

/-- No fraction of a value in the second test period is lost: either nothing is, or all items have whole values in it. -/
def FractionsKept {ι : Type} (whole : Prop) (d : Design ℝ) (items : List ι) (val : ℤ → ℤ → ι → ℝ) : Prop :=
  LosesFractions whole d items val → ∀ i ∈ items, ∃ n : ℤ, val (d.runtime / 2 + d.washout.getD 0) d.runtime i = n

/-- The column is held as integers. -/
def IntegerColumn (f : Frame ℝ) (c : String) : Prop := ∀ r ∈ f.rows, ∃ n : ℤ, r c = .int n

/-- The values of the items of a group of the data. -/
noncomputable abbrev groupedValues (f : Frame ℝ) (itemCol treatCol : String) (items : List (Cell ℝ)) (b : Bool) (y : Cell ℝ → ℝ) : List ℝ :=
  valuesIn items (InGroup f itemCol treatCol b) y

/-- The values compared, from the rows of the data. -/
abbrev ComparedValues (R : Rounding ℝ) (argsort : List ℝ → List ℕ) (d : Design ℝ) (f : Frame ℝ) (itemCol weekCol c : String) (q : ℝ)
    (items : List (Cell ℝ)) (y : Cell ℝ → ℝ) : Prop := Compared R argsort d items (weeklyValue f itemCol weekCol c) q y

/-- The same items, from the rows of the data. -/
noncomputable abbrev crossoverItem (d : Design ℝ) (f : Frame ℝ) (itemCol weekCol treatCol c : String) (i : Cell ℝ) : CrossoverItem :=
  crossoverOf d (InGroup f itemCol treatCol) (weeklyValue f itemCol weekCol c) i

/-- What a regular analysis reports for a metric, from the rows of the data. -/
abbrev ReportsRegular (R : Rounding ℝ) (argsort : List ℝ → List ℕ) (D : TDist) (d : Design ℝ) (f : Frame ℝ) (itemCol weekCol treatCol : String)
    (items : List (Cell ℝ)) (m : Metric) (r : TestResult) : Prop :=
  RegularReport R argsort D d items (InGroup f itemCol treatCol) (weeklyValue f itemCol weekCol) m r

open Classical in
/-- The total of the column `c` over the rows of a group in the weeks `lo, ..., hi - 1`. -/
noncomputable def groupTotal (f : Frame ℝ) (weekCol treatCol c : String) (b : Bool) (lo hi : ℤ) : ℝ :=
  ((f.rows.filter (fun r => decide (r treatCol = .int (if b then 1 else 0) ∧ ∃ w : ℤ, r weekCol = .int w ∧ lo ≤ w ∧ w < hi))).map
    (fun r => cellNumber (r c))).sum

/-- The same, per week and per item of the group. -/
noncomputable def groupAverage (f : Frame ℝ) (itemCol weekCol treatCol c : String) (b : Bool) (lo hi : ℤ) : ℝ :=
  groupTotal f weekCol treatCol c b lo hi / ((hi - lo : ℤ) * (groupItems f itemCol treatCol b).card)

/-- The average weekly value of the items of a crossover experiment while they are not treated. -/
noncomputable def untreatedAverage (d : Design ℝ) (f : Frame ℝ) (itemCol weekCol treatCol c : String) : ℝ :=
  (groupTotal f weekCol treatCol c true (d.runtime / 2 + d.washout.getD 0) d.runtime + groupTotal f weekCol treatCol c false (d.washout.getD 0) (d.runtime / 2)) /
    ((d.runtime / 2 - d.washout.getD 0 : ℤ) * ((groupItems f itemCol treatCol true).card + (groupItems f itemCol treatCol false).card))

/-- The average over the two groups of what the treatment changes in a group: treated less untreated, per week and item. -/
noncomputable def crossoverChange (d : Design ℝ) (f : Frame ℝ) (itemCol weekCol treatCol c : String) : ℝ :=
  ((groupAverage f itemCol weekCol treatCol c true (d.washout.getD 0) (d.runtime / 2) -
      groupAverage f itemCol weekCol treatCol c true (d.runtime / 2 + d.washout.getD 0) d.runtime) +
    (groupAverage f itemCol weekCol treatCol c false (d.runtime / 2 + d.washout.getD 0) d.runtime -
      groupAverage f itemCol weekCol treatCol c false (d.washout.getD 0) (d.runtime / 2))) / 2

/-- The share of a difference a crossover analysis reports if the groups have `n1` and `n0` items: 1 if they are equally large, and less otherwise. -/
noncomputable def balance (n1 n0 : ℕ) : ℝ := 4 * n1 * n0 / ((n1 : ℝ) + n0) ^ 2

/-- The average of a value over all items of the data. -/
noncomputable def itemAverage (f : Frame ℝ) (itemCol : String) (v : Cell ℝ → ℝ) : ℝ :=
  (∑ i ∈ itemsOf f itemCol (fun _ => True), v i) / (itemsOf f itemCol (fun _ => True)).card

/-- The regression coefficient, over all items, of the weekly value in the runtime on the weekly value in the pretest weeks. -/
noncomputable def pretestSlope (d : Design ℝ) (f : Frame ℝ) (itemCol weekCol c : String) : ℝ :=
  (∑ i ∈ itemsOf f itemCol (fun _ => True), (weeklyValue f itemCol weekCol c 0 d.runtime i - itemAverage f itemCol (weeklyValue f itemCol weekCol c 0 d.runtime)) *
      (weeklyValue f itemCol weekCol c (-d.pretest) 0 i - itemAverage f itemCol (weeklyValue f itemCol weekCol c (-d.pretest) 0))) /
    ∑ i ∈ itemsOf f itemCol (fun _ => True),
      (weeklyValue f itemCol weekCol c (-d.pretest) 0 i - itemAverage f itemCol (weeklyValue f itemCol weekCol c (-d.pretest) 0)) ^ 2

/-- The average weekly value of a group in the runtime, less what its pretest values predict: the coefficient times the distance of the pretest average of
the group from that of all items. -/
noncomputable def adjustedAverage (d : Design ℝ) (f : Frame ℝ) (itemCol weekCol treatCol c : String) (b : Bool) : ℝ :=
  groupAverage f itemCol weekCol treatCol c b 0 d.runtime - pretestSlope d f itemCol weekCol c *
    (groupAverage f itemCol weekCol treatCol c b (-d.pretest) 0 - itemAverage f itemCol (weeklyValue f itemCol weekCol c (-d.pretest) 0))

end Feedx.Spec
