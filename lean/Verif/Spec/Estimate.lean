import Verif.Spec.Pivot
import Verif.Spec.TimePeriod
import Verif.Spec.Trimmed
import Verif.Spec.Cuped
import Verif.Spec.Assign
import Mathlib.Data.Real.Basic
import Mathlib.Algebra.Order.Archimedean.Real.Basic

/-!
What the minimum detectable effect is estimated from: for one start week, the average and the variance of the primary metric, written with the
rows of the historical data.
-/

namespace Feedx.Spec

/-- Average per week of a metric of an item over the weeks `[lo, hi)`. -/
noncomputable def weeklyAverage (rows : List (Row ℝ)) (itemCol weekCol metric : String) (lo hi : ℤ) (item : Cell ℝ) : Fl ℝ :=
  total rows [itemCol] weekCol [item] lo hi metric / .fin ((hi - lo : ℤ) : ℝ)

/-- `items` lists, each once, the items that have a row in the weeks of the experiment starting at `start`. -/
def ListsItems (d : Design ℝ) (rows : List (Row ℝ)) (itemCol weekCol : String) (start : ℤ) (items : List (Cell ℝ)) : Prop :=
  items.Nodup ∧ ∀ x, x ∈ items ↔ x ≠ .null ∧ ∃ r ∈ rows, r itemCol = x ∧
    ∃ w : ℤ, r weekCol = .int w ∧ ∃ label, InPeriod d.toDesignParams start label w

/-- Some item has a row in the weeks before the experiment. -/
def HasPretestRows (d : Design ℝ) (rows : List (Row ℝ)) (itemCol weekCol : String) (start : ℤ) : Prop :=
  ∃ r ∈ rows, r itemCol ≠ .null ∧ ∃ w : ℤ, r weekCol = .int w ∧ start - d.pretest ≤ w ∧ w < start

/-- Trimmed mean and winsorized variance of a sample of which `g` values are cut at each end. -/
def TrimmedStats (g : ℕ) (sample : List ℝ) (average variance : ℝ) : Prop :=
  ∃ (kept : List ℝ) (lo hi : ℝ), Trimmed id g sample kept ∧ Extremes kept lo hi ∧ average = mean kept ∧
    variance = sumSqDev (sample.map (clip lo hi)) / ((kept.length : ℝ) - 1)

/-- Crossover experiment: pairs of an item's averages in the two test periods.  Items are cut by their difference. -/
def CrossoverStats (g : ℕ) (bias : Prop) (sample : List (ℝ × ℝ)) (average variance : ℝ) : Prop :=
  ∃ (kept : List (ℝ × ℝ)) (lo hi : ℝ), Trimmed (fun y => y.1 - y.2) g sample kept ∧ Extremes (kept.map (fun y => y.1 - y.2)) lo hi ∧
    average = (mean (kept.map Prod.fst) + mean (kept.map Prod.snd)) / 2 ∧
    (bias → variance = sumSqDev (sample.map (fun y => clip lo hi (y.1 - y.2))) / ((kept.length : ℝ) - 1) +
      (mean (kept.map Prod.fst) - mean (kept.map Prod.snd)) ^ 2 / 4) ∧
    (¬ bias → variance = sumSqDev (sample.map (fun y => clip lo hi (y.1 - y.2))) / ((kept.length : ℝ) - 1))

/-- Regular experiment with pretest data: pairs of an item's averages in the test and in the pretest weeks.  Without trimming the variance is
what a regression on the pretest values leaves.  With trimming it is the smaller one of the variances of the test values and of the values
adjusted with the slope in a sample winsorized by the residuals of the regression. -/
def CupedStats (g : ℕ) (sample : List (ℝ × ℝ)) (average variance : ℝ) : Prop :=
  (g = 0 → sumSqDev (sample.map Prod.snd) ≠ 0 ∧ average = mean (sample.map Prod.fst) ∧
    variance = (sumSqDev (sample.map Prod.fst) -
      crossDev (sample.map Prod.fst) (sample.map Prod.snd) ^ 2 / sumSqDev (sample.map Prod.snd)) / ((sample.length : ℝ) - 1)) ∧
  (g ≠ 0 → ∃ v, TrimmedStats g (sample.map Prod.fst) average v ∧
    (sumSqDev (sample.map Prod.snd) = 0 → variance = v) ∧
    (sumSqDev (sample.map Prod.snd) ≠ 0 → ∃ wins, Winsorized (fun y => y.1 - slope sample * y.2) g sample wins ∧
      (sumSqDev (wins.map Prod.snd) = 0 → variance = v) ∧
      (sumSqDev (wins.map Prod.snd) ≠ 0 → ∃ a w, TrimmedStats g (sample.map (fun y => y.1 - slope wins * y.2)) a w ∧ variance = min v w)))

/-- Average and variance of the primary metric for one start week. -/
def WeekEstimate (rnd : ℝ → ℝ) (d : Design ℝ) (rows : List (Row ℝ)) (itemCol weekCol : String) (start : ℤ) (average variance : ℝ) : Prop :=
  ∃ items kept : List (Cell ℝ), ListsItems d rows itemCol weekCol start items ∧ (items.length : ℤ) = d.nBefore ∧
    (d.pretest = 0 → kept = items) ∧
    (0 < d.pretest → CutsExtremesOrMissing (weeklyAverage rows itemCol weekCol d.primaryMetric (start - d.pretest) start)
      ⌊rnd (d.preTop.val * items.length)⌋ ⌊rnd (d.preBottom.val * items.length)⌋ items kept) ∧
    (kept.length : ℤ) = d.nAfterPre ∧
    (d.isCrossover = true → ∃ sample : List (ℝ × ℝ), List.Forall₂ (fun item y =>
        weeklyAverage rows itemCol weekCol d.primaryMetric (start + d.washout.getD 0) (start + d.runtime / 2) item = .fin y.1 ∧
        weeklyAverage rows itemCol weekCol d.primaryMetric (start + d.runtime / 2 + d.washout.getD 0) (start + d.runtime) item = .fin y.2)
        kept sample ∧
      CrossoverStats ⌊rnd (d.postTrim.val * kept.length)⌋.toNat (0 < d.postTrim.val) sample average variance) ∧
    (d.isCrossover = false → ¬ HasPretestRows d rows itemCol weekCol start → ∃ sample : List ℝ, List.Forall₂ (fun item y =>
        weeklyAverage rows itemCol weekCol d.primaryMetric start (start + d.runtime) item = .fin y) kept sample ∧
      TrimmedStats ⌊rnd (d.postTrim.val * kept.length)⌋.toNat sample average variance) ∧
    (d.isCrossover = false → HasPretestRows d rows itemCol weekCol start → ∃ sample : List (ℝ × ℝ), List.Forall₂ (fun item y =>
        weeklyAverage rows itemCol weekCol d.primaryMetric start (start + d.runtime) item = .fin y.1 ∧
        weeklyAverage rows itemCol weekCol d.primaryMetric (start - d.pretest) start item = .fin y.2) kept sample ∧
      CupedStats ⌊rnd (d.postTrim.val * kept.length)⌋.toNat sample average variance)

/-- For this start week the adjustment with pretest values is not defined: the experiment is a regular one with pretest data, no items are cut after the
test, and the items that the first trimming leaves all have the same average before the experiment. -/
def WeekConstant (rnd : ℝ → ℝ) (d : Design ℝ) (rows : List (Row ℝ)) (itemCol weekCol : String) (start : ℤ) : Prop :=
  d.isCrossover = false ∧ HasPretestRows d rows itemCol weekCol start ∧
  ∃ items kept : List (Cell ℝ), ListsItems d rows itemCol weekCol start items ∧ (items.length : ℤ) = d.nBefore ∧
    (d.pretest = 0 → kept = items) ∧
    (0 < d.pretest → CutsExtremesOrMissing (weeklyAverage rows itemCol weekCol d.primaryMetric (start - d.pretest) start)
      ⌊rnd (d.preTop.val * items.length)⌋ ⌊rnd (d.preBottom.val * items.length)⌋ items kept) ∧
    (kept.length : ℤ) = d.nAfterPre ∧ ⌊rnd (d.postTrim.val * kept.length)⌋ = 0 ∧
    ∃ v : ℝ, ∀ item ∈ kept, weeklyAverage rows itemCol weekCol d.primaryMetric (start - d.pretest) start item = .fin v

/-- Whatever items the first trimming may leave for a start week, two of them differ in their average before the experiment. -/
def PretestVaries (rnd : ℝ → ℝ) (d : Design ℝ) (rows : List (Row ℝ)) (itemCol weekCol : String) (starts : List ℤ) : Prop :=
  ∀ start ∈ starts, ∀ items kept : List (Cell ℝ), ListsItems d rows itemCol weekCol start items →
    CutsExtremesOrMissing (weeklyAverage rows itemCol weekCol d.primaryMetric (start - d.pretest) start)
      ⌊rnd (d.preTop.val * items.length)⌋ ⌊rnd (d.preBottom.val * items.length)⌋ items kept →
    ∃ a ∈ kept, ∃ b ∈ kept, weeklyAverage rows itemCol weekCol d.primaryMetric (start - d.pretest) start a ≠
      weeklyAverage rows itemCol weekCol d.primaryMetric (start - d.pretest) start b

end Feedx.Spec
