import Verif.Spec.Trimmed

/-!
Textbook description of the sample summaries behind Yuen's t-tests.
-/

namespace Feedx.Spec

variable {K : Type} [Field K] [LinearOrder K]

/-- Summary of a sample for Yuen's test, after cutting `g` values at each end: `h` values are kept, `mu` is their mean, and
`ss` is the sum of squared deviations of the winsorized sample (all values, clipped to the range of the kept ones). -/
def YuenSummary (g : ℕ) (l : List K) (h : ℕ) (mu ss : K) : Prop :=
  ∃ kept lo hi, Trimmed id g l kept ∧ Extremes kept lo hi ∧ kept.length = h ∧ mu = mean kept ∧
    ss = sumSqDev (l.map (clip lo hi))

/-- Squared standard error of the trimmed mean. -/
def yuenVar (h : ℕ) (ss : K) : K := ss / ((h : K) * ((h : K) - 1))

/-- Squared standard error of the difference of two trimmed means, with the winsorized variances pooled. -/
def pooledVar (h1 : ℕ) (ss1 : K) (h2 : ℕ) (ss2 : K) : K :=
  (ss1 + ss2) / ((h1 : K) + (h2 : K) - 2) * (1 / (h1 : K) + 1 / (h2 : K))

/-- Degrees of freedom by Welch and Satterthwaite, for squared standard errors `d1` and `d2`. -/
def welchDf (h1 : ℕ) (d1 : K) (h2 : ℕ) (d2 : K) : K :=
  (d1 + d2) ^ 2 / (d1 ^ 2 / ((h1 : K) - 1) + d2 ^ 2 / ((h2 : K) - 1))

end Feedx.Spec
