import Mathlib.Data.List.Sort
import Mathlib.Data.Fin.VecNotation
import Verif.Base.Err
import Verif.Base.Fl
import Verif.Base.Rounding

/-!
Model of `TrimmedArray` and `apply_cuped_adjustment` (feedx/statistics.py:24-335).

A stack of `m + 1` equally long arrays is a list of columns (one per sample), a column being a
function `Fin (m + 1) → K`; row 0 decides what is trimmed.  One-dimensional input is `m = 0`.
The warnings printed for constant arrays (24-26, 80-91) are not modelled.
-/

set_option linter.unusedSectionVars false

namespace Feedx

variable {K : Type} [Field K] [LinearOrder K]

/-- The values of row `i` of a stack. -/
def rowOf {m : ℕ} (cols : List (Fin (m + 1) → K)) (i : Fin (m + 1)) : List K := cols.map (fun c => c i)

/-- Contract of `np.argsort` on finite values: the positions, in an order that sorts the values.
Nothing is assumed about equal values (the default algorithm of numpy is not stable). -/
def ArgsortOk (argsort : List K → List ℕ) : Prop :=
  ∀ l, (argsort l).Perm (List.range l.length) ∧
    ((argsort l).map (fun i => l.getD i 0)).Pairwise (· ≤ ·)

/-- A `TrimmedArray` object: attributes of statistics.py:46-52. -/
structure TrimmedArray (K : Type) (m : ℕ) where
  /-- `_values_untrimmed` -/
  untrimmed : List (Fin (m + 1) → K)
  /-- `n_trim` -/
  nTrim : ℕ
  /-- `values_trimmed` -/
  trimmed : List (Fin (m + 1) → K)

/-- `n_trim` (statistics.py:101-103). -/
def nTrimOf [FloorRing K] (R : Rounding K) (q : K) (n : ℕ) : ℕ := (R.floorMul q (n : ℤ)).toNat

/-- Python slice `l[g:-g]` for `g > 0`. -/
def sliceInner {α : Type} (l : List α) (g : ℕ) : List α := (l.take (l.length - g)).drop g

/-- `trimmed_index` (statistics.py:107-112). -/
def trimmedIndex (argsort : List K → List ℕ) (keys : List K) (g : ℕ) : List ℕ :=
  if g = 0 then List.range keys.length
  else (sliceInner (argsort keys) g).insertionSort (· ≤ ·)

/-- `TrimmedArray.__init__` (statistics.py:55-91) including the lazily computed `n_trim` and
`values_trimmed` (101-114).  The dimension check (72-73) is part of the type here. -/
def mkTrimmed [FloorRing K] (R : Rounding K) (argsort : List K → List ℕ) {m : ℕ}
    (cols : List (Fin (m + 1) → K)) (q : K) : Py (TrimmedArray K m) := do
  raiseIf .valueError (q < 0 ∨ 1 / 2 ≤ q)
  let g := nTrimOf R q cols.length
  let kept := (trimmedIndex argsort (rowOf cols 0) g).map (fun i => cols.getD i 0)
  raiseIf .assertionError ((kept.length : ℤ) ≠ (cols.length : ℤ) - 2 * (g : ℤ))
  return ⟨cols, g, kept⟩

/-- First column with the smallest row-0 value: `values[:, argmin(values[0, :])]`. -/
def argminCol {m : ℕ} : List (Fin (m + 1) → K) → (Fin (m + 1) → K)
  | [] => 0
  | c :: l => l.foldl (fun acc x => if x 0 < acc 0 then x else acc) c

/-- First column with the largest row-0 value: `values[:, argmax(values[0, :])]`. -/
def argmaxCol {m : ℕ} : List (Fin (m + 1) → K) → (Fin (m + 1) → K)
  | [] => 0
  | c :: l => l.foldl (fun acc x => if acc 0 < x 0 then x else acc) c

namespace TrimmedArray
variable {m : ℕ} (T : TrimmedArray K m)

/-- `__len__` (statistics.py:130-131). -/
def len : ℕ := T.trimmed.length

/-- `original_sample_size` (statistics.py:97-99). -/
def size : ℕ := T.untrimmed.length

/-- `min_values` (statistics.py:116-118).  numpy raises `ValueError` when nothing is left after
trimming; callers modelled here check for that. -/
def minValues : Fin (m + 1) → K := argminCol T.trimmed

/-- `max_values` (statistics.py:120-122); see `minValues`. -/
def maxValues : Fin (m + 1) → K := argmaxCol T.trimmed

/-- `mean` (statistics.py:133-152).  Meaningful when something is left after trimming (numpy gives
nan otherwise). -/
def mean (i : Fin (m + 1)) : K := (rowOf T.trimmed i).sum / (T.len : K)

/-- `winsorized_mean` (statistics.py:154-177); see `minValues`. -/
def winsorizedMean (i : Fin (m + 1)) : K :=
  ((rowOf T.trimmed i).sum + (T.nTrim : K) * (T.minValues i + T.maxValues i)) / (T.size : K)

/-- `cov` (statistics.py:179-212).  Meaningful when `len > ddof` (numpy divides by zero
otherwise). -/
def cov (ddof : ℕ) (i j : Fin (m + 1)) : K :=
  let resid (c : Fin (m + 1) → K) (k : Fin (m + 1)) : K := c k - T.winsorizedMean k
  ((T.trimmed.map (fun c => resid c i * resid c j)).sum +
      (T.nTrim : K) * (resid T.minValues i * resid T.minValues j
        + resid T.maxValues i * resid T.maxValues j)) / ((T.len : K) - (ddof : K))

/-- `var` (statistics.py:214-240). -/
def var (ddof : ℕ) (i : Fin (m + 1)) : K := T.cov ddof i i

end TrimmedArray

/-- A one-dimensional array as a stack with one row (`np.atleast_2d`, statistics.py:75). -/
def asStack (l : List K) : List (Fin 1 → K) := l.map (fun x _ => x)

/-- `np.mean` of a non-empty array. -/
def meanOf (l : List K) : K := l.sum / (l.length : K)

/-- Entry of `np.cov` (ddof 1) for two arrays of equal length; meaningful for two or more samples. -/
def sampleCov (x y : List K) : K :=
  (List.zipWith (fun a b => (a - meanOf x) * (b - meanOf y)) x y).sum / ((x.length : K) - 1)

/-- `apply_cuped_adjustment` (statistics.py:258-335).

* arrays of different length: `np.stack` raises `ValueError` (301);
* one sample or none: `np.cov` is nan, not modelled (`outOfModel`);
* constant covariate: `theta` is 0/0 = nan (303-306), so without trimming every output is nan; with
  trimming the winsorized variance of the (constant) covariate is 0 whatever is trimmed, hence
  `trimmed_theta` is nan, the comparison at 332 is false and the metric is returned;
* the winsorized covariate variance can be 0 also otherwise; then its winsorized covariance is 0 too,
  `trimmed_theta` is nan and the metric is returned as well;
* nothing left after trimming: `ValueError` from `argmin` in `cov()`. -/
def cuped [FloorRing K] (R : Rounding K) (argsort : List K → List ℕ) (metric covariate : List K)
    (q : K) : Py (List (Fl K)) := do
  raiseIf .valueError (metric.length ≠ covariate.length)
  raiseIf .outOfModel (metric.length ≤ 1)
  raiseIf .valueError (q < 0 ∨ 1 / 2 ≤ q)
  let g := nTrimOf R q metric.length
  if sampleCov covariate covariate = 0 then
    if g = 0 then return metric.map (fun _ => .nan)
    else
      raiseIf .valueError (metric.length ≤ 2 * g)
      return metric.map .fin
  else
    let theta := sampleCov metric covariate / sampleCov covariate covariate
    let adjusted := List.zipWith (fun a b => a - theta * (b - meanOf covariate)) metric covariate
    let stack : List (Fin 3 → K) :=
      List.zipWith (fun a (bc : K × K) => ![a, bc.1, bc.2]) adjusted (metric.zip covariate)
    let T ← mkTrimmed R argsort stack q
    if T.nTrim = 0 then return adjusted.map .fin
    else
      raiseIf .valueError (T.trimmed = [])
      if T.cov 0 2 2 = 0 then return metric.map .fin
      else
        let trimmedTheta := T.cov 0 1 2 / T.cov 0 2 2
        let noOffset := List.zipWith (fun a b => a - trimmedTheta * b) metric covariate
        let tm ← mkTrimmed R argsort (asStack metric) q
        let tc ← mkTrimmed R argsort (asStack noOffset) q
        if tc.var 0 0 < tm.var 0 0 then
          return noOffset.map (fun x => .fin (x + tm.mean 0 - tc.mean 0))
        else return metric.map .fin

end Feedx
