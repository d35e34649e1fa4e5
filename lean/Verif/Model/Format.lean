import Mathlib.Data.Nat.Digits.Defs
import Verif.Model.Prepare
import Verif.Model.TTest

/-!
Model of the formatted results table (experiment_analysis.py:839-1052): the texts of the shown cells, their headers and the colour of each row.
The styles of the header and of hovered cells are not modelled.
-/

set_option linter.unusedSectionVars false

namespace Feedx

variable {K : Type} [Field K] [LinearOrder K] [FloorRing K]

/-! ### Numbers as text -/

/-- Digits (last one first) as text. -/
def digitChars (ds : List ℕ) : List Char := ds.reverse.map Nat.digitChar

/-- Digits of the whole part, last one first; zero has one digit. -/
def wholeDigits (n : ℕ) : List ℕ := if n = 0 then [0] else Nat.digits 10 n

/-- The last `k` digits, last one first. -/
def lastDigits (k n : ℕ) : List ℕ := Nat.digits 10 (n % 10 ^ k) ++ List.replicate (k - (Nat.digits 10 (n % 10 ^ k)).length) 0

/-- Thousands separators of Python's `,` option, for text read from its end. -/
def addCommas : List Char → List Char
  | a :: b :: c :: d :: rest => a :: b :: c :: ',' :: addCommas (d :: rest)
  | l => l

/-- `n / 10^k` with `k` decimal places. -/
def decimalChars (commas : Bool) (k n : ℕ) : List Char :=
  let whole := digitChars (wholeDigits (n / 10 ^ k))
  (if commas then (addCommas whole.reverse).reverse else whole) ++ (if k = 0 then [] else '.' :: digitChars (lastDigits k n))

/-- `f"{x:.kf}"` for `x >= 0`: correctly rounded, ties to even. -/
def fixedChars (commas : Bool) (k : ℕ) (x : K) : List Char := decimalChars commas k (roundHalfEven (x * 10 ^ k)).toNat

/-- `f"{x:+.kf}"`, with `commas` `f"{x:+,.kf}"`.  The sign of a negative zero is not modelled. -/
def signedChars (commas : Bool) (k : ℕ) : Fl K → List Char
  | .nan => "+nan".toList
  | .pinf => "+inf".toList
  | .ninf => "-inf".toList
  | .fin x => if x < 0 then '-' :: fixedChars commas k (-x) else '+' :: fixedChars commas k x

/-- A rounded operation. -/
def Fl.rounded (R : Rounding K) : Fl K → Fl K
  | .fin x => .fin (R.rnd x)
  | x => x

/-- `f"{x:+.k%}"`: Python multiplies by 100 first. -/
def percentChars (R : Rounding K) (k : ℕ) (x : Fl K) : List Char := signedChars false k (Fl.rounded R (.fin 100 * x)) ++ ['%']

/-! ### Cells -/

/-- `_format_p_value` (experiment_analysis.py:878-894).  The literals 0.001, 0.01 and 0.99 are taken exactly. -/
def formatPValue (p : Fl K) (alpha : K) : String :=
  let output : String :=
    if Fl.lt p (.fin (1 / 1000)) = true then "p<0.001"
    else match p with
      | .fin x => if x < 1 / 100 then "p=" ++ String.ofList (fixedChars false 3 x)
        else if x ≤ 99 / 100 then "p=" ++ String.ofList (fixedChars false 2 x) else "p>0.99"
      | _ => "p>0.99"
  if Fl.lt p (.fin alpha) = true then output ++ " (Significant)" else output

/-- `_highlight_significant` (experiment_analysis.py:897-905). -/
def rowStyle (isSignificant : Bool) (difference : Fl K) : String :=
  if isSignificant = false then "color:grey"
  else if Fl.lt (.fin 0) difference = true then "background-color:lightgreen" else "background-color:pink"

/-- A row of the results table (the columns used here). -/
structure ResultRow (K : Type) where
  metric : String
  isSignificant : Bool
  alpha : K
  pValue : Fl K
  absoluteDifference : Fl K
  absoluteLower : Fl K
  absoluteUpper : Fl K
  relativeDifference : Option (Fl K)
  relativeLower : Option (Fl K)
  relativeUpper : Option (Fl K)
  sampleSize : ℕ

/-- The row of `analyze_experiment` for a metric (experiment_analysis.py:829-836). -/
def ResultRow.ofTest (p : String × TestResult) : ResultRow ℝ :=
  { metric := p.1, isSignificant := p.2.isSignificant, alpha := p.2.alpha, pValue := p.2.pValue, absoluteDifference := p.2.absoluteDifference
    absoluteLower := p.2.absoluteLower, absoluteUpper := p.2.absoluteUpper, relativeDifference := p.2.relativeDifference
    relativeLower := p.2.relativeLower, relativeUpper := p.2.relativeUpper, sampleSize := p.2.sampleSize }

/-- `"{lb} to {ub}"`. -/
def rangeText (lower upper : List Char) : String := String.ofList (lower ++ " to ".toList ++ upper)

/-- A shown row: metric, shown cells with the two header texts, and style. -/
structure ShownRow where
  metric : String
  cells : List ((String × String) × String)
  style : String
  deriving DecidableEq

/-- Options of `format_experiment_analysis_results_dataframe`. -/
structure FormatOptions where
  relative : Bool := true
  absolute : Bool := true
  yearly : Bool := false
  relativePlaces : ℕ := 2
  absoluteFigures : ℕ := 3
  yearlyPlaces : ℕ := 0

/-- A relative effect as pandas holds it: `None` becomes nan in a column with other numbers. -/
def orNan (x : Option (Fl K)) : Fl K := x.getD .nan

/-- `52 * sample_size * x` (experiment_analysis.py:868-869, 984-986): the product of the whole numbers is exact. -/
def yearlyOf (R : Rounding K) (n : ℕ) (x : Fl K) : Fl K := Fl.rounded R (.fin ((52 * n : ℕ) : K) * x)

/-- The shown row of a result (experiment_analysis.py:951-1002).  `general` is the `+,.kg` format, which is not modelled further. -/
def shownRow (R : Rounding K) (general : ℕ → Fl K → String) (o : FormatOptions) (ci : String) (r : ResultRow K) : ShownRow :=
  { metric := r.metric
    cells :=
      (if o.relative then
        [(("Relative Effect Size", "Point Estimate"), String.ofList (percentChars R o.relativePlaces (orNan r.relativeDifference))),
         (("Relative Effect Size", ci), rangeText (percentChars R o.relativePlaces (orNan r.relativeLower))
          (percentChars R o.relativePlaces (orNan r.relativeUpper)))] else []) ++
      (if o.absolute then
        [(("Absolute Effect Size (per item per week)", "Point Estimate"), general o.absoluteFigures r.absoluteDifference),
         (("Absolute Effect Size (per item per week)", ci),
          general o.absoluteFigures r.absoluteLower ++ " to " ++ general o.absoluteFigures r.absoluteUpper)] else []) ++
      (if o.yearly then
        [(("Projected Effect Size (whole feed, per year)", "Point Estimate"),
          String.ofList (signedChars true o.yearlyPlaces (yearlyOf R r.sampleSize r.absoluteDifference))),
         (("Projected Effect Size (whole feed, per year)", ci),
          rangeText (signedChars true o.yearlyPlaces (yearlyOf R r.sampleSize r.absoluteLower))
            (signedChars true o.yearlyPlaces (yearlyOf R r.sampleSize r.absoluteUpper)))] else []) ++
      [(("P-value", ""), formatPValue r.pValue r.alpha)]
    style := rowStyle r.isSignificant r.absoluteDifference }

/-- The header of the interval columns (experiment_analysis.py:948, 956): `f"{1.0 - alpha:.0%} CI"`. -/
def ciHeader (R : Rounding K) (alpha : K) : String :=
  String.ofList (fixedChars false 0 (R.rnd (100 * R.rnd (1 - alpha)))) ++ "% CI"

/-- `format_experiment_analysis_results_dataframe` (experiment_analysis.py:908-1052).  A column of relative effects that are all `None` cannot be
formatted (`TypeError`).  pandas refuses to style a table with a repeated index value (`KeyError`, when the table is displayed). -/
def formatResults (R : Rounding K) (general : ℕ → Fl K → String) (o : FormatOptions) (rows : List (ResultRow K)) : Py (List ShownRow) :=
  match rows with
  | [] => .error .indexError
  | first :: _ => do
    raiseIf .typeError (o.relative = true ∧ (rows.all (fun r => r.relativeDifference.isNone) = true ∨
      rows.all (fun r => r.relativeLower.isNone) = true ∨ rows.all (fun r => r.relativeUpper.isNone) = true))
    raiseIf .keyError (¬ (rows.map (·.metric)).Nodup)
    return rows.map (shownRow R general o (ciHeader R first.alpha))

end Feedx
