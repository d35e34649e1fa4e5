import Verif.Model.Design
import Verif.Model.Md5
import Mathlib.Data.Nat.Digits.Defs

/-!
Model of `repr(ExperimentDesign)`, `design_id` and the washout weeks shown by `str(design)`
(feedx/experiment_design.py:147-157, 208-251).  Python strings are lists of code points.
-/

namespace Feedx

/-- Decimal digit character. -/
def digitChar (n : ℕ) : Char := "0123456789".toList.getD n '0'

/-- `repr` of a non-negative int. -/
def reprNat (n : ℕ) : List Char :=
  if n = 0 then ['0'] else (Nat.digits 10 n).reverse.map digitChar

/-- `repr` of an int. -/
def reprInt : ℤ → List Char
  | .ofNat n => reprNat n
  | .negSucc n => '-' :: reprNat (n + 1)

/-- `n` as exactly `w` lower-case hexadecimal digits. -/
def hexFixed : ℕ → ℕ → List Char
  | 0, _ => []
  | w + 1, n => hexFixed w (n / 16) ++ [Md5.hexDigit (n % 16)]

/-- How `repr(str)` writes one character inside quotes `q` (CPython `unicode_repr`).
`printable` is the Unicode database's `str.isprintable` for non-ASCII characters. -/
def escChar (printable : Char → Bool) (q c : Char) : List Char :=
  if c = q ∨ c = '\\' then ['\\', c]
  else if c = '\t' then ['\\', 't']
  else if c = '\n' then ['\\', 'n']
  else if c = '\r' then ['\\', 'r']
  else if c.toNat < 32 ∨ c.toNat = 127 then '\\' :: 'x' :: hexFixed 2 c.toNat
  else if c.toNat < 127 then [c]
  else if printable c then [c]
  else if c.toNat < 256 then '\\' :: 'x' :: hexFixed 2 c.toNat
  else if c.toNat < 65536 then '\\' :: 'u' :: hexFixed 4 c.toNat
  else '\\' :: 'U' :: hexFixed 8 c.toNat

/-- The quote character chosen by `repr(str)`. -/
def quoteChar (s : List Char) : Char := if '\'' ∈ s ∧ '"' ∉ s then '"' else '\''

/-- `repr(str)`. -/
def reprStr (printable : Char → Bool) (s : List Char) : List Char :=
  let q := quoteChar s
  q :: (s.flatMap (escChar printable q) ++ [q])

/-- `repr(None)` or `repr(int)`. -/
def reprOptInt : Option ℤ → List Char
  | none => "None".toList
  | some i => reprInt i

/-- `repr(None)` or `repr(str)`. -/
def reprOptStr (printable : Char → Bool) : Option String → List Char
  | none => "None".toList
  | some s => reprStr printable s.toList

/-- `repr(bool)`. -/
def reprBool (b : Bool) : List Char := if b then "True".toList else "False".toList

/-- Contract for Python's `repr` of floats (a parameter of the model): it is injective, it
never contains a comma or a closing parenthesis, and it never looks like the `repr` of an int. -/
structure FloatReprOk {K : Type} (fr : K → List Char) : Prop where
  inj : Function.Injective fr
  noDelim : ∀ x, ∀ c ∈ fr x, c ≠ ',' ∧ c ≠ ')'
  neInt : ∀ x i, fr x ≠ reprInt i

section
variable {K : Type}

/-- `repr` of a number; `fr` is the `repr` of floats. -/
def reprNum (fr : K → List Char) : PyNum K → List Char
  | .int i => reprInt i
  | .float x => fr x

/-- `repr(design)`: the dataclass-generated representation, fields in declaration order
(experiment_design.py:54-69). -/
def reprDesign (fr : K → List Char) (printable : Char → Bool) (d : Design K) : List Char :=
  "ExperimentDesign(n_items_before_trimming=".toList ++ reprInt d.nBefore ++
  (", runtime_weeks=".toList ++ reprInt d.runtime ++
  (", primary_metric=".toList ++ reprStr printable d.primaryMetric.toList ++
  (", pretest_weeks=".toList ++ reprInt d.pretest ++
  (", is_crossover=".toList ++ reprBool d.isCrossover ++
  (", pre_trim_top_percentile=".toList ++ reprNum fr d.preTop ++
  (", pre_trim_bottom_percentile=".toList ++ reprNum fr d.preBottom ++
  (", post_trim_percentile=".toList ++ reprNum fr d.postTrim ++
  (", crossover_washout_weeks=".toList ++ reprOptInt d.washout ++
  (", alpha=".toList ++ reprNum fr d.alpha ++
  (", power=".toList ++ reprNum fr d.power ++
  (", coinflip_salt=".toList ++ reprOptStr printable d.salt ++
  (", n_items_after_pre_trim=".toList ++ reprInt d.nAfterPre ++
  (", n_items_after_post_trim=".toList ++ reprInt d.nAfterPost ++
  ")".toList)))))))))))))

variable [Field K] [LinearOrder K] [FloorRing K] (R : Rounding K) (fr : K → List Char)
  (printable : Char → Bool)

/-- The text that `design_id` hashes: `repr(dataclasses.replace(self, coinflip_salt=None))`
(experiment_design.py:154-156).  `replace` runs the constructor (and its validation) again. -/
def designIdText (d : Design K) : Py (List Char) := do
  let d' ← mkDesign R { d.toDesignParams with salt := none }
  return reprDesign fr printable d'

/-- `ExperimentDesign.design_id` (experiment_design.py:147-157). -/
def designId (d : Design K) : Py (List Char) := do
  let t ← designIdText R fr printable d
  return Md5.md5Hex t

end

/-- Python's `list(range(a, b))`. -/
def pyRange (a b : ℤ) : List ℤ := (List.range (b - a).toNat).map (fun i : ℕ => a + (i : ℤ))

/-- The list of washout weeks (1-based) printed by `str(design)` for a crossover design with
`washout` weeks (experiment_design.py:228-233). -/
def printedWashoutWeeks (runtime washout : ℤ) : List ℤ :=
  pyRange 1 (washout + 1) ++ pyRange (runtime / 2 + 1) (runtime / 2 + washout + 1)

end Feedx
