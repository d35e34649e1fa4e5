import Verif.Base.Err
import Verif.Base.Rounding

/-!
Model of `ExperimentDesign` construction and YAML (de)serialisation
(feedx/experiment_design.py:24-206).
-/

namespace Feedx

/-- A Python number given where a `float` is annotated: an `int` is accepted too (PEP 484) and keeps
its type, which is visible in `repr`.  (experiment_design.py:59-65: the fields annotated `float`.) -/
inductive PyNum (K : Type) where
  | int (i : ℤ)
  | float (x : K)
  deriving DecidableEq

/-- The numeric value of a Python number (Python compares `int` and `float` by value). -/
def PyNum.val {K : Type} [IntCast K] : PyNum K → K
  | .int i => (i : K)
  | .float x => x

/-- The constructor arguments of `ExperimentDesign` (experiment_design.py:54-66). -/
structure DesignParams (K : Type) where
  nBefore : ℤ
  runtime : ℤ
  primaryMetric : String
  pretest : ℤ
  isCrossover : Bool
  preTop : PyNum K
  preBottom : PyNum K
  postTrim : PyNum K
  washout : Option ℤ
  alpha : PyNum K
  power : PyNum K
  salt : Option String
  deriving DecidableEq

/-- An `ExperimentDesign` object: the constructor arguments and the two derived fields
(experiment_design.py:54-69). -/
structure Design (K : Type) extends DesignParams K where
  nAfterPre : ℤ
  nAfterPost : ℤ
  deriving DecidableEq

section
variable {K : Type} [Field K] [LinearOrder K] [FloorRing K] (R : Rounding K)

/-- The crossover part of `_validate_design` (experiment_design.py:97-119). -/
def validateCrossover (d : Design K) : Py Unit :=
  if d.isCrossover then
    match d.washout with
    | none => .error .valueError
    | some w => do
      raiseIf .valueError (w < 0)
      raiseIf .valueError (d.runtime ≤ 2 * w)
      raiseIf .valueError (d.runtime % 2 ≠ 0)
  else .ok ()

/-- `ExperimentDesign._validate_design` (experiment_design.py:71-125), checks in source order.
The sum of the two pre-trim fractions (line 84) is rounded like every float operation. -/
def validateDesign (d : Design K) : Py Unit := do
  raiseIf .valueError (d.runtime ≤ 0)
  raiseIf .valueError (d.pretest < 0)
  raiseIf .valueError (d.preTop.val < 0)
  raiseIf .valueError (d.preBottom.val < 0)
  raiseIf .valueError (d.postTrim.val < 0)
  raiseIf .valueError (R.rnd (d.preTop.val + d.preBottom.val) ≥ 1)
  raiseIf .valueError (d.postTrim.val ≥ 1 / 2)
  raiseIf .valueError (d.pretest = 0 ∧ (d.preTop.val > 0 ∨ d.preBottom.val > 0))
  validateCrossover d
  raiseIf .valueError (d.nAfterPost ≤ 50)

/-- The derived fields computed by `__post_init__` (experiment_design.py:128-143). -/
def deriveCounts (p : DesignParams K) : Design K :=
  let top := R.floorMul p.preTop.val p.nBefore
  let bottom := R.floorMul p.preBottom.val p.nBefore
  let afterPre := p.nBefore - top - bottom
  let each := R.floorMul p.postTrim.val afterPre
  { p with nAfterPre := afterPre, nAfterPost := afterPre - 2 * each }

/-- `ExperimentDesign(...)`: dataclass construction followed by `__post_init__`
(experiment_design.py:127-145). -/
def mkDesign (p : DesignParams K) : Py (Design K) :=
  let d := deriveCounts R p
  do
    validateDesign R d
    return d

/-! ### YAML -/

/-- A scalar in a YAML document. -/
inductive YVal (K : Type) where
  | null
  | bool (b : Bool)
  | int (i : ℤ)
  | float (x : K)
  | str (s : String)
  deriving DecidableEq

/-- A Python `dict` with string keys, as an association list (keys distinct in a real dict). -/
abbrev Dict (V : Type) := List (String × V)

/-- `dict[key]` if present. -/
def Dict.get? {V : Type} (m : Dict V) (k : String) : Option V := m.lookup k

/-- `dict.pop(key)`: value and remaining dict, `KeyError` if absent. -/
def Dict.pop {V : Type} (m : Dict V) (k : String) : Py (V × Dict V) :=
  match m.lookup k with
  | none => .error .keyError
  | some v => .ok (v, m.filter (fun e => e.1 ≠ k))

/-- YAML scalar of a number. -/
def PyNum.toY {K : Type} : PyNum K → YVal K
  | .int i => .int i
  | .float x => .float x

/-- YAML scalar of an optional integer. -/
def optIntToY {K : Type} : Option ℤ → YVal K
  | none => .null
  | some i => .int i

/-- YAML scalar of an optional string. -/
def optStrToY {K : Type} : Option String → YVal K
  | none => .null
  | some s => .str s

/-- `dataclasses.asdict(self)` (experiment_design.py:204): all fields in declaration order. -/
def Design.asDict {K : Type} (d : Design K) : Dict (YVal K) :=
  [("n_items_before_trimming", .int d.nBefore),
   ("runtime_weeks", .int d.runtime),
   ("primary_metric", .str d.primaryMetric),
   ("pretest_weeks", .int d.pretest),
   ("is_crossover", .bool d.isCrossover),
   ("pre_trim_top_percentile", d.preTop.toY),
   ("pre_trim_bottom_percentile", d.preBottom.toY),
   ("post_trim_percentile", d.postTrim.toY),
   ("crossover_washout_weeks", optIntToY d.washout),
   ("alpha", d.alpha.toY),
   ("power", d.power.toY),
   ("coinflip_salt", optStrToY d.salt),
   ("n_items_after_pre_trim", .int d.nAfterPre),
   ("n_items_after_post_trim", .int d.nAfterPost)]

/-- The names accepted by the constructor (experiment_design.py:54-66; the derived fields are
`init=False`). -/
def initNames : List String :=
  ["n_items_before_trimming", "runtime_weeks", "primary_metric", "pretest_weeks", "is_crossover",
   "pre_trim_top_percentile", "pre_trim_bottom_percentile", "post_trim_percentile",
   "crossover_washout_weeks", "alpha", "power", "coinflip_salt"]

/-- Reading an annotated-`int` argument.  Simplification: a value of another type is reported as
`outOfModel` (Python would go on with the wrongly typed object). -/
def YVal.asInt {K : Type} : YVal K → Py ℤ
  | .int i => .ok i
  | _ => .error .outOfModel

/-- Reading an annotated-`str` argument (same simplification). -/
def YVal.asStr {K : Type} : YVal K → Py String
  | .str s => .ok s
  | _ => .error .outOfModel

/-- Reading an annotated-`bool` argument (same simplification). -/
def YVal.asBool {K : Type} : YVal K → Py Bool
  | .bool b => .ok b
  | _ => .error .outOfModel

/-- Reading an annotated-`float` argument (same simplification). -/
def YVal.asNum {K : Type} : YVal K → Py (PyNum K)
  | .int i => .ok (.int i)
  | .float x => .ok (.float x)
  | _ => .error .outOfModel

/-- Reading an annotated-`int | None` argument (same simplification). -/
def YVal.asOptInt {K : Type} : YVal K → Py (Option ℤ)
  | .int i => .ok (some i)
  | .null => .ok none
  | _ => .error .outOfModel

/-- Reading an annotated-`str | None` argument (same simplification). -/
def YVal.asOptStr {K : Type} : YVal K → Py (Option String)
  | .str s => .ok (some s)
  | .null => .ok none
  | _ => .error .outOfModel

/-- A required keyword argument: `TypeError` when missing. -/
def required {V : Type} (m : Dict V) (k : String) : Py V :=
  match m.lookup k with
  | none => .error .typeError
  | some v => .ok v

/-- `cls(**raw_values)` argument binding (experiment_design.py:179): unknown names and missing
required names raise `TypeError`; the four last arguments have defaults (lines 63-66).
`dflt05` and `dflt08` are the float literals `0.05` and `0.8`. -/
def paramsOfDict (dflt05 dflt08 : K) (m : Dict (YVal K)) : Py (DesignParams K) :=
  if m.any (fun e => !(initNames.contains e.1)) then .error .typeError
  else do
    let n ← required m "n_items_before_trimming"
    let rt ← required m "runtime_weeks"
    let pm ← required m "primary_metric"
    let pt ← required m "pretest_weeks"
    let ic ← required m "is_crossover"
    let t ← required m "pre_trim_top_percentile"
    let b ← required m "pre_trim_bottom_percentile"
    let po ← required m "post_trim_percentile"
    let n ← n.asInt
    let rt ← rt.asInt
    let pm ← pm.asStr
    let pt ← pt.asInt
    let ic ← ic.asBool
    let t ← t.asNum
    let b ← b.asNum
    let po ← po.asNum
    let w ← ((m.lookup "crossover_washout_weeks").getD .null).asOptInt
    let al ← ((m.lookup "alpha").getD (.float dflt05)).asNum
    let pw ← ((m.lookup "power").getD (.float dflt08)).asNum
    let s ← ((m.lookup "coinflip_salt").getD .null).asOptStr
    return { nBefore := n, runtime := rt, primaryMetric := pm, pretest := pt, isCrossover := ic,
             preTop := t, preBottom := b, postTrim := po, washout := w, alpha := al, power := pw,
             salt := s }

/-- `design.n_items_... != loaded` (experiment_design.py:181,188): Python equality of an int with a
YAML scalar (a float compares by value; bools are the ints 0 and 1; other types are never equal). -/
def YVal.eqInt (v : YVal K) (n : ℤ) : Bool :=
  match v with
  | .int i => i == n
  | .float x => decide (x = (n : K))
  | .bool b => (if b then 1 else 0) == n
  | _ => false

/-- `ExperimentDesign.load_from_yaml` after `yaml.safe_load` (experiment_design.py:176-196). -/
def loadFromDict (dflt05 dflt08 : K) (m : Dict (YVal K)) : Py (Design K) := do
  let (pre, m) ← m.pop "n_items_after_pre_trim"
  let (post, m) ← m.pop "n_items_after_post_trim"
  let p ← paramsOfDict dflt05 dflt08 m
  let d ← mkDesign R p
  if !(pre.eqInt d.nAfterPre) then .error .valueError
  else if !(post.eqInt d.nAfterPost) then .error .valueError
  else return d

end
end Feedx
