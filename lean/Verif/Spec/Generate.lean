import Verif.Model.Generate

/-!
Which designs a user expects from `generate_all_valid_designs`, written from its documentation
(feedx/experiment_simulations.py:52-85).
-/

namespace Feedx.Spec

variable {K : Type} [Field K] [LinearOrder K]

/-- The design parameters for one choice of the five candidates; `washout` is given exactly for crossover designs. -/
def designOf (c : Candidates K) (runtime pretest : ℤ) (top bottom post : PyNum K) (washout : Option ℤ) : DesignParams K where
  nBefore := c.nBefore
  runtime := runtime
  primaryMetric := c.primaryMetric
  pretest := pretest
  isCrossover := washout.isSome
  preTop := top
  preBottom := bottom
  postTrim := post
  washout := washout
  alpha := .float (1 / 20)
  power := .float (4 / 5)
  salt := none

/-- The designs wanted for one choice: none if items would have to be trimmed without pretest weeks; otherwise the traditional one if
allowed, followed by the crossover one if allowed and if the runtime can be split into two periods longer than the washout. -/
def wantedFor (c : Candidates K) (runtime pretest : ℤ) (top bottom post : PyNum K) : List (DesignParams K) :=
  if pretest = 0 ∧ 0 < top.val + bottom.val then []
  else
    (if c.traditionalAllowed then [designOf c runtime pretest top bottom post none] else []) ++
    match c.washout with
    | none => []
    | some w => if c.crossoverAllowed ∧ 2 * w < runtime ∧ Even runtime then [designOf c runtime pretest top bottom post (some w)] else []

/-- All wanted designs, in the order of nested loops over the candidates. -/
def wanted (c : Candidates K) : List (DesignParams K) :=
  c.runtimes.flatMap fun runtime =>
    c.pretests.flatMap fun pretest =>
      c.preTops.flatMap fun top =>
        c.preBottoms.flatMap fun bottom =>
          c.postTrims.flatMap fun post => wantedFor c runtime pretest top bottom post

end Feedx.Spec
