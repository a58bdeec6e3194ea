import Verif.Model.RuleEval
import Mathlib.Algebra.Order.Field.Basic

/-!
# Model of heuristics

Sources: `seco/src/mlrl/seco/heuristics/*.cpp`, `seco/src/mlrl/seco/heuristics/heuristic_common.hpp`.

Floating point numbers are elements of an ordered field `K` (exact arithmetic); parameters that may be infinite are of type `Option K`.
-/

namespace MLRL.Seco

open RuleEval

variable {K : Type} [Field K] [LinearOrder K]

/-- The parameters of `evaluateConfusionMatrix`, heuristic.hpp:78-79. -/
structure Elements (K : Type) where
  cin : K
  cip : K
  crn : K
  crp : K
  uin : K
  uip : K
  urn : K
  urp : K
  deriving DecidableEq

/-- `precision`, heuristic_common.hpp:11-15. -/
def precision (cin cip crn crp : K) : K :=
  let numCoveredCorrect := cin + crp
  let numCovered := numCoveredCorrect + cip + crn
  divideOrZero numCoveredCorrect numCovered

/-- `recall`, heuristic_common.hpp:17-21. -/
def recall (cin crp uin urp : K) : K :=
  let numCoveredEqual := cin + crp
  let numEqual := numCoveredEqual + uin + urp
  divideOrZero numCoveredEqual numEqual

/-- `wra`, heuristic_common.hpp:23-37. -/
def wra (e : Elements K) : K :=
  let numCoveredEqual := e.cin + e.crp
  let numUncoveredEqual := e.uin + e.urp
  let numEqual := numUncoveredEqual + numCoveredEqual
  let numCovered := numCoveredEqual + e.cip + e.crn
  let numUncovered := numUncoveredEqual + e.uip + e.urn
  let numTotal := numCovered + numUncovered
  if numCovered > 0 ∧ numTotal > 0 then (numCovered / numTotal) * ((numCoveredEqual / numCovered) - (numEqual / numTotal)) else 0

/-- `Accuracy::evaluateConfusionMatrix`, heuristic_accuracy.cpp:14-21. -/
def accuracy (e : Elements K) : K :=
  let numCoveredCorrect := e.cin + e.crp
  let numUncoveredCorrect := e.uin + e.uip
  let numCorrect := numCoveredCorrect + numUncoveredCorrect
  let numTotal := numCorrect + e.cip + e.crn + e.urn + e.urp
  divideOrZero numCorrect numTotal

/-- `FMeasure::evaluateConfusionMatrix`, heuristic_f_measure.cpp:24-42; `none` is an infinite value. -/
def fMeasure (beta : Option K) (e : Elements K) : K :=
  match beta with
  | none => recall e.cin e.crp e.uin e.urp
  | some beta =>
    if beta > 0 then
      let betaPow := beta * beta
      let numCoveredEqual := e.cin + e.crp
      let numUncoveredCorrect := e.uin + e.urp
      let numCoveredIncorrect := e.cip + e.crn
      let numerator := (1 + betaPow) * numCoveredEqual
      let denominator := numerator + (betaPow * numUncoveredCorrect) + numCoveredIncorrect
      divideOrZero numerator denominator
    else precision e.cin e.cip e.crn e.crp

/-- `Laplace::evaluateConfusionMatrix`, heuristic_laplace.cpp:11-16. -/
def laplace (e : Elements K) : K :=
  let numCoveredCorrect := e.cin + e.crp
  let numCovered := numCoveredCorrect + e.cip + e.crn
  (numCoveredCorrect + 1) / (numCovered + 2)

/-- `MEstimate::evaluateConfusionMatrix`, heuristic_m_estimate.cpp:24-46; `none` is an infinite value. -/
def mEstimate (m : Option K) (e : Elements K) : K :=
  match m with
  | none => wra e
  | some m =>
    if m > 0 then
      let numCoveredEqual := e.cin + e.crp
      let numCovered := numCoveredEqual + e.cip + e.crn
      let numUncoveredEqual := e.uin + e.urp
      let numEqual := numCoveredEqual + numUncoveredEqual
      let numTotal := numCovered + numUncoveredEqual + e.uip + e.urn
      if numTotal > 0 then (numCoveredEqual + (m * (numEqual / numTotal))) / (numCovered + m) else 0
    else precision e.cin e.cip e.crn e.crp

/-- The heuristics that can be configured, with their parameters. -/
inductive Heuristic (K : Type) where
  | accuracy
  | precision
  | recall
  | laplace
  | wra
  | fMeasure (beta : Option K)
  | mEstimate (m : Option K)
  deriving DecidableEq

/-- `IHeuristic::evaluateConfusionMatrix`. -/
def Heuristic.evaluate (h : Heuristic K) (e : Elements K) : K :=
  match h with
  | .accuracy => Seco.accuracy e
  | .precision => Seco.precision e.cin e.cip e.crn e.crp
  | .recall => Seco.recall e.cin e.crp e.uin e.urp
  | .laplace => Seco.laplace e
  | .wra => Seco.wra e
  | .fMeasure beta => Seco.fMeasure beta e
  | .mEstimate m => Seco.mEstimate m e

end MLRL.Seco
