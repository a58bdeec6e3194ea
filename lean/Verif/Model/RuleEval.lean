import Verif.Base
import Mathlib.Algebra.Order.Field.Basic
import Mathlib.Algebra.Order.Ring.Abs

/-!
# Model of the rule evaluations for decomposable loss functions

Sources (cpp/subprojects):
* boosting/src/mlrl/boosting/rule_evaluation/rule_evaluation_decomposable_common.hpp
* boosting/src/mlrl/boosting/rule_evaluation/rule_evaluation_decomposable_complete_common.hpp
* boosting/src/mlrl/boosting/rule_evaluation/rule_evaluation_decomposable_single.cpp
* boosting/src/mlrl/boosting/rule_evaluation/rule_evaluation_decomposable_partial_fixed_common.hpp and ..._partial_fixed.cpp
* boosting/src/mlrl/boosting/rule_evaluation/rule_evaluation_decomposable_partial_dynamic_common.hpp and ..._partial_dynamic.cpp
* common/include/mlrl/common/util/math.hpp (`divideOrZero`)

Floating point numbers are elements of an ordered field. Arrays that are members of an object keep the content of previous calls; it is
given as an argument.
-/

namespace MLRL.RuleEval

variable {K : Type} [Field K] [LinearOrder K]

/-- util/math.hpp:19-22. The result of a floating point division is not finite if and only if the denominator is zero, apart from
overflows, which are not modelled. -/
def divideOrZero (numerator denominator : K) : K := if denominator = 0 then 0 else numerator / denominator

/-- `getL1RegularizationWeight`, rule_evaluation_decomposable_common.hpp:17-25. -/
def getL1RegularizationWeight (gradient l1 : K) : K :=
  if gradient > l1 then -l1 else if gradient < -l1 then l1 else 0

/-- `calculateOutputWiseScore`, rule_evaluation_decomposable_common.hpp:37-42. -/
def outputScore (gradient hessian l1 l2 : K) : K :=
  divideOrZero (-gradient + getL1RegularizationWeight gradient l1) (hessian + l2)

/-- `calculateOutputWiseQuality`, rule_evaluation_decomposable_common.hpp:55-62. -/
def outputQuality (score gradient hessian l1 l2 : K) : K :=
  gradient * score + 1 / 2 * hessian * (score * score) + l1 * |score| + 1 / 2 * l2 * (score * score)

/-- `Tuple<float64>`: gradient and Hessian. -/
structure Stat (K : Type) where
  gradient : K
  hessian : K
deriving DecidableEq, Repr

/-- The score of an output. -/
def Stat.score (t : Stat K) (l1 l2 : K) : K := outputScore t.gradient t.hessian l1 l2

/-- The quality of a score. -/
def Stat.quality (t : Stat K) (l1 l2 score : K) : K := outputQuality score t.gradient t.hessian l1 l2

/-- `DenseScoreVector`: indices of outputs, scores and an overall quality. -/
structure ScoreVector (K : Type) where
  indices : List Nat
  values : List K
  quality : K
deriving DecidableEq, Repr

/-- `DecomposableCompleteRuleEvaluation::calculateScores`, rule_evaluation_decomposable_complete_common.hpp:44-61. -/
def complete (l1 l2 : K) (outputs : List Nat) (values : List K) (stats : List (Stat K)) : Res (ScoreVector K) := do
  let r ← loop stats.length (fun i (r : List K × K) => do
    let t ← readAt stats i
    let score := t.score l1 l2
    let values ← writeAt r.1 i score
    return (values, r.2 + t.quality l1 l2 score)) (values, 0)
  return ⟨outputs, r.1, r.2⟩

/-- `DecomposableSingleOutputRuleEvaluation::calculateScores`, rule_evaluation_decomposable_single.cpp:45-71. -/
def single (l1 l2 : K) (outputs : List Nat) (stats : List (Stat K)) : Res (ScoreVector K) := do
  let first ← readAt stats 0
  let best ← loopFrom (fun i (best : K × Nat) => do
    let t ← readAt stats i
    let score := t.score l1 l2
    return (if |score| > |best.1| then (score, i) else best)) 1 (stats.length - 1) (first.score l1 l2, 0)
  let index ← readAt outputs best.2
  let t ← readAt stats best.2
  return ⟨[index], [best.1], t.quality l1 l2 best.1⟩

/-- The loop of `sortOutputWiseScores`, rule_evaluation_decomposable_partial_fixed_common.hpp:53-59: it fills the first elements of the
temporary array. -/
def indexedScores (l1 l2 : K) (stats : List (Stat K)) (tmp : List (Nat × K)) : Res (List (Nat × K)) :=
  loop stats.length (fun i tmp => do
    let t ← readAt stats i
    writeAt tmp i (i, t.score l1 l2)) tmp

/-- `DecomposableFixedPartialRuleEvaluation::calculateScores`, rule_evaluation_decomposable_partial_fixed.cpp:50-75. The parameter
`partialSort` is `std::partial_sort` with `CompareOutputWiseCriteria` (rule_evaluation_decomposable_partial_fixed_common.hpp:61-62), which
is applied to the first `stats.length` elements of the temporary array; it is an error if `numPredictions` exceeds their number. The
arrays `indices` and `values` have `numPredictions` elements. -/
def fixed (partialSort : Nat → List (Nat × K) → List (Nat × K)) (l1 l2 : K) (outputs : List Nat) (tmp : List (Nat × K))
    (indices : List Nat) (values : List K) (stats : List (Stat K)) : Res (ScoreVector K) := do
  let numPredictions := indices.length
  let tmp ← indexedScores l1 l2 stats tmp
  if stats.length < numPredictions then .error .outOfBounds else do
  let tmp := partialSort numPredictions (tmp.take stats.length) ++ tmp.drop stats.length
  let r ← loop numPredictions (fun i (r : List Nat × List K × K) => do
    let entry ← readAt tmp i
    let output ← readAt outputs entry.1
    let indices ← writeAt r.1 i output
    let values ← writeAt r.2.1 i entry.2
    let t ← readAt stats entry.1
    return (indices, values, r.2.2 + t.quality l1 l2 entry.2)) (indices, values, 0)
  return ⟨r.1, r.2.1, r.2.2⟩

/-- `getMinAndMaxScore`, rule_evaluation_decomposable_partial_dynamic_common.hpp:24-45. -/
def getMinAndMaxScore (l1 l2 : K) (stats : List (Stat K)) : Res (K × K) := do
  let first ← readAt stats 0
  loopFrom (fun i (r : K × K) => do
    let t ← readAt stats i
    let score := |t.score l1 l2|
    return (if score > r.2 then (r.1, score) else if score < r.1 then (score, r.2) else r)) 1 (stats.length - 1)
    (|first.score l1 l2|, |first.score l1 l2|)

/-- `calculateThreshold` and `calculateWeightedScore`, rule_evaluation_decomposable_partial_dynamic_common.hpp:57-73. The parameter `pow`
is the power function with a fixed exponent. -/
def calculateThreshold (pow : K → K) (minAbsScore maxAbsScore threshold : K) : K := pow (maxAbsScore - minAbsScore) * threshold

@[inherit_doc calculateThreshold]
def calculateWeightedScore (pow : K → K) (score minAbsScore : K) : K := pow (|score| - minAbsScore)

/-- `DecomposableDynamicPartialRuleEvaluation::calculateScores`, rule_evaluation_decomposable_partial_dynamic.cpp:56-86. The
constructor sets the member `threshold_` to `1.0 - threshold`, where `threshold` is the parameter of the configuration (line 53). The
index and score vectors contain as many elements as have been written (line 83). -/
def dynamic (pow : K → K) (threshold l1 l2 : K) (outputs : List Nat) (indices : List Nat) (values : List K) (stats : List (Stat K)) :
    Res (ScoreVector K) := do
  let pair ← getMinAndMaxScore l1 l2 stats
  let limit := calculateThreshold pow pair.1 pair.2 (1 - threshold)
  let r ← loop stats.length (fun i (r : Nat × List Nat × List K × K) => do
    let t ← readAt stats i
    let score := t.score l1 l2
    if calculateWeightedScore pow score pair.1 ≥ limit then
      let output ← readAt outputs i
      let indices ← writeAt r.2.1 r.1 output
      let values ← writeAt r.2.2.1 r.1 score
      return (r.1 + 1, indices, values, r.2.2.2 + t.quality l1 l2 score)
    else
      return r) (0, indices, values, 0)
  return ⟨r.2.1.take r.1, r.2.2.1.take r.1, r.2.2.2⟩

end MLRL.RuleEval
