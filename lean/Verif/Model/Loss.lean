import Verif.Model.RuleEval
import Verif.Model.StatisticVector
import Mathlib.Analysis.SpecialFunctions.Log.Basic
import Mathlib.Analysis.SpecialFunctions.Sqrt

/-!
# Model of loss functions

Sources (cpp/subprojects/boosting):
* include/mlrl/boosting/util/math.hpp: `logisticFunction`
* src/mlrl/boosting/losses/loss_decomposable_logistic.cpp, loss_decomposable_squared_error.cpp, loss_decomposable_squared_hinge.cpp
* src/mlrl/boosting/losses/loss_non_decomposable_logistic.cpp, loss_non_decomposable_squared_error.cpp,
  loss_non_decomposable_squared_hinge.cpp

Floating point numbers are real numbers, `std::exp`, `std::log` and `std::sqrt` are exact. `std::sqrt` of a negative number is NaN; it is
only used as the second argument of `divideOrZero`, for which a result that is not finite and the value zero that `Real.sqrt` takes in this
case make no difference. Rows of the score matrix, of the ground truth matrix and of the statistics are lists. Iterators for the ground truth are the list
of values they iterate (see C20 for sparse rows). Arrays that are written have an arbitrary previous content.
-/

namespace MLRL.Loss

open RuleEval
open Statistics (triangularNumber)

noncomputable section

/-! ### Decomposable losses -/

/-- `logisticFunction`, util/math.hpp:126-134. -/
def logisticFunction (x : ℝ) : ℝ :=
  if x < 0 then
    let exponential := Real.exp x
    exponential / (1 + exponential)
  else
    let exponential := Real.exp (-x)
    1 / (1 + exponential)

/-- `squaredLogisticFunction`, loss_decomposable_logistic.cpp:21-29. -/
def squaredLogisticFunction (x : ℝ) : ℝ :=
  if x < 0 then
    let exponential := Real.exp x
    (exponential * exponential) / ((exponential + 1) * (exponential + 1))
  else
    let exponential := Real.exp (-x)
    1 / ((exponential + 1) * (exponential + 1))

/-- `logSumExp`, loss_decomposable_logistic.cpp:41-47. -/
def logSumExp (x : ℝ) : ℝ :=
  if x > 0 then x + Real.log (Real.exp (0 - x) + 1) else Real.log (1 + Real.exp x)

/-- `updateGradientAndHessian`, loss_decomposable_logistic.cpp:49-59. -/
def logisticUpdate (trueLabel : Bool) (predictedScore : ℝ) : Stat ℝ :=
  let logistic := logisticFunction predictedScore
  ⟨if trueLabel then logistic - 1 else logistic, logistic - squaredLogisticFunction predictedScore⟩

/-- `evaluatePrediction`, loss_decomposable_logistic.cpp:61-65. -/
def logisticEvaluate (trueLabel : Bool) (predictedScore : ℝ) : ℝ :=
  logSumExp (if trueLabel then -predictedScore else predictedScore)

/-- `updateGradientAndHessianRegression`, loss_decomposable_squared_error.cpp:7-11. -/
def squaredErrorUpdateRegression (expectedScore predictedScore : ℝ) : Stat ℝ := ⟨predictedScore - expectedScore, 1⟩

/-- `updateGradientAndHessianClassification`, loss_decomposable_squared_error.cpp:13-16. -/
def squaredErrorUpdate (trueLabel : Bool) (predictedScore : ℝ) : Stat ℝ :=
  squaredErrorUpdateRegression (if trueLabel then 1 else -1) predictedScore

/-- `evaluatePredictionRegression`, loss_decomposable_squared_error.cpp:18-21. -/
def squaredErrorEvaluateRegression (expectedScore predictedScore : ℝ) : ℝ :=
  let difference := expectedScore - predictedScore
  difference * difference

/-- `evaluatePredictionClassification`, loss_decomposable_squared_error.cpp:23-25. -/
def squaredErrorEvaluate (trueLabel : Bool) (predictedScore : ℝ) : ℝ :=
  squaredErrorEvaluateRegression (if trueLabel then 1 else -1) predictedScore

/-- `updateGradientAndHessian`, loss_decomposable_squared_hinge.cpp:7-24. -/
def squaredHingeUpdate (trueLabel : Bool) (predictedScore : ℝ) : Stat ℝ :=
  ⟨if trueLabel then (if predictedScore < 1 then predictedScore - 1 else 0) else (if predictedScore > 0 then predictedScore else 0), 1⟩

/-- `evaluatePrediction`, loss_decomposable_squared_hinge.cpp:26-40. -/
def squaredHingeEvaluate (trueLabel : Bool) (predictedScore : ℝ) : ℝ :=
  if trueLabel then (if predictedScore < 1 then (1 - predictedScore) * (1 - predictedScore) else 0)
  else (if predictedScore > 0 then predictedScore * predictedScore else 0)

/-! ### Loops that are shared by the non-decomposable losses -/

/-- The loop that computes gradients and Hessians, loss_non_decomposable_logistic.cpp:130-156, loss_non_decomposable_squared_error.cpp:92-121
and loss_non_decomposable_squared_hinge.cpp:128-196: for each output `c`, `column` provides the gradient, the entry of the diagonal and a
function that computes the entries above the diagonal, given the array of gradients, which contains temporary values at the positions that have
not been processed yet. The state consists of the position of `hessianIterator`, gradients and Hessians. -/
def triangle (n : Nat) (column : List ℝ → Nat → Res (ℝ × ℝ × (Nat → Res ℝ))) (gradients hessians : List ℝ) : Res (List ℝ × List ℝ) := do
  let r ← loop n (fun c (s : Nat × List ℝ × List ℝ) => do
    let col ← column s.2.1 c
    let s' ← loop c (fun r (s' : Nat × List ℝ) => do
      let x ← col.2.2 r
      let hessians ← writeAt s'.2 s'.1 x
      return (s'.1 + 1, hessians)) (s.1, s.2.2)
    let gradients ← writeAt s.2.1 c col.1
    let hessians ← writeAt s'.2 s'.1 col.2.1
    return (s'.1 + 1, gradients, hessians)) (0, gradients, hessians)
  return r.2

/-- The loop that computes gradients and the diagonal of the Hessian matrix only, loss_non_decomposable_logistic.cpp:64-72,
loss_non_decomposable_squared_error.cpp:44-58 and loss_non_decomposable_squared_hinge.cpp:52-80. -/
def diagonal (n : Nat) (entry : List (Stat ℝ) → Nat → Res (Stat ℝ)) (statistics : List (Stat ℝ)) : Res (List (Stat ℝ)) :=
  loop n (fun c statistics => do
    let t ← entry statistics c
    writeAt statistics c t) statistics

/-- `statisticIterator[i].first = x`. -/
def storeTemporarily (statistics : List (Stat ℝ)) (i : Nat) (x : ℝ) : Res (List (Stat ℝ)) := do
  let t ← readAt statistics i
  writeAt statistics i { t with gradient := x }

/-! ### Non-decomposable logistic loss -/

/-- `updateGradientAndHessian`, loss_non_decomposable_logistic.cpp:10-23. -/
def ndLogisticGradientAndHessian (invertedExpectedScore x max sumExp : ℝ) : Stat ℝ :=
  let xExp := Real.exp (x - max)
  let tmp := divideOrZero xExp sumExp
  ⟨invertedExpectedScore * tmp, tmp * (1 - tmp)⟩

/-- Lines 40-53 of `updateDecomposableStatisticsInternally`, loss_non_decomposable_logistic.cpp. -/
def ndLogisticMax (scores : List ℝ) (labels : List Bool) (statistics : List (Stat ℝ)) (n : Nat) : Res (ℝ × List (Stat ℝ)) :=
  loop n (fun c (s : ℝ × List (Stat ℝ)) => do
    let predictedScore ← readAt scores c
    let trueLabel ← readAt labels c
    let x := if trueLabel then -predictedScore else predictedScore
    let statistics ← storeTemporarily s.2 c x
    return (if x > s.1 then x else s.1, statistics)) (0, statistics)

/-- `updateDecomposableStatisticsInternally`, loss_non_decomposable_logistic.cpp:25-73. -/
def ndLogisticUpdateDecomposable (scores : List ℝ) (labels : List Bool) (statistics : List (Stat ℝ)) (n : Nat) :
    Res (List (Stat ℝ)) := do
  let m ← ndLogisticMax scores labels statistics n
  let sumExp ← loop n (fun c sumExp => do
    let t ← readAt m.2 c
    return sumExp + Real.exp (t.gradient - m.1)) (Real.exp (0 - m.1))
  diagonal n (fun _ c => do
    let predictedScore ← readAt scores c
    let trueLabel ← readAt labels c
    let invertedExpectedScore : ℝ := if trueLabel then -1 else 1
    let x := predictedScore * invertedExpectedScore
    return ndLogisticGradientAndHessian invertedExpectedScore x m.1 sumExp) m.2

/-- Lines 91-112 of `updateNonDecomposableStatisticsInternally`, loss_non_decomposable_logistic.cpp. Returns `max`, `max2` and the array of
gradients. -/
def ndLogisticMax2 (scores : List ℝ) (labels : List Bool) (gradients : List ℝ) (n : Nat) : Res (ℝ × ℝ × List ℝ) := do
  let s ← loop n (fun c (s : ℝ × ℝ × List ℝ) => do
    let predictedScore ← readAt scores c
    let trueLabel ← readAt labels c
    let x := if trueLabel then -predictedScore else predictedScore
    let gradients ← writeAt s.2.2 c x
    return if x > s.1 then (x, s.1, gradients) else if x > s.2.1 then (s.1, x, gradients) else (s.1, s.2.1, gradients)) (0, 0, gradients)
  return (s.1, s.2.1 + s.1, s.2.2)

/-- `updateNonDecomposableStatisticsInternally`, loss_non_decomposable_logistic.cpp:75-157. -/
def ndLogisticUpdate (scores : List ℝ) (labels : List Bool) (gradients hessians : List ℝ) (n : Nat) : Res (List ℝ × List ℝ) := do
  let m ← ndLogisticMax2 scores labels gradients n
  let max := m.1
  let max2 := m.2.1
  let sums ← loop n (fun c (s : ℝ × ℝ) => do
    let x ← readAt m.2.2 c
    return (s.1 + Real.exp (x - max), s.2 + Real.exp (x - max2))) (Real.exp (0 - max), Real.exp (0 - max2))
  let zeroExp := divideOrZero (Real.exp (0 - max2)) sums.2
  triangle n (fun _ c => do
    let predictedScore ← readAt scores c
    let trueLabel ← readAt labels c
    let invertedExpectedScore : ℝ := if trueLabel then -1 else 1
    let x := predictedScore * invertedExpectedScore
    let t := ndLogisticGradientAndHessian invertedExpectedScore x max sums.1
    return (t.gradient, t.hessian, fun r => do
      let predictedScore2 ← readAt scores r
      let trueLabel2 ← readAt labels r
      let expectedScore2 : ℝ := if trueLabel2 then 1 else -1
      let x2 := predictedScore2 * -expectedScore2
      return invertedExpectedScore * expectedScore2 * divideOrZero (Real.exp (x + x2 - max2)) sums.2 * zeroExp)) m.2.2 hessians

/-- `evaluateInternally`, loss_non_decomposable_logistic.cpp:159-197. -/
def ndLogisticEvaluate (scores : List ℝ) (labels : List Bool) (n : Nat) : Res ℝ := do
  let max ← loop n (fun i max => do
    let trueLabel ← readAt labels i
    let predictedScore ← readAt scores i
    let x := if trueLabel then -predictedScore else predictedScore
    return if x > max then x else max) 0
  let sumExp ← loop n (fun i sumExp => do
    let trueLabel ← readAt labels i
    let predictedScore ← readAt scores i
    let x := if trueLabel then -predictedScore else predictedScore
    return sumExp + Real.exp (x - max)) (Real.exp (0 - max))
  return max + Real.log sumExp

/-! ### Non-decomposable squared error loss

The ground truth is of type `T`; `toBool` is its conversion to `bool` (`bool trueLabel = *groundTruthIterator`). -/

/-- `std::pow(denominator, 1.5)`. -/
def pow15 (x : ℝ) : ℝ := x * Real.sqrt x

/-- `updateDecomposableStatisticsInternally`, loss_non_decomposable_squared_error.cpp:15-59. The conversion function is not used. -/
def ndSquaredErrorUpdateDecomposable {T : Type} (toBool : T → Bool) (scores : List ℝ) (truth : List T) (statistics : List (Stat ℝ))
    (n : Nat) : Res (List (Stat ℝ)) := do
  let d ← loop n (fun i (s : ℝ × List (Stat ℝ)) => do
    let predictedScore ← readAt scores i
    let y ← readAt truth i
    let expectedScore : ℝ := if toBool y then 1 else -1
    let x := predictedScore * predictedScore + -2 * expectedScore * predictedScore + 1
    let statistics ← storeTemporarily s.2 i x
    return (s.1 + x, statistics)) (0, statistics)
  let denominatorGradient := Real.sqrt d.1
  let denominatorHessian := pow15 d.1
  diagonal n (fun statistics i => do
    let predictedScore ← readAt scores i
    let y ← readAt truth i
    let expectedScore : ℝ := if toBool y then 1 else -1
    let t ← readAt statistics i
    return ⟨divideOrZero (predictedScore - expectedScore) denominatorGradient, divideOrZero (d.1 - t.gradient) denominatorHessian⟩) d.2

/-- `updateNonDecomposableStatisticsInternally`, loss_non_decomposable_squared_error.cpp:61-122. -/
def ndSquaredErrorUpdate {T : Type} (convert : T → ℝ) (scores : List ℝ) (truth : List T) (gradients hessians : List ℝ) (n : Nat) :
    Res (List ℝ × List ℝ) := do
  let d ← loop n (fun i (s : ℝ × List ℝ) => do
    let predictedScore ← readAt scores i
    let y ← readAt truth i
    let expectedScore := convert y
    let x := predictedScore * predictedScore + -2 * expectedScore * predictedScore + 1
    let gradients ← writeAt s.2 i x
    return (s.1 + x, gradients)) (0, gradients)
  let denominatorGradient := Real.sqrt d.1
  let denominatorHessian := pow15 d.1
  triangle n (fun gradients i => do
    let predictedScore ← readAt scores i
    let y ← readAt truth i
    let expectedScore := convert y
    let x ← readAt gradients i
    return (divideOrZero (predictedScore - expectedScore) denominatorGradient, divideOrZero (d.1 - x) denominatorHessian, fun j => do
      let predictedScore2 ← readAt scores j
      let y2 ← readAt truth j
      let expectedScore2 := convert y2
      return divideOrZero (-(predictedScore - expectedScore) * (predictedScore2 - expectedScore2)) denominatorHessian)) d.2 hessians

/-- `evaluateInternally`, loss_non_decomposable_squared_error.cpp:124-141. The conversion function is not used. -/
def ndSquaredErrorEvaluate {T : Type} (toBool : T → Bool) (scores : List ℝ) (truth : List T) (n : Nat) : Res ℝ := do
  let sumOfSquares ← loop n (fun i sumOfSquares => do
    let predictedScore ← readAt scores i
    let y ← readAt truth i
    let expectedScore : ℝ := if toBool y then 1 else -1
    let difference := expectedScore - predictedScore
    return sumOfSquares + difference * difference) 0
  return Real.sqrt sumOfSquares

/-- `binaryConversionFunction`, loss_non_decomposable_squared_error.cpp:143-145. -/
def binaryConversion (groundTruth : Bool) : ℝ := if groundTruth then 1 else -1

/-- The conversion of a floating point number to `bool`. -/
def scoreToBool (groundTruth : ℝ) : Bool := decide (groundTruth ≠ 0)

/-! ### Non-decomposable squared hinge loss -/

/-- Lines 26-38 of `updateDecomposableStatisticsInternally` and 102-114 of `updateNonDecomposableStatisticsInternally`,
loss_non_decomposable_squared_hinge.cpp. -/
def ndSquaredHingeTerm (trueLabel : Bool) (predictedScore : ℝ) : ℝ :=
  if trueLabel then (if predictedScore < 1 then predictedScore * predictedScore - 2 * predictedScore + 1 else 0)
  else (if predictedScore > 0 then predictedScore * predictedScore else 0)

/-- Lines 59-75 of `updateDecomposableStatisticsInternally` and 134-150 of `updateNonDecomposableStatisticsInternally`,
loss_non_decomposable_squared_hinge.cpp; `x` is the temporarily stored value. -/
def ndSquaredHingeGradientAndHessian (trueLabel : Bool) (predictedScore denominator denominatorGradient denominatorHessian x : ℝ) : Stat ℝ :=
  if trueLabel then
    if predictedScore < 1 then
      ⟨divideOrZero (predictedScore - 1) denominatorGradient, divideOrZero (denominator - x) denominatorHessian⟩
    else ⟨0, 1⟩
  else
    if predictedScore > 0 then
      ⟨divideOrZero predictedScore denominatorGradient, divideOrZero (denominator - x) denominatorHessian⟩
    else ⟨0, 1⟩

/-- `updateDecomposableStatisticsInternally`, loss_non_decomposable_squared_hinge.cpp:8-81. -/
def ndSquaredHingeUpdateDecomposable (scores : List ℝ) (labels : List Bool) (statistics : List (Stat ℝ)) (n : Nat) :
    Res (List (Stat ℝ)) := do
  let d ← loop n (fun i (s : ℝ × List (Stat ℝ)) => do
    let predictedScore ← readAt scores i
    let trueLabel ← readAt labels i
    let x := ndSquaredHingeTerm trueLabel predictedScore
    let statistics ← storeTemporarily s.2 i x
    return (s.1 + x, statistics)) (0, statistics)
  let denominatorGradient := Real.sqrt d.1
  let denominatorHessian := pow15 d.1
  diagonal n (fun statistics i => do
    let predictedScore ← readAt scores i
    let trueLabel ← readAt labels i
    let t ← readAt statistics i
    return ndSquaredHingeGradientAndHessian trueLabel predictedScore d.1 denominatorGradient denominatorHessian t.gradient) d.2

/-- Lines 162-180 of `updateNonDecomposableStatisticsInternally`, loss_non_decomposable_squared_hinge.cpp. -/
def ndSquaredHingeNumerator (trueLabel trueLabel2 : Bool) (predictedScore predictedScore2 : ℝ) : ℝ :=
  let numerator := if trueLabel2 then (if predictedScore2 < 1 then predictedScore2 - 1 else 0)
    else (if predictedScore2 > 0 then predictedScore2 else 0)
  if trueLabel then numerator * -(predictedScore - 1) else numerator * -predictedScore

/-- `updateNonDecomposableStatisticsInternally`, loss_non_decomposable_squared_hinge.cpp:83-197; `isZero` is `isEqualToZero`. -/
def ndSquaredHingeUpdate (isZero : ℝ → Bool) (scores : List ℝ) (labels : List Bool) (gradients hessians : List ℝ) (n : Nat) :
    Res (List ℝ × List ℝ) := do
  let d ← loop n (fun i (s : ℝ × List ℝ) => do
    let predictedScore ← readAt scores i
    let trueLabel ← readAt labels i
    let x := ndSquaredHingeTerm trueLabel predictedScore
    let gradients ← writeAt s.2 i x
    return (s.1 + x, gradients)) (0, gradients)
  let denominatorGradient := Real.sqrt d.1
  let denominatorHessian := pow15 d.1
  triangle n (fun gradients i => do
    let predictedScore ← readAt scores i
    let trueLabel ← readAt labels i
    let x ← readAt gradients i
    let t := ndSquaredHingeGradientAndHessian trueLabel predictedScore d.1 denominatorGradient denominatorHessian x
    return (t.gradient, t.hessian, fun j =>
      if isZero t.gradient then .ok 0 else do
        let trueLabel2 ← readAt labels j
        let predictedScore2 ← readAt scores j
        return divideOrZero (ndSquaredHingeNumerator trueLabel trueLabel2 predictedScore predictedScore2) denominatorHessian)) d.2 hessians

/-- `evaluateInternally`, loss_non_decomposable_squared_hinge.cpp:199-225. -/
def ndSquaredHingeEvaluate (scores : List ℝ) (labels : List Bool) (n : Nat) : Res ℝ := do
  let sumOfSquares ← loop n (fun i sumOfSquares => do
    let predictedScore ← readAt scores i
    let trueLabel ← readAt labels i
    return if trueLabel then
        (if predictedScore < 1 then sumOfSquares + (1 - predictedScore) * (1 - predictedScore) else sumOfSquares)
      else (if predictedScore > 0 then sumOfSquares + predictedScore * predictedScore else sumOfSquares)) 0
  return Real.sqrt sumOfSquares

end

end MLRL.Loss
