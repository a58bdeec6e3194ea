import Verif.Model.RuleEval
import Verif.Model.StatisticVector

/-!
# Model of the rule evaluations for non-decomposable loss functions

Sources (cpp/subprojects/boosting/src/mlrl/boosting):
* rule_evaluation/rule_evaluation_non_decomposable_complete_common.hpp
* rule_evaluation/rule_evaluation_non_decomposable_partial_common.hpp
* rule_evaluation/rule_evaluation_non_decomposable_partial_fixed_common.hpp and ..._partial_fixed.cpp
* rule_evaluation/rule_evaluation_non_decomposable_partial_dynamic_common.hpp and ..._partial_dynamic.cpp
* util/blas.cpp, util/lapack.cpp

The Hessian matrix is given by its upper triangle, column by column (`hessians`). The routines `ddot` and `dspmv` are defined according to
the documentation of BLAS; `dsysv` (LAPACK) is a parameter that returns a solution of a system of linear equations or fails.
-/

namespace MLRL.JointEval

open RuleEval
open Statistics (triangularNumber)

variable {K : Type} [Field K] [LinearOrder K]

/-- `copyCoefficients`, rule_evaluation_non_decomposable_complete_common.hpp:21-32. The state consists of the position of the iterator and
the array `coefficients`. -/
def copyCoefficients (hessians coefficients : List K) (n : Nat) : Res (List K) := do
  let r ← loop n (fun c (r : Nat × List K) =>
    loop (c + 1) (fun row (r : Nat × List K) => do
      let x ← readAt hessians r.1
      let coefficients ← writeAt r.2 (c * n + row) x
      return (r.1 + 1, coefficients)) r) (0, coefficients)
  return r.2

/-- `addL2RegularizationWeight`, rule_evaluation_non_decomposable_complete_common.hpp:41-48. -/
def addL2 (coefficients : List K) (n : Nat) (l2 : K) : Res (List K) :=
  if l2 > 0 then
    loop n (fun i coefficients => do
      let x ← readAt coefficients (i * n + i)
      writeAt coefficients (i * n + i) (x + l2)) coefficients
  else .ok coefficients

/-- `copyOrdinates`, rule_evaluation_non_decomposable_complete_common.hpp:58-63. -/
def copyOrdinates (gradients ordinates : List K) (n : Nat) : Res (List K) :=
  loop n (fun i ordinates => do
    let g ← readAt gradients i
    writeAt ordinates i (-g)) ordinates

/-- `addL1RegularizationWeight`, rule_evaluation_non_decomposable_complete_common.hpp:72-80. -/
def addL1 (ordinates : List K) (n : Nat) (l1 : K) : Res (List K) :=
  if l1 > 0 then
    loop n (fun i ordinates => do
      let g ← readAt ordinates i
      writeAt ordinates i (g + getL1RegularizationWeight g l1)) ordinates
  else .ok ordinates

/-- `Blas::ddot`, util/blas.cpp:8-13: the dot product of the first `n` elements. -/
def ddot (x y : List K) (n : Nat) : Res K :=
  loop n (fun i r => do
    let a ← readAt x i
    let b ← readAt y i
    return r + a * b) 0

/-- `Blas::dspmv`, util/blas.cpp:15-26: the product of a symmetric matrix, of which the upper triangle is given column by column, and a
vector. The content of the output array is not taken into account (`beta = 0`). -/
def dspmv (a x output : List K) (n : Nat) : Res (List K) :=
  loop n (fun r output => do
    let y ← loop n (fun c y => do
      let coefficient ← readAt a (triangularNumber (max r c) + min r c)
      let v ← readAt x c
      return y + coefficient * v) 0
    writeAt output r y) output

/-- `calculateOverallQuality`, rule_evaluation_non_decomposable_complete_common.hpp:96-102. -/
def overallQuality (scores gradients hessians tmp : List K) (n : Nat) : Res K := do
  let tmp ← dspmv hessians scores tmp n
  let a ← ddot scores gradients n
  let b ← ddot scores tmp n
  return a + 1 / 2 * b

/-- `l1Norm`, util/math.hpp:29-39. -/
def l1Norm (x : List K) (n : Nat) : Res K :=
  loop n (fun i r => do
    let v ← readAt x i
    return r + |v|) 0

/-- `l2NormPow`, util/math.hpp:77-87. -/
def l2NormPow (x : List K) (n : Nat) : Res K :=
  loop n (fun i r => do
    let v ← readAt x i
    return r + v * v) 0

/-- Lines 118-122 of `calculateRegularizationTerm`, rule_evaluation_non_decomposable_complete_common.hpp. -/
def l1Term (scores : List K) (n : Nat) (l1 : K) : Res K :=
  if l1 > 0 then do
    let a ← l1Norm scores n
    return l1 * a
  else .ok 0

/-- Lines 124-126 of `calculateRegularizationTerm`, rule_evaluation_non_decomposable_complete_common.hpp. -/
def l2Term (scores : List K) (n : Nat) (l2 : K) : Res K :=
  if l2 > 0 then do
    let b ← l2NormPow scores n
    return 1 / 2 * l2 * b
  else .ok 0

/-- `calculateRegularizationTerm`, rule_evaluation_non_decomposable_complete_common.hpp:113-129. -/
def regularizationTerm (scores : List K) (n : Nat) (l1 l2 : K) : Res K := do
  let a ← l1Term scores n l1
  let b ← l2Term scores n l2
  return a + b

/-- The temporary arrays of a rule evaluation, which keep the content of previous calls. -/
structure Tmp (K : Type) where
  coefficients : List K
  product : List K

/-- Lines 188-205 of `DenseNonDecomposableCompleteRuleEvaluation::calculateScores`, which are shared by all rule evaluations for
non-decomposable losses: given coefficients and ordinates, the system is solved and the quality is computed. `dsysv` overwrites the first
`n` elements of the array of ordinates. -/
def solveAndEvaluate (dsysv : List K → List K → Nat → Res (List K)) (l1 l2 : K) (gradients hessians coefficients ordinates product : List K)
    (n : Nat) : Res (List K × K) := do
  let scores ← dsysv coefficients ordinates n
  let quality ← overallQuality scores gradients hessians product n
  let reg ← regularizationTerm scores n l1 l2
  return (scores, quality + reg)

/-- `DenseNonDecomposableCompleteRuleEvaluation::calculateScores`, rule_evaluation_non_decomposable_complete_common.hpp:178-206. -/
def complete (dsysv : List K → List K → Nat → Res (List K)) (l1 l2 : K) (outputs : List Nat) (values : List K) (tmp : Tmp K)
    (gradients hessians : List K) : Res (ScoreVector K) := do
  let n := outputs.length
  let coefficients ← copyCoefficients hessians tmp.coefficients n
  let coefficients ← addL2 coefficients n l2
  let ordinates ← copyOrdinates gradients values n
  let ordinates ← addL1 ordinates n l1
  let r ← solveAndEvaluate dsysv l1 l2 gradients hessians coefficients ordinates tmp.product n
  return ⟨outputs, r.1, r.2⟩

/-- `copyCoefficients`, rule_evaluation_non_decomposable_partial_common.hpp:21-32. -/
def copyCoefficientsPartial (hessians : List K) (indices : List Nat) (coefficients : List K) (n : Nat) : Res (List K) :=
  loop n (fun c coefficients =>
    loop (c + 1) (fun r coefficients => do
      let column ← readAt indices c
      let row ← readAt indices r
      let x ← readAt hessians (triangularNumber column + row)
      writeAt coefficients (c * n + r) x) coefficients) coefficients

/-- The scores of the outputs, based on gradients and the diagonal of the Hessian matrix (`hessians_diagonal_cbegin`). -/
def diagonalStats (gradients hessians : List K) : Res (List (Stat K)) :=
  gradients.zipIdx.mapM (fun p => do
    let h ← readAt hessians (triangularNumber (p.2 + 1) - 1)
    return ⟨p.1, h⟩)

/-- Lines 78-111 of `DenseNonDecomposableFixedPartialRuleEvaluation::calculateScores`,
rule_evaluation_non_decomposable_partial_fixed.cpp, and lines 86-122 of the one for dynamic heads,
rule_evaluation_non_decomposable_partial_dynamic.cpp: given the positions of the outputs to be predicted (`chosen`), ordinates and
coefficients are set up, the system is solved and the quality is computed. In both cases the index vector is a `CompleteIndexVector`, i.e.,
positions and indices of outputs coincide. Simplified: the arrays of indices and ordinates are lists that contain as many elements as are
written. -/
def predictFor (dsysv : List K → List K → Nat → Res (List K)) (l1 l2 : K) (chosen : List Nat) (tmp : Tmp K)
    (gradients hessians : List K) : Res (ScoreVector K) := do
  let n := chosen.length
  let ordinates ← chosen.mapM (fun i => do
    let g ← readAt gradients i
    return -g)
  let ordinates ← addL1 ordinates n l1
  let coefficients ← copyCoefficientsPartial hessians chosen tmp.coefficients n
  let coefficients ← addL2 coefficients n l2
  let r ← solveAndEvaluate dsysv l1 l2 gradients hessians coefficients ordinates tmp.product n
  return ⟨chosen, r.1, r.2⟩

/-- `DenseNonDecomposableFixedPartialRuleEvaluation::calculateScores`, rule_evaluation_non_decomposable_partial_fixed.cpp:66-112. -/
def fixedPartial (dsysv : List K → List K → Nat → Res (List K)) (partialSort : Nat → List (Nat × K) → List (Nat × K)) (l1 l2 : K)
    (numPredictions : Nat) (tmp : Tmp K) (gradients hessians : List K) : Res (ScoreVector K) := do
  let stats ← diagonalStats gradients hessians
  let sorted := partialSort numPredictions (stats.zipIdx.map (fun p => (p.2, p.1.score l1 l2)))
  if stats.length < numPredictions then .error .outOfBounds else
    predictFor dsysv l1 l2 ((sorted.take numPredictions).map Prod.fst) tmp gradients hessians

/-- `DenseNonDecomposableDynamicPartialRuleEvaluation::calculateScores`, rule_evaluation_non_decomposable_partial_dynamic.cpp:72-123.
`getMinAndMaxScore` (rule_evaluation_non_decomposable_partial_dynamic_common.hpp:26-51) computes the same values as the function for
decomposable losses. -/
def dynamicPartial (dsysv : List K → List K → Nat → Res (List K)) (pow : K → K) (threshold l1 l2 : K) (tmp : Tmp K)
    (gradients hessians : List K) : Res (ScoreVector K) := do
  let stats ← diagonalStats gradients hessians
  let pair ← getMinAndMaxScore l1 l2 stats
  let limit := calculateThreshold pow pair.1 pair.2 (1 - threshold)
  let chosen := (stats.zipIdx.filter (fun p => decide (calculateWeightedScore pow (p.1.score l1 l2) pair.1 ≥ limit))).map Prod.snd
  predictFor dsysv l1 l2 chosen tmp gradients hessians

end MLRL.JointEval
