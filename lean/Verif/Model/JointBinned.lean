import Verif.Model.JointEval
import Verif.Model.LabelBinning

/-!
# Model of the rule evaluations for non-decomposable loss functions that assign labels to bins

Sources (cpp/subprojects/boosting/src/mlrl/boosting):
* rule_evaluation/rule_evaluation_non_decomposable_binned_common.hpp
* rule_evaluation/rule_evaluation_non_decomposable_partial_fixed_binned.cpp and ..._partial_dynamic_binned.cpp

As in `JointEval`, the routine `dsysv` is a parameter. The Hessian matrix is given by its upper triangle, column by column.
-/

namespace MLRL.JointBinned

open RuleEval
open Statistics (triangularNumber)
open LabelBinning (Config LabelInfo setZeros)
open JointEval (copyCoefficients copyOrdinates overallQuality diagonalStats)

/-- The members of `AbstractNonDecomposableBinnedRuleEvaluation`, lines 185-195, the temporary arrays of its super class and the arrays of the score vector
(`labelBins` are its bin indices). They keep the content of previous calls. -/
structure Arrays where
  gradients : List Rat
  hessians : List Rat
  binIndices : List Nat
  numElementsPerBin : List Nat
  labelBins : List Nat
  binValues : List Rat
  coefficients : List Rat
  product : List Rat
  deriving DecidableEq, Repr

/-- The local variable `n` and the arrays `numElementsPerBin` and `binIndices` of `removeEmptyBins`. -/
structure Remaining where
  n : Nat
  numElementsPerBin : List Nat
  binIndices : List Nat
  deriving DecidableEq, Repr

/-- The body of the loop in `removeEmptyBins`, lines 27-35. -/
def removeStep (i : Nat) (s : Remaining) : Res Remaining := do
  let binIndices ← writeAt s.binIndices i s.n
  let numElements ← readAt s.numElementsPerBin i
  match decide (numElements > 0) with
  | true => do
    let numElementsPerBin ← writeAt s.numElementsPerBin s.n numElements
    return ⟨s.n + 1, numElementsPerBin, binIndices⟩
  | false => return ⟨s.n, s.numElementsPerBin, binIndices⟩

/-- `removeEmptyBins`, lines 23-38. -/
def removeEmptyBins (numElementsPerBin binIndices : List Nat) (numBins : Nat) : Res Remaining :=
  loop numBins removeStep ⟨0, numElementsPerBin, binIndices⟩

/-- `a[i] += v`. -/
def addAt (a : List Rat) (i : Nat) (v : Rat) : Res (List Rat) := do
  let x ← readAt a i
  writeAt a i (x + v)

/-- The arrays that are written by `aggregateGradientsAndHessians`. -/
structure Aggregated where
  labelBins : List Nat
  gradients : List Rat
  hessians : List Rat
  deriving DecidableEq, Repr

/-- The body of the first loop in `aggregateGradientsAndHessians`, lines 61-77. -/
def aggregateDiagonal (gradients hessians : List Rat) (binIndices : List Nat) (maxBins : Nat) (i : Nat) (s : Aggregated) : Res Aggregated := do
  let original ← readAt s.labelBins i
  match decide (original = maxBins) with
  | true => return s
  | false => do
    let bin ← readAt binIndices original
    let labelBins ← writeAt s.labelBins i bin
    let g ← readAt gradients i
    let aggregatedGradients ← addAt s.gradients bin g
    let h ← readAt hessians (triangularNumber (i + 1) - 1)
    let aggregatedHessians ← addAt s.hessians (triangularNumber (bin + 1) - 1) h
    return ⟨labelBins, aggregatedGradients, aggregatedHessians⟩

/-- The body of the inner loop, lines 83-102. -/
def aggregateEntry (hessians : List Rat) (labelBins : List Nat) (maxBins i bin : Nat) (j : Nat) (s : List Rat) : Res (List Rat) := do
  let bin2 ← readAt labelBins j
  match decide (bin2 ≠ maxBins ∧ bin ≠ bin2) with
  | true => do
    let h ← readAt hessians (triangularNumber i + j)
    addAt s (triangularNumber (if bin < bin2 then bin2 else bin) + (if bin < bin2 then bin else bin2)) h
  | false => return s

/-- The body of the second loop, lines 79-104. -/
def aggregateRow (hessians : List Rat) (labelBins : List Nat) (maxBins : Nat) (i : Nat) (s : List Rat) : Res (List Rat) := do
  let bin ← readAt labelBins i
  match decide (bin = maxBins) with
  | true => return s
  | false => loop i (aggregateEntry hessians labelBins maxBins i bin) s

/-- `aggregateGradientsAndHessians`, lines 55-105. -/
def aggregate (gradients hessians : List Rat) (n : Nat) (binIndices : List Nat) (maxBins : Nat) (s : Aggregated) : Res Aggregated := do
  let s ← loop n (aggregateDiagonal gradients hessians binIndices maxBins) s
  let h ← loopFrom (aggregateRow hessians s.labelBins maxBins) 1 (n - 1) s.hessians
  return { s with hessians := h }

/-- The body of the loop in `addL1RegularizationWeight`, lines 117-121. -/
def addL1Step (weights : List Nat) (l1 : Rat) (i : Nat) (ordinates : List Rat) : Res (List Rat) := do
  let weight ← readAt weights i
  let gradient ← readAt ordinates i
  writeAt ordinates i (gradient + weight * getL1RegularizationWeight gradient l1)

/-- The body of the loop in `addL2RegularizationWeight`, lines 134-137. -/
def addL2Step (weights : List Nat) (n : Nat) (l2 : Rat) (i : Nat) (coefficients : List Rat) : Res (List Rat) := do
  let weight ← readAt weights i
  addAt coefficients (i * n + i) (weight * l2)

/-- `l1Norm` with weights, util/math.hpp:54-65. -/
def l1Norm (x : List Rat) (weights : List Nat) (n : Nat) : Res Rat :=
  loop n (fun i r => do
    let v ← readAt x i
    let w ← readAt weights i
    return r + |v| * w) 0

/-- `l2NormPow` with weights, util/math.hpp:103-114. -/
def l2NormPow (x : List Rat) (weights : List Nat) (n : Nat) : Res Rat :=
  loop n (fun i r => do
    let v ← readAt x i
    let w ← readAt weights i
    return r + v * v * w) 0

/-- Lines 156-160 of `calculateRegularizationTerm`. -/
def l1Term (scores : List Rat) (weights : List Nat) (n : Nat) (l1 : Rat) : Res Rat :=
  if l1 > 0 then do
    let a ← l1Norm scores weights n
    return l1 * a
  else .ok 0

/-- Lines 162-164 of `calculateRegularizationTerm`. -/
def l2Term (scores : List Rat) (weights : List Nat) (n : Nat) (l2 : Rat) : Res Rat :=
  if l2 > 0 then do
    let b ← l2NormPow scores weights n
    return 1 / 2 * l2 * b
  else .ok 0

/-- `callback`, lines 282-285. -/
def onBin (bin label : Nat) (a : Arrays) : Res Arrays := do
  let n ← readAt a.numElementsPerBin bin
  let numElementsPerBin ← writeAt a.numElementsPerBin bin (n + 1)
  let labelBins ← writeAt a.labelBins label bin
  return { a with numElementsPerBin := numElementsPerBin, labelBins := labelBins }

/-- `zeroCallback`, lines 286-288. -/
def onZero (maxBins label : Nat) (a : Arrays) : Res Arrays := do
  let labelBins ← writeAt a.labelBins label maxBins
  return { a with labelBins := labelBins }

/-- Lines 303-328: given aggregated gradients and Hessians, the system of equations is set up and solved, and the quality is computed. -/
def solve (dsysv : List Rat → List Rat → Nat → Res (List Rat)) (l1 l2 : Rat) (numBins : Nat) (a : Arrays) : Res (Arrays × Rat) := do
  let coefficients ← copyCoefficients a.hessians a.coefficients numBins
  let coefficients ← loop numBins (addL2Step a.numElementsPerBin numBins l2) coefficients
  let ordinates ← copyOrdinates a.gradients a.binValues numBins
  let ordinates ← loop numBins (addL1Step a.numElementsPerBin l1) ordinates
  let scores ← dsysv coefficients ordinates numBins
  let quality ← overallQuality scores a.gradients a.hessians a.product numBins
  let r1 ← l1Term scores a.numElementsPerBin numBins l1
  let r2 ← l2Term scores a.numElementsPerBin numBins l2
  return ({ a with binValues := scores, coefficients := coefficients }, quality + (r1 + r2))

/-- Lines 292-300: empty bins are removed, and gradients and Hessians are aggregated. Returns the number of bins as well. `setNumBins` (line 293) does not change
the arrays. -/
def aggregateBins (gradients hessians : List Rat) (numCriteria maxBins numBins : Nat) (a : Arrays) : Res (Arrays × Nat) := do
  let r ← removeEmptyBins a.numElementsPerBin a.binIndices numBins
  let g ← setZeros 0 a.gradients r.n
  let h ← setZeros 0 a.hessians (triangularNumber r.n)
  let s ← aggregate gradients hessians numCriteria r.binIndices maxBins ⟨a.labelBins, g, h⟩
  return ({ a with gradients := s.gradients, hessians := s.hessians, binIndices := r.binIndices, numElementsPerBin := r.numElementsPerBin,
                   labelBins := s.labelBins }, r.n)

/-- `calculateScores`, lines 264-335, given the criteria (`calculateOutputWiseCriteria`). Returns the arrays and the quality. -/
def binnedScores (dsysv : List Rat → List Rat → Nat → Res (List Rat)) (cfg : Config) (maxBins : Nat) (l1 l2 : Rat) (criteria : List Rat)
    (gradients hessians : List Rat) (a : Arrays) : Res (Arrays × Rat) :=
  if (cfg.getLabelInfo criteria).numPositiveBins + (cfg.getLabelInfo criteria).numNegativeBins > 0 then do
    let w ← setZeros 0 a.numElementsPerBin ((cfg.getLabelInfo criteria).numPositiveBins + (cfg.getLabelInfo criteria).numNegativeBins)
    let a ← (cfg.getLabelInfo criteria).createBins criteria onBin (onZero maxBins) { a with numElementsPerBin := w }
    let r ← aggregateBins gradients hessians criteria.length maxBins
      ((cfg.getLabelInfo criteria).numPositiveBins + (cfg.getLabelInfo criteria).numNegativeBins) a
    solve dsysv l1 l2 r.2 r.1
  else do
    let labelBins ← loop criteria.length (fun i b => writeAt b i maxBins) a.labelBins
    return ({ a with labelBins := labelBins }, 0)

/-- `DenseNonDecomposableCompleteBinnedRuleEvaluation`, lines 346-393: the criteria are the scores of all outputs. -/
def completeBinned (dsysv : List Rat → List Rat → Nat → Res (List Rat)) (cfg : Config) (maxBins : Nat) (l1 l2 : Rat) (gradients hessians : List Rat)
    (a : Arrays) : Res (Arrays × Rat) := do
  let stats ← diagonalStats gradients hessians
  binnedScores dsysv cfg maxBins l1 l2 (stats.map (fun t => t.score l1 l2)) gradients hessians a

/-- `DenseNonDecomposableFixedPartialBinnedRuleEvaluation`, rule_evaluation_non_decomposable_partial_fixed_binned.cpp:30-52: the criteria are the scores of the
outputs with the largest absolute scores. Returns the indices of these outputs as well. -/
def fixedBinned (dsysv : List Rat → List Rat → Nat → Res (List Rat)) (cfg : Config) (maxBins : Nat) (partialSort : Nat → List (Nat × Rat) → List (Nat × Rat))
    (l1 l2 : Rat) (labels : List Nat) (numPredictions : Nat) (gradients hessians : List Rat) (a : Arrays) : Res (List Nat × Arrays × Rat) := do
  let stats ← diagonalStats gradients hessians
  if stats.length < numPredictions then .error .outOfBounds else do
  let chosen := (partialSort numPredictions (stats.zipIdx.map (fun p => (p.2, p.1.score l1 l2)))).take numPredictions
  let indices ← chosen.mapM (fun entry => readAt labels entry.1)
  let r ← binnedScores dsysv cfg maxBins l1 l2 (chosen.map Prod.snd) gradients hessians a
  return (indices, r.1, r.2)

/-- `DenseNonDecomposableDynamicPartialBinnedRuleEvaluation`, rule_evaluation_non_decomposable_partial_dynamic_binned.cpp:32-62: the criteria are the scores that
reach the threshold. -/
def dynamicBinned (dsysv : List Rat → List Rat → Nat → Res (List Rat)) (cfg : Config) (maxBins : Nat) (pow : Rat → Rat) (threshold l1 l2 : Rat)
    (labels : List Nat) (gradients hessians : List Rat) (a : Arrays) : Res (List Nat × Arrays × Rat) := do
  let stats ← diagonalStats gradients hessians
  let pair ← getMinAndMaxScore l1 l2 stats
  let limit := calculateThreshold pow pair.1 pair.2 (1 - threshold)
  let chosen := (stats.zipIdx.map (fun p => (p.2, p.1.score l1 l2))).filter (fun p => decide (calculateWeightedScore pow p.2 pair.1 ≥ limit))
  let indices ← chosen.mapM (fun entry => readAt labels entry.1)
  let r ← binnedScores dsysv cfg maxBins l1 l2 (chosen.map Prod.snd) gradients hessians a
  return (indices, r.1, r.2)

end MLRL.JointBinned
