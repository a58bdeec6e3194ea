import Verif.Model.Iterators
import Verif.Model.Update
import Mathlib.Algebra.Order.Field.Basic

/-!
# Model of the coverage of labels by a decision list and of the coverage stopping criterion

Sources (cpp/subprojects/seco/src/mlrl/seco):
* data/matrix_coverage_dense.cpp
* statistics/statistics_provider_decomposable_dense.cpp
* statistics/statistics_common.hpp (updates)
* stopping/stopping_criterion_coverage.cpp

Coverages are 32 bit integers (`wrap`). Sums of weights are elements of an ordered field `K` (no rounding). Predictions are elements of a
type `V`; the conversion of a predicted score to `bool` tests whether it differs from zero.
-/

namespace MLRL.Seco

open Iterators Predictor

variable {K V : Type}

/-- The number of values of the type `uint32`. -/
def uint32Size : Nat := 2 ^ 32

/-- `DenseCoverageMatrix`: the coverages are stored row by row. -/
structure CoverageMatrix (K : Type) where
  numCols : Nat
  cells : List Nat
  sumOfUncoveredWeights : K
  deriving DecidableEq

/-- `std::advance(iterator, index - previousIndex)`. The iterators are forward iterators, a negative distance is undefined behaviour. -/
def advance (it : BinarySparseForward) (previousIndex index : Nat) : Res BinarySparseForward :=
  if previousIndex ≤ index then .ok (Nat.iterate BinarySparseForward.next (index - previousIndex) it) else .error .outOfBounds

/-- The update of a cell in `increaseCoverage`, matrix_coverage_dense.cpp:31-37 and 62-68; the coverage is a 32 bit integer. -/
def increaseCell [Ring K] (m : CoverageMatrix K) (position : Nat) : Res (CoverageMatrix K) := do
  let coverage ← readAt m.cells position
  let sum := if coverage = 0 then m.sumOfUncoveredWeights - 1 else m.sumOfUncoveredWeights
  let cells ← writeAt m.cells position ((coverage + 1) % uint32Size)
  return { m with cells := cells, sumOfUncoveredWeights := sum }

/-- The update of a cell in `decreaseCoverage`, matrix_coverage_dense.cpp:90-96 and 121-127; decreasing the coverage 0 results in the
greatest 32 bit integer. -/
def decreaseCell [Ring K] (m : CoverageMatrix K) (position : Nat) : Res (CoverageMatrix K) := do
  let coverage ← readAt m.cells position
  let coverage := (coverage + uint32Size - 1) % uint32Size
  let sum := if coverage = 0 then m.sumOfUncoveredWeights + 1 else m.sumOfUncoveredWeights
  let cells ← writeAt m.cells position coverage
  return { m with cells := cells, sumOfUncoveredWeights := sum }

/-- Applies `change` to a cell if the predicted label is not the majority label, matrix_coverage_dense.cpp:30, 61, 89, 120. -/
def changeIf (change : CoverageMatrix K → Nat → Res (CoverageMatrix K)) (predictedLabel majorityLabel : Bool) (m : CoverageMatrix K)
    (position : Nat) : Res (CoverageMatrix K) :=
  if predictedLabel != majorityLabel then change m position else .ok m

/-- `increaseCoverage` and `decreaseCoverage` for complete predictions, matrix_coverage_dense.cpp:16-42 and 75-101 (which differ only in the
update of individual cells). -/
def changeComplete [Zero V] [DecidableEq V] (change : CoverageMatrix K → Nat → Res (CoverageMatrix K)) (row : Nat) (majority : List Nat)
    (prediction : List V) (m : CoverageMatrix K) : Res (CoverageMatrix K) := do
  let r ← loop m.numCols (fun i (s : BinarySparseForward × CoverageMatrix K) => do
    let value ← readAt prediction i
    let m ← changeIf change (decide (value ≠ 0)) s.1.deref s.2 (row * m.numCols + i)
    return (s.1.next, m)) (BinarySparseForward.create majority 0, m)
  return r.2

/-- `increaseCoverage` and `decreaseCoverage` for partial predictions, matrix_coverage_dense.cpp:44-73 and 103-132. -/
def changePartial [Zero V] [DecidableEq V] (change : CoverageMatrix K → Nat → Res (CoverageMatrix K)) (row : Nat) (majority : List Nat)
    (prediction : List (Nat × V)) (m : CoverageMatrix K) : Res (CoverageMatrix K) := do
  let r ← loop prediction.length (fun i (s : (BinarySparseForward × Nat) × CoverageMatrix K) => do
    let e ← readAt prediction i
    let it ← advance s.1.1 s.1.2 e.1
    let m ← changeIf change (decide (e.2 ≠ 0)) it.deref s.2 (row * m.numCols + e.1)
    return ((it, e.1), m)) ((BinarySparseForward.create majority 0, 0), m)
  return r.2

/-- `Update::applyPrediction` and `Update::revertPrediction` for an example, statistics_common.hpp:536-554 and 609-619. -/
def changeRow [Ring K] [Zero V] [DecidableEq V] (majority : List Nat) (head : Head V) (revert : Bool) (row : Nat) (m : CoverageMatrix K) :
    Res (CoverageMatrix K) :=
  match head with
  | .complete values => changeComplete (if revert then decreaseCell else increaseCell) row majority values m
  | .partial_ entries => changePartial (if revert then decreaseCell else increaseCell) row majority entries m

/-- `FeatureSubspace::applyPrediction` and `revertPrediction`, common/src/mlrl/common/rule_refinement/feature_space_tabular.cpp:272-310, if
executed by a single thread. -/
def execCall [Ring K] [Zero V] [DecidableEq V] (majority : List Nat) (numStatistics : Nat) (call : Update.Call V) (m : CoverageMatrix K) :
    Res (CoverageMatrix K) :=
  loop numStatistics (fun i m => if call.mask i then changeRow majority call.head call.revert i m else .ok m) m

/-- A sequence of calls. -/
def execCalls [Ring K] [Zero V] [DecidableEq V] (majority : List Nat) (numStatistics : Nat) :
    List (Update.Call V) → CoverageMatrix K → Res (CoverageMatrix K)
  | [], m => .ok m
  | call :: calls, m => do
    let m ← execCall majority numStatistics call m
    execCalls majority numStatistics calls m

/-! ### Initialisation -/

/-- The majority labels and the sum of the weights of uncovered labels, which are updated label by label,
statistics_provider_decomposable_dense.cpp:60-66 and 103-109. -/
structure Majority (K : Type) where
  labels : List Nat
  n : Nat
  sum : K

/-- statistics_provider_decomposable_dense.cpp:60-66 and 103-109. The number of relevant labels cannot exceed the number of examples, the
subtraction does not wrap around. -/
def considerLabel [Field K] [LinearOrder K] (numExamples i numRelevant : Nat) (s : Majority K) : Res (Majority K) :=
  if (numRelevant : K) > (numExamples : K) / 2 then do
    let labels ← writeAt s.labels s.n i
    return { labels := labels, n := s.n + 1, sum := s.sum + ((numExamples - numRelevant : Nat) : K) }
  else .ok { s with sum := s.sum + (numRelevant : K) }

/-- The creation of the coverage matrix, statistics_provider_decomposable_dense.cpp:7-10 (matrix_coverage_dense.cpp) and 69-75, 112-118. -/
def createMatrix (numExamples numLabels : Nat) (s : Majority K) : List Nat × CoverageMatrix K :=
  (s.labels.take s.n, { numCols := numLabels, cells := List.replicate (numExamples * numLabels) 0, sumOfUncoveredWeights := s.sum })

/-- The number of examples a label is relevant to, statistics_provider_decomposable_dense.cpp:53-58. -/
def countDense (labelMatrix : List (List Nat)) (i : Nat) : Res Nat :=
  loop labelMatrix.length (fun j n => do
    let row ← readAt labelMatrix j
    let trueLabel ← readAt row i
    return n + trueLabel) 0

/-- `createStatistics` for dense label matrices, statistics_provider_decomposable_dense.cpp:40-76. `array` is the content of the newly
allocated vector. -/
def createStatisticsDense [Field K] [LinearOrder K] (labelMatrix : List (List Nat)) (numLabels : Nat) (array : List Nat) :
    Res (List Nat × CoverageMatrix K) := do
  let s ← loop numLabels (fun i (s : Majority K) => do
    let numRelevant ← countDense labelMatrix i
    considerLabel labelMatrix.length i numRelevant s) { labels := array, n := 0, sum := 0 }
  return createMatrix labelMatrix.length numLabels s

/-- The number of examples each label is relevant to, statistics_provider_decomposable_dense.cpp:82-94. -/
def countCsr (labelMatrix : List (List Nat)) (numLabels : Nat) : Res (List Nat) :=
  loop labelMatrix.length (fun i array => do
    let indices ← readAt labelMatrix i
    loop indices.length (fun j array => do
      let index ← readAt indices j
      let n ← readAt array index
      writeAt array index (n + 1)) array) (List.replicate numLabels 0)

/-- `createStatistics` for sparse label matrices, statistics_provider_decomposable_dense.cpp:78-119. Majority labels are written to the array
that holds the counts. -/
def createStatisticsCsr [Field K] [LinearOrder K] (labelMatrix : List (List Nat)) (numLabels : Nat) : Res (List Nat × CoverageMatrix K) := do
  let array ← countCsr labelMatrix numLabels
  let s ← loop numLabels (fun i (s : Majority K) => do
    let numRelevant ← readAt s.labels i
    considerLabel labelMatrix.length i numRelevant s) { labels := array, n := 0, sum := 0 }
  return createMatrix labelMatrix.length numLabels s

/-- `CoverageStoppingCriterion::test`, stopping_criterion_coverage.cpp:25-34: whether the induction of rules is stopped. -/
def testCoverage [LinearOrder K] (threshold : K) (m : CoverageMatrix K) : Bool := !decide (m.sumOfUncoveredWeights > threshold)

/-! ### Several threads

`FeatureSubspace::applyPrediction` is executed by several threads if `useParallelStatisticUpdate` is used
(common/src/mlrl/common/rule_refinement/feature_space_tabular.cpp:279-290), which is available for `SeCo`
(learner_seco_classifier.hpp:66). The member `sumOfUncoveredWeights_` is shared by the threads. -/

/-- What a thread does with `sumOfUncoveredWeights_ -= 1`: it loads the value into a register and stores the difference. -/
inductive MemoryStep where
  | load
  | store
  deriving DecidableEq, Repr

/-- The shared variable and the registers of the threads. -/
structure Memory (K : Type) where
  shared : K
  registers : Nat → K

/-- Executes a step of a thread. -/
def Memory.step [Ring K] (s : Memory K) (thread : Nat) : MemoryStep → Memory K
  | .load => { s with registers := fun t => if t = thread then s.shared else s.registers t }
  | .store => { s with shared := s.registers thread - 1 }

/-- Executes steps of several threads in the given order. -/
def Memory.run [Ring K] (s : Memory K) (trace : List (Nat × MemoryStep)) : Memory K :=
  trace.foldl (fun s e => s.step e.1 e.2) s

end MLRL.Seco
