import Verif.Model.FeatureVector

/-!
# Model of the prediction of dense and sparse binary label matrices by several threads

Sources (below `/repo/cpp/subprojects`):
* `common/include/mlrl/common/prediction/predictor_common.hpp`: the dispatchers (lines 68-88 and 151-175)
* `boosting/include/mlrl/boosting/prediction/predictor_binary_common.hpp`: the predictors
* `common/src/mlrl/common/prediction/prediction_matrix_sparse_binary.cpp`: the matrix in the CSR format
* `common/include/mlrl/common/data/view_matrix_csr_binary.hpp`, `view_matrix_lil.hpp`: the views

In contrast to `Model/Predictor.lean`, transformations may modify the existing content of a row of the prediction matrix (they append to it, if the matrix is sparse) and
may have undefined behaviour themselves.
-/

namespace MLRL.SparsePrediction

open FeatureSpace (readRange)

variable {K : Type}

/-! ### The shared memory and the steps of the threads -/

/-- The memory shared by all threads: the rows of the matrix of scores, the rows of the prediction matrix (arrays of fixed size or `std::vector`s) and each thread's
private copy of the variable `numDenseElements` (which results from the clause `reduction(+ : numDenseElements)`). -/
structure Mem (K : Type) where
  scores : List (List K)
  rows : List (List Nat)
  counts : List Nat
  deriving DecidableEq, Repr

/-- What a thread does to the shared memory in one step. -/
inductive Action (K : Type) where
  /-- modify a row of the matrix of scores -/
  | rowStep (row : Nat) (f : List K → Res (List K))
  /-- `predictionRow.clear()`, predictor_binary_common.hpp:243 -/
  | clear (predictionIndex : Nat)
  /-- `binaryTransformation_.apply(..)`, predictor_binary_common.hpp:58-61, 126-128, 244-245, 319: a row of the prediction matrix is modified depending on a row of the
  matrix of scores -/
  | apply (row : Nat) (transformation : List K → List Nat → Res (List Nat)) (predictionIndex : Nat)
  /-- `numDenseElements += static_cast<uint32>(predictionRow.size())`, predictor_common.hpp:170-171 and predictor_binary_common.hpp:246, 320 -/
  | count (threadIndex predictionIndex : Nat)

/-- Effect of a step. -/
def Action.exec : Action K → Mem K → Res (Mem K)
  | .rowStep r f, m => do
    let row ← readAt m.scores r
    let row ← f row
    let scores ← writeAt m.scores r row
    return { m with scores := scores }
  | .clear i, m => do
    let rows ← writeAt m.rows i []
    return { m with rows := rows }
  | .apply r g i, m => do
    let s ← readAt m.scores r
    let row ← readAt m.rows i
    let row ← g s row
    let rows ← writeAt m.rows i row
    return { m with rows := rows }
  | .count t i, m => do
    let row ← readAt m.rows i
    let n ← readAt m.counts t
    let counts ← writeAt m.counts t ((n + row.length % 2 ^ 32) % 2 ^ 32)
    return { m with counts := counts }

/-- A sequence of steps. -/
def execAll (as : List (Action K)) (m : Mem K) : Res (Mem K) := as.foldlM (fun m a => a.exec m) m

/-! ### The delegates -/

/-- How a delegate proceeds. -/
structure Delegate where
  /-- whether scores are accumulated in a row that belongs to the thread and is set to zero for each example, or in a row that belongs to the example -/
  scratch : Bool
  /-- whether the row of the prediction matrix is cleared -/
  clear : Bool
  /-- whether the number of elements of the row of the prediction matrix is returned -/
  count : Bool
  deriving DecidableEq, Repr

/-- `BinaryPredictor::PredictionDelegate`, predictor_binary_common.hpp:117-129. -/
def denseDelegate : Delegate := ⟨true, false, false⟩

/-- `BinaryPredictor::IncrementalPredictor::IncrementalPredictionDelegate`, predictor_binary_common.hpp:51-62. -/
def denseIncrementalDelegate : Delegate := ⟨false, false, false⟩

/-- `SparseBinaryPredictor::PredictionDelegate`, predictor_binary_common.hpp:309-321. -/
def sparseDelegate : Delegate := ⟨true, false, true⟩

/-- `SparseBinaryPredictor::IncrementalPredictor::IncrementalPredictionDelegate`, predictor_binary_common.hpp:235-247. -/
def sparseIncrementalDelegate : Delegate := ⟨false, true, true⟩

/-- The row of the matrix of scores that is used. -/
def Delegate.row (d : Delegate) (threadIndex exampleIndex : Nat) : Nat := if d.scratch then threadIndex else exampleIndex

/-- The steps of `predictForExample` of a delegate. The elements of `steps` are the rules to be applied. In all cases, `predictionIndex` equals `exampleIndex`
(predictor_common.hpp:86, 171). -/
def predictForExample [Zero K] (d : Delegate) (steps : Nat → List (List K → Res (List K))) (transformation : List K → List Nat → Res (List Nat))
    (threadIndex exampleIndex : Nat) : List (Action K) :=
  (if d.scratch then [.rowStep threadIndex (fun row => .ok (row.map (fun _ => 0)))] else []) ++
    (steps exampleIndex).map (fun f => .rowStep (d.row threadIndex exampleIndex) f) ++
    (if d.clear then [.clear exampleIndex] else []) ++
    [.apply (d.row threadIndex exampleIndex) transformation exampleIndex] ++
    (if d.count then [.count threadIndex exampleIndex] else [])

/-- An execution of `PredictionDispatcher::predict` or `BinarySparsePredictionDispatcher::predict` by several threads, see `Predictor.IsExecution`. -/
def IsExecution (task : Nat → Nat → List (Action K)) (assignment : List (List Nat)) (trace : List (Nat × Action K)) : Prop :=
  (∀ p ∈ trace, p.1 < assignment.length) ∧
  ∀ t examples, assignment[t]? = some examples →
    (trace.filter (fun p => decide (p.1 = t))).map Prod.snd = examples.flatMap (task t)

/-- The end of the parallel region: the private copies are added to `numDenseElements` (initially zero, line 157) in some order. -/
def reduce (order : List Nat) : Nat := order.foldl (fun n c => (n + c) % 2 ^ 32) 0

/-! ### The sparse prediction matrix -/

/-- `BinaryCsrView`: elements that are not initialised are `none`. -/
structure Csr where
  indices : List (Option Nat)
  indptr : List (Option Nat)
  deriving DecidableEq, Repr

/-- `BinaryCsrViewAllocator`, view_matrix_csr_binary.hpp:137-142. -/
def Csr.allocate (numDenseElements numRows : Nat) : Res Csr := do
  let indptr ← writeAt (List.replicate ((numRows + 1) % 2 ^ 32) none) 0 (some 0)
  let indptr ← writeAt indptr numRows (some numDenseElements)
  return ⟨List.replicate numDenseElements none, indptr⟩

/-- prediction_matrix_sparse_binary.cpp:11-14. -/
def copyElement (s : Csr × Nat) (x : Nat) : Res (Csr × Nat) := do
  let indices ← writeAt s.1.indices s.2 (some x)
  return (⟨indices, s.1.indptr⟩, (s.2 + 1) % 2 ^ 32)

/-- prediction_matrix_sparse_binary.cpp:8-15: `row` is row `i` of the LIL matrix. -/
def copyRow (rows : List (List Nat)) (s : Csr × Nat) (i : Nat) : Res (Csr × Nat) := do
  let indptr ← writeAt s.1.indptr i (some s.2)
  let row ← readAt rows i
  row.foldlM copyElement (⟨s.1.indices, indptr⟩, s.2)

/-- `BinarySparsePredictionView::BinarySparsePredictionView`, prediction_matrix_sparse_binary.cpp:3-16. -/
def createBinarySparsePredictionMatrix (rows : List (List Nat)) (numDenseElements : Nat) : Res Csr := do
  let c ← Csr.allocate numDenseElements rows.length
  let s ← (List.range rows.length).foldlM (copyRow rows) (c, 0)
  return s.1

/-- The elements between `indices_cbegin(row)` and `indices_cend(row)`, view_matrix_csr_binary.hpp:78-90. -/
def Csr.row (c : Csr) (row : Nat) : Res (List Nat) := do
  let start ← readAt c.indptr row
  let start ← useInit start
  let stop ← readAt c.indptr (row + 1)
  let stop ← useInit stop
  let l ← readRange c.indices start stop
  l.mapM useInit

/-- `getNumDenseElements`, view_matrix_csr_binary.hpp:117-119. -/
def Csr.numDenseElements (c : Csr) (numRows : Nat) : Res Nat := do
  let n ← readAt c.indptr numRows
  useInit n

/-! ### The predictors -/

/-- `SparseBinaryPredictor::predict`, predictor_binary_common.hpp:358-373, and `SparseBinaryPredictor::IncrementalPredictor::applyNext`, lines 260-278, if a
transformation is available: the parallel region with the trace `trace`, the reduction in the order `reduction` (a function that permutes the private copies) and the
creation of the matrix. -/
def finishSparse (reduction : List Nat → List Nat) (trace : List (Nat × Action K)) (m : Mem K) : Res (Mem K × Csr) := do
  let m ← execAll (trace.map Prod.snd) m
  let c ← createBinarySparsePredictionMatrix m.rows (reduce (reduction m.counts))
  return (m, c)

/-- The memory before the parallel region of `SparseBinaryPredictor::predict`: lines 359 and 363 (the elements of `scoreMatrix` are not initialised, i.e. they are arbitrary
values `scratch`). -/
def sparseStart (numExamples : Nat) (scratch : List (List K)) : Mem K := ⟨scratch, List.replicate numExamples [], List.replicate scratch.length 0⟩

/-- `SparseBinaryPredictor::predict` (lines 359, 368-372), if no transformation is available. -/
def predictSparseWithoutTransformation (numExamples : Nat) : Res Csr := createBinarySparsePredictionMatrix (List.replicate numExamples []) 0

/-- The memory at the beginning of the parallel region of the next call of `applyNext`: the matrix of scores and the LIL matrix are kept, `numDenseElements` starts from
zero. -/
def sparseContinue (numThreads : Nat) (m : Mem K) : Mem K := { m with counts := List.replicate numThreads 0 }

end MLRL.SparsePrediction
