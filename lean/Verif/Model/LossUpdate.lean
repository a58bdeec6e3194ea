import Verif.Model.Iterators
import Verif.Model.RuleEval
import Verif.Model.SparseSet
import Verif.Model.Stopping

/-!
# Model of updates of statistics and of evaluation measures

Sources (cpp/subprojects/boosting/src/mlrl/boosting/losses):
* loss_decomposable_common.hpp
* loss_decomposable_sparse_common.hpp

The functions of a loss that are applied to individual outputs (see `Verif.Model.Loss`) are parameters. They assign both, the gradient and the
Hessian. Rows of matrices are lists.
-/

namespace MLRL.LossUpdate

open RuleEval Iterators

variable {K T S V : Type}

/-! ### Dense matrices of statistics -/

/-- A forward iterator for the ground truth: `operator*` and `operator++`. -/
structure Forward (S T : Type) where
  deref : S → Res T
  next : S → S

/-- A pointer to an element of a dense row. -/
def denseForward (row : List T) : Forward Nat T := ⟨readAt row, fun i => i + 1⟩

/-- Iterators created by `createBinarySparseForwardIterator`. -/
def binaryForward : Forward BinarySparseForward Bool := ⟨fun it => .ok it.deref, BinarySparseForward.next⟩

/-- Iterators created by `createSparseForwardIterator`. -/
def sparseForward : Forward (SparseForward T) T := ⟨fun it => .ok it.deref, SparseForward.next⟩

/-- `updateDecomposableStatisticsInternally`, loss_decomposable_common.hpp:15-27. -/
def updateComplete (update : T → K → Stat K) (scores : List K) (fwd : Forward S T) (it : S) (statistics : List (Stat K)) (numOutputs : Nat) :
    Res (List (Stat K)) := do
  let r ← loop numOutputs (fun i (s : S × List (Stat K)) => do
    let groundTruth ← fwd.deref s.1
    let predictedScore ← readAt scores i
    let statistics ← writeAt s.2 i (update groundTruth predictedScore)
    return (fwd.next s.1, statistics)) (it, statistics)
  return r.2

/-- `updateDecomposableStatisticsInternally`, loss_decomposable_common.hpp:29-42, as called in 110-119. -/
def updatePartial (update : T → K → Stat K) (scores : List K) (truth : List T) (indices : List Nat) (statistics : List (Stat K)) :
    Res (List (Stat K)) :=
  loop indices.length (fun i statistics => do
    let index ← readAt indices i
    let groundTruth ← readAt truth index
    let predictedScore ← readAt scores index
    writeAt statistics index (update groundTruth predictedScore)) statistics

/-- `std::lower_bound(begin + start, end, x)`. The elements must be partitioned by being less than `x`; then the result of the binary search is
the position of the first element that is not less than `x`, which is searched for linearly by the model. -/
def lowerBound (l : List Nat) (start x : Nat) : Nat := start + ((l.drop start).takeWhile (fun i => decide (i < x))).length

/-- `updateDecomposableStatistics` for sparse labels and some of the outputs, loss_decomposable_common.hpp:133-153. The state consists of the
position of `labelIndicesBegin` and the statistics. -/
def updatePartialCsr (update : Bool → K → Stat K) (scores : List K) (labels : List Nat) (indices : List Nat) (statistics : List (Stat K)) :
    Res (List (Stat K)) := do
  let r ← loop indices.length (fun i (s : Nat × List (Stat K)) => do
    let index ← readAt indices i
    let position := lowerBound labels s.1 index
    let trueLabel := decide (labels[position]? = some index)
    let predictedScore ← readAt scores index
    let statistics ← writeAt s.2 index (update trueLabel predictedScore)
    return (position, statistics)) (0, statistics)
  return r.2

/-- `updateDecomposableStatistics` for dense targets and some of the outputs, loss_decomposable_common.hpp:249-259. -/
def updatePartialRegression (update : T → K → Stat K) (scores : List K) (truth : List T) (indices : List Nat) (statistics : List (Stat K)) :
    Res (List (Stat K)) :=
  updateComplete update scores (denseForward truth) 0 statistics indices.length

/-- Lines 295-299 of loss_decomposable_common.hpp. -/
def groundTruthAt [Zero T] (truth : List (Nat × T)) (position index : Nat) : Res T :=
  if (truth.map Prod.fst)[position]? = some index then readAt (truth.map Prod.snd) position else .ok 0

/-- `updateDecomposableStatistics` for sparse targets and some of the outputs, loss_decomposable_common.hpp:274-304. -/
def updatePartialRegressionCsr [Zero T] (update : T → K → Stat K) (scores : List K) (truth : List (Nat × T)) (indices : List Nat)
    (statistics : List (Stat K)) : Res (List (Stat K)) := do
  let r ← loop indices.length (fun i (s : Nat × List (Stat K)) => do
    let index ← readAt indices i
    let position := lowerBound (truth.map Prod.fst) s.1 index
    let groundTruth ← groundTruthAt truth position index
    let predictedScore ← readAt scores index
    let statistics ← writeAt s.2 index (update groundTruth predictedScore)
    return (position, statistics)) (0, statistics)
  return r.2

/-- `evaluateInternally`, loss_decomposable_common.hpp:44-59. -/
def evaluateInternally [Field K] (evaluate : T → K → K) (scores : List K) (fwd : Forward S T) (it : S) (numOutputs : Nat) : Res K := do
  let r ← loop numOutputs (fun i (s : S × K) => do
    let predictedScore ← readAt scores i
    let groundTruth ← fwd.deref s.1
    let score := evaluate groundTruth predictedScore
    return (fwd.next s.1, Stopping.iterativeArithmeticMean (i + 1) score s.2)) (it, 0)
  return r.2

/-- `measureDistance`, loss_decomposable_common.hpp:179-195. -/
def measureDistance [Field K] (evaluate : Bool → K → K) (labelVector : List Nat) (scores : List K) : Res K :=
  evaluateInternally evaluate scores binaryForward (BinarySparseForward.create labelVector 0) scores.length

/-! ### Sparse matrices of statistics -/

/-- An iterator for the indices of relevant labels; `current` is `none` if the end has been reached. -/
structure IndexIterator (S : Type) where
  current : S → Option Nat
  next : S → Res S

/-- A pointer to an index of a row of a `BinaryCsrView`; the state is the list of the indices that are left. -/
def csrIndices : IndexIterator (List Nat) where
  current := List.head?
  next := fun l => match l with
    | [] => .error .outOfBounds
    | _ :: l => .ok l

/-- Iterators created by `createNonZeroIndexForwardIterator`. -/
def nonZeroIndices (isZero : T → Bool) : IndexIterator (NonZeroIndex T) where
  current := fun it => match it.rest with
    | [] => none
    | _ :: _ => some it.index
  next := NonZeroIndex.next isZero

/-- `fetchNextStatistic`, loss_decomposable_sparse_common.hpp:17-42, and `fetchNextEvaluation`, 76-100; `f` is the update or the evaluation
function. The result `none` stands for `LIMIT`, otherwise it consists of the index, the value of `f` and the iterators. -/
def fetchNext [Zero K] (f : Bool → K → V) (ops : IndexIterator S) (it : S) (scores : List (Nat × K)) :
    Res (Option (Nat × V × S × List (Nat × K))) :=
  let outputIndex := match ops.current it with
    | none => SparseSet.maxIndex
    | some i => i
  let scoreIndex := match scores with
    | [] => SparseSet.maxIndex
    | e :: _ => e.1
  if scoreIndex < outputIndex then
    match scores with
    | [] => .error .outOfBounds
    | e :: scores => .ok (some (scoreIndex, f false e.2, it, scores))
  else if outputIndex < scoreIndex then do
    let it ← ops.next it
    return some (outputIndex, f true 0, it, scores)
  else if outputIndex < SparseSet.maxIndex then
    match scores with
    | [] => .error .outOfBounds
    | e :: scores => do
      let it ← ops.next it
      return some (outputIndex, f true e.2, it, scores)
  else .ok none

/-- `fetchNextNonZeroStatistic`, loss_decomposable_sparse_common.hpp:44-57, and `fetchNextNonZeroEvaluation`, 102-116; `isZero` is
`isEqualToZero` applied to the gradient or the score. The number of calls to `fetchNext` is limited by `fuel`. -/
def fetchNextNonZero [Zero K] (f : Bool → K → V) (isZero : V → Bool) (ops : IndexIterator S) :
    (fuel : Nat) → S → List (Nat × K) → Run (Option (Nat × V × S × List (Nat × K)))
  | 0, _, _ => Run.unfinished
  | fuel + 1, it, scores => do
    match ← Run.lift (fetchNext f ops it scores) with
    | none => Run.done none
    | some (index, v, it, scores) =>
      if isZero v then fetchNextNonZero f isZero ops fuel it scores else Run.done (some (index, v, it, scores))

/-- The loops at loss_decomposable_sparse_common.hpp:68-73 and 128-132. -/
def whileNext {B : Type} [Zero K] (f : Bool → K → V) (isZero : V → Bool) (ops : IndexIterator S) (body : Nat → V → B → Res B) :
    (fuel : Nat) → S → List (Nat × K) → B → Run B
  | 0, _, _, _ => Run.unfinished
  | fuel + 1, it, scores, b => do
    match ← fetchNextNonZero f isZero ops (fuel + 1) it scores with
    | none => Run.done b
    | some (index, v, it, scores) =>
      let b ← Run.lift (body index v b)
      whileNext f isZero ops body fuel it scores b

/-- `IndexedValue<Tuple<float64>>& entry = row.emplace(index); entry.value = tuple;` -/
def put [Zero K] (row : SparseSet (Stat K)) (index : Nat) (tuple : Stat K) : Res (SparseSet (Stat K)) := row.modify index ⟨0, 0⟩ (fun _ => tuple)

/-- `updateDecomposableStatisticsInternally`, loss_decomposable_sparse_common.hpp:59-74. -/
def updateSparse [Zero K] (update : Bool → K → Stat K) (isZero : K → Bool) (ops : IndexIterator S) (fuel : Nat) (it : S)
    (scores : List (Nat × K)) (row : SparseSet (Stat K)) : Run (SparseSet (Stat K)) := do
  let row ← Run.lift row.clear
  whileNext update (fun t => isZero t.gradient) ops (fun index tuple row => put row index tuple) fuel it scores row

/-- `evaluateInternally`, loss_decomposable_sparse_common.hpp:118-135. The state of the loop consists of `i` and `mean`. If there are no labels,
zero is divided by zero, which is zero in the model. -/
def evaluateSparse [Field K] (evaluate : Bool → K → K) (isZero : K → Bool) (ops : IndexIterator S) (fuel : Nat) (it : S)
    (scores : List (Nat × K)) (numLabels : Nat) : Run K := do
  let r ← whileNext evaluate isZero ops (fun _ score (r : Nat × K) => .ok (r.1 + 1, Stopping.iterativeArithmeticMean (r.1 + 1) score r.2))
    fuel it scores (0, 0)
  return r.2 * ((r.1 : K) / (numLabels : K))

/-- Lines 192-197 and 233-238 of loss_decomposable_sparse_common.hpp. -/
def putOrErase [Zero K] (isZero : K → Bool) (row : SparseSet (Stat K)) (index : Nat) (tuple : Stat K) : Res (SparseSet (Stat K)) :=
  if !isZero tuple.gradient then put row index tuple else row.erase index

/-- `scoreMatrixEntry ? scoreMatrixEntry->value : 0`. -/
def scoreOf [Zero K] (scores : SparseSet K) (index : Nat) : Res K := do
  match ← scores.get index with
  | some e => return e.2
  | none => return 0

/-- `updateDecomposableStatistics` for dense labels and some of the outputs, loss_decomposable_sparse_common.hpp:172-199. -/
def updateSparsePartial [Zero K] (update : Bool → K → Stat K) (isZero : K → Bool) (labels : List Bool) (scores : SparseSet K)
    (indices : List Nat) (row : SparseSet (Stat K)) : Res (SparseSet (Stat K)) :=
  loop indices.length (fun i row => do
    let index ← readAt indices i
    let predictedScore ← scoreOf scores index
    let trueLabel ← readAt labels index
    putOrErase isZero row index (update trueLabel predictedScore)) row

/-- `updateDecomposableStatistics` for sparse labels and some of the outputs, loss_decomposable_sparse_common.hpp:212-240. -/
def updateSparsePartialCsr [Zero K] (update : Bool → K → Stat K) (isZero : K → Bool) (labels : List Nat) (scores : SparseSet K)
    (indices : List Nat) (row : SparseSet (Stat K)) : Res (SparseSet (Stat K)) := do
  let r ← loop indices.length (fun i (s : Nat × SparseSet (Stat K)) => do
    let index ← readAt indices i
    let position := lowerBound labels s.1 index
    let trueLabel := decide (labels[position]? = some index)
    let predictedScore ← scoreOf scores index
    let row ← putOrErase isZero s.2 index (update trueLabel predictedScore)
    return (position, row)) (0, row)
  return r.2

end MLRL.LossUpdate
