import Verif.Model.Predictor
import Verif.Model.SparseSet
import Verif.Model.Refinement

/-!
# Model of applying and reverting predictions

Sources: `common/src/mlrl/common/rule_refinement/feature_space_tabular.cpp` (`applyPrediction`, `revertPrediction`),
`boosting/src/mlrl/boosting/statistics/statistics_common.hpp` (`Update`), `boosting/src/mlrl/boosting/data/matrix_c_contiguous_numeric.cpp`,
`boosting/src/mlrl/boosting/data/matrix_sparse_set_numeric.cpp`.
-/

namespace MLRL.Update

open Predictor

variable {K : Type}

/-! ### Rows of the matrix of scores -/

/-- `iterator[index] op= value`. -/
def modifyAt (op : K → K → K) (index : Nat) (value : K) (row : List K) : Res (List K) := do
  let x ← readAt row index
  writeAt row index (op x value)

/-- `addToRowFromSubset` (`op` is the addition), matrix_c_contiguous_numeric.cpp:10-34, and `removeFromRowFromSubset` (subtraction),
lines 37-61. The values of a complete prediction are read for all columns of the row. -/
def changeDense (op : K → K → K) : Head K → List K → Res (List K)
  | .complete values, row => loop row.length (fun i row => do
      let v ← readAt values i
      modifyAt op i v row) row
  | .partial_ entries, row => entries.foldlM (fun row e => modifyAt op e.1 e.2 row) row

/-- The pairs of indices and values `iterator[i]` that are read for a complete prediction,
matrix_sparse_set_numeric.cpp:36-37 and 55-56. -/
def readComplete (numCols : Nat) (values : List K) : Res (List (Nat × K)) :=
  (List.range numCols).mapM (fun i => do
    let v ← readAt values i
    return (i, v))

/-- `addToRowFromSubset`, matrix_sparse_set_numeric.cpp:31-48. All values are read before the first one is added to the row, which makes
a difference only in case of undefined behaviour. -/
def addSparse [Zero K] [Add K] (numCols : Nat) : Head K → SparseSet K → Res (SparseSet K)
  | .complete values, row => do
    let entries ← readComplete numCols values
    row.addToRow entries
  | .partial_ entries, row => row.addToRow entries

/-- `removeFromRowFromSubset`, matrix_sparse_set_numeric.cpp:50-67. -/
def removeSparse [Zero K] [Sub K] (numCols : Nat) : Head K → SparseSet K → Res (SparseSet K)
  | .complete values, row => do
    let entries ← readComplete numCols values
    row.removeFromRow entries
  | .partial_ entries, row => row.removeFromRow entries

/-! ### Updating statistics -/

/-- What is stored for an example: a row of the matrix of scores and the statistics (gradients and Hessians). -/
structure Cell (R S : Type) where
  scores : R
  statistics : S
  deriving DecidableEq

/-- The kinds of rows and statistics: how a prediction is added to or removed from a row and how the statistics of an example are
recalculated from a row for the outputs a prediction refers to (`updateStatistics`). -/
structure Ops (K R S : Type) where
  add : Head K → R → Res R
  remove : Head K → R → Res R
  refresh : Nat → Head K → R → S → Res S

/-- A call to `applyPrediction` or `revertPrediction`. -/
structure Call (K : Type) where
  mask : Nat → Bool
  head : Head K
  revert : Bool

section
variable {R S : Type} (ops : Ops K R S)

/-- `applyPredictionInternally`, statistics_common.hpp:459-464, or `revertPredictionInternally`, lines 466-471. -/
def Ops.change (revert : Bool) (head : Head K) (r : R) : Res R :=
  match revert with
  | false => ops.add head r
  | true => ops.remove head r

/-- `Update::applyPrediction` and `Update::revertPrediction` for an example, statistics_common.hpp:499-525, as a sequence of steps. -/
def steps (head : Head K) (revert : Bool) (i : Nat) : List (Cell R S → Res (Cell R S)) :=
  [fun c => do
      let scores ← ops.change revert head c.scores
      return { c with scores := scores },
    fun c => do
      let statistics ← ops.refresh i head c.scores c.statistics
      return { c with statistics := statistics }]

/-- The steps that are executed for each example by `applyPrediction` or `revertPrediction`, feature_space_tabular.cpp:285-289 and
305-309. -/
def Call.tasks (call : Call K) (numStatistics : Nat) : List (List (Cell R S → Res (Cell R S))) :=
  (List.range numStatistics).map (fun i => if call.mask i then steps ops call.head call.revert i else [])

/-- The operations that allow to use `Refinement.execTrace` for executing steps, each of which affects the cell of an example. -/
def cellOps (R S : Type) : Refinement.ComparatorOps (Cell R S) (Cell R S → Res (Cell R S)) where
  copy c := c
  consider c f := f c
  merge c _ := .ok (c, false)

/-- `FeatureSubspace::applyPrediction` and `revertPrediction`, feature_space_tabular.cpp:272-310: the steps for different examples are
executed by several threads in some order `trace`. -/
def exec (trace : List (Nat × (Cell R S → Res (Cell R S)))) (cells : List (Cell R S)) : Res (List (Cell R S)) :=
  Refinement.execTrace (cellOps R S) trace cells

end

end MLRL.Update
