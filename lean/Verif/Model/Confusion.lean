import Verif.Model.Coverage
import Verif.Model.StatisticVector
import Verif.Model.LossUpdate

/-!
# Model of vectors of confusion matrices

Sources: `seco/include/mlrl/seco/data/confusion_matrix.hpp`, `seco/src/mlrl/seco/data/vector_confusion_matrix_dense.cpp`,
`seco/src/mlrl/seco/statistics/statistics_common.hpp`.

Floating point numbers are elements of a commutative ring `K` (exact arithmetic). The classes `WeightedStatistics` and
`WeightedStatisticsSubset` (statistics_common.hpp:302-534) have the same structure as those of the boosting library, whose model
(`Verif.Model.StatisticVector`) is reused: `SubsetState.total` is `subsetSumVector_`.
-/

namespace MLRL.Seco

open Iterators Statistics

variable {K : Type}

/-- `ConfusionMatrix`, confusion_matrix.hpp:11-199: the elements `in`, `ip`, `rn` and `rp`. The operators that are defined in lines 42-183 are
those of the product. -/
abbrev Confusion (K : Type) := K × K × K × K

/-- `in`: the labels are irrelevant and the majority label is relevant (a prediction is negative). -/
def Confusion.irrelevantNegative (c : Confusion K) : K := c.1

/-- `ip`. -/
def Confusion.irrelevantPositive (c : Confusion K) : K := c.2.1

/-- `rn`. -/
def Confusion.relevantNegative (c : Confusion K) : K := c.2.2.1

/-- `rp`. -/
def Confusion.relevantPositive (c : Confusion K) : K := c.2.2.2

/-- `getElement(trueLabel, majorityLabel) += weight`, confusion_matrix.hpp:192-198. -/
def Confusion.addElement [Add K] (c : Confusion K) (trueLabel majorityLabel : Bool) (weight : K) : Confusion K :=
  if trueLabel then
    if majorityLabel then (c.1, c.2.1, c.2.2.1 + weight, c.2.2.2) else (c.1, c.2.1, c.2.2.1, c.2.2.2 + weight)
  else
    if majorityLabel then (c.1 + weight, c.2.1, c.2.2.1, c.2.2.2) else (c.1, c.2.1 + weight, c.2.2.1, c.2.2.2)

/-- The labels of an example: `values_cbegin(exampleIndex)` refers to a position in the array of a dense label matrix, for sparse label
matrices there are the indices of relevant labels. -/
inductive LabelRow where
  | dense (array : List Bool) (offset : Nat)
  | csr (indices : List Nat)

/-- What a vector of confusion matrices is updated with: the labels of an example and the position of its coverages in the array of the
coverage matrix. -/
structure Row where
  labels : LabelRow
  coverage : List Nat
  offset : Nat

/-- The iterator for the labels of an example that is used by `addInternally`. -/
inductive LabelIt where
  | dense (array : List Bool) (position : Nat)
  | csr (it : BinarySparseForward)

/-- vector_confusion_matrix_dense.cpp:50 and 58-59. -/
def LabelRow.begin : LabelRow → LabelIt
  | .dense array offset => .dense array offset
  | .csr indices => .csr (BinarySparseForward.create indices 0)

/-- `*labelIterator`. -/
def LabelIt.deref : LabelIt → Res Bool
  | .dense array position => readAt array position
  | .csr it => .ok it.deref

/-- `labelIterator++`. -/
def LabelIt.next : LabelIt → LabelIt
  | .dense array position => .dense array (position + 1)
  | .csr it => .csr it.next

/-- Lines 20-26 of vector_confusion_matrix_dense.cpp. -/
def addLabel [Add K] (labels : LabelIt) (majorityLabel : Bool) (coverage : Nat) (weight : K) (v : List (Confusion K)) (i : Nat) :
    Res (List (Confusion K)) :=
  if coverage = 0 then do
    let trueLabel ← labels.deref
    let confusionMatrix ← readAt v i
    writeAt v i (confusionMatrix.addElement trueLabel majorityLabel weight)
  else .ok v

/-- `addInternally`, vector_confusion_matrix_dense.cpp:9-31. `numLabels` is `getNumElements()` of the vector. -/
def addInternally [Add K] (majority : List Nat) (row : Row) (weight : K) (v : List (Confusion K)) : Res (List (Confusion K)) := do
  let r ← loop v.length (fun i (s : (LabelIt × BinarySparseForward) × List (Confusion K)) => do
    let coverage ← readAt row.coverage (row.offset + i)
    let v ← addLabel s.1.1 s.1.2.deref coverage weight s.2 i
    return ((s.1.1.next, s.1.2.next), v)) ((row.labels.begin, BinarySparseForward.create majority 0), v)
  return r.2

/-- The iterators that are used by `addToSubset` for some of the labels: position in the indices of relevant labels (if the label matrix is
sparse), iterator for the majority labels and the index it refers to. -/
structure SubsetIt where
  position : Nat
  majority : BinarySparseForward
  previousIndex : Nat

/-- `trueLabel` and the new position, vector_confusion_matrix_dense.cpp:120 and 150-151. -/
def labelAt (row : LabelRow) (position index : Nat) : Res (Bool × Nat) :=
  match row with
  | .dense array offset => do
    let trueLabel ← readAt array (offset + index)
    return (trueLabel, position)
  | .csr indices =>
    let p := LossUpdate.lowerBound indices position index
    .ok (decide (indices[p]? = some index), p)

/-- Lines 119-127 and 149-158 of vector_confusion_matrix_dense.cpp. -/
def addIndex [Add K] (row : LabelRow) (index coverage : Nat) (weight : K) (it : SubsetIt) (v : List (Confusion K)) (i : Nat) :
    Res (SubsetIt × List (Confusion K)) :=
  if coverage = 0 then do
    let (trueLabel, position) ← labelAt row it.position index
    let majority ← advance it.majority it.previousIndex index
    let confusionMatrix ← readAt v i
    let v ← writeAt v i (confusionMatrix.addElement trueLabel majority.deref weight)
    return ({ position := position, majority := majority, previousIndex := index }, v)
  else .ok (it, v)

/-- `addToSubset` for some of the labels, vector_confusion_matrix_dense.cpp:102-160. -/
def addToSubsetPartial [Add K] (majority : List Nat) (row : Row) (indices : List Nat) (weight : K) (v : List (Confusion K)) :
    Res (List (Confusion K)) := do
  let r ← loop indices.length (fun i (s : SubsetIt × List (Confusion K)) => do
    let index ← readAt indices i
    let coverage ← readAt row.coverage (row.offset + index)
    addIndex row.labels index coverage weight s.1 s.2 i)
    ({ position := 0, majority := BinarySparseForward.create majority 0, previousIndex := 0 }, v)
  return r.2

/-- The weight that is used: 1, if all weights are equal (statistics_common.hpp:24-43, 250-286). -/
def weightOf [One K] : Option K → K
  | none => 1
  | some w => w

/-- `DenseConfusionMatrixVector`, vector_confusion_matrix_dense.cpp. -/
def confusionOps [CommRing K] (majority : List Nat) : VecOps K (List (Confusion K)) Row where
  new n := List.replicate n 0
  add v r w := addInternally majority r (weightOf w) v
  remove v r w := addInternally majority r (-weightOf w) v
  addToSubset v r idx w := match idx with
    | .complete _ => addInternally majority r (weightOf w) v
    | .select l => addToSubsetPartial majority r l (weightOf w) v
  addVector v u := updateRange v 0 v.length (fun i x => do let y ← readAt u i; pure (x + y))
  difference v a idx b := match idx with
    | .complete _ => updateRange v 0 v.length (fun i _ => do
        let y ← readAt a i
        let z ← readAt b i
        pure (y - z))
    | .select l => updateRange v 0 v.length (fun i _ => do
        let j ← readAt l i
        let y ← readAt a j
        let z ← readAt b i
        pure (y - z))
  clear v := v.map (fun _ => 0)

/-- A label matrix. -/
inductive LabelMatrix where
  | dense (array : List Bool)
  | csr (rows : List (List Nat))

/-- The labels of an example. -/
def LabelMatrix.row (m : LabelMatrix) (numCols i : Nat) : LabelRow :=
  match m with
  | .dense array => .dense array (i * numCols)
  | .csr rows => .csr ((rows[i]?).getD [])

/-- What the statistics refer to: label matrix with `numRows` rows and `numCols` columns, coverage matrix and weights. -/
def seCoData (labels : LabelMatrix) (numRows numCols : Nat) (coverage : List Nat) (weights : Weights K) : Data K Row :=
  { rows := (List.range numRows).map (fun i => { labels := labels.row numCols i, coverage := coverage, offset := i * numCols })
    weights := weights
    numCols := numCols }

/-- `createStatisticsSubsetInternally`, statistics_common.hpp:556-568, and constructor of `StatisticsSubset`, lines 236-247: the total sum, for
which a vector with `labelMatrix.numRows` elements is allocated. -/
def subsetTotal [CommRing K] [DecidableEq K] (majority : List Nat) (labels : LabelMatrix) (numRows numCols : Nat) (coverage : List Nat)
    (weights : Weights K) : Res (List (Confusion K)) :=
  totalSum (confusionOps majority) { seCoData labels numRows numCols coverage weights with numCols := numRows }

/-- The sum of a `StatisticsSubset` after examples have been added, statistics_common.hpp:137 and 152-155. -/
def subsetSum [CommRing K] [DecidableEq K] (majority : List Nat) (labels : LabelMatrix) (numRows numCols : Nat) (coverage : List Nat)
    (weights : Weights K) (idx : IndexVec) (examples : List Nat) : Res (List (Confusion K)) :=
  examples.foldlM (fun v e => do
    let d := seCoData labels numRows numCols coverage weights
    let w ← d.weights.get e
    let r ← readAt d.rows e
    (confusionOps majority).addToSubset v r idx w) ((confusionOps majority).new idx.size)

end MLRL.Seco
