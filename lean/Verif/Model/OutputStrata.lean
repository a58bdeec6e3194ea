import Verif.Model.FeatureVector
import Verif.Model.RuleList
import Verif.Model.Partition

/-!
# Model of the strata for output-wise stratified sampling

Source: `/repo/cpp/subprojects/common/src/mlrl/common/sampling/stratified_sampling_output_wise.cpp`, lines 12-376. The sampling itself (lines 378-468) is part of
`Model/Partition.lean`.

Elements of arrays that are not initialised are `none`. The bit vector `mask` is a list of Boolean values (see C19).
-/

namespace MLRL.OutputStrata

open FeatureSpace (readRange)

/-- A binary matrix in the CSC format (`BinaryCscView`): the number of columns is one less than the number of elements of `indptr`. -/
structure Csc where
  indices : List (Option Nat)
  indptr : List (Option Nat)
  deriving DecidableEq, Repr

/-- The elements between `indices_cbegin(i)` and `indices_cend(i)`. -/
def Csc.column (c : Csc) (i : Nat) : Res (List Nat) := do
  let start ← readAt c.indptr i
  let start ← useInit start
  let stop ← readAt c.indptr (i + 1)
  let stop ← useInit stop
  let l ← readRange c.indices start stop
  l.mapM useInit

/-- `getNumDenseElements()`: the last element of `indptr`. -/
def Csc.numElements (c : Csc) (numCols : Nat) : Res Nat := do
  let n ← readAt c.indptr numCols
  useInit n

/-- A label matrix: a value for each example and label, or the indices of the relevant labels of each example. -/
inductive Labels where
  | dense (rows : List (List Bool))
  | csr (rows : List (List Nat))
  deriving DecidableEq, Repr

/-- The array `indices` and the number of elements `n`. -/
structure Copy where
  indices : List (Option Nat)
  n : Nat
  deriving DecidableEq, Repr

/-- Lines 22-29: the inner loop of `copyLabelMatrix` for dense matrices. -/
def denseStep (rows : List (List Bool)) (label : Nat) (s : Copy) (e : Nat) : Res Copy := do
  let row ← readAt rows e
  let relevant ← readAt row label
  match relevant with
  | true => do
    let indices ← writeAt s.indices s.n (some e)
    return ⟨indices, s.n + 1⟩
  | false => return s

/-- Lines 19-30: the outer loop. -/
def denseLabelStep (rows : List (List Bool)) (examples : List Nat) (s : Copy × List (Option Nat)) (label : Nat) : Res (Copy × List (Option Nat)) := do
  let indptr ← writeAt s.2 label (some s.1.n)
  let c ← examples.foldlM (denseStep rows label) s.1
  return (c, indptr)

/-- `copyLabelMatrix` for dense matrices, lines 12-34. The size of the array is an `uint32` (lines 111 and 126). -/
def copyDense (rows : List (List Bool)) (numLabels : Nat) (examples : List Nat) : Res Csc := do
  let s ← (List.range numLabels).foldlM (denseLabelStep rows examples)
    (⟨List.replicate (examples.length * numLabels % 2 ^ 32) none, 0⟩, List.replicate (numLabels + 1) none)
  let indptr ← writeAt s.2 numLabels (some s.1.n)
  return ⟨s.1.indices.take s.1.n, indptr⟩

/-- Line 53: an element of `indptr` is incremented. -/
def incStep (indptr : List (Option Nat)) (label : Nat) : Res (List (Option Nat)) := do
  let n ← readAt indptr label
  let n ← useInit n
  writeAt indptr label (some (n + 1))

/-- Lines 46-55. -/
def countStep (rows : List (List Nat)) (indptr : List (Option Nat)) (e : Nat) : Res (List (Option Nat)) := do
  let row ← readAt rows e
  row.foldlM incStep indptr

/-- Lines 61-65: numbers of elements are replaced by offsets. -/
def offsetStep (s : List (Option Nat) × Nat) (label : Nat) : Res (List (Option Nat) × Nat) := do
  let n ← readAt s.1 label
  let n ← useInit n
  let indptr ← writeAt s.1 label (some s.2)
  return (indptr, s.2 + n)

/-- Lines 73-78. -/
def placeStep (e : Nat) (s : Csc) (label : Nat) : Res Csc := do
  let n ← readAt s.indptr label
  let n ← useInit n
  let indices ← writeAt s.indices n (some e)
  let indptr ← writeAt s.indptr label (some (n + 1))
  return ⟨indices, indptr⟩

/-- Lines 68-79. -/
def fillStep (rows : List (List Nat)) (s : Csc) (e : Nat) : Res Csc := do
  let row ← readAt rows e
  row.foldlM (placeStep e) s

/-- Lines 84-88: offsets are shifted by one element. -/
def shiftStep (s : List (Option Nat) × Nat) (label : Nat) : Res (List (Option Nat) × Nat) := do
  let n ← readAt s.1 label
  let n ← useInit n
  let indptr ← writeAt s.1 label (some s.2)
  return (indptr, n)

/-- `copyLabelMatrix` for CSR matrices, lines 36-92. The array has as many elements as there are relevant labels, line 141. -/
def copyCsr (rows : List (List Nat)) (numLabels : Nat) (examples : List Nat) : Res Csc := do
  let indptr ← examples.foldlM (countStep rows) (List.replicate numLabels (some 0) ++ [none])
  let offsets ← (List.range numLabels).foldlM offsetStep (indptr, 0)
  let filled ← examples.foldlM (fillStep rows) ⟨List.replicate rows.flatten.length none, offsets.1⟩
  let shifted ← (List.range numLabels).foldlM shiftStep (filled.indptr, 0)
  let indptr ← writeAt shifted.1 numLabels (some shifted.2)
  return ⟨filled.indices.take shifted.2, indptr⟩

/-- The constructors of `CscLabelMatrix`, lines 109-158. -/
def copyLabels (labels : Labels) (numLabels : Nat) (examples : List Nat) : Res Csc :=
  match labels with
  | .dense rows => copyDense rows numLabels examples
  | .csr rows => copyCsr rows numLabels examples

/-- The number of remaining examples per label, and the map from affected labels to previous numbers. -/
structure Counters where
  numExamples : List Nat
  affected : List (Nat × Nat)
  deriving DecidableEq, Repr

/-- Lines 194-196 and 208-211. `emplace` does not change the value of a key that exists already. -/
def decrement (s : Counters) (label : Nat) : Res Counters := do
  let numRemaining ← readAt s.numExamples label
  let numExamples ← writeAt s.numExamples label (sub32 numRemaining 1)
  return ⟨numExamples, if s.affected.any (fun p => p.1 == label) then s.affected else s.affected ++ [(label, numRemaining)]⟩

/-- Lines 192-198: the body of the loop for dense matrices. -/
def decrementDense (row : List Bool) (s : Counters) (label : Nat) : Res Counters := do
  let relevant ← readAt row label
  match relevant with
  | true => decrement s label
  | false => return s

/-- `updateNumExamplesPerLabel`, lines 186-213. -/
def update (labels : Labels) (numLabels : Nat) (s : Counters) (e : Nat) : Res Counters :=
  match labels with
  | .dense rows => do
    let row ← readAt rows e
    (List.range numLabels).foldlM (decrementDense row) s
  | .csr rows => do
    let row ← readAt rows e
    row.foldlM decrement s

/-- `CompareIndexedValue`, lines 171-184. Entries are pairs of an index and a value. -/
def before (a b : Nat × Nat) : Bool := decide (a.2 < b.2) || (decide (a.2 = b.2) && decide (a.1 < b.1))

/-- `sortedLabelIndices.begin()`: the first element of a sorted set. -/
def firstEntry : List (Nat × Nat) → Option (Nat × Nat)
  | [] => none
  | a :: l =>
    match firstEntry l with
    | none => some a
    | some b => if before b a then some b else some a

/-- `emplace`: an element that exists already is not added again. -/
def emplace (set : List (Nat × Nat)) (a : Nat × Nat) : List (Nat × Nat) := if a ∈ set then set else set ++ [a]

/-- The local variables of the constructor of `StratificationMatrix`. -/
structure State where
  counters : Counters
  sorted : List (Nat × Nat)
  mask : List Bool
  indices : List (Option Nat)
  n : Nat
  indptr : List (Option Nat)
  numCols : Nat
  deriving DecidableEq, Repr

/-- Lines 249-256. -/
def initStep (columns : Csc) (s : List Nat × List (Nat × Nat)) (label : Nat) : Res (List Nat × List (Nat × Nat)) := do
  let column ← columns.column label
  let counts ← writeAt s.1 label column.length
  return (counts, if column.length > 0 then emplace s.2 (label, column.length) else s.2)

/-- Lines 292-308. -/
def assignStep (labels : Labels) (numLabels : Nat) (s : State) (e : Nat) : Res State := do
  let remaining ← readAt s.mask e
  match remaining with
  | true => do
    let mask ← writeAt s.mask e false
    let indices ← writeAt s.indices s.n (some e)
    let counters ← update labels numLabels s.counters e
    return ⟨counters, s.sorted, mask, indices, s.n + 1, s.indptr, s.numCols⟩
  | false => return s

/-- Lines 312-326. `erase(it2)` is undefined if there is no such element. -/
def reorderStep (label : Nat) (numExamples : List Nat) (sorted : List (Nat × Nat)) (a : Nat × Nat) : Res (List (Nat × Nat)) :=
  match decide (a.1 ≠ label) with
  | true => do
    let numRemaining ← readAt numExamples a.1
    match decide (a ∈ sorted) with
    | true => return (if numRemaining > 0 then emplace sorted (a.1, numRemaining) else sorted).erase a
    | false => .error .outOfBounds
  | false => return sorted

/-- Lines 278-328: the body of the loop. `order` is the order in which the map of affected labels is iterated. -/
def labelStep (order : List (Nat × Nat) → List (Nat × Nat)) (labels : Labels) (numLabels : Nat) (columns : Csc) (s : State) (entry : Nat × Nat) : Res State := do
  let indptr ← writeAt s.indptr s.numCols (some s.n)
  let column ← columns.column entry.1
  let t ← column.foldlM (assignStep labels numLabels) ⟨⟨s.counters.numExamples, []⟩, s.sorted.erase entry, s.mask, s.indices, s.n, indptr, s.numCols + 1⟩
  let sorted ← (order t.counters.affected).foldlM (reorderStep entry.1 t.counters.numExamples) t.sorted
  return ⟨⟨t.counters.numExamples, []⟩, sorted, t.mask, t.indices, t.n, t.indptr, t.numCols⟩

/-- Lines 277-329: the loop. -/
def labelLoop (order : List (Nat × Nat) → List (Nat × Nat)) (labels : Labels) (numLabels : Nat) (columns : Csc) : (fuel : Nat) → State → Run State
  | 0, _ => Run.unfinished
  | fuel + 1, s =>
    match firstEntry s.sorted with
    | none => Run.done s
    | some entry => do
      let s ← Run.lift (labelStep order labels numLabels columns s entry)
      labelLoop order labels numLabels columns fuel s

/-- Lines 345-351. -/
def restStep (mask : List Bool) (s : Copy) (e : Nat) : Res Copy := do
  let remaining ← readAt mask e
  match remaining with
  | true => do
    let indices ← writeAt s.indices s.n (some e)
    return ⟨indices, s.n + 1⟩
  | false => return s

/-- `realloc`: elements that are added are not initialised. -/
def realloc (a : List (Option Nat)) (n : Nat) : List (Option Nat) := a.take n ++ List.replicate (n - a.length) none

/-- Lines 334-359, given the number of remaining examples. -/
def finishWith (numTotal : Nat) (s : State) (numRemaining : Nat) : Res Csc :=
  match decide (numRemaining > 0) with
  | true => do
    let indptr ← writeAt (realloc s.indptr (s.numCols + 2)) s.numCols (some s.n)
    let c ← (List.range numTotal).foldlM (restStep s.mask) ⟨realloc s.indices (s.n + numRemaining), s.n⟩
    let indptr ← writeAt indptr (s.numCols + 1) (some c.n)
    return ⟨c.indices, indptr⟩
  | false => do
    let indptr ← writeAt (realloc s.indptr (s.numCols + 1)) s.numCols (some s.n)
    return ⟨realloc s.indices s.n, indptr⟩

/-- Lines 331-359. -/
def finish (numRows numTotal : Nat) (s : State) : Res Csc := finishWith numTotal s (sub32 numRows s.n)

/-- The constructor of `StratificationMatrix`, lines 238-360, for the examples `examples` out of `numTotal` examples. The array `numExamplesPerLabel` is not
initialised in the code, but each of its elements is assigned before it is used (lines 249-256); here, its elements are initially zero. -/
def stratify (order : List (Nat × Nat) → List (Nat × Nat)) (labels : Labels) (numLabels numTotal : Nat) (examples : List Nat) (fuel : Nat) : Run Csc := do
  let columns ← Run.lift (copyLabels labels numLabels examples)
  let size ← Run.lift (columns.numElements numLabels)
  let init ← Run.lift ((List.range numLabels).foldlM (initStep columns) (List.replicate numLabels 0, []))
  let mask ← Run.lift (examples.foldlM (fun mask e => writeAt mask e true) (List.replicate numTotal false))
  let s ← labelLoop order labels numLabels columns fuel
    ⟨⟨init.1, []⟩, init.2, mask, List.replicate size none, 0, List.replicate (numLabels + 1) none, 0⟩
  Run.lift (finish examples.length numTotal s)

/-- The strata, as they are used by `sampleWeights` and `sampleBiPartition`, lines 390-392 and 430-432. -/
def Csc.strata (c : Csc) : Res (List (List Nat)) := (List.range (c.indptr.length - 1)).mapM c.column

/-- `OutputWiseStratifiedBiPartitionSampling`, partition_sampling_bi_stratified_output_wise.cpp:33-41: constructor and first call of `partition`. -/
def partition {S : Type} (rng : Rng S) (order : List (Nat × Nat) → List (Nat × Nat)) (labels : Labels) (numLabels numTotal : Nat) (p : BiPartition) (fuel : Nat)
    (s : S) : Run (List (List Nat) × BiPartition × S) := do
  let m ← stratify order labels numLabels numTotal (List.range numTotal) fuel
  let strata ← Run.lift m.strata
  Run.lift (Stratification.sampleBiPartition rng strata p s)

/-- `OutputWiseStratifiedSampling`, instance_sampling_stratified_output_wise.cpp:45-55: constructor and first call of `sample`. -/
def sample {S : Type} (rng : Rng S) (order : List (Nat × Nat) → List (Nat × Nat)) (labels : Labels) (numLabels numTotal : Nat) (examples : List Nat)
    (w : Sampling.BitWeights) (sampleSize : Rat) (minSamples maxSamples : Nat) (fuel : Nat) (s : S) : Run (List (List Nat) × Sampling.BitWeights × S) := do
  let m ← stratify order labels numLabels numTotal examples fuel
  let strata ← Run.lift m.strata
  Run.lift (Stratification.sampleWeights rng strata w sampleSize minSamples maxSamples s)

end MLRL.OutputStrata
