import Verif.Base
import Mathlib.Algebra.Ring.Basic

/-!
# Model of vectors of gradients and Hessians and of subsets of statistics

Sources: `common/include/mlrl/common/util/view_functions.hpp`,
`boosting/src/mlrl/boosting/data/vector_statistic_decomposable_dense.cpp`,
`boosting/src/mlrl/boosting/data/vector_statistic_decomposable_sparse.cpp`,
`boosting/src/mlrl/boosting/data/vector_statistic_non_decomposable_dense.cpp`,
`boosting/src/mlrl/boosting/statistics/statistics_common.hpp`.

Floating point numbers are elements of a commutative ring `K` (exact arithmetic).
-/

namespace MLRL.Statistics

variable {K : Type} [CommRing K] [DecidableEq K]

/-- `CompleteIndexVector` (the indices `0, ..., n - 1`) and `PartialIndexVector`. -/
inductive IndexVec where
  | complete (n : Nat)
  | select (indices : List Nat)
  deriving Repr

/-- `getNumElements`. -/
def IndexVec.size : IndexVec → Nat
  | .complete n => n
  | .select l => l.length

/-- `for (i = 0; i < n; i++) a[off + i] = g(i, a[off + i])`, the common form of the functions in view_functions.hpp:84-232. `off` is
the position of the element the iterator `a` refers to. -/
def updateRange {α : Type} (a : List α) (off n : Nat) (g : Nat → α → Res α) : Res (List α) :=
  loop n (fun i a => do
    let x ← readAt a (off + i)
    let y ← g i x
    writeAt a (off + i) y) a

/-- A statistic times a weight; `none` stands for the variants of the functions that do not take a weight. -/
def scaled (w : Option K) (x : K) : K :=
  match w with
  | none => x
  | some w => x * w

/-- `addToView` without indices, view_functions.hpp:84-108. -/
def addToView (a : List K) (b : List K) (n : Nat) (w : Option K) : Res (List K) :=
  updateRange a 0 n (fun i x => do let y ← readAt b i; pure (x + scaled w y))

/-- `addToView` with indices, view_functions.hpp:123-153; `offA`, `offB` are the positions the iterators refer to. -/
def addToViewIndexed (a : List K) (offA : Nat) (b : List K) (offB : Nat) (indices : List Nat) (n : Nat) (w : Option K) :
    Res (List K) :=
  updateRange a offA n (fun i x => do
    let j ← readAt indices i
    let y ← readAt b (offB + j)
    pure (x + scaled w y))

/-- `removeFromView`, view_functions.hpp:164-188. -/
def removeFromView (a : List K) (b : List K) (n : Nat) (w : Option K) : Res (List K) :=
  updateRange a 0 n (fun i x => do let y ← readAt b i; pure (x - scaled w y))

/-- `setViewToDifference` without indices, view_functions.hpp:202-207. -/
def setViewToDifference (a : List K) (b c : List K) (n : Nat) : Res (List K) :=
  updateRange a 0 n (fun i _ => do let y ← readAt b i; let z ← readAt c i; pure (y - z))

/-- `setViewToDifference` with indices, view_functions.hpp:225-232. -/
def setViewToDifferenceIndexed (a : List K) (offA : Nat) (b : List K) (offB : Nat) (c : List K) (offC : Nat) (indices : List Nat)
    (n : Nat) : Res (List K) :=
  updateRange a offA n (fun i _ => do
    let j ← readAt indices i
    let y ← readAt b (offB + j)
    let z ← readAt c (offC + i)
    pure (y - z))

/-- The operations on a vector of statistics that are used by the classes in statistics_common.hpp. `V` is the type of vectors, `R` the
type of rows of the statistic matrix. -/
structure VecOps (K V R : Type) where
  /-- constructor with `init = true` -/
  new : Nat → V
  /-- `add(view, row)` and `add(view, row, weight)` -/
  add : V → R → Option K → Res V
  /-- `remove(view, row)` and `remove(view, row, weight)` -/
  remove : V → R → Option K → Res V
  /-- `addToSubset(view, row, indices)` and `addToSubset(view, row, indices, weight)` -/
  addToSubset : V → R → IndexVec → Option K → Res V
  /-- `add(vector)` -/
  addVector : V → V → Res V
  /-- `difference(first, firstIndices, second)`, applied to the vector given as first argument -/
  difference : V → V → IndexVec → V → Res V
  /-- `clear()` -/
  clear : V → V

/-! ### Dense vectors of decomposable statistics -/

/-- `DenseDecomposableStatisticVector`: the gradients and Hessians (in the code an array of tuples, on which all operations are defined
element-wise; here one array each). -/
structure DenseVec (K : Type) where
  gradients : List K
  hessians : List K

/-- Applies an operation to gradients and Hessians. -/
def DenseVec.both (f g : Res (List K)) : Res (DenseVec K) := do
  let a ← f
  let b ← g
  return ⟨a, b⟩

/-- vector_statistic_decomposable_dense.cpp:5-70. A row of the statistic matrix is a dense vector as well. `clear` sets all elements to
zero (view decorator). -/
def denseOps : VecOps K (DenseVec K) (DenseVec K) where
  new n := ⟨List.replicate n 0, List.replicate n 0⟩
  add v r w := DenseVec.both (addToView v.gradients r.gradients v.gradients.length w) (addToView v.hessians r.hessians v.gradients.length w)
  remove v r w := DenseVec.both (removeFromView v.gradients r.gradients v.gradients.length w)
    (removeFromView v.hessians r.hessians v.gradients.length w)
  addToSubset v r idx w := match idx with
    | .complete _ => DenseVec.both (addToView v.gradients r.gradients v.gradients.length w)
        (addToView v.hessians r.hessians v.gradients.length w)
    | .select l => DenseVec.both (addToViewIndexed v.gradients 0 r.gradients 0 l v.gradients.length w)
        (addToViewIndexed v.hessians 0 r.hessians 0 l v.gradients.length w)
  addVector v r := DenseVec.both (addToView v.gradients r.gradients v.gradients.length none)
    (addToView v.hessians r.hessians v.gradients.length none)
  difference v a idx b := match idx with
    | .complete _ => DenseVec.both (setViewToDifference v.gradients a.gradients b.gradients v.gradients.length)
        (setViewToDifference v.hessians a.hessians b.hessians v.gradients.length)
    | .select l => DenseVec.both (setViewToDifferenceIndexed v.gradients 0 a.gradients 0 b.gradients 0 l v.gradients.length)
        (setViewToDifferenceIndexed v.hessians 0 a.hessians 0 b.hessians 0 l v.gradients.length)
  clear v := ⟨v.gradients.map (fun _ => 0), v.hessians.map (fun _ => 0)⟩

/-! ### Sparse vectors of decomposable statistics -/

/-- A row of a sparse statistic matrix (`SparseSetView`): the explicitly stored gradients and Hessians together with their indices. -/
abbrev SparseRow (K : Type) := List (Nat × K × K)

/-- `Triple`: sum of gradients, of Hessians and of the weights of the explicitly stored elements. -/
structure Triple (K : Type) where
  first : K
  second : K
  third : K

/-- `SparseDecomposableStatisticVector`. -/
structure SparseVec (K : Type) where
  triples : List (Triple K)
  sumOfWeights : K

/-- The body of the loops in vector_statistic_decomposable_sparse.cpp:5-64: adds (`sign = 1`) or removes (`sign = -1`) a statistic. -/
def Triple.update (add : Bool) (w : Option K) (t : Triple K) (g h : K) : Triple K :=
  if add then { first := t.first + scaled w g, second := t.second + scaled w h, third := t.third + scaled w 1 }
  else { first := t.first - scaled w g, second := t.second - scaled w h, third := t.third - scaled w 1 }

/-- `addToSparseDecomposableStatisticVector` and `removeFromSparseDecomposableStatisticVector`,
vector_statistic_decomposable_sparse.cpp:5-64. -/
def updateTriples (add : Bool) (w : Option K) : SparseRow K → List (Triple K) → Res (List (Triple K))
  | [], t => .ok t
  | (index, g, h) :: row, t => do
    let x ← readAt t index
    let t' ← writeAt t index (x.update add w g h)
    updateTriples add w row t'

/-- The weight is zero, in which case the functions that take a weight do nothing (`isEqualToZero`, here exact). -/
def zeroWeight (w : Option K) : Bool :=
  match w with
  | none => false
  | some w => decide (w = 0)

/-- The loop over the indices, vector_statistic_decomposable_sparse.cpp:185-196 and 216-227. `viewRow[index]` returns the element with
the given index or a null pointer (C18). -/
def updateTriplesIndexed (w : Option K) (row : SparseRow K) (indices : List Nat) (t : List (Triple K)) : Res (List (Triple K)) :=
  loop indices.length (fun i t => do
    let index ← readAt indices i
    match row.find? (fun e => e.1 == index) with
    | some e => do
      let x ← readAt t i
      writeAt t i (x.update true w e.2.1 e.2.2)
    | none => pure t) t

/-- Difference of two triples. -/
def Triple.sub (a b : Triple K) : Triple K := ⟨a.first - b.first, a.second - b.second, a.third - b.third⟩

/-- Sum of two triples. -/
def Triple.add (a b : Triple K) : Triple K := ⟨a.first + b.first, a.second + b.second, a.third + b.third⟩

/-- vector_statistic_decomposable_sparse.cpp:121-250. -/
def sparseOps : VecOps K (SparseVec K) (SparseRow K) where
  new n := ⟨List.replicate n ⟨0, 0, 0⟩, 0⟩
  add v r w := if zeroWeight w then pure v else do
    let t ← updateTriples true w r v.triples
    pure ⟨t, v.sumOfWeights + scaled w 1⟩
  remove v r w := if zeroWeight w then pure v else do
    let t ← updateTriples false w r v.triples
    pure ⟨t, v.sumOfWeights - scaled w 1⟩
  addToSubset v r idx w := if zeroWeight w then pure v else do
    let t ← match idx with
      | .complete _ => updateTriples true w r v.triples
      | .select l => updateTriplesIndexed w r l v.triples
    pure ⟨t, v.sumOfWeights + scaled w 1⟩
  addVector v u := do
    let t ← updateRange v.triples 0 v.triples.length (fun i x => do let y ← readAt u.triples i; pure (x.add y))
    pure ⟨t, v.sumOfWeights + u.sumOfWeights⟩
  difference v a idx b := do
    let t ← match idx with
      | .complete _ => updateRange v.triples 0 v.triples.length (fun i _ => do
          let y ← readAt a.triples i
          let z ← readAt b.triples i
          pure (y.sub z))
      | .select l => updateRange v.triples 0 v.triples.length (fun i _ => do
          let j ← readAt l i
          let y ← readAt a.triples j
          let z ← readAt b.triples i
          pure (y.sub z))
    pure ⟨t, a.sumOfWeights - b.sumOfWeights⟩
  clear v := ⟨v.triples.map (fun _ => ⟨0, 0, 0⟩), 0⟩

/-- `ConstIterator::operator[]`, vector_statistic_decomposable_sparse.cpp:70-76: the gradient and Hessian at a position. -/
def SparseVec.read (v : SparseVec K) (i : Nat) : Res (K × K) := do
  let t ← readAt v.triples i
  return (t.first, t.second + (v.sumOfWeights - t.third))

/-! ### Dense vectors of non-decomposable statistics -/

/-- `util::triangularNumber`, math.hpp of the boosting library. -/
def triangularNumber (n : Nat) : Nat := n * (n + 1) / 2

/-- The loop over the rows of the Hessian matrix, vector_statistic_non_decomposable_dense.cpp:113-117 and 133-137. -/
def addHessiansIndexed (v r : List K) (indices : List Nat) (n : Nat) (w : Option K) : Res (List K) :=
  loop n (fun i h => do
    let index ← readAt indices i
    addToViewIndexed h (triangularNumber i) r (triangularNumber index) indices (i + 1) w) v

/-- The loop over the rows of the Hessian matrix, vector_statistic_non_decomposable_dense.cpp:158-164. -/
def subtractHessiansIndexed (v a b : List K) (indices : List Nat) (n : Nat) : Res (List K) :=
  loop n (fun i h => do
    let index ← readAt indices i
    setViewToDifferenceIndexed h (triangularNumber i) a (triangularNumber index) b (triangularNumber i) indices (i + 1)) v

/-- vector_statistic_non_decomposable_dense.cpp:7-165. The Hessians are the lower triangle of a symmetric matrix, row by row. -/
def nonDecomposableOps : VecOps K (DenseVec K) (DenseVec K) where
  new n := ⟨List.replicate n 0, List.replicate (triangularNumber n) 0⟩
  add v r w := DenseVec.both (addToView v.gradients r.gradients v.gradients.length w) (addToView v.hessians r.hessians v.hessians.length w)
  remove v r w := DenseVec.both (removeFromView v.gradients r.gradients v.gradients.length w)
    (removeFromView v.hessians r.hessians v.hessians.length w)
  addToSubset v r idx w := match idx with
    | .complete _ => DenseVec.both (addToView v.gradients r.gradients v.gradients.length w)
        (addToView v.hessians r.hessians v.hessians.length w)
    | .select l => DenseVec.both (addToViewIndexed v.gradients 0 r.gradients 0 l v.gradients.length w)
        (addHessiansIndexed v.hessians r.hessians l v.gradients.length w)
  addVector v r := DenseVec.both (addToView v.gradients r.gradients v.gradients.length none)
    (addToView v.hessians r.hessians v.hessians.length none)
  difference v a idx b := match idx with
    | .complete _ => DenseVec.both (setViewToDifference v.gradients a.gradients b.gradients v.gradients.length)
        (setViewToDifference v.hessians a.hessians b.hessians v.hessians.length)
    | .select l => DenseVec.both (setViewToDifferenceIndexed v.gradients 0 a.gradients 0 b.gradients 0 l v.gradients.length)
        (subtractHessiansIndexed v.hessians a.hessians b.hessians l v.gradients.length)
  clear v := ⟨v.gradients.map (fun _ => 0), v.hessians.map (fun _ => 0)⟩

/-! ### Weighted statistics and their subsets -/

/-- `EqualWeightVector` (whose elements are not accessed) or a vector of weights. -/
inductive Weights (K : Type) where
  | equal (n : Nat)
  | vector (weights : List K)

/-- `weights[statisticIndex]` where it is needed. -/
def Weights.get : Weights K → Nat → Res (Option K)
  | .equal _, _ => .ok none
  | .vector l, i => do let w ← readAt l i; pure (some w)

/-- `getNumElements`. -/
def Weights.size : Weights K → Nat
  | .equal n => n
  | .vector l => l.length

/-- What `WeightedStatistics` refers to: the statistic matrix and the weights. -/
structure Data (K R : Type) where
  rows : List R
  weights : Weights K
  numCols : Nat

section
variable {V R : Type}

/-- `addStatisticInternally`, statistics_common.hpp:277-288. -/
def addStatistic (ops : VecOps K V R) (d : Data K R) (v : V) (e : Nat) : Res V := do
  let w ← d.weights.get e
  let r ← readAt d.rows e
  ops.add v r w

/-- `removeStatisticInternally`, statistics_common.hpp:290-301. -/
def removeStatistic (ops : VecOps K V R) (d : Data K R) (v : V) (e : Nat) : Res V := do
  let w ← d.weights.get e
  let r ← readAt d.rows e
  ops.remove v r w

/-- Constructor of `WeightedStatistics`, statistics_common.hpp:390-400: the sum of all statistics. -/
def totalSum (ops : VecOps K V R) (d : Data K R) : Res V :=
  loop d.weights.size (fun i v => addStatistic ops d v i) (ops.new d.numCols)

/-- `WeightedStatisticsSubset`, statistics_common.hpp:150-226 and 329-375. -/
structure SubsetState (V : Type) where
  sum : V
  acc : Option V
  tmp : V
  total : V

/-- Removes the excluded statistics, statistics_common.hpp:365-372. -/
def removeAll (ops : VecOps K V R) (d : Data K R) : List Nat → V → Res V
  | [], v => .ok v
  | e :: l, v => do
    let v' ← removeStatistic ops d v e
    removeAll ops d l v'

/-- Constructor, statistics_common.hpp:98-102, 178-184 and 351-374. The elements of `tmp` are not initialised in the code; they are
overwritten before they are used. -/
def SubsetState.create (ops : VecOps K V R) (d : Data K R) (total : V) (excluded : List Nat) (idx : IndexVec) : Res (SubsetState V) := do
  let t ← removeAll ops d excluded total
  return { sum := ops.new idx.size, acc := none, tmp := ops.new idx.size, total := t }

/-- `addToSubset`, statistics_common.hpp:22-35 and 114-116. -/
def SubsetState.add (ops : VecOps K V R) (d : Data K R) (idx : IndexVec) (s : SubsetState V) (e : Nat) : Res (SubsetState V) := do
  let w ← d.weights.get e
  let r ← readAt d.rows e
  let v ← ops.addToSubset s.sum r idx w
  return { s with sum := v }

/-- `resetSubset`, statistics_common.hpp:189-202. -/
def SubsetState.reset (ops : VecOps K V R) (s : SubsetState V) : Res (SubsetState V) := do
  match s.acc with
  | none => return { s with acc := some s.sum, sum := ops.clear s.sum }
  | some a =>
    let a' ← ops.addVector a s.sum
    return { s with acc := some a', sum := ops.clear s.sum }

/-- The vector `calculateScoresUncovered` is evaluated on, statistics_common.hpp:214-217. -/
def SubsetState.uncovered (ops : VecOps K V R) (idx : IndexVec) (s : SubsetState V) : Res V := ops.difference s.tmp s.total idx s.sum

/-- The vector `calculateScoresAccumulated` is evaluated on, statistics_common.hpp:207-209. -/
def SubsetState.accumulated (s : SubsetState V) : Res V := useInit s.acc

/-- The vector `calculateScoresUncoveredAccumulated` is evaluated on, statistics_common.hpp:222-225. -/
def SubsetState.uncoveredAccumulated (ops : VecOps K V R) (idx : IndexVec) (s : SubsetState V) : Res V := do
  let a ← useInit s.acc
  ops.difference s.tmp s.total idx a

/-- The operations that are performed on a subset during a search. -/
inductive SubsetOp where
  | add (e : Nat)
  | reset
  deriving DecidableEq, Repr

/-- Executes a sequence of operations. -/
def SubsetState.run (ops : VecOps K V R) (d : Data K R) (idx : IndexVec) : List SubsetOp → SubsetState V → Res (SubsetState V)
  | [], s => .ok s
  | .add e :: l, s => do let s' ← s.add ops d idx e; SubsetState.run ops d idx l s'
  | .reset :: l, s => do let s' ← s.reset ops; SubsetState.run ops d idx l s'

end

end MLRL.Statistics
