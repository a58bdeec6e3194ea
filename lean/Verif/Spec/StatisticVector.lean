import Verif.Model.StatisticVector
import Mathlib.Algebra.Module.Pi
import Mathlib.Algebra.Module.Prod

/-!
# Specification of sums of statistics

What a vector of statistics stands for is a mathematical object: a function that assigns a gradient and a Hessian to each output
(decomposable statistics), or a function that assigns gradients to outputs and one that assigns Hessians to pairs of outputs
(non-decomposable statistics). Both form modules, so that sums, differences and multiples are defined independently of the code.
-/

namespace MLRL.Statistics

variable {K : Type} [CommRing K]

/-- Decomposable statistics: gradient and Hessian of each output. -/
abbrev Decomposable (K : Type) := Nat → K × K

/-- Non-decomposable statistics: gradient of each output and Hessian of each pair of outputs (first index not less than the second). -/
abbrev NonDecomposable (K : Type) := (Nat → K) × (Nat → Nat → K)

/-- The element at a position, zero if it does not exist. -/
def element {α : Type} [Zero α] (l : List α) (i : Nat) : α := (l[i]?).getD 0

/-- The index at a position. -/
def IndexVec.index : IndexVec → Nat → Nat
  | .complete _, i => i
  | .select l, i => element l i

/-- The statistics of the outputs with the given indices. -/
def selectDecomposable (idx : IndexVec) (m : Decomposable K) : Decomposable K :=
  fun i => if i < idx.size then m (idx.index i) else 0

/-- The statistics of the outputs with the given indices. -/
def selectNonDecomposable (idx : IndexVec) (m : NonDecomposable K) : NonDecomposable K :=
  (fun i => if i < idx.size then m.1 (idx.index i) else 0,
    fun i j => if j ≤ i ∧ i < idx.size then m.2 (idx.index i) (idx.index j) else 0)

/-- The gradients and Hessians in a dense vector. -/
def DenseVec.value (v : DenseVec K) : Decomposable K := fun i => (element v.gradients i, element v.hessians i)

/-- The gradients and Hessians in a sparse vector with `n` elements, as they are provided by its iterator. -/
def SparseVec.value (v : SparseVec K) : Decomposable K := fun i =>
  match v.triples[i]? with
  | some t => (t.first, t.second + (v.sumOfWeights - t.third))
  | none => 0

/-- The gradients and Hessians a row of a sparse matrix with `n` columns stands for: elements that are not stored explicitly have
gradient 0 and Hessian 1. -/
def rowValue (n : Nat) (r : SparseRow K) : Decomposable K := fun i =>
  if i < n then
    match r.find? (fun e => e.1 == i) with
    | some e => (e.2.1, e.2.2)
    | none => (0, 1)
  else 0

/-- The gradients and Hessians in a vector of non-decomposable statistics. -/
def DenseVec.matrixValue (v : DenseVec K) : NonDecomposable K :=
  (element v.gradients, fun i j => if j ≤ i ∧ i < v.gradients.length then element v.hessians (i * (i + 1) / 2 + j) else 0)

/-- A multiple of a statistic; `none` is the weight 1. -/
def times {M : Type} [AddCommGroup M] [Module K M] (w : Option K) (m : M) : M :=
  match w with
  | none => m
  | some w => w • m

/-- The indices are valid for `n` outputs. -/
def IndexVec.Valid (n : Nat) : IndexVec → Prop
  | .complete m => m = n
  | .select l => ∀ i ∈ l, i < n

/-- The indices are in increasing order. -/
def IndexVec.Sorted : IndexVec → Prop
  | .complete _ => True
  | .select l => l.Pairwise (· ≤ ·)

/-- What is required of an implementation of vectors of statistics: the operations never access invalid memory and are additions,
multiplications with weights, differences and selections of the statistics that the vectors stand for. -/
structure Laws {V R M : Type} [AddCommGroup M] [Module K M] (ops : VecOps K V R) (n : Nat) (valid : Nat → V → Prop)
    (rowValid : R → Prop) (idxValid : IndexVec → Prop) (value : V → M) (row : R → M) (select : IndexVec → M → M) : Prop where
  new : ∀ k, valid k (ops.new k) ∧ value (ops.new k) = 0
  clear : ∀ k v, valid k v → valid k (ops.clear v) ∧ value (ops.clear v) = 0
  add : ∀ v r w, valid n v → rowValid r → ∃ v', ops.add v r w = .ok v' ∧ valid n v' ∧ value v' = value v + times w (row r)
  remove : ∀ v r w, valid n v → rowValid r → ∃ v', ops.remove v r w = .ok v' ∧ valid n v' ∧ value v' = value v - times w (row r)
  addToSubset : ∀ v r idx w, idxValid idx → valid idx.size v → rowValid r →
    ∃ v', ops.addToSubset v r idx w = .ok v' ∧ valid idx.size v' ∧ value v' = value v + times w (select idx (row r))
  addVector : ∀ k v u, valid k v → valid k u → ∃ v', ops.addVector v u = .ok v' ∧ valid k v' ∧ value v' = value v + value u
  difference : ∀ v a idx b, idxValid idx → valid idx.size v → valid n a → valid idx.size b →
    ∃ v', ops.difference v a idx b = .ok v' ∧ valid idx.size v' ∧ value v' = select idx (value a) - value b
  select_sub : ∀ idx a b, select idx (a - b) = select idx a - select idx b
  select_sum : ∀ idx (l : List M), select idx l.sum = (l.map (select idx)).sum
  select_times : ∀ idx (w : Option K) (a : M), select idx (times w a) = times w (select idx a)

/-- The weighted statistics of an example. -/
def stat {R M : Type} [AddCommGroup M] [Module K M] (row : R → M) (d : Data K R) (e : Nat) : M :=
  match d.rows[e]?, d.weights with
  | none, _ => 0
  | some r, .equal _ => row r
  | some r, .vector l => (element l e) • row r

/-- The examples that have been added since the last reset. -/
def sinceReset : List SubsetOp → List Nat
  | [] => []
  | .add e :: l => if .reset ∈ l then sinceReset l else e :: sinceReset l
  | .reset :: l => sinceReset l

/-- The examples that have been added before the last reset. -/
def beforeReset : List SubsetOp → List Nat
  | [] => []
  | .add e :: l => if .reset ∈ l then e :: beforeReset l else beforeReset l
  | .reset :: l => beforeReset l

/-- The examples that occur in a sequence of operations. -/
def opExamples : List SubsetOp → List Nat
  | [] => []
  | .add e :: l => e :: opExamples l
  | .reset :: l => opExamples l

/-- The statistics are valid for examples less than `m`. -/
structure Data.Valid {R : Type} (d : Data K R) (m : Nat) (rowValid : R → Prop) : Prop where
  rows : m ≤ d.rows.length
  weights : ∀ l, d.weights = .vector l → m ≤ l.length
  row : ∀ r ∈ d.rows, rowValid r

/-- For every history of operations on a subset of the statistics that is created with a given sum of statistics and some examples
that are excluded from it: no invalid memory is accessed, the subset holds the sum of the statistics added since the last reset, the
accumulated subset the sum of those added before, and in both cases covered and uncovered statistics add up to the given sum without the
excluded examples. -/
def SubsetSound {V R M : Type} [DecidableEq K] [AddCommGroup M] [Module K M] (ops : VecOps K V R) (n : Nat) (valid : Nat → V → Prop)
    (rowValid : R → Prop) (idxValid : IndexVec → Prop) (value : V → M) (row : R → M) (select : IndexVec → M → M) : Prop :=
  ∀ (d : Data K R) (m : Nat) (total : V) (excluded : List Nat) (idx : IndexVec) (l : List SubsetOp), d.Valid m rowValid →
    valid n total → idxValid idx → (∀ e ∈ excluded, e < m) → (∀ e ∈ opExamples l, e < m) →
    ∃ s0 s : SubsetState V, SubsetState.create ops d total excluded idx = .ok s0 ∧ SubsetState.run ops d idx l s0 = .ok s ∧
      value s.sum = ((sinceReset l).map (fun e => select idx (stat row d e))).sum ∧
      (∃ u, s.uncovered ops idx = .ok u ∧
        value s.sum + value u = select idx (value total - (excluded.map (stat row d)).sum)) ∧
      if .reset ∈ l then
        ∃ a u, s.accumulated = .ok a ∧ s.uncoveredAccumulated ops idx = .ok u ∧
          value a = ((beforeReset l).map (fun e => select idx (stat row d e))).sum ∧
          value a + value u = select idx (value total - (excluded.map (stat row d)).sum)
      else s.accumulated = .error .uninitialised

/-- A dense and a sparse matrix of statistics hold the same gradients and Hessians and are used with the same weights. -/
structure SameData (n : Nat) (d : Data K (DenseVec K)) (d' : Data K (SparseRow K)) : Prop where
  weights : d'.weights = d.weights
  length : d'.rows.length = d.rows.length
  rows : ∀ (e : Nat) (r : DenseVec K) (r' : SparseRow K), d.rows[e]? = some r → d'.rows[e]? = some r' → r.value = rowValue n r'

end MLRL.Statistics
