import Verif.Model.Predictor
import Verif.Model.LossUpdate
import Mathlib.Algebra.Order.Ring.Defs

/-!
# Model of the prediction of binary labels by decision lists

Source: `seco/src/mlrl/seco/prediction/predictor_binary_output_wise.cpp`.

The prediction for a single example is modelled (see `Verif.Model.Predictor` for several examples and threads). The scores of rules are elements of an
ordered ring `K`. An element of a dense prediction matrix is `none` if it is not initialised. The bit vector `mask` is a list (its operations are
verified in `Verif.Props.BitVector`).
-/

namespace MLRL.DecisionList

open Predictor

variable {K : Type}

/-! ### Iterating over rules -/

/-- The loops in lines 59-67 and 297-305; `apply` is `applyHead`. -/
def forDense {S : Type} (apply : Head K → S → Res S) (row : List FVal) : List (Rule K) → S → Res S
  | [], s => .ok s
  | rule :: rules, s => do
    let covered ← rule.body.coversDense row
    let s ← if covered then apply rule.head s else .ok s
    forDense apply row rules s

/-- The loops in lines 81-93 and 318-330. -/
def forSparseLoop {S : Type} (apply : Head K → S → Res S) (row : SparseRow) (sparseValue : FVal) : List (Rule K) → S → TmpArrays → Nat → Res S
  | [], s, _, _ => .ok s
  | rule :: rules, s, t, n => do
    let (covered, t) ← rule.body.coversSparse row sparseValue t n
    let s ← if covered then apply rule.head s else .ok s
    forSparseLoop apply row sparseValue rules s t (n + 1)

/-- Lines 76-93 and 313-330. `tmpArray1` is not initialised, `tmpArray2` is initialised with zeros. -/
def forSparse {S : Type} (apply : Head K → S → Res S) (numFeatures : Nat) (row : SparseRow) (sparseValue : FVal) (rules : List (Rule K)) (s : S) :
    Res S :=
  forSparseLoop apply row sparseValue rules s { values := List.replicate numFeatures none, stamps := List.replicate numFeatures 0 } 1

/-! ### Dense predictions -/

/-- A row of the prediction matrix and `mask`. -/
structure DenseState where
  row : List (Option Bool)
  mask : List Bool
  deriving DecidableEq

/-- Lines 18-22 and 34-38. -/
def setLabel [Zero K] [LT K] [DecidableLT K] (index : Nat) (value : K) (s : DenseState) : Res DenseState := do
  let set ← readAt s.mask index
  if set then return s
  else do
    let row ← writeAt s.row index (some (decide (value > 0)))
    let mask ← writeAt s.mask index true
    return { row := row, mask := mask }

/-- `applyHead` for complete heads, predictor_binary_output_wise.cpp:13-24. -/
def applyComplete [Zero K] [LT K] [DecidableLT K] : (values : List K) → (i : Nat) → DenseState → Res DenseState
  | [], _, s => .ok s
  | v :: values, i, s => do
    let s ← setLabel i v s
    applyComplete values (i + 1) s

/-- `applyHead` for partial heads, predictor_binary_output_wise.cpp:26-40. -/
def applyPartial [Zero K] [LT K] [DecidableLT K] : (entries : List (Nat × K)) → DenseState → Res DenseState
  | [], s => .ok s
  | (index, v) :: entries, s => do
    let s ← setLabel index v s
    applyPartial entries s

/-- `applyHead`, predictor_binary_output_wise.cpp:42-50. -/
def applyHeadDense [Zero K] [LT K] [DecidableLT K] : Head K → DenseState → Res DenseState
  | .complete values, s => applyComplete values 0 s
  | .partial_ entries, s => applyPartial entries s

/-- The initial state of an example: the prediction matrix is initialised with zeros if the model does not contain a default rule, line 159;
`mask` is initialised with zeros, lines 57 and 75. -/
def DenseState.init (numLabels : Nat) (model : RuleList (Rule K)) : DenseState :=
  { row := List.replicate numLabels (if !model.defaultRule.isSome then some false else none), mask := List.replicate numLabels false }

/-- `OutputWiseBinaryPredictor::predict` for a single example and a dense feature matrix, predictor_binary_output_wise.cpp:52-68 and 156-165. -/
def predictDense [Zero K] [LT K] [DecidableLT K] (numLabels : Nat) (model : RuleList (Rule K)) (maxRules : Nat) (row : List FVal) :
    Res (List (Option Bool)) := do
  let rules ← model.usedToList maxRules
  let s ← forDense applyHeadDense row rules (DenseState.init numLabels model)
  return s.row

/-- `OutputWiseBinaryPredictor::predict` for a single example and a sparse feature matrix, predictor_binary_output_wise.cpp:70-94 and 156-165. -/
def predictDenseCsr [Zero K] [LT K] [DecidableLT K] (numLabels numFeatures : Nat) (model : RuleList (Rule K)) (maxRules : Nat) (row : SparseRow)
    (sparseValue : FVal) : Res (List (Option Bool)) := do
  let rules ← model.usedToList maxRules
  let s ← forSparse applyHeadDense numFeatures row sparseValue rules (DenseState.init numLabels model)
  return s.row

/-! ### Sparse predictions -/

/-- The indices of labels that are provided by `indexIterator[*scoresBegin]`, while `scoresBegin` is incremented until `scoresEnd`: those of scores
that are not zero, lines 279-288. The iterator is verified in `Verif.Props.Iterators` (`nonZeroIndex_spec`). -/
def scoreIndices [Zero K] [DecidableEq K] : Head K → List Nat
  | .complete values => (List.range values.length).filter (fun i => decide (values[i]? ≠ some 0))
  | .partial_ entries => (entries.filter (fun e => decide (e.2 ≠ 0))).map Prod.fst

/-- `++iterator`: incrementing an iterator that has reached the end is undefined. -/
def increment : List Nat → Res (List Nat)
  | [] => .error .outOfBounds
  | _ :: rest => .ok rest

/-- The index an iterator refers to or, if it has reached the end, `numLabels` (lines 238-239 and 255-256). -/
def currentIndex (numLabels : Nat) : List Nat → Nat
  | [] => numLabels
  | i :: _ => i

/-- One step of the loops in lines 238-251 and 255-268, given the elements of `buffer` from position `i` on and the remaining indices of labels. The
index that is written and the remaining elements are returned. -/
def mergeStep (numLabels : Nat) (buffer scores : List Nat) : Res (Nat × List Nat × List Nat) :=
  if currentIndex numLabels buffer < currentIndex numLabels scores then do
    let rest ← increment buffer
    return (currentIndex numLabels buffer, rest, scores)
  else if currentIndex numLabels buffer = currentIndex numLabels scores then do
    let rest ← increment buffer
    let scores' ← increment scores
    return (currentIndex numLabels buffer, rest, scores')
  else do
    let scores' ← increment scores
    return (currentIndex numLabels scores, buffer, scores')

/-- The body of the loop in lines 237-252. The state consists of the row, the remaining elements of `buffer` and the remaining indices. -/
def overwriteStep (numLabels start : Nat) (n : Nat) (s : List Nat × List Nat × List Nat) : Res (List Nat × List Nat × List Nat) := do
  let r ← mergeStep numLabels s.2.1 s.2.2
  let row ← writeAt s.1 (start + n) r.1
  return (row, r.2.1, r.2.2)

/-- The loop in lines 237-252. -/
def overwrite (numLabels start bufferSize : Nat) (s : List Nat × List Nat × List Nat) : Res (List Nat × List Nat × List Nat) :=
  loop bufferSize (overwriteStep numLabels start) s

/-- Each step reads at least one element; this ensures that `appendMerged` terminates. -/
theorem mergeStep_consumes {numLabels : Nat} {buffer scores : List Nat} {r : Nat × List Nat × List Nat}
    (h : mergeStep numLabels buffer scores = .ok r) : r.2.1.length + r.2.2.length < buffer.length + scores.length := by
  unfold mergeStep at h
  split at h
  · cases buffer with
    | nil => cases h
    | cons b bs => cases h; simp
  · split at h
    · cases buffer with
      | nil => cases h
      | cons b bs =>
        cases scores with
        | nil => cases h
        | cons c cs => cases h; simp; omega
    · cases scores with
      | nil => cases h
      | cons c cs => cases h; simp

/-- The loop in lines 254-269, where `i < bufferSize` if the remaining elements of `buffer` are not empty; the remaining indices are returned as
well. -/
def appendMerged (numLabels : Nat) (row buffer scores : List Nat) : Res (List Nat × List Nat) :=
  if buffer.isEmpty then .ok (row, scores)
  else
    match _h : mergeStep numLabels buffer scores with
    | .ok r => appendMerged numLabels (row ++ [r.1]) r.2.1 r.2.2
    | .error e => .error e
  termination_by buffer.length + scores.length
  decreasing_by exact mergeStep_consumes _h

/-- `applyHead`, predictor_binary_output_wise.cpp:224-276. `std::lower_bound` is `LossUpdate.lowerBound`. -/
def applyScores (numLabels : Nat) (scores row : List Nat) : Res (List Nat) :=
  match scores with
  | [] => .ok row
  | first :: _ =>
    if row.length > 0 then do
      let start := LossUpdate.lowerBound row 0 first
      let bufferSize := row.length - start
      let s ← overwrite numLabels start bufferSize (row, row.drop start, scores)
      let r ← appendMerged numLabels s.1 s.2.1 s.2.2
      return r.1 ++ r.2
    else .ok (row ++ scores)

/-- `applyHead`, predictor_binary_output_wise.cpp:278-290. -/
def applyHeadSparse [Zero K] [DecidableEq K] (numLabels : Nat) (head : Head K) (row : List Nat) : Res (List Nat) :=
  applyScores numLabels (scoreIndices head) row

/-- `OutputWiseSparseBinaryPredictor::predict` for a single example and a dense feature matrix, predictor_binary_output_wise.cpp:292-306 and
399-405; the rows of the prediction matrix are initially empty. -/
def predictSparse [Zero K] [DecidableEq K] (numLabels : Nat) (model : RuleList (Rule K)) (maxRules : Nat) (row : List FVal) : Res (List Nat) := do
  let rules ← model.usedToList maxRules
  forDense (applyHeadSparse numLabels) row rules []

/-- `OutputWiseSparseBinaryPredictor::predict` for a single example and a sparse feature matrix, predictor_binary_output_wise.cpp:308-331 and
399-405. -/
def predictSparseCsr [Zero K] [DecidableEq K] (numLabels numFeatures : Nat) (model : RuleList (Rule K)) (maxRules : Nat) (row : SparseRow)
    (sparseValue : FVal) : Res (List Nat) := do
  let rules ← model.usedToList maxRules
  forSparse (applyHeadSparse numLabels) numFeatures row sparseValue rules []

end MLRL.DecisionList
