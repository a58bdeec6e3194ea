import Verif.Model.LabelVectors
import Verif.Model.Stopping

/-!
# Model of the isotonic calibration of probabilities

Sources: cpp/subprojects/common/src/mlrl/common/prediction/probability_calibration_isotonic.cpp (abbreviated `common`) and
cpp/subprojects/boosting/src/mlrl/boosting/prediction/probability_calibration_isotonic.cpp (abbreviated `boosting`).

A bin is a pair of a threshold and a probability. `std::sort` and the comparison `isEqual` of floating point values are parameters. Dividing a
floating point value by zero results in `NaN` or infinity; the model distinguishes this as the outcome `divByZero`.
-/

namespace MLRL.Isotonic

open Iterators Stopping

variable {K : Type}

/-! ### Fitting, common -/

/-- The variables of the loop in `sortByThresholdsAndEliminateDuplicates`, common:13-16. -/
structure Dedup (K : Type) where
  bins : List (K × K)
  previousIndex : Nat
  previousBin : K × K
  n : Nat

/-- Body of the loop, common:19-29. `currentBin` is a reference to an element of `bins`, it is read again after `bins` has been modified. -/
def dedupStep [Field K] (isEqual : K → K → Bool) (j : Nat) (s : Dedup K) : Res (Dedup K) := do
  let currentBin ← readAt s.bins j
  if isEqual currentBin.1 s.previousBin.1 then
    return { s with previousBin := (s.previousBin.1, iterativeArithmeticMean (j - s.previousIndex + 1) currentBin.2 s.previousBin.2) }
  else do
    let bins ← writeAt s.bins s.n s.previousBin
    let currentBin ← readAt bins j
    return { bins := bins, previousIndex := j, previousBin := currentBin, n := s.n + 1 }

/-- `sortByThresholdsAndEliminateDuplicates`, common:6-35. -/
def sortAndEliminate [Field K] (sort : List (K × K) → List (K × K)) (isEqual : K → K → Bool) (bins : List (K × K)) : Res (List (K × K)) := do
  let bins := sort bins
  let numBins := bins.length
  let previousBin ← readAt bins 0
  let s ← loopFrom (dedupStep isEqual) 1 (numBins - 1) { bins := bins, previousIndex := 0, previousBin := previousBin, n := 0 }
  let last ← readAt s.bins (numBins - 1)
  let bins ← writeAt s.bins s.n last
  return bins.take (s.n + 1)

/-- The inner loop of `aggregateNonIncreasingBins`, common:65-78, with at most `fuel` iterations. `i` and `c` are the positions `previousBin` and
`currentBin` refer to; `currentBin = nextBin` overwrites the bin at position `c`. Returns the bins and the final value of `j`. -/
def aggregateInner [Field K] [LinearOrder K] (numBins : Nat) (pools : List Nat) (i c : Nat) :
    (fuel : Nat) → (bins : List (K × K)) → (count j : Nat) → Run (List (K × K) × Nat)
  | 0, _, _, _ => Run.unfinished
  | fuel + 1, bins, count, j => do
    let p ← Run.lift (readAt pools j)
    let j := p + 1
    if j < numBins then do
      let nextBin ← Run.lift (readAt bins j)
      let currentBin ← Run.lift (readAt bins c)
      if nextBin.2 > currentBin.2 then Run.done (bins, j)
      else do
        let previousBin ← Run.lift (readAt bins i)
        let bins ← Run.lift (writeAt bins i (previousBin.1, iterativeArithmeticMean (count + 1) nextBin.2 previousBin.2))
        let bins ← Run.lift (writeAt bins c nextBin)
        aggregateInner numBins pools i c fuel bins (count + 1) j
    else Run.done (bins, j)

/-- The variables of the outer loop of `aggregateNonIncreasingBins`, common:42-46. -/
structure Pava (K : Type) where
  bins : List (K × K)
  pools : List Nat
  i : Nat
  j : Nat

/-- Lines 57-89 of common; `j` is the position `currentBin` refers to. -/
def mergePools [Field K] [LinearOrder K] (numBins fuel : Nat) (s : Pava K) (j : Nat) : Run (Pava K) := do
  let currentBin ← Run.lift (readAt s.bins j)
  let previousBin ← Run.lift (readAt s.bins s.i)
  let bins ← Run.lift (writeAt s.bins s.i (previousBin.1, iterativeArithmeticMean 2 currentBin.2 previousBin.2))
  let r ← aggregateInner numBins s.pools s.i j fuel bins 2 j
  let pools ← Run.lift (writeAt s.pools s.i (r.2 - 1))
  let pools ← Run.lift (writeAt pools (r.2 - 1) s.i)
  if s.i > 0 then do
    let j ← Run.lift (readAt pools (s.i - 1))
    return { bins := r.1, pools := pools, i := j, j := j }
  else return { bins := r.1, pools := pools, i := s.i, j := r.2 }

/-- The outer loop of `aggregateNonIncreasingBins`, common:48-90, with at most `fuel` iterations. -/
def aggregateOuter [Field K] [LinearOrder K] (numBins innerFuel : Nat) : (fuel : Nat) → Pava K → Run (Pava K)
  | 0, _ => Run.unfinished
  | fuel + 1, s =>
    if s.i < numBins ∧ s.j < numBins then do
      let p ← Run.lift (readAt s.pools s.i)
      let j := p + 1
      if j < numBins then do
        let previousBin ← Run.lift (readAt s.bins s.i)
        let currentBin ← Run.lift (readAt s.bins j)
        if currentBin.2 > previousBin.2 then aggregateOuter numBins innerFuel fuel { s with i := j, j := j }
        else do
          let s ← mergePools numBins innerFuel s j
          aggregateOuter numBins innerFuel fuel s
      else Run.done { s with j := j }
    else Run.done s

/-- The loop in common:93-98, with at most `fuel` iterations; returns the bins and the final value of `j`. -/
def compact (numBins : Nat) (pools : List Nat) : (fuel : Nat) → (bins : List (K × K)) → (i j : Nat) → Run (List (K × K) × Nat)
  | 0, _, _, _ => Run.unfinished
  | fuel + 1, bins, i, j =>
    if i < numBins then do
      let b ← Run.lift (readAt bins i)
      let bins ← Run.lift (writeAt bins j b)
      let p ← Run.lift (readAt pools i)
      compact numBins pools fuel bins (p + 1) (j + 1)
    else Run.done (bins, j)

/-- `aggregateNonIncreasingBins`, common:37-102; `fuel` bounds the number of iterations of each loop. -/
def aggregateNonIncreasing [Field K] [LinearOrder K] (fuel : Nat) (bins : List (K × K)) : Run (List (K × K)) := do
  let numBins := bins.length
  let s ← aggregateOuter numBins fuel fuel { bins := bins, pools := List.range numBins, i := 0, j := 0 }
  let r ← compact numBins s.pools fuel s.bins 0 0
  return r.1.take r.2

/-- Lines 142-144 of `fit`, common. -/
def fitBins [Field K] [LinearOrder K] (sort : List (K × K) → List (K × K)) (isEqual : K → K → Bool) (fuel : Nat) (bins : List (K × K)) :
    Run (List (K × K)) := do
  let bins ← Run.lift (sortAndEliminate sort isEqual bins)
  aggregateNonIncreasing fuel bins

/-- `fit`, common:138-146. -/
def fit [Field K] [LinearOrder K] (sort : List (K × K) → List (K × K)) (isEqual : K → K → Bool) (fuel : Nat) :
    (lists : List (List (K × K))) → Run (List (List (K × K)))
  | [] => Run.done []
  | bins :: lists => do
    let bins ← fitBins sort isEqual fuel bins
    let lists ← fit sort isEqual fuel lists
    return bins :: lists

/-! ### Calibration, common -/

/-- The division in common:130. -/
def divide [Field K] [DecidableEq K] (a b : K) : Res K := if b = 0 then .error .divByZero else .ok (a / b)

/-- `begin[offset - 1]`; if `offset` is zero, the position before the first element is accessed. -/
def readBefore (bins : List (K × K)) (offset : Nat) : Res (K × K) :=
  if offset = 0 then .error .outOfBounds else readAt bins (offset - 1)

/-- The bounds chosen in common:106-127. `std::lower_bound` returns the first position whose threshold is not less than the given probability; that the
thresholds are sorted is its precondition. -/
def bounds [Field K] [LinearOrder K] (bins : List (K × K)) (probability : K) : Res ((K × K) × (K × K)) :=
  let offset := (bins.takeWhile (fun b => b.1 < probability)).length
  if offset = bins.length then do
    let lower ← readBefore bins offset
    return (lower, (1, 1))
  else if offset > 0 then do
    let lower ← readBefore bins offset
    let upper ← readAt bins offset
    return (lower, upper)
  else do
    let upper ← readAt bins offset
    return ((0, 0), upper)

/-- `calibrateProbability`, common:104-132. -/
def calibrateProbability [Field K] [LinearOrder K] (bins : List (K × K)) (probability : K) : Res K := do
  let b ← bounds bins probability
  let t ← divide (probability - b.1.1) (b.2.1 - b.1.1)
  return b.1.2 + t * (b.2.2 - b.1.2)

/-! ### Extraction of bins for marginal probabilities, boosting -/

/-- `addBin`, common:162-165. -/
def addBin (model : List (List (K × K))) (listIndex : Nat) (bin : K × K) : Res (List (List (K × K))) := do
  let row ← readAt model listIndex
  writeAt model listIndex (row ++ [bin])

/-- `extractThresholdsAndProbabilities` for dense labels and dense scores, boosting:13-31; `marginal` is
`transformScoreIntoMarginalProbability`. -/
def extractDenseDense [Field K] (marginal : Nat → K → K) (indices : List Nat) (numLabels : Nat) (labels : List (List Bool)) (scores : List (List K))
    (model : List (List (K × K))) : Res (List (List (K × K))) :=
  loop indices.length (fun i model => do
    let exampleIndex ← readAt indices i
    let labelRow ← readAt labels exampleIndex
    let scoreRow ← readAt scores exampleIndex
    loop numLabels (fun j model => do
      let label ← readAt labelRow j
      let score ← readAt scoreRow j
      addBin model j (marginal j score, if label then 1 else 0)) model) model

/-- `extractThresholdsAndProbabilities` for CSR labels and dense scores, boosting:33-53. -/
def extractCsrDense [Field K] (marginal : Nat → K → K) (indices : List Nat) (numLabels : Nat) (labels : List (List Nat)) (scores : List (List K))
    (model : List (List (K × K))) : Res (List (List (K × K))) :=
  loop indices.length (fun i model => do
    let exampleIndex ← readAt indices i
    let labelRow ← readAt labels exampleIndex
    let scoreRow ← readAt scores exampleIndex
    let r ← loop numLabels (fun j (s : BinarySparseForward × List (List (K × K))) => do
      let score ← readAt scoreRow j
      let model ← addBin s.2 j (marginal j score, if s.1.deref then 1 else 0)
      return (s.1.next, model)) (BinarySparseForward.create labelRow 0, model)
    return r.2) model

/-- Lines 60-62 and 102-104 of boosting. -/
def addFirstBins [Field K] (numLabels : Nat) (model : List (List (K × K))) : Res (List (List (K × K))) :=
  loop numLabels (fun i model => addBin model i (0, 0)) model

/-- `bins[0].second = value`. -/
def setFirst (bins : List (K × K)) (value : K) : Res (List (K × K)) := do
  let firstBin ← readAt bins 0
  writeAt bins 0 (firstBin.1, value)

/-- Body of the inner loop of `extractThresholdsAndProbabilities` for dense labels and sparse scores, boosting:72-92. The state consists of the model
and of `numSparsePerLabel`. -/
def extractDenseSparseStep [Field K] (marginal : Nat → K → K) (labelRow : List Bool) (scoreRow : SparseSet K) (j : Nat)
    (s : List (List (K × K)) × List Nat) : Res (List (List (K × K)) × List Nat) := do
  let label ← readAt labelRow j
  let entry ← scoreRow.get j
  match entry with
  | some e => do
    let model ← addBin s.1 j (marginal j e.2, if label then 1 else 0)
    return (model, s.2)
  | none => do
    let bins ← readAt s.1 j
    let firstBin ← readAt bins 0
    let n ← readAt s.2 j
    let numSparse := n + 1
    let bins ← setFirst bins
      (if numSparse > 1 then iterativeArithmeticMean numSparse (if label then 1 else 0) firstBin.2 else if label then 1 else 0)
    let model ← writeAt s.1 j bins
    let numSparsePerLabel ← writeAt s.2 j numSparse
    return (model, numSparsePerLabel)

/-- `extractThresholdsAndProbabilities` for dense labels and sparse scores, boosting:55-95. -/
def extractDenseSparse [Field K] (marginal : Nat → K → K) (indices : List Nat) (numLabels : Nat) (labels : List (List Bool))
    (scores : List (SparseSet K)) (model : List (List (K × K))) : Res (List (List (K × K))) := do
  let model ← addFirstBins numLabels model
  let r ← loop indices.length (fun i s => do
    let exampleIndex ← readAt indices i
    let labelRow ← readAt labels exampleIndex
    let scoreRow ← readAt scores exampleIndex
    loop numLabels (extractDenseSparseStep marginal labelRow scoreRow) s) (model, List.replicate numLabels 0)
  return r.1

/-- The model, `numSparsePerLabel` and `numSparseRelevantPerLabel`. -/
structure SparseCounts (K : Type) where
  model : List (List (K × K))
  numSparse : List Nat
  numSparseRelevant : List Nat

/-- Lines 116-119 of boosting. -/
def countRelevant (labelRow : List Nat) (counts : List Nat) : Res (List Nat) :=
  loop labelRow.length (fun j counts => do
    let labelIndex ← readAt labelRow j
    let n ← readAt counts labelIndex
    writeAt counts labelIndex (n + 1)) counts

/-- Decrements a counter; `uint32` arithmetic is modulo `2^32`. -/
def decrement (counts : List Nat) (i : Nat) : Res (List Nat) := do
  let n ← readAt counts i
  writeAt counts i (if n = 0 then 2 ^ 32 - 1 else n - 1)

/-- Lines 122-133 of boosting; `std::binary_search` on the sorted indices of the relevant labels is membership. -/
def extractCsrSparseEntry [Field K] (marginal : Nat → K → K) (labelRow : List Nat) (e : Nat × K) (s : SparseCounts K) : Res (SparseCounts K) := do
  let trueLabel := decide (e.1 ∈ labelRow)
  let model ← addBin s.model e.1 (marginal e.1 e.2, if trueLabel then 1 else 0)
  let numSparse ← decrement s.numSparse e.1
  if trueLabel then do
    let numSparseRelevant ← decrement s.numSparseRelevant e.1
    return { model := model, numSparse := numSparse, numSparseRelevant := numSparseRelevant }
  else return { model := model, numSparse := numSparse, numSparseRelevant := s.numSparseRelevant }

/-- Lines 121-134 of boosting. -/
def extractCsrSparseEntries [Field K] (marginal : Nat → K → K) (labelRow : List Nat) : List (Nat × K) → SparseCounts K → Res (SparseCounts K)
  | [], s => .ok s
  | e :: es, s => do
    let s ← extractCsrSparseEntry marginal labelRow e s
    extractCsrSparseEntries marginal labelRow es s

/-- `extractThresholdsAndProbabilities` for CSR labels and sparse scores, boosting:97-142. -/
def extractCsrSparse [Field K] [DecidableEq K] (marginal : Nat → K → K) (indices : List Nat) (numLabels : Nat) (labels : List (List Nat))
    (scores : List (SparseSet K)) (model : List (List (K × K))) : Res (List (List (K × K))) := do
  let model ← addFirstBins numLabels model
  let s ← loop indices.length (fun i (s : SparseCounts K) => do
    let exampleIndex ← readAt indices i
    let labelRow ← readAt labels exampleIndex
    let scoreRow ← readAt scores exampleIndex
    let numSparseRelevant ← countRelevant labelRow s.numSparseRelevant
    extractCsrSparseEntries marginal labelRow scoreRow.values { s with numSparseRelevant := numSparseRelevant })
    { model := model, numSparse := List.replicate numLabels indices.length, numSparseRelevant := List.replicate numLabels 0 }
  loop numLabels (fun i model => do
    let bins ← readAt model i
    let numSparseRelevant ← readAt s.numSparseRelevant i
    let numSparse ← readAt s.numSparse i
    let q ← divide (numSparseRelevant : K) (numSparse : K)
    let bins ← setFirst bins q
    writeAt model i bins) s.model

/-! ### Extraction of bins for joint probabilities, boosting -/

/-- `areLabelVectorsEqual`, boosting:335-350; the first argument holds the elements between `labelIndicesBegin` and `labelIndicesEnd`. -/
def areLabelVectorsEqual : (labelIndices : List Nat) → (labelVector : List Nat) → Bool
  | _, [] => true
  | [], _ :: _ => false
  | x :: xs, y :: ys => if x ≠ y then false else areLabelVectorsEqual xs ys

/-- `extractThresholdsAndProbabilities` for joint probabilities, boosting:352-466. The four variants differ in how the indices of the relevant labels
of an example are iterated and in the type of the scores: `labels` holds the indices of the relevant labels of each example and `joint` is
`transformScoresIntoJointProbability` for a label vector and the scores of an example. -/
def extractJoint [Field K] (joint : Nat → List Nat → Nat → Res K) (indices : List Nat) (labels : List (List Nat)) (vectors : List (List Nat))
    (model : List (List (K × K))) : Res (List (List (K × K))) :=
  loop vectors.length (fun i model => do
    let labelVector ← readAt vectors i
    loop indices.length (fun j model => do
      let exampleIndex ← readAt indices j
      let labelRow ← readAt labels exampleIndex
      let p ← joint i labelVector exampleIndex
      addBin model i (p, if areLabelVectorsEqual labelRow labelVector then 1 else 0)) model) model

end MLRL.Isotonic
