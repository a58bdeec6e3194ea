import Verif.Model.LabelVectors

/-!
# Model of the General F-Measure Maximiser

Source: cpp/subprojects/boosting/src/mlrl/boosting/prediction/transformation_binary_gfm.cpp

`std::partial_sort` and `std::sort` are parameters. Label vectors are the lists of the indices of relevant labels.
-/

namespace MLRL.Gfm

open LabelVectors

variable {K : Type}

/-- `getMaxLabelCardinality`, lines 10-25. -/
def getMaxLabelCardinality (vectors : List (List Nat)) : Nat :=
  pureLoop vectors.length (fun i m => match vectors[i]? with
    | some v => if v.length > m then v.length else m
    | none => m) 0

/-- Lines 42-47 of `calculateMarginalizedProbabilities`. -/
def addProbability [Field K] (labelVector : List Nat) (p : K) (probabilities : List (SparseSet K)) : Res (List (SparseSet K)) :=
  loop labelVector.length (fun j probabilities => do
    let labelIndex ← readAt labelVector j
    let row ← readAt probabilities labelIndex
    let row ← row.modify (labelVector.length - 1) 0 (fun x => x + p)
    writeAt probabilities labelIndex row) probabilities

/-- `calculateMarginalizedProbabilities`, lines 27-54. The state consists of `nullVectorProbability` and the matrix of probabilities. -/
def calculateMarginalizedProbabilities [Field K] (vectors : List (List Nat)) (joint : List K) (probabilities : List (SparseSet K)) :
    Res (K × List (SparseSet K)) :=
  loop vectors.length (fun i (s : K × List (SparseSet K)) => do
    let labelVector ← readAt vectors i
    let p ← readAt joint i
    if labelVector.length > 0 then do
      let probabilities ← addProbability labelVector p s.2
      return (s.1, probabilities)
    else return (p, s.2)) (0, probabilities)

/-- Lines 60-65 of `createAndEvaluateLabelVector`. -/
def weightedProbability [Field K] (row : SparseSet K) (k : Nat) : K :=
  row.values.foldl (fun r e => r + 2 * e.2 / ((e.1 + k + 1 : Nat) : K)) 0

/-- `createAndEvaluateLabelVector`, lines 56-84; `partialSort k` is `std::partial_sort`. -/
def createAndEvaluateLabelVector [Field K] (partialSort : Nat → List (Nat × K) → List (Nat × K)) (vector : List (Nat × K)) (numLabels : Nat)
    (probabilities : List (SparseSet K)) (k : Nat) : Res (K × List (Nat × K)) := do
  let vector ← loop numLabels (fun i vector => do
    let row ← readAt probabilities i
    writeAt vector i (i, weightedProbability row k)) vector
  let vector := partialSort k vector
  let quality ← loop k (fun i quality => do
    let e ← readAt vector i
    return quality + e.2) 0
  return (quality, vector)

/-- The variables of the loop in `predictGfm`: `bestQuality`, the two vectors `bestVectorPtr` and `tmpVectorPtr` point to and the number of
elements of the former. -/
structure State (K : Type) where
  bestQuality : K
  best : List (Nat × K)
  numElements : Nat
  tmp : List (Nat × K)

/-- Lines 124-142 of `predictGfm`; `vector1` and `vector2` are the previous contents of the vectors, which consist of `numLabels` elements. -/
def search [Field K] [LinearOrder K] (partialSort : Nat → List (Nat × K) → List (Nat × K)) (vector1 vector2 : List (Nat × K)) (numLabels : Nat)
    (nullVectorProbability : K) (probabilities : List (SparseSet K)) : Res (State K) :=
  loop numLabels (fun i (s : State K) => do
    let k := i + 1
    let r ← createAndEvaluateLabelVector partialSort s.tmp numLabels probabilities k
    return if r.1 > s.bestQuality then { bestQuality := r.1, best := r.2, numElements := k, tmp := s.best } else { s with tmp := r.2 })
    { bestQuality := nullVectorProbability, best := vector1, numElements := 0, tmp := vector2 }

/-- Lines 117-142 of `predictGfm`; `jointVector` is the result of `transformScoresIntoJointProbabilities`. The result consists of the elements of
the best vector. -/
def maximize [Field K] [LinearOrder K] (partialSort : Nat → List (Nat × K) → List (Nat × K)) (vector1 vector2 : List (Nat × K)) (numLabels : Nat)
    (vectors : List (List Nat)) (jointVector : List K) : Res (List (Nat × K)) := do
  let m ← calculateMarginalizedProbabilities vectors jointVector
    (List.replicate numLabels (SparseSet.init (getMaxLabelCardinality vectors)))
  let s ← search partialSort vector1 vector2 numLabels m.1 m.2
  return s.best.take s.numElements

/-- `storePrediction` for dense predictions, lines 86-96. -/
def storeDense (vector : List (Nat × K)) (prediction : List Nat) : Res (List Nat) :=
  loop vector.length (fun i prediction => do
    let e ← readAt vector i
    writeAt prediction e.1 1) (List.replicate prediction.length 0)

/-- `storePrediction` for sparse predictions, lines 98-111; `sort` is `std::sort` by increasing index. -/
def storeSparse (sort : List (Nat × K) → List (Nat × K)) (vector : List (Nat × K)) (predictionRow : List Nat) : Res (List Nat) :=
  if vector.length > 0 then
    let vector' := sort vector
    loop vector.length (fun i row => do
      let e ← readAt vector' i
      return row ++ [e.1]) predictionRow
  else .ok predictionRow

/-- `GfmBinaryTransformation::apply` for dense predictions, lines 113-157. -/
def applyDense [Field K] [LinearOrder K] (partialSort : Nat → List (Nat × K) → List (Nat × K)) (vector1 vector2 : List (Nat × K)) (numLabels : Nat)
    (vectors : List (List Nat)) (jointVector : List K) (prediction : List Nat) : Res (List Nat) := do
  let best ← maximize partialSort vector1 vector2 numLabels vectors jointVector
  storeDense best prediction

/-- `GfmBinaryTransformation::apply` for sparse predictions, lines 113-145 and 159-164. -/
def applySparse [Field K] [LinearOrder K] (partialSort : Nat → List (Nat × K) → List (Nat × K)) (sort : List (Nat × K) → List (Nat × K))
    (vector1 vector2 : List (Nat × K)) (numLabels : Nat) (vectors : List (List Nat)) (jointVector : List K) (predictionRow : List Nat) :
    Res (List Nat) := do
  let best ← maximize partialSort vector1 vector2 numLabels vectors jointVector
  storeSparse sort best predictionRow

end MLRL.Gfm
