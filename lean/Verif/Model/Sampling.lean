import Verif.Model.Random
import Verif.Model.BitVector
import Mathlib.Data.Rat.Floor

/-!
# Model of sampling methods

Sources: `common/src/mlrl/common/sampling/index_sampling.hpp`, `common/include/mlrl/common/sampling/weight_sampling.hpp`,
`feature_sampling_without_replacement.cpp`, `output_sampling_without_replacement.cpp`, `output_sampling_round_robin.cpp`,
`instance_sampling_with_replacement.cpp`, `instance_sampling_without_replacement.cpp`, `instance_sampling_no.cpp` and
`common/include/mlrl/common/util/math.hpp`.

Iterators that provide the indices to sample from are lists (`total`). For `IndexIterator(n)`, whose `operator[]` returns the
given position, this is `List.range n`. Indices are `uint32`; the number of indices is assumed to be less than `2^32` where
necessary. `std::unordered_set` is a list without regard to its order. Loops that are repeated until a new index has been found
are cut off after `fuel` iterations (outcome `unfinished`).
-/

namespace MLRL

namespace Sampling

variable {S : Type}

/-- The `while` loop at index_sampling.hpp:32-36 and weight_sampling.hpp:34-38. -/
def drawNew (rng : Rng S) (total : List Nat) (selected : List Nat) : (fuel : Nat) → S → Run (Nat × S)
  | 0, _ => Run.unfinished
  | fuel + 1, s => do
    let (randomIndex, s) ← Run.lift (rng.randomInt 0 total.length s)
    let sampledIndex ← Run.lift (readAt total randomIndex)
    if sampledIndex ∈ selected then drawNew rng total selected fuel s else Run.done (sampledIndex, s)

/-- The `for` loop at index_sampling.hpp:28-39: `k` iterations remain. The array `sample` is filled from left to right. -/
def trackingLoop (rng : Rng S) (fuel : Nat) (total : List Nat) :
    (k : Nat) → (selected sample : List Nat) → S → Run (List Nat × S)
  | 0, _, sample, s => Run.done (sample, s)
  | k + 1, selected, sample, s => do
    let (sampledIndex, s) ← drawNew rng total selected fuel s
    trackingLoop rng fuel total k (sampledIndex :: selected) (sample ++ [sampledIndex]) s

/-- `sampleIndicesWithoutReplacementViaTrackingSelection`, index_sampling.hpp:23-40. -/
def viaTracking (rng : Rng S) (fuel : Nat) (total : List Nat) (numSamples : Nat) (s : S) : Run (List Nat × S) :=
  trackingLoop rng fuel total numSamples [] [] s

/-- Copying the first elements, index_sampling.hpp:57-59 and 127-129. -/
def copyFirst (total : List Nat) (numSamples : Nat) : Res (List Nat) :=
  loop numSamples (fun i sample => do
    let x ← readAt total i
    return sample ++ [x]) []

/-- Body of the loop at index_sampling.hpp:61-67. -/
def reservoirStep (rng : Rng S) (total : List Nat) (numSamples i : Nat) (t : List Nat × S) : Res (List Nat × S) := do
  let (randomIndex, s) ← rng.randomInt 0 (i + 1) t.2
  if randomIndex < numSamples then
    let x ← readAt total i
    let sample ← writeAt t.1 randomIndex x
    return (sample, s)
  else
    return (t.1, s)

/-- `sampleIndicesWithoutReplacementViaReservoirSampling`, index_sampling.hpp:54-68. -/
def viaReservoir (rng : Rng S) (total : List Nat) (numSamples : Nat) (s : S) : Res (List Nat × S) := do
  let sample ← copyFirst total numSamples
  loopFrom (reservoirStep rng total numSamples) numSamples (total.length - numSamples) (sample, s)

/-- Reading one of two arrays, index_sampling.hpp:91 and 94-100. -/
def readBoth (numFirst : Nat) (a : List Nat × List Nat) (i : Nat) : Res Nat :=
  if i < numFirst then readAt a.1 i else readAt a.2 (i - numFirst)

/-- Writing one of two arrays, index_sampling.hpp:94-106. -/
def writeBoth (numFirst : Nat) (a : List Nat × List Nat) (i x : Nat) : Res (List Nat × List Nat) := do
  if i < numFirst then
    let l ← writeAt a.1 i x
    return (l, a.2)
  else
    let l ← writeAt a.2 (i - numFirst) x
    return (a.1, l)

/-- Body of the loop at index_sampling.hpp:88-107. -/
def permutationStep (rng : Rng S) (numFirst numTotal i : Nat) (t : (List Nat × List Nat) × S) :
    Res ((List Nat × List Nat) × S) := do
  let (randomIndex, s) ← rng.randomInt i numTotal t.2
  let tmp1 ← readBoth numFirst t.1 i
  let tmp2 ← readBoth numFirst t.1 randomIndex
  let a ← writeBoth numFirst t.1 randomIndex tmp1
  let a ← writeBoth numFirst a i tmp2
  return (a, s)

/-- `randomPermutation`, index_sampling.hpp:86-108. -/
def randomPermutation (rng : Rng S) (a : List Nat × List Nat) (numFirst numTotal numPermutations : Nat) (s : S) :
    Res ((List Nat × List Nat) × S) :=
  loop numPermutations (permutationStep rng numFirst numTotal) (a, s)

/-- `sampleIndicesWithoutReplacementViaRandomPermutation`, index_sampling.hpp:122-136. -/
def viaPermutation (rng : Rng S) (total : List Nat) (numSamples : Nat) (s : S) : Res (List Nat × S) := do
  let sample ← copyFirst total numSamples
  let unused ← loopFrom (fun i unused => do
    let x ← readAt total i
    return unused ++ [x]) numSamples (total.length - numSamples) []
  let (a, s) ← randomPermutation rng (sample, unused) numSamples total.length numSamples s
  return (a.1, s)

/-- The ratio computed at index_sampling.hpp:152 and weight_sampling.hpp:100. Exact arithmetic instead of `float64`. -/
def ratio (numTotal numSamples : Nat) : Rat := if numTotal > 0 then (numSamples : Rat) / (numTotal : Rat) else 1

/-- `sampleIndicesWithoutReplacement`, index_sampling.hpp:150-165. -/
def withoutReplacement (rng : Rng S) (fuel : Nat) (total : List Nat) (numSamples : Nat) (s : S) : Run (List Nat × S) :=
  if ratio total.length numSamples < 6 / 100 then viaTracking rng fuel total numSamples s
  else if ratio total.length numSamples > 1 / 2 then Run.lift (viaReservoir rng total numSamples s)
  else Run.lift (viaPermutation rng total numSamples s)

/-- The state of a `FeatureSamplingWithoutReplacement` after its construction, feature_sampling_without_replacement.cpp:35-47: the
last `numRetained` features. -/
def retained (numFeatures numRetained : Nat) : List Nat := (List.range numRetained).map (fun i => numFeatures - numRetained + i)

/-- `FeatureSamplingWithoutReplacement::sample`, feature_sampling_without_replacement.cpp:49-54. -/
def sampleFeatures (rng : Rng S) (fuel : Nat) (numFeatures numSamples numRetained : Nat) (s : S) : Run (List Nat × S) := do
  let (sample, s) ← withoutReplacement rng fuel (List.range (numFeatures - numRetained)) numSamples s
  return (retained numFeatures numRetained ++ sample, s)

/-- `OutputSamplingWithoutReplacement::sample`, output_sampling_without_replacement.cpp:32-36. -/
def sampleOutputs (rng : Rng S) (fuel : Nat) (numOutputs numSamples : Nat) (s : S) : Run (List Nat × S) :=
  withoutReplacement rng fuel (List.range numOutputs) numSamples s

/-- `calculateBoundedFraction`, math.hpp:66-84. Exact arithmetic instead of `float32`. The conversion to `uint32` is undefined if
the value is not in range, which is excluded by `0 ≤ fraction ≤ 1`. -/
def calculateBoundedFraction (numTotal : Nat) (fraction : Rat) (minimum maximum : Nat) : Nat :=
  let numSamples := ⌈fraction * numTotal⌉₊
  let min := if minimum > numTotal then numTotal else minimum
  if numSamples < min then min
  else if maximum ≥ minimum ∧ numSamples > maximum then maximum
  else numSamples

/-- The number of features to be sampled, feature_sampling_without_replacement.cpp:147-156: `(number of retained features, number
of samples)`. The argument of `log2` is a `uint32`; `floor (log2 x + 1)` is computed exactly; `log2(0)` is minus infinity and its
conversion to an integer is undefined. -/
def numFeatureSamples (numFeatures numRetained : Nat) (sampleSize : Rat) (minSamples maxSamples : Nat) : Res (Nat × Nat) :=
  let numRetained := min numRetained numFeatures
  let numRemaining := numFeatures - numRetained
  if sampleSize > 0 then .ok (numRetained, calculateBoundedFraction numRemaining sampleSize minSamples maxSamples)
  else
    let x := (numRemaining + (2 ^ 32 - 1)) % 2 ^ 32
    if x = 0 then .error .badCast else .ok (numRetained, Nat.log2 x + 1)

/-- State of `RoundRobinOutputSampling`: the number of outputs and the next index. -/
structure RoundRobin where
  numOutputs : Nat
  nextIndex : Nat

/-- `RoundRobinOutputSampling::sample`, output_sampling_round_robin.cpp:24-33. -/
def RoundRobin.sample (r : RoundRobin) : Nat × RoundRobin :=
  let index := r.nextIndex
  let next := r.nextIndex + 1
  (index, { r with nextIndex := if next ≥ r.numOutputs then 0 else next })

/-! ### Weights -/

/-- `BitWeightVector`, weight_vector_bit.cpp. -/
structure BitWeights where
  vector : BitVector
  numNonZeroWeights : Nat

/-- The loop at weight_sampling.hpp:30-41: `k` iterations remain. -/
def weightTrackingLoop (rng : Rng S) (fuel : Nat) (total : List Nat) :
    (k : Nat) → (selected : List Nat) → BitVector → S → Run (BitVector × S)
  | 0, _, v, s => Run.done (v, s)
  | k + 1, selected, v, s => do
    let (sampledIndex, s) ← drawNew rng total selected fuel s
    let v ← Run.lift (v.set sampledIndex true)
    weightTrackingLoop rng fuel total k (sampledIndex :: selected) v s

/-- `sampleWeightsWithoutReplacementViaTrackingSelection`, weight_sampling.hpp:25-44. -/
def weightsViaTracking (rng : Rng S) (fuel : Nat) (w : BitWeights) (total : List Nat) (numSamples : Nat) (s : S) :
    Run (BitWeights × S) := do
  let (v, s) ← weightTrackingLoop rng fuel total numSamples [] w.vector.clear s
  return ({ vector := v, numNonZeroWeights := numSamples }, s)

/-- Body of the loop at weight_sampling.hpp:69-79. -/
def poolStep (rng : Rng S) (numTotal i : Nat) (t : List Nat × BitVector × S) : Res (List Nat × BitVector × S) := do
  let (randomIndex, s) ← rng.randomInt 0 (numTotal - i) t.2.2
  let sampledIndex ← readAt t.1 randomIndex
  let v ← t.2.1.set sampledIndex true
  let x ← readAt t.1 (numTotal - i - 1)
  let pool ← writeAt t.1 randomIndex x
  return (pool, v, s)

/-- `sampleWeightsWithoutReplacementViaPool`, weight_sampling.hpp:59-82. The loop at lines 65-67 copies the indices. -/
def weightsViaPool (rng : Rng S) (w : BitWeights) (total : List Nat) (numSamples : Nat) (s : S) : Res (BitWeights × S) := do
  let (_, v, s) ← loop numSamples (poolStep rng total.length) (total, w.vector.clear, s)
  return ({ vector := v, numNonZeroWeights := numSamples }, s)

/-- `sampleWeightsWithoutReplacement`, weight_sampling.hpp:98-109, and `InstanceSamplingWithoutReplacement::sample`,
instance_sampling_without_replacement.cpp:10-24, where `total` are the indices of the training examples. -/
def weightsWithoutReplacement (rng : Rng S) (fuel : Nat) (w : BitWeights) (total : List Nat) (numSamples : Nat) (s : S) :
    Run (BitWeights × S) :=
  if ratio total.length numSamples < 6 / 100 then weightsViaTracking rng fuel w total numSamples s
  else Run.lift (weightsViaPool rng w total numSamples s)

/-- `sampleInternally` with a `BiPartition`, instance_sampling_no.cpp:12-23, where `total` are the indices of the training
examples. -/
def weightsNoSampling (w : BitWeights) (total : List Nat) : Res BitWeights := do
  let v ← loop total.length (fun i v => do
    let x ← readAt total i
    v.set x true) w.vector.clear
  return { vector := v, numNonZeroWeights := total.length }

/-- State of the loop in `sampleInternally`, instance_sampling_with_replacement.cpp: weights, number of non-zero weights and state
of the generator. -/
structure DenseWeights where
  weights : List Nat
  numNonZeroWeights : Nat
  deriving DecidableEq

/-- Body of the loops at instance_sampling_with_replacement.cpp:17-29 and 44-56. -/
def withReplacementStep (rng : Rng S) (total : List Nat) (t : DenseWeights × S) : Res (DenseWeights × S) := do
  let (randomIndex, s) ← rng.randomInt 0 total.length t.2
  let sampledIndex ← readAt total randomIndex
  let previousWeight ← readAt t.1.weights sampledIndex
  let weights ← writeAt t.1.weights sampledIndex (previousWeight + 1)
  return ({ weights := weights, numNonZeroWeights := if previousWeight = 0 then t.1.numNonZeroWeights + 1 else t.1.numNonZeroWeights }, s)

/-- `sampleInternally`, instance_sampling_with_replacement.cpp:9-31 (`total` are all examples) and 33-58 (`total` are the training
examples). The weights of all examples are set to zero first. -/
def weightsWithReplacement (rng : Rng S) (numExamples : Nat) (total : List Nat) (numSamples : Nat) (s : S) :
    Res (DenseWeights × S) :=
  loop numSamples (fun _ => withReplacementStep rng total) ({ weights := List.replicate numExamples 0, numNonZeroWeights := 0 }, s)

end Sampling

end MLRL
