import Mathlib.Data.List.Sort
import Verif.Model.Sampling
import Verif.Model.RuleList

/-!
# Model of the partitioning of examples and of stratified sampling

Sources: `common/src/mlrl/common/sampling/partition_bi.cpp`, `partition_sampling_bi_random.cpp`,
`stratified_sampling_common.hpp`, `stratified_sampling_example_wise.cpp` and `stratified_sampling_output_wise.cpp` (the sampling
methods, lines 378-468, which do the same for the strata provided by the stratification matrix).

Numbers of samples are computed with exact arithmetic instead of `float32`.
-/

namespace MLRL

/-- Fields of `BiPartition`. The array is divided into its first `numFirst` elements and the other ones. -/
structure BiPartition where
  first : List Nat
  second : List Nat
  firstSorted : Bool
  secondSorted : Bool
  deriving DecidableEq

namespace BiPartition

/-- Constructor, partition_bi.cpp:12-14. The contents of the array are arbitrary. -/
def create (first second : List Nat) : BiPartition :=
  { first := first, second := second, firstSorted := false, secondSorted := false }

/-- `sortFirst`, partition_bi.cpp:56-61. -/
def sortFirst (p : BiPartition) : BiPartition :=
  if p.firstSorted then p else { p with first := p.first.insertionSort (· ≤ ·), firstSorted := true }

/-- `sortSecond`, partition_bi.cpp:63-68. -/
def sortSecond (p : BiPartition) : BiPartition :=
  if p.secondSorted then p else { p with second := p.second.insertionSort (· ≤ ·), secondSorted := true }

variable {S : Type}

/-- `RandomBiPartitionSampling::partition`, partition_sampling_bi_random.cpp:29-44. -/
def randomPartition (rng : Rng S) (p : BiPartition) (s : S) : Res (BiPartition × S) := do
  let numTraining := p.first.length
  let numHoldout := p.second.length
  let first := List.range numTraining
  let second := (List.range numHoldout).map (fun i => numTraining + i)
  let (a, s) ← Sampling.randomPermutation rng (first, second) numTraining (numTraining + numHoldout) numTraining s
  return ({ p with first := a.1, second := a.2 }, s)

/-- The sizes of the partition, partition_sampling_bi_random.cpp:51-54 and partition_sampling_bi_stratified_example_wise.cpp:68-70:
`(numTraining, numHoldout)`. -/
def sizes (numExamples : Nat) (holdoutSetSize : Rat) : Nat × Nat :=
  let numHoldout := ⌊holdoutSetSize * numExamples⌋₊
  (sub32 numExamples numHoldout, numHoldout)

end BiPartition

namespace Stratification

variable {S T : Type}

/-- `tiebreak`, stratified_sampling_common.hpp:8-16. `randomBool` is `randomInt(0, 2) != 0`, rng.cpp:24-26. -/
def tiebreak (rng : Rng S) (numDesiredSamples numDesiredOutOfSamples : Nat) (s : S) : Res (Bool × S) :=
  if numDesiredSamples > numDesiredOutOfSamples then .ok (true, s)
  else if numDesiredSamples < numDesiredOutOfSamples then .ok (false, s)
  else do
    let (r, s) ← rng.randomInt 0 2 s
    return (decide (r ≠ 0), s)

/-- Body of the loops at stratified_sampling_example_wise.cpp:73-79 and 120-127: an example is drawn and given to `emit`. -/
def drawStep (rng : Rng S) (emit : Nat → T → Res T) (numExamples i : Nat) (t : List Nat × T × S) : Res (List Nat × T × S) := do
  let (randomIndex, s) ← rng.randomInt i numExamples t.2.2
  let exampleIndex ← readAt t.1 randomIndex
  let x ← readAt t.1 i
  let l ← writeAt t.1 randomIndex x
  let l ← writeAt l i exampleIndex
  let out ← emit exampleIndex t.2.1
  return (l, out, s)

/-- Body of the loops at stratified_sampling_example_wise.cpp:82-85 and 130-134. -/
def restStep (emit : Nat → T → Res T) (l : List Nat) (i : Nat) (out : T) : Res T := do
  let exampleIndex ← readAt l i
  emit exampleIndex out

/-- Lines 71-85 and 118-134 of stratified_sampling_example_wise.cpp (lines 401-416 and 450-466 of
stratified_sampling_output_wise.cpp): `numSamples` examples of a stratum are drawn and given to `emit1`, the other ones are given to
`emit2`. The order of the examples in the stratum changes. -/
def drawStratum (rng : Rng S) (emit1 emit2 : Nat → T → Res T) (stratum : List Nat) (numSamples : Nat) (out : T) (s : S) :
    Res (List Nat × T × S) := do
  let (l, out, s) ← loop numSamples (drawStep rng emit1 stratum.length) (stratum, out, s)
  let out ← loopFrom (restStep emit2 l) numSamples (stratum.length - numSamples) out
  return (l, out, s)

/-- State of the loop in `sampleWeights`: number of non-zero and zero weights, weights, state of the generator. -/
structure WeightState (S : Type) where
  numNonZeroWeights : Nat
  numZeroWeights : Nat
  vector : BitVector
  rngState : S

/-- Body of the loop at stratified_sampling_example_wise.cpp:57-86 and stratified_sampling_output_wise.cpp:390-417. -/
def weightStep (rng : Rng S) (sampleSize : Rat) (numTotalSamples numTotalOutOfSamples : Nat) (stratum : List Nat)
    (t : WeightState S) : Res (List Nat × WeightState S) := do
  let numExamples := stratum.length
  let numSamplesDecimal := sampleSize * numExamples
  let numDesiredSamples := sub32 numTotalSamples t.numNonZeroWeights
  let numDesiredOutOfSamples := sub32 numTotalOutOfSamples t.numZeroWeights
  let (up, s) ← tiebreak rng numDesiredSamples numDesiredOutOfSamples t.rngState
  let numSamples := if up then ⌈numSamplesDecimal⌉₊ else ⌊numSamplesDecimal⌋₊
  let (stratum, vector, s) ← drawStratum rng (fun x v => v.set x true) (fun x v => v.set x false) stratum numSamples t.vector s
  return (stratum, { numNonZeroWeights := t.numNonZeroWeights + numSamples,
                     numZeroWeights := t.numZeroWeights + sub32 numExamples numSamples,
                     vector := vector,
                     rngState := s })

/-- The loop over all strata. -/
def weightLoop (rng : Rng S) (sampleSize : Rat) (numTotalSamples numTotalOutOfSamples : Nat) :
    List (List Nat) → WeightState S → Res (List (List Nat) × WeightState S)
  | [], t => .ok ([], t)
  | stratum :: strata, t => do
    let (stratum, t) ← weightStep rng sampleSize numTotalSamples numTotalOutOfSamples stratum t
    let (strata, t) ← weightLoop rng sampleSize numTotalSamples numTotalOutOfSamples strata t
    return (stratum :: strata, t)

/-- `sampleWeights`, stratified_sampling_example_wise.cpp:49-89 and stratified_sampling_output_wise.cpp:379-420. -/
def sampleWeights (rng : Rng S) (strata : List (List Nat)) (w : Sampling.BitWeights) (sampleSize : Rat)
    (minSamples maxSamples : Nat) (s : S) : Res (List (List Nat) × Sampling.BitWeights × S) := do
  let numTotal := strata.flatten.length
  let numTotalSamples := Sampling.calculateBoundedFraction numTotal sampleSize minSamples maxSamples
  let numTotalOutOfSamples := sub32 numTotal numTotalSamples
  let (strata, t) ← weightLoop rng sampleSize numTotalSamples numTotalOutOfSamples strata
    { numNonZeroWeights := 0, numZeroWeights := 0, vector := w.vector, rngState := s }
  return (strata, { vector := t.vector, numNonZeroWeights := t.numNonZeroWeights }, t.rngState)

/-- The array that is written via `firstIterator` and `secondIterator`, divided into its two parts, and the positions of the
iterators. In contrast to the actual array, writing past the end of the first part is a fault. -/
structure Arrays where
  first : List Nat
  second : List Nat
  firstPos : Nat
  secondPos : Nat

/-- `*firstIterator = x; firstIterator++`. -/
def Arrays.pushFirst (x : Nat) (a : Arrays) : Res Arrays := do
  let l ← writeAt a.first a.firstPos x
  return { a with first := l, firstPos := a.firstPos + 1 }

/-- `*secondIterator = x; secondIterator++`. -/
def Arrays.pushSecond (x : Nat) (a : Arrays) : Res Arrays := do
  let l ← writeAt a.second a.secondPos x
  return { a with second := l, secondPos := a.secondPos + 1 }

/-- State of the loop in `sampleBiPartition`. -/
structure PartitionState (S : Type) where
  numFirst : Nat
  numSecond : Nat
  arrays : Arrays
  rngState : S

/-- Lines 108-112 of stratified_sampling_example_wise.cpp. -/
def clampSamples (numFirst numSecond numExamples numSamples : Nat) : Nat :=
  if numSamples > numFirst then numFirst
  else if sub32 numExamples numSamples > numSecond then sub32 numExamples numSecond
  else numSamples

/-- Body of the loop at stratified_sampling_example_wise.cpp:98-135 and stratified_sampling_output_wise.cpp:430-467. The conversion
of NaN (if no examples are left) to an integer is undefined. -/
def partitionStep (rng : Rng S) (stratum : List Nat) (t : PartitionState S) : Res (List Nat × PartitionState S) := do
  let numExamples := stratum.length
  let (up, s) ← tiebreak rng t.numFirst t.numSecond t.rngState
  if t.numFirst + t.numSecond = 0 then .error .badCast
  else
    let sampleSize : Rat := (t.numFirst : Rat) / ((t.numFirst + t.numSecond : Nat) : Rat)
    let numSamplesDecimal := sampleSize * numExamples
    let numSamples := if up then ⌈numSamplesDecimal⌉₊ else ⌊numSamplesDecimal⌋₊
    let numSamples := clampSamples t.numFirst t.numSecond numExamples numSamples
    let (stratum, arrays, s) ← drawStratum rng Arrays.pushFirst Arrays.pushSecond stratum numSamples t.arrays s
    return (stratum, { numFirst := sub32 t.numFirst numSamples,
                       numSecond := sub32 t.numSecond (sub32 numExamples numSamples),
                       arrays := arrays,
                       rngState := s })

/-- The loop over all strata. -/
def partitionLoop (rng : Rng S) : List (List Nat) → PartitionState S → Res (List (List Nat) × PartitionState S)
  | [], t => .ok ([], t)
  | stratum :: strata, t => do
    let (stratum, t) ← partitionStep rng stratum t
    let (strata, t) ← partitionLoop rng strata t
    return (stratum :: strata, t)

/-- `sampleBiPartition`, stratified_sampling_example_wise.cpp:92-136 and stratified_sampling_output_wise.cpp:423-468. -/
def sampleBiPartition (rng : Rng S) (strata : List (List Nat)) (p : BiPartition) (s : S) :
    Res (List (List Nat) × BiPartition × S) := do
  let (strata, t) ← partitionLoop rng strata
    { numFirst := p.first.length, numSecond := p.second.length,
      arrays := { first := p.first, second := p.second, firstPos := 0, secondPos := 0 }, rngState := s }
  return (strata, { p with first := t.arrays.first, second := t.arrays.second }, t.rngState)

/-- The insertion of an example into the map from label vectors to examples, stratified_sampling_example_wise.cpp:24-30. The map is
an association list. -/
def insertExample {K : Type} [DecidableEq K] (key : K) (example_ : Nat) : List (K × List Nat) → List (K × List Nat)
  | [] => [(key, [example_])]
  | (k, l) :: m => if k = key then (k, l ++ [example_]) :: m else (k, l) :: insertExample key example_ m

/-- The map that results from the loop at stratified_sampling_example_wise.cpp:22-31. `row` provides the label vector of an
example. -/
def groupExamples {K : Type} [DecidableEq K] (row : Nat → K) (examples : List Nat) : List (K × List Nat) :=
  examples.foldl (fun m e => insertExample (row e) e m) []

/-- The strata after construction, stratified_sampling_example_wise.cpp:34-45: the entries of the map are visited in an arbitrary
order and sorted by their sizes. -/
def IsOrder {K : Type} [DecidableEq K] (row : Nat → K) (examples : List Nat) (order : List (List Nat)) : Prop :=
  order.Perm ((groupExamples row examples).map Prod.snd) ∧ order.Pairwise (fun a b => a.length ≤ b.length)

end Stratification

end MLRL
