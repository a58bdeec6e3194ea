import Verif.Model.Iterators
import Verif.Model.RuleEval
import Verif.Model.SparseSet

/-!
# Model of label vectors and of predictions that are based on known label vectors

Sources (cpp/subprojects):
* common/src/mlrl/common/prediction/label_vector_set.cpp, common/src/mlrl/common/input/label_matrix_c_contiguous.cpp, label_matrix_csr.cpp,
  common/include/mlrl/common/data/view_vector.hpp, common/include/mlrl/common/util/view_functions.hpp
* common/include/mlrl/common/measures/measure_distance.hpp
* boosting/src/mlrl/boosting/prediction/transformation_binary_example_wise.cpp
* boosting/include/mlrl/boosting/prediction/probability_function_joint.hpp,
  boosting/src/mlrl/boosting/prediction/probability_function_chain_rule.cpp, transformation_probability_marginalized.cpp,
  transformation_probability_output_wise.cpp, transformation_binary_output_wise.cpp

A label vector is the list of the indices of relevant labels.
-/

namespace MLRL.LabelVectors

open Iterators RuleEval

variable {K : Type}

/-! ### Label vectors -/

/-- `createLabelVector` of a dense label matrix, label_matrix_c_contiguous.cpp:61-78. The array has an arbitrary previous content. -/
def createLabelVectorDense (row : List Bool) (array : List Nat) : Res (List Nat) := do
  let r ← loop row.length (fun i (s : Nat × List Nat) => do
    let label ← readAt row i
    if label then do
      let array ← writeAt s.2 s.1 i
      return (s.1 + 1, array)
    else return s) (0, array)
  return r.2.take r.1

/-- `createLabelVector` of a sparse label matrix, label_matrix_csr.cpp:57-65; `indices` are the indices that are stored for the row. -/
def createLabelVectorCsr (indices : List Nat) : List Nat := indices

/-- `hashView`, view_functions.hpp:243-251. The first sum is computed with 32 bits. -/
def hashView (v : List Nat) : UInt64 :=
  v.foldl (fun hashValue x =>
    hashValue ^^^ ((UInt32.ofNat x + 0x9e3779b9).toUInt64 + (hashValue <<< 6) + (hashValue >>> 2))) (UInt64.ofNat v.length)

/-- The loop of `compareViews`, view_functions.hpp:271-275. -/
def compareElements : List Nat → List Nat → Bool
  | a :: l, b :: r => if !(a == b) then false else compareElements l r
  | _, _ => true

/-- `compareViews`, view_functions.hpp:265-278. -/
def compareViews (first second : List Nat) : Bool :=
  if first.length ≠ second.length then false else compareElements first second

/-- The fields of `LabelVectorSet`. -/
structure LabelVectorSet where
  vectors : List (List Nat)
  frequencies : List Nat

/-- `map.find(key)`: the first entry that has the same hash value and compares equal. -/
def find {H : Type} [DecidableEq H] (hash : List Nat → H) (map : List (List Nat × Nat)) (key : List Nat) : Option (List Nat × Nat) :=
  map.find? (fun e => decide (hash e.1 = hash key) && compareViews e.1 key)

/-- Lines 22-32 of the constructor of `LabelVectorSet`, label_vector_set.cpp. The state consists of the map and the fields. -/
def addRow {H : Type} [DecidableEq H] (hash : List Nat → H) (labelVector : List Nat) (s : List (List Nat × Nat) × LabelVectorSet) :
    Res (List (List Nat × Nat) × LabelVectorSet) :=
  match find hash s.1 labelVector with
  | none => .ok (s.1 ++ [(labelVector, s.2.frequencies.length)],
      { vectors := s.2.vectors ++ [labelVector], frequencies := s.2.frequencies ++ [1] })
  | some e => do
    let f ← readAt s.2.frequencies e.2
    let frequencies ← writeAt s.2.frequencies e.2 (f + 1)
    return (s.1, { s.2 with frequencies := frequencies })

/-- The constructor of `LabelVectorSet`, label_vector_set.cpp:14-34; `rows` are the label vectors of the training examples. -/
def createLabelVectorSet {H : Type} [DecidableEq H] (hash : List Nat → H) (rows : List (List Nat)) : Res LabelVectorSet := do
  let r ← loop rows.length (fun i s => do
    let labelVector ← readAt rows i
    addRow hash labelVector s) ([], { vectors := [], frequencies := [] })
  return r.2

/-! ### Example-wise predictions -/

/-- `getClosestLabelVector`, measure_distance.hpp:44-67; `distance` is `measureDistance` for given scores. The state of the loop consists of the
closest label vector, `maxFrequency` and `minDistance`. -/
def getClosestLabelVector [LinearOrder K] (set : LabelVectorSet) (distance : Nat → List Nat → Res K) : Res (List Nat) := do
  let closest ← readAt set.vectors 0
  let maxFrequency ← readAt set.frequencies 0
  let minDistance ← distance 0 closest
  let r ← loopFrom (fun i (s : List Nat × Nat × K) => do
    let labelVector ← readAt set.vectors i
    let frequency ← readAt set.frequencies i
    let d ← distance i labelVector
    return if d < s.2.2 ∨ (d = s.2.2 ∧ frequency > s.2.1) then (labelVector, frequency, d) else s) 1 (set.vectors.length - 1)
    (closest, maxFrequency, minDistance)
  return r.1

/-- `apply` for dense predictions, transformation_binary_example_wise.cpp:11-25. -/
def exampleWiseDense [LinearOrder K] (set : LabelVectorSet) (distance : Nat → List Nat → Res K) (prediction : List Nat) : Res (List Nat) := do
  let labelVector ← getClosestLabelVector set distance
  let r ← loop prediction.length (fun i (s : BinarySparseForward × List Nat) => do
    let prediction ← writeAt s.2 i (if s.1.deref then 1 else 0)
    return (s.1.next, prediction)) (BinarySparseForward.create labelVector 0, prediction)
  return r.2

/-- `apply` for sparse predictions, transformation_binary_example_wise.cpp:27-40; `predictionRow` is empty when the function is called. -/
def exampleWiseSparse [LinearOrder K] (set : LabelVectorSet) (distance : Nat → List Nat → Res K) (predictionRow : List Nat) :
    Res (List Nat) := do
  let labelVector ← getClosestLabelVector set distance
  loop labelVector.length (fun i row => do
    let index ← readAt labelVector i
    return row ++ [index]) predictionRow

/-! ### Output-wise predictions -/

/-- `apply` for dense predictions, transformation_binary_output_wise.cpp:9-20; `discretize` is `discretizeScore`. -/
def outputWiseDense (discretize : Nat → K → Bool) (scores : List K) (prediction : List Nat) : Res (List Nat) :=
  loop scores.length (fun i prediction => do
    let score ← readAt scores i
    writeAt prediction i (if discretize i score then 1 else 0)) prediction

/-- `apply` for sparse predictions, transformation_binary_output_wise.cpp:22-34. -/
def outputWiseSparse (discretize : Nat → K → Bool) (scores : List K) (predictionRow : List Nat) : Res (List Nat) :=
  loop scores.length (fun i row => do
    let score ← readAt scores i
    return if discretize i score then row ++ [i] else row) predictionRow

/-- `apply`, transformation_probability_output_wise.cpp:9-20; `marginal` is `transformScoreIntoMarginalProbability`. -/
def outputWiseProbabilities (marginal : Nat → K → K) (scores : List K) (probabilities : List K) : Res (List K) :=
  loop scores.length (fun i probabilities => do
    let score ← readAt scores i
    writeAt probabilities i (marginal i score)) probabilities

/-! ### Joint probabilities -/

/-- The loops of `transformScoresIntoJointProbability`, probability_function_chain_rule.cpp:41-53 and 64-77; `score` provides the score of an
output. -/
def chainRule [Field K] (marginal : Nat → K → K) (score : Nat → Res K) (labelVector : List Nat) (numLabels : Nat) : Res K := do
  let r ← loop numLabels (fun i (s : BinarySparseForward × K) => do
    let score ← score i
    let marginalProbability := marginal i score
    let marginalProbability := if !s.1.deref then 1 - marginalProbability else marginalProbability
    return (s.1.next, s.2 * marginalProbability)) (BinarySparseForward.create labelVector 0, 1)
  return r.2

/-- `transformScoresIntoJointProbability` for dense scores, probability_function_chain_rule.cpp:34-56; `calibrate` is
`calibrateJointProbability`. -/
def jointProbability [Field K] (marginal : Nat → K → K) (calibrate : Nat → K → K) (scores : List K) (index : Nat) (labelVector : List Nat) :
    Res K := do
  let p ← chainRule marginal (readAt scores) labelVector scores.length
  return calibrate index p

/-- `transformScoresIntoJointProbability` for sparse scores, probability_function_chain_rule.cpp:58-80. -/
def jointProbabilitySparse [Field K] (marginal : Nat → K → K) (calibrate : Nat → K → K) (scores : SparseSet K) (numLabels : Nat) (index : Nat)
    (labelVector : List Nat) : Res K := do
  let p ← chainRule marginal (fun i => do
    let e ← scores.get i
    return match e with
      | some e => e.2
      | none => 0) labelVector numLabels
  return calibrate index p

/-- `measureDistance`, probability_function_joint.hpp:99-105. -/
def jointDistance [Field K] (joint : Nat → List Nat → Res K) (index : Nat) (labelVector : List Nat) : Res K := do
  let p ← joint index labelVector
  return 1 - p

/-- `transformScoresIntoJointProbabilities`, probability_function_joint.hpp:67-94; `joint` is `transformScoresIntoJointProbability` for given
scores. The array has an arbitrary previous content. -/
def jointProbabilities [Field K] [LinearOrder K] (joint : Nat → List Nat → Res K) (vectors : List (List Nat)) (array : List K) : Res (List K) := do
  let r ← loop vectors.length (fun i (s : K × List K) => do
    let labelVector ← readAt vectors i
    let p ← joint i labelVector
    let array ← writeAt s.2 i p
    return (s.1 + p, array)) (0, array)
  loop vectors.length (fun i array => do
    let p ← readAt array i
    writeAt array i (divideOrZero p r.1)) r.2

/-- `apply`, transformation_probability_marginalized.cpp:9-32, given the joint probabilities. -/
def marginalize [Field K] (vectors : List (List Nat)) (joint : List K) (probabilities : List K) : Res (List K) :=
  loop vectors.length (fun i probabilities => do
    let labelVector ← readAt vectors i
    let p ← readAt joint i
    loop labelVector.length (fun j probabilities => do
      let labelIndex ← readAt labelVector j
      let x ← readAt probabilities labelIndex
      writeAt probabilities labelIndex (x + p)) probabilities) (List.replicate probabilities.length 0)

/-- `MarginalizedProbabilityTransformation::apply`, transformation_probability_marginalized.cpp:9-32. -/
def marginalizedProbabilities [Field K] [LinearOrder K] (joint : Nat → List Nat → Res K) (vectors : List (List Nat)) (array probabilities : List K) :
    Res (List K) := do
  let jointProbabilityVector ← jointProbabilities joint vectors array
  marginalize vectors jointProbabilityVector probabilities

end MLRL.LabelVectors
