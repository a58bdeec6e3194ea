import Verif.Model.ProbabilityPrediction
import Verif.Model.Partition

/-!
# Model of the calibrators of marginal and joint probabilities

Sources (cpp/subprojects): `boosting/src/mlrl/boosting/prediction/probability_calibration_isotonic.cpp`,
`common/src/mlrl/common/prediction/probability_calibration_no.cpp` and `common/include/mlrl/common/learner_classification_common.hpp`.

Scores are dense. The logistic function and the function that sorts bins are parameters.
-/

namespace MLRL.Probability

open Isotonic LabelVectors

variable {K : Type}

/-- The label matrix: `CContiguousView<const uint8>` or `BinaryCsrView`. -/
inductive Labels where
  | dense (rows : List (List Bool))
  | csr (rows : List (List Nat))

/-- The indices of the relevant labels of each example, which are obtained via `createNonZeroIndexForwardIterator` or `indices_cbegin`. -/
def Labels.relevant : Labels → List (List Nat)
  | .dense rows => rows.map (fun r => (List.range r.length).filter (fun i => r[i]? = some true))
  | .csr rows => rows

/-- `SinglePartition` or `BiPartition`. -/
inductive Partition where
  | single (numExamples : Nat)
  | bi (partition : BiPartition)

/-- The examples a calibration model is fitted to, probability_calibration_isotonic.cpp:171-196 and 495-520. -/
def Partition.calibrationExamples : Partition → (useHoldoutSet : Bool) → List Nat
  | .single n, _ => List.range n
  | .bi p, useHoldoutSet => if useHoldoutSet then p.second else p.first

/-- `extractThresholdsAndProbabilities` is overloaded for the different types of label matrices. -/
def extractMarginal [Field K] (marginal : Nat → K → K) (examples : List Nat) (numLabels : Nat) (labels : Labels) (scores : List (List K))
    (model : List (List (K × K))) : Res (List (List (K × K))) :=
  match labels with
  | .dense rows => extractDenseDense marginal examples numLabels rows scores model
  | .csr rows => extractCsrDense marginal examples numLabels rows scores model

/-- `fitMarginalProbabilityCalibrationModel`, probability_calibration_isotonic.cpp:144-169. Marginal probabilities are not calibrated when fitting the model (lines
220-226). -/
def fitMarginal [Field K] [LinearOrder K] (logistic : K → K) (sort : List (K × K) → List (K × K)) (isEqual : K → K → Bool) (fuel : Nat) (examples : List Nat)
    (numLabels : Nat) (labels : Labels) (scores : List (List K)) : Run (CalibrationModel K) := do
  let model ← Run.lift (extractMarginal (fun _ => logistic) examples numLabels labels scores (List.replicate numLabels []))
  let model ← fit sort isEqual fuel model
  return .isotonic model

/-- `fitJointProbabilityCalibrationModel`, probability_calibration_isotonic.cpp:468-493. Joint probabilities are obtained via the model for the calibration of marginal
probabilities, but are not calibrated themselves (lines 547-555). -/
def fitJoint [Field K] [LinearOrder K] (logistic : K → K) (sort : List (K × K) → List (K × K)) (isEqual : K → K → Bool) (fuel : Nat) (examples : List Nat)
    (labels : Labels) (scores : List (List K)) (marginalModel : CalibrationModel K) (vectors : List (List Nat)) : Run (CalibrationModel K) := do
  let model ← Run.lift (extractJoint (fun i labelVector e => do
    let row ← readAt scores e
    transformScores (transformScore logistic marginalModel) .no row i labelVector) examples labels.relevant vectors (List.replicate vectors.length []))
  let model ← fit sort isEqual fuel model
  return .isotonic model

/-- Which calibrators are configured, and whether they use the holdout set. `none` corresponds to `NoMarginalProbabilityCalibrator` and
`NoJointProbabilityCalibrator`. -/
structure CalibratorConfig where
  marginal : Option Bool
  joint : Option Bool

/-- The calibration models that result from training, learner_classification_common.hpp:101-119. -/
def fitCalibrationModels [Field K] [LinearOrder K] (logistic : K → K) (sort : List (K × K) → List (K × K)) (isEqual : K → K → Bool) (fuel : Nat)
    (config : CalibratorConfig) (partition : Partition) (numLabels : Nat) (labels : Labels) (scores : List (List K)) (vectors : List (List Nat)) :
    Run (CalibrationModel K × CalibrationModel K) := do
  let marginalModel ← match config.marginal with
    | none => Run.done .no
    | some useHoldoutSet => fitMarginal logistic sort isEqual fuel (partition.calibrationExamples useHoldoutSet) numLabels labels scores
  let jointModel ← match config.joint with
    | none => Run.done .no
    | some useHoldoutSet => fitJoint logistic sort isEqual fuel (partition.calibrationExamples useHoldoutSet) labels scores marginalModel vectors
  return (marginalModel, jointModel)

end MLRL.Probability
