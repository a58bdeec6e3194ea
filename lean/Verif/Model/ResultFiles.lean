import Verif.Model.Experiment

/-!
# Names of the files that are written by an experiment

The directory where files are stored, which is the same for all of them, is omitted.
-/

namespace MLRL.ResultFiles

open ParameterFiles (Str str fileNamePerFold)
open Experiment (DataType)

/-- The kinds of results that may be written to files. -/
inductive Output where
  | evaluation | predictions | predictionCharacteristics | dataCharacteristics | modelCharacteristics | rules
  | labelVectors | parameters | marginalCalibration | jointCalibration
  deriving DecidableEq, Repr

/-- The argument `file_name` of the constructors of sinks, and the constant in the class `PredictionWriter.ArffSink`:
python/subprojects/testbed/mlrl/testbed/evaluation.py:365, predictions.py:84, prediction_characteristics.py:38,
data_characteristics.py:183, model_characteristics.py:46, models.py:63, label_vectors.py:125, parameters.py:125,
probability_calibration.py:194 and 222. -/
def Output.base : Output → Str
  | .evaluation => "evaluation".toList
  | .predictions => "predictions".toList
  | .predictionCharacteristics => "prediction_characteristics".toList
  | .dataCharacteristics => "data_characteristics".toList
  | .modelCharacteristics => "model_characteristics".toList
  | .rules => "rules".toList
  | .labelVectors => "label_vectors".toList
  | .parameters => "parameters".toList
  | .marginalCalibration => "marginal_probability_calibration_model".toList
  | .jointCalibration => "joint_probability_calibration_model".toList

/-- The suffixes of files, io.py:19-29: rules are written to text files, predictions to ARFF files, and everything else to CSV
files. -/
def Output.suffix : Output → Str
  | .rules => "txt".toList
  | .predictions => "arff".toList
  | _ => "csv".toList

/-- `DataType.get_file_name`, data_splitting.py:182-189. -/
def dataTypeFileName (dataType : DataType) (name : Str) : Str :=
  name ++ '_' :: (match dataType with
    | .training => "training".toList
    | .test => "test".toList)

/-- `GlobalPrediction.get_file_name` and `IncrementalPrediction.get_file_name`, prediction_scope.py:79-80 and 100-101: the size
of the model is given if predictions are obtained incrementally. -/
def scopeFileName (size : Option Nat) (name : Str) : Str :=
  match size with
  | none => name
  | some size => name ++ "_model-size-".toList ++ str size

/-- What is written to a file. -/
structure Target where
  output : Output
  dataType : Option DataType
  size : Option Nat
  fold : Option Nat
  deriving DecidableEq, Repr

/-- The name of a file: `TxtSink.write_output`, `CsvSink.write_output`, output_writer.py:136-143 and 159-182, and
`ArffSink.write_output`, predictions.py:70-89.  The size of a model is only included in the names of files that contain
predictions; in the other cases, several rows are appended to the same file. -/
def Target.fileName (t : Target) : Str :=
  let name := match t.dataType with
    | none => t.output.base
    | some dataType => dataTypeFileName dataType t.output.base
  let name := if t.output = .predictions then scopeFileName t.size name else name
  fileNamePerFold name t.output.suffix t.fold

/-- Writing several files, one after the other. -/
def writeAll {C : Type} (files : Str → Option C) (results : List (Target × C)) : Str → Option C :=
  results.foldl (fun files r => fun name => if name = r.1.fileName then some r.2 else files name) files

end MLRL.ResultFiles
