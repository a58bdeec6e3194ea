import Verif.Model.CrossValidation
import Verif.Model.ResultFiles

/-!
# Loading and splitting data sets

In the following, `split` refers to `python/subprojects/testbed/mlrl/testbed/data_splitting.py`.  The rows of the feature and output
matrix that correspond to the same example are jointly represented by a value of the type `E`.  A file system assigns the examples
it contains to each ARFF file that exists (how files are parsed is the subject of C106).  One-hot encoding, which affects the
individual examples only, is omitted (see C110).
-/

namespace MLRL.DataSplitting

open ParameterFiles (Str fileName fileNamePerFold)
open CrossValidation (Split)
open ResultFiles (dataTypeFileName)

/-- Exceptions: `IOError`, `IndexError`, `ValueError` and those raised by a cross validation with predefined folds. -/
inductive Error where
  | io | index | value
  | fold (e : CrossValidation.Err)
  deriving DecidableEq, Repr

variable {E : Type}

/-- The ARFF files that exist. -/
abbrev Files (E : Type) := Str → Option (List E)

/-- `check_if_files_exist`, split:236-258. -/
def checkIfFilesExist (files : Files E) (names : List Str) : Except Error Bool :=
  let missing := names.filter fun name => (files name).isNone
  if missing.length = 0 then .ok true
  else if missing.length = names.length then .ok false
  else .error .io

/-- `load_data_set` and `load_data_set_and_meta_data`, data.py: an error is raised if the file does not exist. -/
def load (files : Files E) (name : Str) : Except Error (List E) :=
  match files name with
  | none => .error .io
  | some data => .ok data

/-- `load_data_set` is called for several files. -/
def loadAll (files : Files E) : List Str → Except Error (List (List E))
  | [] => .ok []
  | name :: names => do
    let data ← load files name
    let rest ← loadAll files names
    return data :: rest

/-- The rows of a matrix with given indices, e.g. `x[train_indices]`. -/
def gather (data : List E) : List Nat → Except Error (List E)
  | [] => .ok []
  | i :: indices =>
    match data[i]? with
    | none => .error .index
    | some e => do
      let rest ← gather data indices
      return e :: rest

/-- The suffix of ARFF files, io.py:26. -/
def suffixArff : Str := "arff".toList

/-- `NoSplitter._split_data`, split:273-294. -/
def noSplit (files : Files E) (name : Str) : Except Error (List (Split × List E × List E)) := do
  let data ← load files (fileName name suffixArff)
  return [(.noSplit, data, data)]

/-- `TrainTestSplitter._split_data`, split:312-356. The function `train_test_split` of the library scikit-learn is given by the indices
of the training and test examples it selects, depending on the number of examples. -/
def trainTest (files : Files E) (name : Str) (trainTestSplit : Nat → Except Error (List Nat × List Nat)) :
    Except Error (List (Split × List E × List E)) := do
  let trainName := fileName (dataTypeFileName .training name) suffixArff
  let testName := fileName (dataTypeFileName .test name) suffixArff
  let predefinedSplit ← checkIfFilesExist files [trainName, testName]
  let trainName := if predefinedSplit then trainName else fileName name suffixArff
  let train ← load files trainName
  if predefinedSplit then
    let test ← load files testName
    return [(.trainTest, train, test)]
  else
    let (trainIndices, testIndices) ← trainTestSplit train.length
    let trainSet ← gather train trainIndices
    let testSet ← gather train testIndices
    return [(.trainTest, trainSet, testSet)]

/-- Consecutive parts of a list. -/
def chunks : List Nat → List Nat → List (List Nat)
  | [], _ => []
  | size :: sizes, indices => indices.take size :: chunks sizes (indices.drop size)

/-- `KFold.split`, as implemented by the library scikit-learn (sklearn/model_selection/_split.py, not part of the repository): the
shuffled indices of the examples are split into parts, the first ones of which may contain an additional element. The indices of
the examples that belong to a part, and of the remaining ones, are given in increasing order. -/
def kFold (shuffle : Nat → List Nat) (numFolds n : Nat) : Except Error (List (List Nat × List Nat)) :=
  if numFolds ≤ 1 ∨ n < numFolds then .error .value
  else .ok ((chunks ((List.range numFolds).map fun f => n / numFolds + if f < n % numFolds then 1 else 0) (shuffle n)).map
    fun chunk => ((List.range n).filter (fun i => !decide (i ∈ chunk)), (List.range n).filter (fun i => decide (i ∈ chunk))))

/-- The loop in the function `__cross_validation`, split:477-492, starting at a certain fold. -/
def crossValidationFrom (data : List E) (numFolds : Nat) (cur : Int) :
    Nat → List (List Nat × List Nat) → Except Error (List (Split × List E × List E))
  | _, [] => .ok []
  | fold, indices :: rest =>
    if cur < 0 ∨ (fold : Int) = cur then do
      let trainSet ← gather data indices.1
      let testSet ← gather data indices.2
      let rest ← crossValidationFrom data numFolds cur (fold + 1) rest
      return (.fold numFolds fold cur, trainSet, testSet) :: rest
    else crossValidationFrom data numFolds cur (fold + 1) rest

/-- `CrossValidationSplitter._split_data`, split:377-492. -/
def crossValidation (files : Files E) (name : Str) (shuffle : Nat → List Nat) (numFolds : Nat) (cur : Int) :
    Except Error (List (Split × List E × List E)) := do
  let names := (List.range numFolds).map fun fold => fileNamePerFold name suffixArff (some fold)
  let predefinedSplit ← checkIfFilesExist files names
  if predefinedSplit then
    let data ← loadAll files names
    match CrossValidation.predefined data numFolds cur with
    | .error e => .error (.fold e)
    | .ok sets => .ok sets
  else
    let data ← load files (fileName name suffixArff)
    let folds ← kFold shuffle numFolds data.length
    crossValidationFrom data numFolds cur 0 folds

end MLRL.DataSplitting
