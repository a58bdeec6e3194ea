import Verif.Model.PythonOptions
import Verif.Model.ResultFiles
import Mathlib.Algebra.Order.Field.Basic

/-!
# The command line option for splitting data sets, and clearing the output directory

In the following, `runnables` refers to `python/subprojects/testbed/mlrl/testbed/runnables.py`. The functions `int` and `float` are parameters.
-/

namespace MLRL.DataSplitOption

open PythonOptions (Str Dict PyError getNumber parseParamAndOptions)
open ResultFiles (Target writeAll)

/-- The objects of type `DataSplitter` that may be created, with the arguments of their constructors. -/
inductive Splitter (F : Type) where
  | none
  | trainTest (testSize : F) (randomState : Int)
  | crossValidation (numFolds currentFold randomState : Int)
  deriving DecidableEq

/-- `DATA_SPLIT_VALUES`, runnables:388-392. -/
def dataSplitValues : List (Str × List Str) :=
  [("none".toList, []), ("train-test".toList, ["test_size".toList]),
    ("cross-validation".toList, ["num_folds".toList, "current_fold".toList])]

/-- `assert_greater_or_equal` etc., validation.py: a `ValueError` is raised if a condition is not met. -/
def require (condition : Prop) [Decidable condition] : Except PyError Unit := if condition then .ok () else .error .valueError

/-- `int(args.random_state) if args.random_state else 1`, runnables:524,534, where `none` is `None`. -/
def seed : Option Int → Int
  | none => 1
  | some i => if i = 0 then 1 else i

variable {F : Type}

/-- `__create_data_splitter`, runnables:511-538. -/
def createDataSplitter [Field F] [LinearOrder F] (space : Char → Bool) (int : Str → Option Int) (float : Str → Option F) (dataSplit : Str)
    (randomState : Option Int) : Except PyError (Splitter F) := do
  let (value, options) ← parseParamAndOptions space dataSplit dataSplitValues
  if value = "cross-validation".toList then
    let numFolds ← getNumber int options "num_folds".toList 10
    require (2 ≤ numFolds)
    let currentFold ← getNumber int options "current_fold".toList 0
    if currentFold ≠ 0 then
      require (1 ≤ currentFold)
      require (currentFold ≤ numFolds)
    let randomState := seed randomState
    require (1 ≤ randomState)
    return .crossValidation numFolds (currentFold - 1) randomState
  else if value = "train-test".toList then
    let testSize ← getNumber float options "test_size".toList (33 / 100)
    require (0 < testSize)
    require (testSize < 1)
    let randomState := seed randomState
    require (1 ≤ randomState)
    return .trainTest testSize randomState
  else return .none

/-- The attribute `current_fold` in `__create_pre_execution_hook`, runnables:542. -/
def Splitter.currentFold : Splitter F → Int
  | .crossValidation _ currentFold _ => currentFold
  | _ => -1

/-- `__create_pre_execution_hook`, runnables:540-544, given that there is an output directory: whether its files are deleted. -/
def Splitter.clears (s : Splitter F) : Bool := !decide (s.currentFold ≥ 0)

/-- The contents of the files in the output directory after an experiment: the hook is executed first (experiments.py:300-304, io.py:140-150). -/
def runExperiment {C : Type} (s : Splitter F) (results : List (Target × C)) (files : Str → Option C) : Str → Option C :=
  writeAll (if s.clears then fun _ => none else files) results

/-- Several experiments that use the same output directory. -/
def runExperiments {C : Type} : List (Splitter F × List (Target × C)) → (Str → Option C) → Str → Option C
  | [], files => files
  | e :: es, files => runExperiments es (runExperiment e.1 e.2 files)

end MLRL.DataSplitOption
