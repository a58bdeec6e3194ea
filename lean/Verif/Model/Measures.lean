import Verif.Model.PythonOptions
import Mathlib.Data.Rat.Defs

/-!
# Measures to be reported for an evaluation

Source: `/repo/python/subprojects/testbed/mlrl/testbed/evaluation.py` and `format.py`.

Objects of the class `Formatter` are compared by their identity.  As no two of them have the same name, they are identified
with their attributes in the following.  Scores are rational numbers and their textual representation (`format_float`) is a
parameter.  Averages over several folds are modelled in `Verif/Model/CrossValidation.lean` and are omitted here.
-/

namespace MLRL.Measures

open PythonOptions (Str Dict PyError getBool getNumber)

/-- `Formatter`, format.py:112-134.  `function` is true for objects of the subclass `EvaluationFunction`, evaluation.py:91-113. -/
structure Formatter where
  option : Str
  name : Str
  percentage : Bool
  function : Bool
  deriving DecidableEq, Repr

/-- An object of the class `EvaluationFunction`. -/
def func (option name : String) (percentage : Bool) : Formatter :=
  { option := option.toList, name := name.toList, percentage, function := true }

/-- `EVALUATION_MEASURE_TRAINING_TIME`, evaluation.py:127. -/
def trainingTime : Formatter :=
  { option := "training_time".toList, name := "Training Time".toList, percentage := false, function := false }

/-- `EVALUATION_MEASURE_PREDICTION_TIME`, evaluation.py:129. -/
def predictionTime : Formatter :=
  { option := "prediction_time".toList, name := "Prediction Time".toList, percentage := false, function := false }

/-- `MULTI_LABEL_EVALUATION_MEASURES`, evaluation.py:131-151. -/
def multiLabelMeasures : List Formatter :=
  [func "hamming_accuracy" "Hamming Accuracy" true,
    func "hamming_loss" "Hamming Loss" true,
    func "subset_accuracy" "Subset Accuracy" true,
    func "subset_zero_one_loss" "Subset 0/1 Loss" true,
    func "micro_precision" "Micro Precision" true,
    func "micro_recall" "Micro Recall" true,
    func "micro_f1" "Micro F1" true,
    func "micro_jaccard" "Micro Jaccard" true,
    func "macro_precision" "Macro Precision" true,
    func "macro_recall" "Macro Recall" true,
    func "macro_f1" "Macro F1" true,
    func "macro_jaccard" "Macro Jaccard" true,
    func "example_wise_precision" "Example-wise Precision" true,
    func "example_wise_recall" "Example-wise Recall" true,
    func "example_wise_f1" "Example-wise F1" true,
    func "example_wise_jaccard" "Example-wise Jaccard" true,
    trainingTime, predictionTime]

/-- `SINGLE_LABEL_EVALUATION_MEASURES`, evaluation.py:153-162. -/
def singleLabelMeasures : List Formatter :=
  [func "accuracy" "Accuracy" true,
    func "zero_one_loss" "0/1 Loss" true,
    func "precision" "Precision" true,
    func "recall" "Recall" true,
    func "f1" "F1" true,
    func "jaccard" "Jaccard" true,
    trainingTime, predictionTime]

/-- `REGRESSION_EVALUATION_MEASURES`, evaluation.py:164-178.  The constants
`OPTION_MEAN_ABSOLUTE_ERROR` and `OPTION_MEDIAN_ABSOLUTE_ERROR` have the same value, evaluation.py:72 and 76. -/
def regressionMeasures : List Formatter :=
  [func "mean_absolute_error" "Mean Absolute Error" false,
    func "mean_squared_error" "Mean Squared Error" false,
    func "mean_absolute_error" "Median Absolute Error" false,
    func "mean_absolute_percentage_error" "Mean Absolute Percentage Error" false,
    trainingTime, predictionTime]

/-- `RANKING_EVALUATION_MEASURES`, evaluation.py:180-194. -/
def rankingMeasures : List Formatter :=
  [func "rank_loss" "Ranking Loss" false,
    func "coverage_error" "Coverage Error" false,
    func "lrap" "Label Ranking Average Precision" false,
    func "dcg" "Discounted Cumulative Gain" false,
    func "ndcg" "NDCG" true,
    trainingTime, predictionTime]

/-- The lambda function that is passed to `reduce` in `filter_formatters`: all options are parsed, as the operator `|` is used. -/
def anyEnabled (option : Str) (options : List Dict) : Except PyError Bool :=
  options.foldlM (init := false) fun aggr o => do
    let b ← getBool o option true
    .ok (aggr || b)

/-- `filter_formatters`, format.py:151-165. -/
def filterFormatters (options : List Dict) : List Formatter → Except PyError (List Formatter)
  | [] => .ok []
  | f :: fs => do
    let b ← anyEnabled f.option options
    let rest ← filterFormatters options fs
    .ok (if b then f :: rest else rest)

/-- The classes of objects that evaluate predictions. -/
inductive Writer where
  | binary | regression | ranking
  deriving DecidableEq, Repr

/-- `BinaryEvaluationWriter`, `RegressionEvaluationWriter` and `RankingEvaluationWriter`: their constructors and the choice
of measures in `_populate_result`, evaluation.py:414-497.  All lists of measures are filtered by the constructor. -/
def Writer.functions (w : Writer) (options : List Dict) (multiLabel : Bool) : Except PyError (List Formatter) :=
  match w with
  | .binary => do
    let multi ← filterFormatters options multiLabelMeasures
    let single ← filterFormatters options singleLabelMeasures
    .ok (if multiLabel then multi else single)
  | .regression => filterFormatters options regressionMeasures
  | .ranking => do
    let regression ← filterFormatters options regressionMeasures
    let ranking ← filterFormatters options rankingMeasures
    .ok (if multiLabel then ranking ++ regression else regression)

/-- `EvaluationWriter._generate_output_data`, evaluation.py:400-411, and the loop in `_populate_result`: the results for a single
fold, in the order in which they are added to a dictionary. -/
def populate (functions : List Formatter) (score : Formatter → ℚ) : List (Formatter × ℚ) :=
  (trainingTime, score trainingTime) :: (predictionTime, score predictionTime) ::
    (functions.filter (·.function)).map fun f => (f, score f)

/-- `Formatter.format`, format.py:136-148. -/
def Formatter.format {Text : Type} (formatFloat : ℚ → Int → Text) (f : Formatter) (value : ℚ) (percentage : Bool)
    (decimals : Int) : Text :=
  formatFloat (if f.percentage && percentage then value * 100 else value) decimals

/-- `dict[key] = value`. -/
def put {Text : Type} : List (Str × Text) → Str → Text → List (Str × Text)
  | [], key, value => [(key, value)]
  | (k, v) :: rest, key, value => if k = key then (k, value) :: rest else (k, v) :: put rest key value

/-- `EvaluationResult.tabularize`, evaluation.py:314-334, for a single fold. -/
def tabularize {Text : Type} (int : Str → Option Int) (formatFloat : ℚ → Int → Text) (options : Dict)
    (results : List (Formatter × ℚ)) : Except PyError (List (Str × Text)) := do
  let percentage ← getBool options "percentage".toList true
  let decimals ← getNumber int options "decimals".toList 0
  let enableAll ← getBool options "enable_all".toList true
  results.foldlM (init := []) fun columns r => do
    let b ← getBool options r.1.option enableAll
    .ok (if b then put columns r.1.name (r.1.format formatFloat r.2 percentage decimals) else columns)

/-- `EvaluationResult.format`, evaluation.py:292-312, for a single fold.  The rows are sorted by the names of the measures, which
is not modelled. -/
def format {Text : Type} (int : Str → Option Int) (formatFloat : ℚ → Int → Text) (options : Dict)
    (results : List (Formatter × ℚ)) : Except PyError (List (Str × Text)) := do
  let percentage ← getBool options "percentage".toList true
  let decimals ← getNumber int options "decimals".toList 2
  let enableAll ← getBool options "enable_all".toList true
  results.foldlM (init := []) fun rows r => do
    let b ← getBool options r.1.option enableAll
    .ok (if b && r.1 ≠ trainingTime && r.1 ≠ predictionTime then
      rows ++ [(r.1.name, r.1.format formatFloat r.2 percentage decimals)] else rows)

/-- The kinds of sinks. -/
inductive Kind where
  | log | csv
  deriving DecidableEq, Repr

/-- A single evaluation: `OutputWriter.write_output`, output_writer.py:218-262, for several sinks. -/
def report {Text : Type} (int : Str → Option Int) (formatFloat : ℚ → Int → Text) (w : Writer) (sinks : List (Kind × Dict))
    (multiLabel : Bool) (score : Formatter → ℚ) : Except PyError (List (List (Str × Text))) := do
  let functions ← w.functions (sinks.map Prod.snd) multiLabel
  sinks.mapM fun sink => match sink.1 with
    | .log => format int formatFloat sink.2 (populate functions score)
    | .csv => tabularize int formatFloat sink.2 (populate functions score)

end MLRL.Measures
