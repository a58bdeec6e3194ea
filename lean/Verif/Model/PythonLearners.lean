import Verif.Model.PythonParameterTable

/-!
# Rule learners of the Python API and their command line interface

In the following, `learners` refers to `python/subprojects/boosting/mlrl/boosting/boosting_learners.py`, `seco` to
`python/subprojects/seco/mlrl/seco/seco_learners.py`, `config` to `python/subprojects/common/mlrl/common/config.py` and `runnables` to
`python/subprojects/testbed/mlrl/testbed/runnables.py`.

The values of arguments are given by their textual representation, the conversion of numbers by the argument parser is left out. Arguments are
identified with the attributes of the parsed arguments, e.g. `--max-rules` with `max_rules`. That the argument parser accepts abbreviations is not modelled.
-/

namespace MLRL.PythonLearners

open PythonOptions (Str)
open PythonParameters

/-- Strings are lists of characters. -/
local instance : Coe String Str := ⟨String.toList⟩

/-- `TypeError`, or the program exits, because a command line argument is unknown. -/
inductive Error where
  | type | usage
  deriving DecidableEq, Repr

/-- `NumericalParameter`, config:221-256. -/
structure Numerical where
  name : Str
  mixin : Str
  deriving DecidableEq

/-- `Parameter`, config:63-104. -/
inductive Parameter where
  | nominal (p : Nominal)
  | numerical (p : Numerical)
  deriving DecidableEq

def Parameter.name : Parameter → Str
  | .nominal p => p.name
  | .numerical p => p.name

/-- `len(supported_values) > 0`, config:183,197, or `__is_supported`, config:246-247, respectively. -/
def Parameter.isSupported (config : List Str) : Parameter → Bool
  | .nominal p => decide ((p.supported config).length > 0)
  | .numerical p => decide (p.mixin ∈ config)

/-- The class of a rule learner: the arguments of its constructor and their default values, the attributes that are set to the values of arguments by the
constructor (including those of the base class `RuleLearner`, rule_learners.py:182-194), the parameters it takes into account and the mixins its configuration
inherits from. -/
structure Learner where
  arguments : List (Str × Option Str)
  assignments : List (Str × Str)
  parameters : List Parameter
  config : List Str

/-- The attributes of an object. -/
abbrev Attributes := List (Str × Option Str)

/-- Creating an object. Keyword arguments the constructor does not provide are rejected. -/
def Learner.construct (l : Learner) (kwargs : List (Str × Option Str)) : Except Error Attributes :=
  if ∃ kwarg ∈ kwargs, kwarg.1 ∉ l.arguments.map Prod.fst then .error .type
  else .ok (l.assignments.filterMap fun a =>
    match kwargs.lookup a.2 with
    | some value => some (a.1, value)
    | none => (l.arguments.lookup a.2).map fun default => (a.1, default))

/-- `configure_rule_learner`, config:807-822, called in learners:177-180,307-310 and seco:124-127: the values `_configure` is called with for the individual
parameters, config:180-192,249-251. -/
def configureWith (config : List Str) (attributes : Attributes) : List Parameter → List (Str × Str)
  | [] => []
  | p :: ps =>
    match attributes.lookup p.name with
    | some (some value) => if p.isSupported config then (p.name, value) :: configureWith config attributes ps else configureWith config attributes ps
    | _ => configureWith config attributes ps

def Learner.configure (l : Learner) (attributes : Attributes) : List (Str × Str) := configureWith l.config attributes l.parameters

/-! ## Command line -/

/-- Arguments that are added regardless of the algorithm and are passed to the rule learner, runnables:565-568,1204-1224. -/
def generalArguments : List Str := ["random_state", "feature_format", "output_format", "prediction_format"]

/-- `configure_argument_parser`, config:825-838: arguments are added for parameters that are supported, config:194-218,253-255. If an argument has already been
added, it remains unchanged. -/
def addArguments (config : List Str) : List Parameter → List Str → List Str
  | [], arguments => arguments
  | p :: ps, arguments =>
    if p.isSupported config ∧ p.name ∉ arguments then addArguments config ps (arguments ++ [p.name]) else addArguments config ps arguments

def Learner.cliArguments (l : Learner) : List Str := addArguments l.config l.parameters generalArguments

/-- `vars(parser.parse_args())`: if an argument is given several times, the last value is used. Otherwise, it is `None`. -/
def Learner.parseArgs (l : Learner) (given : List (Str × Str)) : Except Error (List (Str × Option Str)) :=
  if ∃ argument ∈ given, argument.1 ∉ l.cliArguments then .error .usage
  else .ok (l.cliArguments.map fun name => (name, given.reverse.lookup name))

/-- `create_kwargs_from_parameters`, config:841-858. -/
def createKwargs (args : List (Str × Option Str)) (ps : List Parameter) : List (Str × Option Str) :=
  ps.filterMap fun p => (args.lookup p.name).map fun value => (p.name, value)

/-- `__create_kwargs_from_parameters`, runnables:1266-1272. -/
def Learner.createKwargs (l : Learner) (args : List (Str × Option Str)) : List (Str × Option Str) :=
  PythonLearners.createKwargs args l.parameters
    ++ (["feature_format", "output_format", "prediction_format"] : List String).filterMap fun name =>
      (args.lookup name.toList).map fun value => (name.toList, value)

/-- `create_classifier` and `create_regressor`, runnables:1249-1264, followed by `_create_learner`. -/
def Learner.run (l : Learner) (given : List (Str × Str)) : Except Error (List (Str × Str)) := do
  let args ← l.parseArgs given
  let attributes ← l.construct (l.createKwargs args)
  return l.configure attributes

/-! ## Rule learners -/

/-- The parameters with a numerical value in `RULE_LEARNER_PARAMETERS`, config:788-804. -/
def numericalParameters : List Numerical :=
  [⟨"random_state", "use_rng"⟩, ⟨"max_rules", "use_size_stopping_criterion"⟩, ⟨"time_limit", "use_time_stopping_criterion"⟩]

/-- The parameters with a numerical value in `BOOMER_CLASSIFIER_PARAMETERS` and `BOOMER_REGRESSOR_PARAMETERS`,
boosting/mlrl/boosting/config.py:482-513. -/
def boostingNumericalParameters : List Numerical :=
  [⟨"shrinkage", "use_constant_shrinkage_post_processor"⟩, ⟨"l1_regularization_weight", "use_l1_regularization"⟩,
    ⟨"l2_regularization_weight", "use_l2_regularization"⟩]

/-- `BoomerClassifier`, learners:23-53 and 148-175. -/
def boomerClassifier : Learner :=
  { arguments := [
      ("random_state", none), ("feature_format", none), ("output_format", none), ("prediction_format", none), ("statistic_format", none),
      ("default_rule", none), ("rule_induction", none), ("max_rules", none), ("time_limit", none), ("global_pruning", none),
      ("sequential_post_optimization", none), ("head_type", none), ("loss", none), ("marginal_probability_calibration", none),
      ("joint_probability_calibration", none), ("binary_predictor", none), ("probability_predictor", none), ("output_sampling", none),
      ("instance_sampling", none), ("feature_sampling", none), ("holdout", none), ("feature_binning", none), ("label_binning", none),
      ("rule_pruning", none), ("shrinkage", some "0.3"), ("l1_regularization_weight", none), ("l2_regularization_weight", none),
      ("parallel_rule_refinement", none), ("parallel_statistic_update", none), ("parallel_prediction", none)]
    assignments := [
      ("feature_format", "feature_format"), ("output_format", "output_format"), ("prediction_format", "prediction_format"),
      ("random_state", "random_state"), ("statistic_format", "statistic_format"), ("default_rule", "default_rule"),
      ("rule_induction", "rule_induction"), ("max_rules", "max_rules"), ("time_limit", "time_limit"), ("global_pruning", "global_pruning"),
      ("sequential_post_optimization", "sequential_post_optimization"), ("head_type", "head_type"), ("loss", "loss"),
      ("marginal_probability_calibration", "marginal_probability_calibration"),
      ("joint_probability_calibration", "joint_probability_calibration"), ("binary_predictor", "binary_predictor"),
      ("probability_predictor", "probability_predictor"), ("output_sampling", "output_sampling"),
      ("instance_sampling", "instance_sampling"), ("feature_sampling", "feature_sampling"), ("holdout", "holdout"),
      ("feature_binning", "feature_binning"), ("label_binning", "label_binning"), ("rule_pruning", "rule_pruning"),
      ("shrinkage", "shrinkage"), ("l1_regularization_weight", "l1_regularization_weight"),
      ("l2_regularization_weight", "l2_regularization_weight"), ("parallel_rule_refinement", "parallel_rule_refinement"),
      ("parallel_statistic_update", "parallel_statistic_update"), ("parallel_prediction", "parallel_prediction")]
    parameters := boomerClassifierParameters.map .nominal ++ (numericalParameters ++ boostingNumericalParameters).map .numerical
    config := boomerClassifierConfig }

/-- `BoomerRegressor`, learners:189-214 and 283-305. -/
def boomerRegressor : Learner :=
  { arguments := [
      ("random_state", none), ("feature_format", none), ("output_format", none), ("prediction_format", none), ("statistic_format", none),
      ("default_rule", none), ("rule_induction", none), ("max_rules", none), ("time_limit", none), ("global_pruning", none),
      ("sequential_post_optimization", none), ("head_type", none), ("loss", none), ("output_sampling", none), ("instance_sampling", none),
      ("feature_sampling", none), ("holdout", none), ("feature_binning", none), ("rule_pruning", none), ("shrinkage", some "0.3"),
      ("l1_regularization_weight", none), ("l2_regularization_weight", none), ("parallel_rule_refinement", none),
      ("parallel_statistic_update", none), ("parallel_prediction", none)]
    assignments := [
      ("feature_format", "feature_format"), ("output_format", "output_format"), ("prediction_format", "prediction_format"),
      ("random_state", "random_state"), ("statistic_format", "statistic_format"), ("default_rule", "default_rule"),
      ("rule_induction", "rule_induction"), ("max_rules", "max_rules"), ("time_limit", "time_limit"), ("global_pruning", "global_pruning"),
      ("sequential_post_optimization", "sequential_post_optimization"), ("head_type", "head_type"), ("loss", "loss"),
      ("output_sampling", "output_sampling"), ("instance_sampling", "instance_sampling"), ("feature_sampling", "feature_sampling"),
      ("holdout", "holdout"), ("feature_binning", "feature_binning"), ("rule_pruning", "rule_pruning"), ("shrinkage", "shrinkage"),
      ("l1_regularization_weight", "l1_regularization_weight"), ("l2_regularization_weight", "l2_regularization_weight"),
      ("parallel_rule_refinement", "parallel_rule_refinement"), ("parallel_statistic_update", "parallel_statistic_update"),
      ("parallel_prediction", "parallel_prediction")]
    parameters := boomerRegressorParameters.map .nominal ++ (numericalParameters ++ boostingNumericalParameters).map .numerical
    config := boomerRegressorConfig }

/-- `SeCoClassifier`, seco:23-44 and 104-122. -/
def secoClassifier : Learner :=
  { arguments := [
      ("random_state", none), ("feature_format", none), ("output_format", none), ("prediction_format", none), ("rule_induction", none),
      ("max_rules", none), ("time_limit", none), ("sequential_post_optimization", none), ("head_type", none), ("lift_function", none),
      ("heuristic", none), ("pruning_heuristic", none), ("output_sampling", none), ("instance_sampling", none), ("feature_sampling", none),
      ("holdout", none), ("feature_binning", none), ("rule_pruning", none), ("parallel_rule_refinement", none),
      ("parallel_statistic_update", none), ("parallel_prediction", none)]
    assignments := [
      ("feature_format", "feature_format"), ("output_format", "output_format"), ("prediction_format", "prediction_format"),
      ("random_state", "random_state"), ("rule_induction", "rule_induction"), ("max_rules", "max_rules"), ("time_limit", "time_limit"),
      ("sequential_post_optimization", "sequential_post_optimization"), ("head_type", "head_type"), ("lift_function", "lift_function"),
      ("heuristic", "heuristic"), ("pruning_heuristic", "pruning_heuristic"), ("output_sampling", "output_sampling"),
      ("instance_sampling", "instance_sampling"), ("feature_sampling", "feature_sampling"), ("holdout", "holdout"),
      ("feature_binning", "feature_binning"), ("rule_pruning", "rule_pruning"), ("parallel_rule_refinement", "parallel_rule_refinement"),
      ("parallel_statistic_update", "parallel_statistic_update"), ("parallel_prediction", "parallel_prediction")]
    parameters := secoClassifierParameters.map .nominal ++ numericalParameters.map .numerical
    config := seCoClassifierConfig }

end MLRL.PythonLearners
