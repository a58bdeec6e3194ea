import Verif.Model.PythonOptions

/-!
# Model of how a rule learning algorithm is configured in terms of the values of its parameters

Source: `/repo/python/subprojects/common/mlrl/common/config.py`. The individual parameters are given in `Verif/Model/PythonParameterTable.lean`.

The configuration that is returned by a method `use_...` and allows to set further properties is given by the values of its properties.
-/

namespace MLRL.PythonParameters

open PythonOptions

/-- The type of an option, i.e., whether `get_bool`, `get_int`, `get_float` or `get_string` is used to retrieve it. The latter is only used for the option
`aggregation`. -/
inductive OptionType where
  | bool
  | int
  | float
  | aggregation
  deriving DecidableEq

/-- The value of a property. -/
inductive Val (F : Type) where
  | bool (b : Bool)
  | int (i : Int)
  | float (x : F)
  | str (s : Str)
  deriving DecidableEq

/-- The properties of a configuration. -/
abbrev Properties (F : Type) := Str → Val F

/-- A statement like `conf.set_property(options.get_type(key, conf.get_default()))`. -/
structure Step where
  property : Str
  default : Str
  type : OptionType
  key : Str
  deriving DecidableEq

/-- A branch of the function `_configure`: the value it is taken for (or `none`, if it is the last one and without a condition), the method it calls, and the
properties it sets. -/
structure Branch where
  value : Option Str
  method : Str
  steps : List Step
  deriving DecidableEq

/-- `NominalParameter.Value`, config.py:113-135. -/
structure Value where
  name : Str
  mixin : Str
  options : Option (List Str)
  deriving DecidableEq

/-- `NominalParameter`, config.py:107-218. The values are in the order in which they have been added. -/
structure Nominal where
  name : Str
  values : List Value
  branches : List Branch
  deriving DecidableEq

/-- The union `a | b` of two sets. Two parameters are equal if they have the same name, config.py:100-104. An element of the second set is not added, if the
result already contains an element that is equal. The order of the elements is not specified. -/
def union (a b : List Nominal) : List Nominal := a ++ b.filter (fun p => p.name ∉ a.map Nominal.name)

/-- The functions that are not modelled in detail: which characters are spaces, the functions `int` and `float`, the initial values of the properties and the
setters of the configurations that are returned by the methods. -/
structure Env (F : Type) where
  space : Char → Bool
  int : Str → Option Int
  float : Str → Option F
  initial : Str → Properties F
  set : Str → Str → Val F → Properties F → Except PyError (Properties F)

variable {F : Type}

/-- Retrieves the value of an option; for the option `aggregation`, see config.py:574-584 and 601-604. -/
def getOption (env : Env F) (dict : Dict) (step : Step) (props : Properties F) : Except PyError (Val F) :=
  match dict.lookup step.key with
  | none => .ok (props step.default)
  | some text =>
    match step.type with
    | .bool => (parseBool text).map Val.bool
    | .int =>
      match env.int text with
      | some i => .ok (.int i)
      | none => .error .valueError
    | .float =>
      match env.float text with
      | some x => .ok (.float x)
      | none => .error .valueError
    | .aggregation => (parseParam text ["min".toList, "max".toList, "avg".toList]).map Val.str

/-- Several statements that set properties. If there are no options, i.e., if they are `None`, an `AttributeError` is raised. -/
def runSteps (env : Env F) (method : Str) (options : Option Dict) : List Step → Properties F → Except PyError (Properties F)
  | [], props => .ok props
  | step :: steps, props =>
    match options with
    | none => .error .attributeError
    | some dict =>
      match getOption env dict step props with
      | .error e => .error e
      | .ok v =>
        match env.set method step.property v props with
        | .error e => .error e
        | .ok props' => runSteps env method options steps props'

/-- The result of configuring a parameter: either the configuration has not been changed or a method has been called and the given properties have been set. -/
inductive Outcome (F : Type) where
  | unchanged
  | used (method : Str) (props : Properties F)

/-- `_configure`: the first branch that applies is taken. An `AttributeError` is raised if the configuration does not provide the method. -/
def applyBranches (env : Env F) (config : List Str) (value : Str) (options : Option Dict) : List Branch → Except PyError (Outcome F)
  | [] => .ok .unchanged
  | b :: bs =>
    if b.value = none ∨ b.value = some value then
      if b.method ∈ config then (runSteps env b.method options b.steps (env.initial b.method)).map (Outcome.used b.method)
      else .error .attributeError
    else applyBranches env config value options bs

/-- `set() if options is None else options`, config.py:173. -/
def Value.optionSet (v : Value) : List Str :=
  match v.options with
  | none => []
  | some options => options

/-- The values in `NominalParameter.__get_supported_values`, config.py:165-178. A configuration is given by the mixins it inherits from. -/
def Nominal.supported (p : Nominal) (config : List Str) : List Value := p.values.filter (fun v => v.mixin ∈ config)

/-- `NominalParameter.configure`, config.py:180-192. -/
def Nominal.configure (env : Env F) (p : Nominal) (config : List Str) (text : Str) : Except PyError (Outcome F) :=
  if (p.supported config).length > 0 then
    if ((p.supported config).map (fun v => v.optionSet.length)).sum = 0 then
      match parseParam text ((p.supported config).map Value.name) with
      | .error e => .error e
      | .ok value => applyBranches env config value none p.branches
    else
      match parseParamAndOptions env.space text ((p.supported config).map (fun v => (v.name, v.optionSet))) with
      | .error e => .error e
      | .ok (value, options) => applyBranches env config value (some options) p.branches
  else .ok .unchanged

/-- `configure_rule_learner`, config.py:807-823. The parameters are processed in the order in which the elements of the set are enumerated; `none` corresponds to
attributes that are not present or `None`. -/
def configureAll (env : Env F) (config : List Str) (learner : Str → Option Str) : List Nominal → Except PyError (List (Str × Outcome F))
  | [] => .ok []
  | p :: ps =>
    match learner p.name with
    | none => configureAll env config learner ps
    | some text =>
      match p.configure env config text with
      | .error e => .error e
      | .ok outcome => (configureAll env config learner ps).map ((p.name, outcome) :: ·)

end MLRL.PythonParameters
