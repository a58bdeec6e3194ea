import Verif.Model.AutoConfig

/-!
# What the automatic options of a boosting algorithm are documented to do

(`doc/user_guide/boosting/parameters.md`.)
-/

namespace MLRL.AutoConfig

/-- What a sequence of calls asks for: the arguments of the last calls of each kind. -/
structure Options where
  loss : Loss
  format : Format
  head : Head
  defaultRule : DefaultRule

/-- The last element of `calls` for which `f` is defined. -/
def lastOf (f : Call → Option α) (calls : List Call) : Option α := (calls.filterMap f).getLast?

def lossOf : Call → Option Loss
  | .useLoss l => some l
  | _ => none

def formatOf : Call → Option Format
  | .useFormat f => some f
  | _ => none

def headOf : Call → Option Head
  | .useHead h => some h
  | _ => none

def defaultRuleOf : Call → Option DefaultRule
  | .useDefaultRule d => some d
  | _ => none

/-- Every option has been set, the last calls being those of `o`. -/
structure Asks (calls : List Call) (o : Options) : Prop where
  loss : lastOf lossOf calls = some o.loss
  format : lastOf formatOf calls = some o.format
  head : lastOf headOf calls = some o.head
  defaultRule : lastOf defaultRuleOf calls = some o.defaultRule

/-- A learner for classification problems as configured by a sequence of calls: the statistics that are used and whether
a default rule is learned. -/
def outcome (calls : List Call) (m : OutputMatrix) : Res (Provider × Bool) := do
  let s := configure calls State.init
  let p ← createClassification s m
  let d ← isDefaultRuleUsed s m
  pure (p, d)

/-- The same for regression problems. -/
def regressionOutcome (calls : List Call) (m : OutputMatrix) : Res (Provider × Bool) := do
  let s := configure calls State.init
  let p ← createRegression s m
  let d ← isDefaultRuleUsed s m
  pure (p, d)

/-- Whether heads of the given kind may predict for a subset of the outputs. -/
def Evaluation.isPartial : Evaluation → Bool
  | .complete => false
  | _ => true

/-- The components that learn from a hold-out set if there is one, after their creation. -/
def holdoutSetUsed (c : Prediction) : Prop :=
  c.pruning = .pre true ∨ c.pruning = .post true ∨ createMarginalCalibrator c.loss c.marginal = .isotonic true ∨
    (∃ b, createJointCalibrator c.loss b c.joint = .ok (.isotonic true))

end MLRL.AutoConfig
