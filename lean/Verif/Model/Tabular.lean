import Verif.Model.Boosting
import Verif.Model.FeatureSpace
import Verif.Model.Search
import Verif.Model.Predictor
import Verif.Spec.Body
import Mathlib.Algebra.Group.PUnit
import Mathlib.Algebra.Group.Pi.Basic
import Mathlib.Algebra.Group.Prod
import Mathlib.Algebra.Field.Defs

/-!
# Model of the search for refinements in the subspaces of a tabular feature space

Sources: `/repo/cpp/subprojects/common/src/mlrl/common/rule_refinement/feature_space_tabular.cpp`,
`/repo/cpp/subprojects/common/src/mlrl/common/rule_refinement/rule_refinement_statistics_based.cpp`,
`/repo/cpp/subprojects/common/src/mlrl/common/input/feature_based_search.hpp`.

The models of feature subspaces (`Verif.Model.FeatureSpace`), of the searches (`Verif.Model.Search`) and of boosting algorithms
(`Verif.Model.Boosting`) are put together. Simplifications:

* The sum of the statistics of all covered examples is calculated from the mask, whereas the code keeps it up to date whenever a condition is
  added. That the sum that is maintained by the code is the same is shown separately (C59).
* The vectors that are filtered by a search according to the current mask are not stored. Instead, they are filtered again when a condition is
  added. The result is the same because the mask does not change in between.
-/

namespace MLRL.Tabular

open FeatureSpace

/-- What is fixed for a feature space: the original vector of each feature, the number of examples and of examples with non-zero weight, the
comparison of floats, the examples with non-zero weight (`hasNonZeroWeight`) and the minimum number of examples that must be covered. -/
structure Env where
  space : FeatureSpace.Env Unit
  nonZero : Nat → Bool
  minCoverage : Nat

/-- Is an example covered by a subspace? The mask that is returned by `getCoverageMask`, feature_space_tabular.cpp:240-242, tells so for examples
that exist. -/
def covers (s : Subspace Unit) (e : Nat) : Bool :=
  match s.mask.isCovered e with
  | .ok b => b
  | .error _ => false

section
variable {M : Type} [AddCommGroup M]

/-- The sum of the statistics a search starts with, feature_based_search.hpp:34-46: examples with missing values are excluded. -/
def searchTotal (env : Env) (s : Subspace Unit) (v : FeatureVector) (stat : Nat → M) : M :=
  (((List.range env.space.numExamples).filter (covers s)).map stat).sum - (v.missing.map stat).sum

/-- What is fixed during a search. -/
def searchConfig (env : Env) (s : Subspace Unit) (stat : Nat → M) : Search.Config M where
  nonZero := env.nonZero
  stat := stat
  isEqual := env.space.isEqual
  numExamples := s.numCovered
  minCoverage := env.minCoverage

/-- `searchForRefinement` of the different types of feature vectors: feature_vector_equal.cpp:3-11, feature_vector_decorator_numerical.hpp:78-90,
feature_vector_decorator_nominal.hpp:97-109, feature_vector_decorator_ordinal.hpp:48-60, feature_vector_decorator_binary.hpp:35-47. -/
def searchVector (cfg : Search.Config M) (subset : Search.Subset M) : FeatureVector → Res (List (Search.Candidate M))
  | .equal => .ok []
  | .numerical entries sv sparse _ => (Search.searchNumerical cfg entries sv sparse subset).map Search.NumResult.all
  | .nominal .nominal bins mv _ => Search.searchNominal cfg bins mv subset
  | .nominal .ordinal bins mv _ => (Search.searchOrdinal cfg bins mv subset).map Search.OrdResult.all
  | .nominal .binary bins mv _ => Search.searchBinary cfg bins mv subset

/-- The search by a feature, rule_refinement_statistics_based.cpp:16-24,52-59: the feature vector is provided by the callback of the subspace and
searched for refinements. -/
def searchFeature (env : Env) (f : Nat) (s : Subspace Unit) (stat : Nat → M) : Res (List (Search.Candidate M)) := do
  let (v, _) ← s.invoke env.space f
  searchVector (searchConfig env s stat) ⟨0, none, searchTotal env s v stat⟩ v

end

/-- A condition is added to a subspace, `filterSubspace`, feature_space_tabular.cpp:201-227, after the feature has been searched. -/
def addCondition (env : Env) (s : Subspace Unit) (c : Boosting.Condition) : Res (Subspace Unit) := do
  let (_, s') ← s.invoke env.space c.feature
  s'.filter env.space c.feature c.interval c.numCovered

/-- The operations of subspaces. -/
def subspaces (env : Env) : Induction.SubspaceOps (Subspace Unit) Boosting.Condition where
  create := .create env.space
  covers := covers
  reset := fun s => s.reset env.space
  filter := addCondition env
  copy := Subspace.copy

/-- The comparators of both models are the same. -/
def toComparator : Search.Comparator → Comparator
  | .numericalLeq => .numericalLeq
  | .numericalGr => .numericalGr
  | .ordinalLeq => .ordinalLeq
  | .ordinalGr => .ordinalGr
  | .nominalEq => .nominalEq
  | .nominalNeq => .nominalNeq

/-- The threshold is a float if it has been set by the search for numerical refinements, feature_based_search_numerical.hpp:71, and an integer
otherwise, e.g., feature_based_search_nominal.hpp:36. The model of the searches does not distinguish between both. -/
def toThreshold (k : Search.Comparator) (t : Rat) : Threshold :=
  match k with
  | .numericalLeq => .float t
  | .numericalGr => .float t
  | _ => .int t.num

/-- A condition, as it is added to a condition list. -/
def toCondition (c : Boosting.Condition) : Condition := ⟨c.feature, toComparator c.comparator, toThreshold c.comparator c.threshold⟩

/-- The body of a rule. The conditions have been added to a condition list by `addCondition`, rule_induction_top_down_greedy.cpp:93. The body is
created by `createConjunctiveBody`, boosting rule_list_builder.cpp:31. The default rule, which is the only one without conditions, has an empty body,
rule_list.cpp:119. -/
def createBody (conds : List Boosting.Condition) : Res Body :=
  if conds = [] then .ok .empty
  else do
    let l ← ConditionList.applyCalls (conds.map (fun c => .add (toCondition c))) .init
    l.createConjunctiveBody

/-- A rule of a model. -/
def createRule {K : Type} (rule : Induction.Rule Boosting.Condition K) : Res (Predictor.Rule K) := do
  let body ← createBody rule.conditions
  return ⟨body, rule.head⟩

end MLRL.Tabular
