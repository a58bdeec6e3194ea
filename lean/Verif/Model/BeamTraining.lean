import Verif.Model.Boosting
import Verif.Model.BeamSearch

/-!
# Model of boosting algorithms that use a beam search

Sources: `/repo/cpp/subprojects/common/src/mlrl/common/rule_model_assemblage/rule_model_assemblage_sequential.cpp`,
`/repo/cpp/subprojects/common/src/mlrl/common/rule_induction/rule_induction_top_down_beam_search.cpp`.

The model of beam searches (`Verif/Model/BeamSearch.lean`) takes the place of the greedy search in the model of boosting algorithms
(`Verif/Model/Boosting.lean`).
-/

namespace MLRL.Boosting

open Predictor Induction Refinement RuleEval

/-- What a beam search depends on, in addition to the configuration of a boosting algorithm: the width of the beam, the sorting algorithm, as well as the
features that are sampled and the order in which threads work, given the number of rules, the number of conditions and the position of an entry in the
beam. -/
structure BeamOptions (σ K : Type) where
  width : Nat
  sorts : Beam.Sorts σ Condition (Head K) K
  features : Nat → Nat → Nat → List Nat
  schedule : Nat → Nat → Nat → List (List (Scored (Found Condition (Head K)) K)) → List (Nat × Scored (Found Condition (Head K)) K)

variable {σ K : Type} [Field K] [LinearOrder K]

/-- The parameters of `BeamSearchTopDownRuleInduction`, rule_induction_top_down_beam_search.cpp:270-313. -/
def Config.beam (cfg : Config σ K) (o : BeamOptions σ K) : Beam.BeamConfig := { cfg.grow with width := o.width }

/-- The search for refinements, rule_induction_top_down_beam_search.cpp:177-182 and 325-332. -/
def Config.beamSearch (cfg : Config σ K) (o : BeamOptions σ K) (k : Nat) (cells : List (Update.Cell (List K) (List (Stat K)))) :
    Beam.BeamSearch σ Condition (Head K) K where
  candidates := fun depth position s restricted =>
    candidates cfg.evaluation cfg.numOutputs (cfg.sampledOutputs k) (fun _ => o.features k depth position) cfg.searchFeature cfg.weight cells depth s restricted
  schedule := o.schedule k

/-- `induceRule`, rule_induction_common.hpp:103-143, given the number of rules so far. -/
def Config.beamInduce (cfg : Config σ K) (o : BeamOptions σ K) (fuel k : Nat) (cells : List (Update.Cell (List K) (List (Stat K)))) :
    Run (Option (List (Update.Cell (List K) (List (Stat K))) × Rule Condition K)) :=
  Beam.induceRule cfg.learner o.sorts (cfg.beam o) (cfg.beamSearch o k) (cfg.round k) fuel cells

/-- Training with a beam search. -/
def Config.beamTraining (cfg : Config σ K) (o : BeamOptions σ K) (fuel : Nat) (cells : List (Update.Cell (List K) (List (Stat K)))) :
    Run (Training.State Condition K (List K) (List (Stat K))) :=
  cfg.setup.induceRulesWith (cfg.beamInduce o fuel) fuel cells

end MLRL.Boosting
