import Verif.Model.Boosting
import Verif.Model.LabelBinning

/-!
# Model of rule evaluations with label binning as components of boosting algorithms

Sources: `/repo/cpp/subprojects/common/src/mlrl/common/rule_evaluation/score_vector_binned_dense.cpp`,
`/repo/cpp/subprojects/common/include/mlrl/common/iterator/iterator_binned.hpp`,
`/repo/cpp/subprojects/common/src/mlrl/common/rule_refinement/score_processor.cpp`,
`/repo/cpp/subprojects/boosting/src/mlrl/boosting/rule_evaluation/rule_evaluation_decomposable_binned_common.hpp`,
`/repo/cpp/subprojects/boosting/src/mlrl/boosting/rule_evaluation/rule_evaluation_decomposable_partial_fixed_binned.cpp`,
`/repo/cpp/subprojects/boosting/src/mlrl/boosting/rule_evaluation/rule_evaluation_decomposable_partial_dynamic_binned.cpp`.

Simplification: an object is created for each vector of outputs and the arrays that are members of this object (`Arrays`) have the same content whenever scores
are calculated. In the code, they keep the content of the previous calculation. The results do not depend on it (C62).
-/

namespace MLRL.BinnedTraining

open LabelBinning RuleEval

/-- The scores that are copied from a `DenseBinnedScoreVector` (score_vector_binned_dense.cpp:28-40 and 108-110) to a head by `copyView`
(score_processor.cpp:17 and 39, prediction_complete.cpp:49-51, prediction_partial.cpp:95-97). Each of them is accessed via `BinnedIterator::operator[]`,
iterator_binned.hpp:66-69. -/
def binnedValues (a : Arrays) (numElements : Nat) : Res (List Rat) :=
  (List.range numElements).mapM (fun i => do
    let bin ← readAt a.binIndices i
    readAt a.binValues bin)

/-- `DecomposableCompleteBinnedRuleEvaluation`, rule_evaluation_decomposable_binned_common.hpp:165-208. The number of bins, which determines the sizes of the
arrays, is computed in the constructor (lines 108-116). Vectors of outputs have fewer than `2 ^ 32` elements, because their number is a 32-bit integer. -/
def completeEvaluation (cfg : LabelBinning.Config) (l1 l2 : Rat) (arrays : List Nat → Arrays) : Boosting.Evaluation Rat :=
  ⟨true, fun _ outputs stats => if 2 ^ 32 ≤ outputs.length then .error .outOfBounds else do
    let r ← completeBinned cfg (cfg.getMaxBins outputs.length) l1 l2 stats (arrays outputs)
    let values ← binnedValues r.1 outputs.length
    return ⟨outputs, values, r.2⟩⟩

/-- `DecomposableFixedPartialBinnedRuleEvaluationFactory`, rule_evaluation_decomposable_partial_fixed_binned.cpp:74-121. If all outputs are given, objects of the class
in lines 17-71 are used, whose index vectors have `numPredictions` elements. If some outputs are given, all of them are predicted. -/
def fixedEvaluation (cfg : LabelBinning.Config) (partialSort : Nat → List (Nat × Rat) → List (Nat × Rat)) (l1 l2 : Rat) (numPredictions : List Nat → Nat)
    (arrays arrays' : List Nat → Arrays) : Boosting.Evaluation Rat :=
  ⟨false, fun all outputs stats => if !all then (completeEvaluation cfg l1 l2 arrays').calculateScores false outputs stats else do
    let r ← fixedBinned cfg (cfg.getMaxBins (numPredictions outputs)) partialSort l1 l2 outputs (numPredictions outputs) stats (arrays outputs)
    let values ← binnedValues r.2.1 (numPredictions outputs)
    return ⟨r.1, values, r.2.2⟩⟩

/-- `DecomposableDynamicPartialBinnedRuleEvaluationFactory`, rule_evaluation_decomposable_partial_dynamic_binned.cpp:91-137. If all outputs are given, objects of the
class in lines 19-86 are used; when an object is created, the index vector has as many elements as there are outputs. If some outputs are given, all of them
are predicted. -/
def dynamicEvaluation (cfg : LabelBinning.Config) (pow : Rat → Rat) (threshold l1 l2 : Rat) (arrays : List Nat → Arrays) : Boosting.Evaluation Rat :=
  ⟨false, fun all outputs stats => if !all then (completeEvaluation cfg l1 l2 arrays).calculateScores false outputs stats else do
    let r ← dynamicBinned cfg (cfg.getMaxBins outputs.length) pow threshold l1 l2 outputs stats (arrays outputs)
    let values ← binnedValues r.2.1 r.1.length
    return ⟨r.1, values, r.2.2⟩⟩

end MLRL.BinnedTraining
