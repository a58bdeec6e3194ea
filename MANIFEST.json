{
 "claims": [
  {
   "property": "C01",
   "status": "proved",
   "theorems": [
    "MLRL.RingBuffer.keeps_most_recent"
   ],
   "note": "Capacity >= 1 as documented; for capacity 0 the first push is out of bounds (MLRL.RingBuffer.push_zero_capacity)."
  },
  {
   "property": "C02",
   "status": "partial",
   "theorems": [
    "MLRL.Stopping.prePruning_history",
    "MLRL.Stopping.prePruning_minRules",
    "MLRL.Stopping.prePruningFactory_uninitialised",
    "MLRL.Stopping.perfect_window_never_fires"
   ],
   "note": "Proved for criteria whose flag removeUnusedRules is initialised. The factory in the code never initialises it, so the part 'stops iff unused rules should be removed' is false of the code as it is used (prePruningFactory_uninitialised). Assumes stopInterval >= 1, which the setter does not enforce."
  },
  {
   "property": "C03",
   "status": "proved",
   "theorems": [
    "MLRL.Stopping.postPruning_selects_best"
   ],
   "note": ""
  },
  {
   "property": "C04",
   "status": "proved",
   "theorems": [
    "MLRL.Stopping.listTest_spec",
    "MLRL.Stopping.listTest_ok_iff",
    "MLRL.Stopping.induceRules_used_le",
    "MLRL.Stopping.postPruning_used_le",
    "MLRL.Stopping.prePruning_used_le"
   ],
   "note": ""
  },
  {
   "property": "C05",
   "status": "proved",
   "theorems": [
    "MLRL.Stopping.induceRules_size",
    "MLRL.Training.induceRulesWith_size",
    "MLRL.Training.induceRules_size"
   ],
   "note": "induceRulesWith_size and induceRules_size state the same limit for the complete training procedure."
  },
  {
   "property": "C06",
   "status": "proved",
   "theorems": [
    "MLRL.RuleList.iterate_all",
    "MLRL.RuleList.iterate_used",
    "MLRL.RuleList.iterate_used_too_many"
   ],
   "note": "All call histories; the number of used rules must not exceed the number of rules (witness for the contrary included)."
  },
  {
   "property": "C07",
   "status": "proved",
   "theorems": [
    "MLRL.Body.covers_iff_all_conditions",
    "MLRL.Body.empty_covers",
    "MLRL.Body.missing_value_covered",
    "MLRL.Body.missing_value_cast"
   ],
   "note": "All histories of adding/removing conditions, all rows. Missing values: behaviour of the code proved as is (they satisfy numerical <=; undefined behaviour for ordinal and nominal conditions)."
  },
  {
   "property": "C08",
   "status": "proved",
   "theorems": [
    "MLRL.Predictor.applyRulesSparse_eq_dense",
    "MLRL.Predictor.coversSparse_eq_dense",
    "MLRL.Predictor.applyRulesDense_sum"
   ],
   "note": "All sparse rows with distinct feature indices in range, all lists of rules."
  },
  {
   "property": "C09",
   "status": "partial",
   "theorems": [
    "MLRL.Body.copy_same_body_partial",
    "MLRL.Body.copy_without_nominal_partial",
    "MLRL.Body.copy_neq_out_of_bounds",
    "MLRL.Body.copy_eq_uninitialised"
   ],
   "note": "The property is false: the copy constructor copies a wrong counter. Proved for lists with equal numbers of == and != conditions, plus two witnesses of undefined behaviour."
  },
  {
   "property": "C10",
   "status": "proved",
   "theorems": [
    "MLRL.Predictor.incremental_eq_prefix",
    "MLRL.Predictor.incremental_eq_oneShot"
   ],
   "note": "All rule lists, step sizes and limits; effect of a rule on a row is a parameter. C11 lifts this from one example to all examples in parallel."
  },
  {
   "property": "C11",
   "status": "proved",
   "theorems": [
    "MLRL.Predictor.parallel_prediction",
    "MLRL.Predictor.parallel_prediction_in_place",
    "MLRL.Predictor.no_scratch_row_without_multi_threading"
   ],
   "note": "All assignments of examples to threads and all interleavings of row-level steps. Without multi-threading support the scratch row does not exist (witness)."
  },
  {
   "property": "C12",
   "status": "proved",
   "theorems": [
    "MLRL.Sampling.withoutReplacement_distinct",
    "MLRL.Sampling.withoutReplacement_terminates",
    "MLRL.Sampling.drawn_all",
    "MLRL.Sampling.sampleFeatures_spec",
    "MLRL.Sampling.sampleOutputs_spec",
    "MLRL.Sampling.numFeatureSamples_le",
    "MLRL.Sampling.numFeatureSamples_one",
    "MLRL.Sampling.numFeatureSamples_zero"
   ],
   "note": "Termination is proved for streams that eventually produce each number (true for the generator, see C15). numFeatureSamples_one/_zero: the default number of sampled features is undefined behaviour with one remaining feature and exceeds the number of features with none."
  },
  {
   "property": "C13",
   "status": "proved",
   "theorems": [
    "MLRL.Sampling.weightsWithoutReplacement_spec",
    "MLRL.Sampling.weightsWithoutReplacement_terminates",
    "MLRL.Sampling.weightsNoSampling_spec",
    "MLRL.Sampling.weightsWithReplacement_spec",
    "MLRL.Stratification.sampleWeights_spec",
    "MLRL.Stratification.sampleWeights_ignores_bounds",
    "MLRL.Stratification.sampleWeights_uninitialised"
   ],
   "note": "Stratified sampling does not enforce the configured minimum and maximum number of samples; without a holdout set it sets bits of uninitialised memory."
  },
  {
   "property": "C14",
   "status": "proved",
   "theorems": [
    "MLRL.BiPartition.randomPartition_spec",
    "MLRL.BiPartition.sizes_spec",
    "MLRL.Stratification.strata_spec",
    "MLRL.Stratification.sampleBiPartition_spec",
    "MLRL.Stratification.stratifiedPartition_spec",
    "MLRL.Stratification.sampleBiPartition_empty_stratum"
   ],
   "note": ""
  },
  {
   "property": "C15",
   "status": "proved",
   "theorems": [
    "MLRL.XorShift.next_ne_zero",
    "MLRL.XorShift.randomInt_range",
    "MLRL.XorShift.randomInt_empty_range",
    "MLRL.XorShift.draws_spec",
    "MLRL.XorShift.full_period",
    "MLRL.XorShift.no_repetition",
    "MLRL.XorShift.every_number_drawn"
   ],
   "note": "Concrete xorshift generator; full period 2^32-1 proved by linear algebra over bits."
  },
  {
   "property": "C16",
   "status": "proved",
   "theorems": [
    "MLRL.Sampling.roundRobin_sequence",
    "MLRL.Sampling.roundRobin_fair"
   ],
   "note": ""
  },
  {
   "property": "C17",
   "status": "proved",
   "theorems": [
    "MLRL.Sampling.boundedFraction_ge",
    "MLRL.Sampling.boundedFraction_le_maximum",
    "MLRL.Sampling.boundedFraction_le_total",
    "MLRL.Sampling.boundedFraction_eq",
    "MLRL.Sampling.boundedFraction_mono",
    "MLRL.Sampling.boundedFraction_ignores_maximum"
   ],
   "note": "boundedFraction_ignores_maximum: if the maximum is less than the minimum, which the setters permit, the maximum is ignored."
  },
  {
   "property": "C18",
   "status": "proved",
   "theorems": [
    "MLRL.SparseSet.sparseSet_refines_map",
    "MLRL.SparseSet.addToRow_removeFromRow"
   ],
   "note": "All sequences of row operations."
  },
  {
   "property": "C19",
   "status": "proved",
   "theorems": [
    "MLRL.BitVector.bitVector_refines_array",
    "MLRL.BitVector.uninitialised_bitVector"
   ],
   "note": "All sequences of operations; reading a vector that has not been initialised is a fault."
  },
  {
   "property": "C20",
   "status": "proved",
   "theorems": [
    "MLRL.Iterators.sparseForward_spec",
    "MLRL.Iterators.binarySparseForward_spec",
    "MLRL.Iterators.binary_eq_sparse",
    "MLRL.Iterators.nonZeroIndex_spec",
    "MLRL.Iterators.sparseForward_unsorted",
    "MLRL.Iterators.indexIterator_decrement_wrong",
    "MLRL.Iterators.indexIterator_random_access_wrong"
   ],
   "note": "Unsorted input gives wrong values; the decrement and random access of IndexIterator are wrong."
  },
  {
   "property": "C21",
   "status": "proved",
   "theorems": [
    "MLRL.FeatureSpace.mask_iff_satisfied",
    "MLRL.FeatureSpace.mask_after_reset",
    "MLRL.FeatureSpace.filter_succeeds"
   ],
   "note": "for numerical, nominal, ordinal and binary vectors with missing values; the intervals of conditions are assumed to describe the conditions (hypothesis Describes), which is what the search theorems C27-C29 are about"
  },
  {
   "property": "C22",
   "status": "proved",
   "theorems": [
    "MLRL.Update.exec_exact",
    "MLRL.Update.executes_sum",
    "MLRL.Update.executes_exists",
    "MLRL.Update.revert_cancels",
    "MLRL.Update.dense_laws",
    "MLRL.Update.sparse_laws"
   ],
   "note": "Any number of calls to applyPrediction/revertPrediction under any schedule; complete and partial heads; dense and sparse rows of scores. A complete head shorter than a row faults (complete_too_short)."
  },
  {
   "property": "C23",
   "status": "partial",
   "theorems": [
    "MLRL.Induction.induceRule_effect",
    "MLRL.Induction.train_scores_partial",
    "MLRL.Induction.train_predictor_partial",
    "MLRL.Induction.pruning_updates_wrong_examples"
   ],
   "note": "Holds without pruning for any number of rounds, also in terms of the predictor. False if rules are pruned: the prediction is applied to the examples that satisfy all conditions found but the last one (induceRule_effect), witness pruning_updates_wrong_examples."
  },
  {
   "property": "C24",
   "status": "proved",
   "theorems": [
    "MLRL.Refinement.findRefinement_schedule_independent",
    "MLRL.Refinement.findRefinement_first_best"
   ],
   "note": "Model of the search loop over features for an arbitrary comparator and an arbitrary interleaving of the threads; qualities are ordered by any strict weak order."
  },
  {
   "property": "C25",
   "status": "partial",
   "theorems": [
    "MLRL.Refinement.fixed_holds_best_partial",
    "MLRL.Refinement.fixed_full_holds_k_best",
    "MLRL.Refinement.fixed_merge_best",
    "MLRL.Refinement.fixed_find_partial",
    "MLRL.Refinement.fixed_holds_too_few",
    "MLRL.Refinement.fixed_merge_drops_better",
    "MLRL.Refinement.fixed_merge_prefers_later",
    "MLRL.Refinement.fixed_zero_faults"
   ],
   "note": "The full claim is false (fixed_holds_too_few, fixed_merge_drops_better); what holds of it is proved."
  },
  {
   "property": "C26",
   "status": "proved",
   "theorems": [
    "MLRL.Induction.growRule_greedy",
    "MLRL.Induction.greedy_improves",
    "MLRL.Induction.greedy_limits",
    "MLRL.Induction.greedy_candidates",
    "MLRL.Induction.growRule_none",
    "MLRL.Induction.growRule_terminates",
    "MLRL.Induction.growRule_terminates_limited",
    "MLRL.Induction.growRule_terminates_shrinking"
   ],
   "note": ""
  },
  {
   "property": "C27",
   "status": "partial",
   "theorems": [
    "MLRL.Search.numerical_succeeds_iff",
    "MLRL.Search.numerical_sound_partial",
    "MLRL.Search.numerical_all_sound_partial",
    "MLRL.Search.sound_describes",
    "MLRL.Search.numerical_dense_border_omitted",
    "MLRL.Search.numerical_dense_unsound",
    "MLRL.Search.numerical_sparse_unsound",
    "MLRL.Search.numerical_sparse_negative_unsound",
    "MLRL.Search.missing_values_overcounted",
    "MLRL.Search.numerical_sparse_border_unsound",
    "MLRL.Search.numerical_sparse_negative_border_unsound"
   ],
   "note": "False as stated. Proved for all sorted vectors, weights and statistics: the candidates of the forward and backward scan and (sparse vectors) the accumulated ones are sound. The candidates at the border next to the sparse value are not: the backward loop never visits the element at its lower end. Negations with witnesses; full soundness if only that element has non-zero weight among the values >= sparse value."
  },
  {
   "property": "C28",
   "status": "proved",
   "theorems": [
    "MLRL.Search.nominal_sound",
    "MLRL.Search.binary_sound",
    "MLRL.Search.sound_describes",
    "MLRL.Search.nominal_no_bins_faults",
    "MLRL.Search.missing_values_overcounted"
   ],
   "note": "For vectors with at least one bin and distinct values. The reported number of covered examples is wrong if there are missing values, because numExamples includes them (negation)."
  },
  {
   "property": "C29",
   "status": "partial",
   "theorems": [
    "MLRL.Search.ordinal_sound_partial",
    "MLRL.Search.sound_describes",
    "MLRL.Search.ordinal_first_unsound",
    "MLRL.Search.ordinal_last_unsound"
   ],
   "note": "False if all examples with the smallest (largest) value have zero weight (negations); proved otherwise."
  },
  {
   "property": "C30",
   "status": "partial",
   "theorems": [
    "MLRL.Statistics.dense_subset_sound",
    "MLRL.Statistics.sparse_subset_sound",
    "MLRL.Statistics.nonDecomposable_subset_sound_partial",
    "MLRL.Statistics.dense_totalSum",
    "MLRL.Statistics.sparse_totalSum",
    "MLRL.Statistics.nonDecomposable_totalSum",
    "MLRL.Statistics.nonDecomposable_unsorted_wrong"
   ],
   "note": "Proved for dense and sparse decomposable statistics and any index vector; for non-decomposable statistics only for increasing indices, and false otherwise (nonDecomposable_unsorted_wrong). Statistics of the separate-and-conquer module: see C49."
  },
  {
   "property": "C31",
   "status": "proved",
   "theorems": [
    "MLRL.Statistics.sparse_refines_dense",
    "MLRL.Statistics.sparse_refines_dense_total",
    "MLRL.Statistics.sparse_read"
   ],
   "note": ""
  },
  {
   "property": "C32",
   "status": "partial",
   "theorems": [
    "MLRL.RuleEval.quality_is_objective",
    "MLRL.RuleEval.softThreshold_minimises",
    "MLRL.RuleEval.score_minimises_partial",
    "MLRL.RuleEval.score_degenerate",
    "MLRL.RuleEval.l1_never_minimal",
    "MLRL.RuleEval.l1_quality",
    "MLRL.RuleEval.l1_quality_positive",
    "MLRL.RuleEval.complete_minimises_partial"
   ],
   "note": "Holds for L1 weight 0; with L1 regularisation the sign of the correction is wrong and the score is never a minimiser (proved)."
  },
  {
   "property": "C33",
   "status": "partial",
   "theorems": [
    "MLRL.Loss.logistic_derivatives",
    "MLRL.Loss.squaredError_derivatives",
    "MLRL.Loss.squaredHinge_derivatives_partial",
    "MLRL.Loss.squaredHinge_flat",
    "MLRL.Loss.ndLogisticMax2_spec",
    "MLRL.Loss.ndLogistic_derivatives",
    "MLRL.Loss.ndLogisticDecomposable_derivatives",
    "MLRL.Loss.ndLogisticEvaluate_eq",
    "MLRL.Loss.ndSquaredError_derivatives_partial",
    "MLRL.Loss.ndSquaredError_derivatives",
    "MLRL.Loss.ndSquaredErrorDecomposable_derivatives",
    "MLRL.Loss.ndSquaredErrorEvaluate_eq",
    "MLRL.Loss.ndSquaredError_regression_gradient",
    "MLRL.Loss.ndSquaredError_regression_direction",
    "MLRL.Loss.ndSquaredHinge_derivatives_partial",
    "MLRL.Loss.ndSquaredHingeDecomposable_derivatives_partial",
    "MLRL.Loss.ndSquaredHinge_flat",
    "MLRL.Loss.ndSquaredHingeEvaluate_eq"
   ],
   "note": "Holds for the logistic losses and the squared error losses (classification, or decomposable). Hessians of the hinge losses are one where the loss is flat; the non-decomposable squared error loss is wrong for regression data (negations proved)."
  },
  {
   "property": "C34",
   "status": "partial",
   "theorems": [
    "MLRL.LossUpdate.evaluate_mean",
    "MLRL.LossUpdate.evaluate_sparse_partial",
    "MLRL.LossUpdate.evaluate_sparse_eq_dense_partial",
    "MLRL.LossUpdate.mean_nonneg",
    "MLRL.LossUpdate.losses_nonneg",
    "MLRL.LossUpdate.joint_losses_nonneg",
    "MLRL.LossUpdate.sparse_unsorted",
    "MLRL.Loss.ndSquaredError_regression_evaluate",
    "MLRL.Loss.ndLogisticEvaluate_eq",
    "MLRL.Loss.ndSquaredErrorEvaluate_eq",
    "MLRL.Loss.ndSquaredHingeEvaluate_eq"
   ],
   "note": "The mean, the signs and the zeros are proved for all losses. Sparse evaluation equals dense evaluation if the row of scores is sorted; a reachable unsorted row refutes the general claim (sparse_unsorted), and the non-decomposable squared error loss does not vanish on perfect regression predictions."
  },
  {
   "property": "C35",
   "status": "partial",
   "theorems": [
    "MLRL.LossUpdate.complete_update",
    "MLRL.LossUpdate.complete_update_csr",
    "MLRL.LossUpdate.partial_update",
    "MLRL.LossUpdate.partial_update_csr_partial",
    "MLRL.LossUpdate.partial_update_regression_csr_partial",
    "MLRL.LossUpdate.partial_update_csr_unsorted",
    "MLRL.LossUpdate.partial_update_regression_wrong",
    "MLRL.LossUpdate.partial_update_regression_partial",
    "MLRL.LossUpdate.sparse_partial_update",
    "MLRL.LossUpdate.sparse_partial_update_csr_partial",
    "MLRL.LossUpdate.sparse_complete_update_partial",
    "MLRL.LossUpdate.sparse_unsorted"
   ],
   "note": "Holds for dense labels, and for sparse labels and targets if the indices are sorted. Negations proved: unsorted indices with sparse labels, dense regression targets (indices are ignored), sparse score rows that are not sorted."
  },
  {
   "property": "C36",
   "status": "proved",
   "theorems": [
    "MLRL.Gfm.gfm_optimal",
    "MLRL.Gfm.maximize_optimal",
    "MLRL.Gfm.partialSort_exists"
   ],
   "note": "Optimal among all 2^L label sets, for arbitrary (even unnormalised or negative) joint probabilities; std::partial_sort and std::sort are parameters that meet their specifications. The F1-measure of two empty sets is one."
  },
  {
   "property": "C37",
   "status": "proved",
   "theorems": [
    "MLRL.LabelVectors.exampleWise_closest",
    "MLRL.LabelVectors.exampleWise_empty",
    "MLRL.LabelVectors.exampleWise_reachable",
    "MLRL.LabelVectors.exampleWise_loss",
    "MLRL.LabelVectors.outputWise_dense_eq_sparse"
   ],
   "note": "Holds if at least one label vector is known; otherwise the first element of an empty array is accessed (exampleWise_empty)."
  },
  {
   "property": "C38",
   "status": "proved",
   "theorems": [
    "MLRL.LabelVectors.labelVectorSet_spec",
    "MLRL.LabelVectors.labelVector_dense_eq_sparse"
   ],
   "note": "For arbitrary hash functions. The indices of rows of sparse label matrices must be sorted for dense and sparse matrices to have the same label vectors."
  },
  {
   "property": "C39",
   "status": "proved",
   "theorems": [
    "MLRL.LabelVectors.marginalized_spec",
    "MLRL.LabelVectors.joint_eq",
    "MLRL.LabelVectors.independent_distribution"
   ],
   "note": "For arbitrary joint probability functions; the chain rule is shown to provide probabilities that sum up to one over all label vectors before calibration."
  },
  {
   "property": "C40",
   "status": "partial",
   "theorems": [
    "MLRL.Isotonic.fit_fitted_partial",
    "MLRL.Isotonic.fit_lists_partial",
    "MLRL.Isotonic.eliminate_thresholds",
    "MLRL.Isotonic.eliminate_means_partial",
    "MLRL.Isotonic.aggregate_increasing",
    "MLRL.Isotonic.aggregate_increasing_id",
    "MLRL.Isotonic.calibrate_valid_partial",
    "MLRL.Isotonic.calibrate_monotone_partial",
    "MLRL.Isotonic.calibrate_threshold",
    "MLRL.Isotonic.fit_calibrate_partial",
    "MLRL.Isotonic.fit_empty_fault",
    "MLRL.Isotonic.calibrate_zero_nan",
    "MLRL.Isotonic.eliminate_last_group_not_averaged",
    "MLRL.Isotonic.aggregate_not_least_squares"
   ],
   "note": "Holds for non-empty lists of bins and for all probabilities in [0,1], except for a probability of zero if there is a threshold of zero. Negations proved: an empty list of bins is accessed out of bounds, and a probability of zero with a threshold of zero results in 0/0."
  },
  {
   "property": "C41",
   "status": "partial",
   "theorems": [
    "MLRL.LabelBinning.label_bins_partial",
    "MLRL.LabelBinning.binIndex_inBin",
    "MLRL.LabelBinning.equal_negative_undefined",
    "MLRL.LabelBinning.equal_positive_undefined",
    "MLRL.LabelBinning.bins_allocated_partial",
    "MLRL.LabelBinning.bins_exceed_allocated",
    "MLRL.LabelBinning.too_many_bins"
   ],
   "note": "Holds if neither the negative nor the positive criteria are all equal; the allocated arrays suffice if the minimum is one and there is no maximum. Otherwise undefined behaviour (proved)."
  },
  {
   "property": "C42",
   "status": "proved",
   "theorems": [
    "MLRL.RuleEval.single_best",
    "MLRL.RuleEval.single_empty",
    "MLRL.RuleEval.larger_score_better",
    "MLRL.RuleEval.fixed_best",
    "MLRL.RuleEval.dynamic_exact",
    "MLRL.RuleEval.dynamic_cutoff"
   ],
   "note": "std::partial_sort is a parameter with its specification."
  },
  {
   "property": "C43",
   "status": "partial",
   "theorems": [
    "MLRL.Seco.createStatistics_spec",
    "MLRL.Seco.coverage_history_partial",
    "MLRL.Seco.coverage_revert",
    "MLRL.Seco.uncoveredWeights_race",
    "MLRL.Seco.coverage_unsorted"
   ],
   "note": "Proved for both label matrix formats, all heads with sorted indices and all histories if a single thread updates the statistics. Negations proved: with several threads the unsynchronised member sumOfUncoveredWeights_ loses updates; unsorted partial heads move an iterator backwards."
  },
  {
   "property": "C44",
   "status": "partial",
   "theorems": [
    "MLRL.Seco.stop_iff",
    "MLRL.Seco.stop_iff_partial",
    "MLRL.Seco.stop_too_early"
   ],
   "note": "False as stated: labels for which a rule wrongly predicts the minority value are subtracted as well (stop_too_early is the witness). The exact condition is proved (stop_iff), as is the claim for rules without wrong predictions."
  },
  {
   "property": "C45",
   "status": "partial",
   "theorems": [
    "MLRL.DecisionList.dense_first_rule",
    "MLRL.DecisionList.decided_unique",
    "MLRL.DecisionList.dense_initialised",
    "MLRL.DecisionList.sparse_some_rule",
    "MLRL.DecisionList.predictors_agree_partial",
    "MLRL.DecisionList.predictors_disagree",
    "MLRL.DecisionList.unsorted_heads",
    "MLRL.DecisionList.sparse_features_eq_dense",
    "MLRL.DecisionList.predict_csr_eq"
   ],
   "note": "Proved in full for the dense predictor, for dense and sparse examples. The sparse predictor is proved to return the labels for which some covering rule predicts a value other than zero, hence it agrees with the dense one only under a condition on the rules; the disagreement is proved with a witness."
  },
  {
   "property": "C46",
   "status": "partial",
   "theorems": [
    "MLRL.Seco.heuristic_unit_partial",
    "MLRL.Seco.wra_range",
    "MLRL.Seco.heuristic_nothing_covered_partial",
    "MLRL.Seco.heuristic_invert_partial",
    "MLRL.Seco.wra_negative",
    "MLRL.Seco.nothing_covered_nonzero",
    "MLRL.Seco.accuracy_not_symmetric"
   ],
   "note": "Range proved for all heuristics but WRA, whose range is [-1/4, 1/4]; 0 if nothing is covered proved for precision, recall, F-measure, WRA; symmetry proved for all but accuracy. Negations proved with witnesses for the remaining cases."
  },
  {
   "property": "C47",
   "status": "partial",
   "theorems": [
    "MLRL.Seco.partial_optimal",
    "MLRL.Seco.partial_optimal_neg",
    "MLRL.Seco.noLift_sound",
    "MLRL.Seco.klnLift_sound",
    "MLRL.Seco.peakLift_sound",
    "MLRL.Seco.labelQuality_nonneg",
    "MLRL.Seco.partial_peak_fault",
    "MLRL.Seco.partial_wra_peak",
    "MLRL.Seco.complete_spec",
    "MLRL.Seco.majority_spec",
    "MLRL.Seco.single_optimal"
   ],
   "note": "Optimality proved for non-negative qualities and all lift functions that can be configured, given at least two labels if the peak lift function is used, and for arbitrary qualities with the other lift functions. Negations proved: out-of-bounds access with the peak lift function and a single label; a head that is not optimal with WRA and the peak lift function."
  },
  {
   "property": "C48",
   "status": "partial",
   "theorems": [
    "MLRL.Seco.noLift_admissible",
    "MLRL.Seco.klnLift_mono",
    "MLRL.Seco.klnLift_admissible",
    "MLRL.Seco.peakLift_before_partial",
    "MLRL.Seco.peakLift_mono",
    "MLRL.Seco.peakLift_max_partial",
    "MLRL.Seco.peakLift_below_one",
    "MLRL.Seco.peakLift_max_wrong",
    "MLRL.Seco.peakLift_nan",
    "MLRL.Seco.peakLift_max_fault",
    "MLRL.Seco.peakLift_create"
   ],
   "note": "Proved for the no-lift and KLN lift functions with any accepted parameters. For the peak lift function, the claim holds up to the peak only; negations proved: lifts below 1 and NaN after the peak, wrong maximum lifts after the peak, out-of-bounds access for heads with all labels."
  },
  {
   "property": "C49",
   "status": "partial",
   "theorems": [
    "MLRL.Seco.confusion_subset_sound",
    "MLRL.Seco.confusion_entries",
    "MLRL.Seco.subsetSum_partial",
    "MLRL.Seco.subsetTotal_fault",
    "MLRL.Seco.subsetTotal_short"
   ],
   "note": "Proved for weighted statistics and all histories of operations on their subsets, both label matrix formats and all sorted indices. Negations proved: subsets created via IStatistics::createSubset allocate the vector for the total sum with numRows elements, which reads outside of the coverage matrix if there are more examples than labels and lacks totals if there are fewer."
  },
  {
   "property": "C50",
   "status": "proved",
   "theorems": [
    "MLRL.Refinement.sort_spec",
    "MLRL.Refinement.sort_unique",
    "MLRL.Refinement.process_spec",
    "MLRL.Refinement.calls_spec",
    "MLRL.Refinement.sort_wrong_flag",
    "MLRL.Refinement.resize_keeps"
   ],
   "note": "For arbitrary sequences of calls on a head, including reuse of a head for score vectors of different sizes. std::sort is a parameter with its specification; sort_wrong_flag shows that score vectors must not claim to be sorted if they are not."
  },
  {
   "property": "C51",
   "status": "partial",
   "theorems": [
    "MLRL.Induction.optimizeModel_partial",
    "MLRL.Induction.optimizeRule_matches",
    "MLRL.Induction.optimizeRule_not_found"
   ],
   "note": "Holds if a replacement is found for each rule and no pruning takes place. False otherwise: optimizeRule_not_found."
  },
  {
   "property": "C52",
   "status": "proved",
   "theorems": [
    "MLRL.IntermediateModelBuilder.removeUnusedRules_keeps_used"
   ],
   "note": "For both kinds of rule lists and all limits."
  },
  {
   "property": "C53",
   "status": "partial",
   "theorems": [
    "MLRL.Config.bounded_ranges",
    "MLRL.Config.documented_classes",
    "MLRL.Config.bounded_order_partial",
    "MLRL.Config.bounded_number",
    "MLRL.Config.maximum_violated",
    "MLRL.Config.maximum_ignored",
    "MLRL.Config.minCoverage_range",
    "MLRL.Config.prePruning_ranges",
    "MLRL.Config.prePruning_multiple_partial",
    "MLRL.Config.prePruning_valid",
    "MLRL.Config.stopInterval_not_multiple",
    "MLRL.Config.stopInterval_zero",
    "MLRL.Config.minImprovement_nan"
   ],
   "note": "Ranges are proved for arbitrary sequences of accepted and rejected calls. The relations between two parameters (minimum <= maximum, stop interval a multiple of the update interval) hold only if the setters are called in a certain order: they are proved for this case, and the negation is proved in general. Only the configurations named in Model/Config.lean are modelled."
  },
  {
   "property": "C54",
   "status": "partial",
   "theorems": [
    "MLRL.Isotonic.areLabelVectorsEqual_iff",
    "MLRL.Isotonic.areLabelVectorsEqual_wrong",
    "MLRL.Isotonic.areLabelVectorsEqual_partial",
    "MLRL.Isotonic.extractJoint_bins_partial"
   ],
   "note": "False as stated: areLabelVectorsEqual tests whether the label vector is a prefix of the labels of the example (areLabelVectorsEqual_wrong is the witness). The exact behaviour of the function and of the extraction of bins is proved."
  },
  {
   "property": "C55",
   "status": "partial",
   "theorems": [
    "MLRL.FeatureBinning.equalFrequency_dense",
    "MLRL.FeatureBinning.equalFrequency_sparse_partial",
    "MLRL.FeatureBinning.createDense_equalFrequency",
    "MLRL.FeatureBinning.equalFrequency_fault",
    "MLRL.FeatureBinning.equalFrequency_approximate",
    "MLRL.FeatureBinning.equalFrequency_approximate_not_separated",
    "MLRL.FeatureBinning.equalWidth_general",
    "MLRL.FeatureBinning.equalWidth_partial",
    "MLRL.FeatureBinning.equalWidth_fault",
    "MLRL.FeatureBinning.equalWidth_positive",
    "MLRL.FeatureBinning.equalWidth_gap",
    "MLRL.FeatureBinning.equalWidth_gap_not_separated",
    "MLRL.FeatureBinning.equalWidth_boundary",
    "MLRL.FeatureBinning.equalWidth_boundary_not_separated"
   ],
   "note": "Equal-frequency binning is proved correct for exact comparisons, for features without sparse values and, if there is space for the bin of the sparse values, with sparse values. Equal-width binning is proved correct only if empty intervals precede only the last one and no value lies on a boundary; what it computes in all other cases is proved (equalWidth_general), as are the negations."
  },
  {
   "property": "C56",
   "status": "proved",
   "theorems": [
    "MLRL.Induction.prune_optimal",
    "MLRL.Induction.prune_single",
    "MLRL.Induction.prune_subspace"
   ],
   "note": ""
  },
  {
   "property": "C57",
   "status": "proved",
   "theorems": [
    "MLRL.Stopping.timeStopping_spec"
   ],
   "note": ""
  },
  {
   "property": "C58",
   "status": "partial",
   "theorems": [
    "MLRL.BiPartition.sortFirst_sorted_partial",
    "MLRL.BiPartition.sortSecond_sorted_partial",
    "MLRL.BiPartition.sortFirst_after_second_partition"
   ],
   "note": "False after re-partitioning: the flags are never reset."
  },
  {
   "property": "C59",
   "status": "partial",
   "theorems": [
    "MLRL.FeatureSpace.total_eq_sum_covered_partial",
    "MLRL.FeatureSpace.total_stale_after_reset",
    "MLRL.FeatureSpace.missing_subtracted_twice"
   ],
   "note": "holds without resets and without missing values of nominal features; both restrictions are necessary (negations proved)"
  },
  {
   "property": "C60",
   "status": "proved",
   "theorems": [
    "MLRL.FeatureSpace.invoke_sameEntries",
    "MLRL.FeatureSpace.invoke_missing",
    "MLRL.FeatureSpace.interval_filter_loses_values",
    "MLRL.FeatureSpace.copy_differs_from_original"
   ],
   "note": "includes two concrete disagreements: a dense numerical vector may be dropped although it is not constant, and a copied subspace may accept a condition the original rejects with an exception"
  },
  {
   "property": "C61",
   "status": "partial",
   "theorems": [
    "MLRL.JointEval.complete_system",
    "MLRL.JointEval.complete_minimises_joint_partial",
    "MLRL.JointEval.predictFor_minimises_partial",
    "MLRL.JointEval.dynamicPartial_chosen",
    "MLRL.JointEval.l1_joint_not_minimal",
    "MLRL.JointEval.partial_quality_wrong",
    "MLRL.JointEval.fixed_coefficients_wrong"
   ],
   "note": "LAPACK's dsysv is a parameter with its specification. Holds without L1 regularisation for complete heads; for partial heads the scores are optimal if the outputs are in increasing order, the quality is that of other outputs (negations proved)."
  },
  {
   "property": "C62",
   "status": "partial",
   "theorems": [
    "MLRL.LabelBinning.completeBinned_optimal_partial",
    "MLRL.LabelBinning.fixedBinned_wrong",
    "MLRL.LabelBinning.dynamicBinned_wrong"
   ],
   "note": "Holds for complete heads without L1 regularisation (the quality with it, too); partial heads aggregate the statistics of wrong outputs (negations proved)."
  },
  {
   "property": "C63",
   "status": "partial",
   "theorems": [
    "MLRL.Isotonic.extract_dense_scores",
    "MLRL.Isotonic.extract_sparse_scores_partial",
    "MLRL.Isotonic.extract_sparse_all_present",
    "MLRL.Isotonic.extract_dense_sparse_differ"
   ],
   "note": "Proved for both formats of labels and, separately, for dense and sparse scores; with sparse scores there must be an example without a score for each label. Negations proved: 0/0 with CSR labels if all examples have a score, and missing scores are represented by a threshold of zero instead of the marginal probability of a score of zero."
  },
  {
   "property": "C64",
   "status": "proved",
   "theorems": [
    "MLRL.Seco.heuristic_coverCorrect",
    "MLRL.Seco.heuristic_coverIncorrect"
   ],
   "note": "All heuristics, exact arithmetic."
  },
  {
   "property": "C65",
   "status": "partial",
   "theorems": [
    "MLRL.Search.binned_sound_partial",
    "MLRL.Search.separates_sound_partial",
    "MLRL.Search.equalFrequency_sound_partial",
    "MLRL.Search.binned_wrong_statistics",
    "MLRL.Search.binned_unsound",
    "MLRL.Search.binned_threshold_fault",
    "MLRL.Search.binned_first_skipped",
    "MLRL.Search.binned_last_unsound"
   ],
   "note": "False of the code: the candidate `<= t` at the bin for sparse values is evaluated on the examples it does not cover (binned_wrong_statistics), or has no threshold (binned_threshold_fault). All other candidates are proved correct, also composed with equal-frequency binning (C55)."
  },
  {
   "property": "C66",
   "status": "partial",
   "theorems": [
    "MLRL.BinnedFilter.filterInterval_spec",
    "MLRL.BinnedFilter.filterInterval_condition",
    "MLRL.BinnedFilter.searchBinned_candidates",
    "MLRL.BinnedFilter.filterMask_dense_partial",
    "MLRL.BinnedFilter.filtered_consistent_partial",
    "MLRL.BinnedFilter.filtered_search_partial",
    "MLRL.BinnedFilter.filterMask_sparse",
    "MLRL.BinnedFilter.exVector_mask",
    "MLRL.BinnedFilter.exVector_search"
   ],
   "note": "False of the code for coverage masks if there are sparse values: the bin for sparse values always becomes the last one (filterMask_sparse, exVector_mask, exVector_search). Proved for intervals in general, and for arbitrary sequences of intervals and masks if all examples are stored."
  },
  {
   "property": "C67",
   "status": "partial",
   "theorems": [
    "MLRL.Beam.refine_spec",
    "MLRL.Beam.refine_not_worse",
    "MLRL.Beam.refine_order_partial",
    "MLRL.Beam.growRule_path",
    "MLRL.Beam.path_limits",
    "MLRL.Beam.path_candidates",
    "MLRL.Beam.growRule_terminates_limited",
    "MLRL.Beam.growRule_terminates",
    "MLRL.Beam.induceRule_scores",
    "MLRL.Beam.beam_not_sorted",
    "MLRL.Beam.beam_loses_best",
    "MLRL.Beam.beam_gets_worse"
   ],
   "note": "False of the code as far as the best entry is concerned: the entries are only sorted if the beam is full (beam_not_sorted), the last entry is overwritten even if it is better (beam_loses_best), and refinements may be worse than the entry they replace (beam_gets_worse). Everything else is proved."
  },
  {
   "property": "C68",
   "status": "partial",
   "theorems": [
    "MLRL.JointBinned.completeBinned_optimal_partial",
    "MLRL.JointBinned.pairs_omitted",
    "MLRL.JointBinned.fixedBinned_wrong",
    "MLRL.JointBinned.dynamicBinned_wrong"
   ],
   "note": "False of the code in general: Hessians of different labels in the same bin are omitted (pairs_omitted), and partial heads are obtained from the statistics of the wrong labels (fixedBinned_wrong, dynamicBinned_wrong). Proved for complete heads and the objective without the omitted Hessians, which is the true objective if these Hessians are zero; minimality without L1 regularisation."
  },
  {
   "property": "C69",
   "status": "partial",
   "theorems": [
    "MLRL.FeatureType.nominalDense_correct",
    "MLRL.FeatureType.ordinalDense_correct",
    "MLRL.FeatureType.numericalDense_correct",
    "MLRL.FeatureType.nominalCsc_correct_partial",
    "MLRL.FeatureType.ordinalCsc_correct_partial",
    "MLRL.FeatureType.numericalCsc_correct",
    "MLRL.FeatureType.created_nominal_search",
    "MLRL.FeatureType.created_binary_search",
    "MLRL.FeatureType.created_ordinal_search",
    "MLRL.FeatureType.nominalCsc_uninitialised",
    "MLRL.FeatureType.ordinalCsc_uninitialised",
    "MLRL.FeatureType.binaryCsc_wrong",
    "MLRL.FeatureType.nominalCsc_badCast"
   ],
   "note": "Proved for dense matrices and for numerical features. False of the code for nominal and ordinal features of sparse matrices in general: if the sparse value is stored explicitly for some examples, elements that are not initialised are used (nominalCsc_uninitialised, ordinalCsc_uninitialised), or a binary vector with equal minority and majority values is created (binaryCsc_wrong); proved if it is not. Composed with C28 and C29: searching for refinements with the created vectors is sound with respect to the column."
  },
  {
   "property": "C70",
   "status": "partial",
   "theorems": [
    "MLRL.OutputStrata.stratify_iterative_partial",
    "MLRL.OutputStrata.Iterative.perm",
    "MLRL.OutputStrata.Iterative.nonempty",
    "MLRL.OutputStrata.Iterative.length_le",
    "MLRL.OutputStrata.Iterative.unique",
    "MLRL.OutputStrata.stratify_dense_sparse",
    "MLRL.OutputStrata.partition_correct_partial",
    "MLRL.OutputStrata.sample_correct_partial",
    "MLRL.OutputStrata.copyDense_overflow"
   ],
   "note": "Proved for all sparse label matrices, and for dense ones with fewer than 2^32 elements (considered examples times labels). False of the code for larger dense matrices: the size of the array is truncated to 32 bits and the array is left (copyDense_overflow). Composed with C13 and C14."
  },
  {
   "property": "C71",
   "status": "partial",
   "theorems": [
    "MLRL.SparsePrediction.sparse_predict_partial",
    "MLRL.SparsePrediction.sparse_predict_overflow",
    "MLRL.SparsePrediction.sparse_without_transformation",
    "MLRL.SparsePrediction.sparse_incremental_partial",
    "MLRL.SparsePrediction.sparse_eq_dense",
    "MLRL.SparsePrediction.outputWise_agree",
    "MLRL.SparsePrediction.exampleWise_agree"
   ],
   "note": "Proved if fewer than 2^32 labels are predicted in total. False of the code otherwise: the number of predicted labels is a 32 bit integer, the allocated array is too small and is left in each execution (sparse_predict_overflow). If multi-threading support is disabled at compile time, the scratch row does not exist (see C11)."
  },
  {
   "property": "C72",
   "status": "partial",
   "theorems": [
    "MLRL.AutoConfig.options_accepted",
    "MLRL.AutoConfig.regression_options_accepted",
    "MLRL.AutoConfig.order_irrelevant",
    "MLRL.AutoConfig.sparse_format_not_prevented",
    "MLRL.AutoConfig.sparse_without_default_rule",
    "MLRL.AutoConfig.default_rule_used_iff_partial",
    "MLRL.AutoConfig.default_rule_omitted_iff",
    "MLRL.AutoConfig.default_rule_complete_partial",
    "MLRL.AutoConfig.default_rule_not_complete",
    "MLRL.AutoConfig.format_respected",
    "MLRL.AutoConfig.head_respected",
    "MLRL.AutoConfig.isPartial_agrees_partial",
    "MLRL.AutoConfig.automatic_heads_isPartial",
    "MLRL.AutoConfig.regression_dense"
   ],
   "note": "False of the code in three respects: the automatic default rule is left out for all non-decomposable losses together with the sparse format, although only dense statistics exist for them (default_rule_omitted_iff gives the exact condition); if both a default rule and the sparse format are demanded, the default rule predicts for a part of the outputs only (default_rule_not_complete); automatic heads claim to be partial although they are complete (automatic_heads_isPartial)."
  },
  {
   "property": "C73",
   "status": "partial",
   "theorems": [
    "MLRL.AutoConfig.predictors_created",
    "MLRL.AutoConfig.joint_calibrator_created",
    "MLRL.AutoConfig.automatic_predictors",
    "MLRL.AutoConfig.label_vectors_stored_iff",
    "MLRL.AutoConfig.holdout_set_provided_partial",
    "MLRL.AutoConfig.holdout_set_wasted",
    "MLRL.AutoConfig.holdout_set_iff"
   ],
   "note": "False of the code in one respect: examples are held out for an isotonic calibration even if the loss does not support probabilities, in which case nothing is learned from them (holdout_set_wasted); for losses that support probabilities the equivalence is proved (holdout_set_iff)."
  },
  {
   "property": "C74",
   "status": "partial",
   "theorems": [
    "MLRL.DenseMatrix.allocate_holds_partial",
    "MLRL.DenseMatrix.read_eq",
    "MLRL.DenseMatrix.write_holds",
    "MLRL.DenseMatrix.iterate_eq",
    "MLRL.DenseMatrix.clear_holds",
    "MLRL.DenseMatrix.transposed",
    "MLRL.DenseMatrix.holds_sound",
    "MLRL.DenseMatrix.allocate_overflow",
    "MLRL.DenseMatrix.view_overflow"
   ],
   "note": "False of the code for matrices with 2^32 or more elements: allocated memory is too small or rows overlap (allocate_overflow), and the rows of views of larger arrays overlap (view_overflow). Both are proved for all such matrices."
  },
  {
   "property": "C75",
   "status": "partial",
   "theorems": [
    "MLRL.Provider.up_to_date_partial",
    "MLRL.Provider.executions_exist",
    "MLRL.Provider.logistic_up_to_date",
    "MLRL.Provider.other_losses",
    "MLRL.Provider.create_overflow",
    "MLRL.Provider.regression_disagrees",
    "MLRL.Provider.decomposable_up_to_date"
   ],
   "note": "Proved for classification and less than 65536 outputs. False of the code otherwise: the number of Hessians overflows for 65536 or more outputs and memory is left during creation (create_overflow with needsSpace for the three losses); with the non-decomposable squared error loss in regression, the functions that are used before and after a conversion disagree (regression_disagrees)."
  },
  {
   "property": "C76",
   "status": "partial",
   "theorems": [
    "MLRL.Training.post_pruning_best",
    "MLRL.Training.fit_post_pruning",
    "MLRL.Training.fit_model",
    "MLRL.Training.pre_pruning_best_partial",
    "MLRL.Training.final_scores"
   ],
   "note": "Proved for post-pruning if rules are not pruned with IREP (C23 is false otherwise) and without sequential post-optimisation, which replaces rules afterwards. For pre-pruning, the analogous statement is proved provided that the flag that is left uninitialised by its factory (C02) has a value."
  },
  {
   "property": "C77",
   "status": "partial",
   "theorems": [
    "MLRL.Training.calibration_scores_partial",
    "MLRL.Training.calibration_ignores_pruning",
    "MLRL.Training.final_scores"
   ],
   "note": "Proved without global pruning, also with sequential post-optimisation if a replacement is found for each rule. False of the code with global pruning (calibration_ignores_pruning): the predictions of rules that are not used are not reverted."
  },
  {
   "property": "C78",
   "status": "proved",
   "theorems": [
    "MLRL.Training.fit_terminates",
    "MLRL.Training.fit_without_limit"
   ],
   "note": "Also proved for pre-pruning, provided that the flag that is left uninitialised by its factory (C02) has a value. The components are assumed not to fail; for the ones that are modelled, this is proved elsewhere (C22, C26, C56)."
  },
  {
   "property": "C79",
   "status": "proved",
   "theorems": [
    "MLRL.TrainingLoss.squaredError_training",
    "MLRL.TrainingLoss.squaredErrorRegression_training",
    "MLRL.TrainingLoss.squaredHinge_training",
    "MLRL.TrainingLoss.decomposable_training",
    "MLRL.TrainingLoss.boosting_decreases",
    "MLRL.TrainingLoss.boosting_default",
    "MLRL.TrainingLoss.training_decreases",
    "MLRL.TrainingLoss.training_recalculated",
    "MLRL.TrainingLoss.logistic_overshoots",
    "MLRL.TrainingLoss.logistic_not_majorised",
    "MLRL.TrainingLoss.squaredError_majorised",
    "MLRL.TrainingLoss.squaredHinge_majorised",
    "MLRL.TrainingLoss.complete_scoring",
    "MLRL.TrainingLoss.single_scoring",
    "MLRL.TrainingLoss.fixed_scoring",
    "MLRL.TrainingLoss.dynamic_scoring"
   ],
   "note": "Rules are not pruned. The search for refinements by a single feature is a parameter, which must evaluate candidates on the statistics of the examples they cover; `sound_sum` shows that the searches of C27 to C29 do."
  },
  {
   "property": "C80",
   "status": "partial",
   "theorems": [
    "MLRL.Tabular.tabular_decreases_partial",
    "MLRL.Tabular.tabular_prediction_partial",
    "MLRL.Tabular.tabular_fit_partial",
    "MLRL.Tabular.numerical_training_fails",
    "MLRL.Tabular.missing_training_fails"
   ],
   "note": "The statement is false in general: `numerical_training_fails` (dense numerical feature with values on both sides of the sparse value) and `missing_training_fails` (missing values) are runs in which the model predicts something else than training assumes, and the loss increases. The positive theorems require that no values are missing, that the values of a numerical feature are stored in a dense vector and are all less than the sparse value or all greater or equal, and that no example has zero weight if a feature is ordinal."
  },
  {
   "property": "C81",
   "status": "partial",
   "theorems": [
    "MLRL.TabularData.featureInfo_correct",
    "MLRL.TabularData.createColumns_ok",
    "MLRL.TabularData.matrix_training_partial"
   ],
   "note": "As for C80, the statement is false in general. It is proved for matrices without missing values in which the values of a numerical feature are all less than zero or all greater or equal, the values of other features can be converted into integers, and no example has zero weight if there are ordinal features. Sparse matrices and feature binning are not covered."
  },
  {
   "property": "C82",
   "status": "partial",
   "theorems": [
    "MLRL.Boosting.boosting_terminates",
    "MLRL.Boosting.boosting_fit_terminates",
    "MLRL.Boosting.TotalOk.shrinks",
    "MLRL.Tabular.tabular_terminates_partial",
    "MLRL.Tabular.tabular_fit_terminates_partial",
    "MLRL.Tabular.matrix_terminates_partial"
   ],
   "note": "Proved for exact arithmetic and decomposable losses without pruning and recalculation of predictions. On tabular data, it is proved for the data C80 and C81 are proved for."
  },
  {
   "property": "C83",
   "status": "partial",
   "theorems": [
    "MLRL.SecoTraining.seco_coverage_partial",
    "MLRL.SecoTraining.seco_prediction_partial",
    "MLRL.SecoTraining.seco_errors_partial",
    "MLRL.SecoTraining.seco_terminates_partial",
    "MLRL.SecoTraining.seco_rules_partial",
    "MLRL.SecoTraining.seco_repeats_partial",
    "MLRL.SecoTraining.seco_default_fault",
    "MLRL.SecoTraining.seco_no_progress",
    "MLRL.SecoTraining.growNext_congr"
   ],
   "note": "Proved for exact arithmetic and fewer than 2^32 rules, without pruning, recalculation of predictions and post-optimisation, and for a single thread that updates the coverage matrix (the search may use several). Two parts of what one would expect are false and their negations are proved: seco_default_fault and seco_no_progress."
  },
  {
   "property": "C84",
   "status": "partial",
   "theorems": [
    "MLRL.TrainingLoss.recalculate_correct",
    "MLRL.TrainingLoss.recalculate_complete",
    "MLRL.TrainingLoss.refits_optimal_partial",
    "MLRL.TrainingLoss.rule_recalculated",
    "MLRL.TrainingLoss.sampled_training",
    "MLRL.TrainingLoss.tabular_sampled_partial",
    "MLRL.TrainingLoss.sampled_prediction_partial",
    "MLRL.TrainingLoss.not_recalculated_increases"
   ],
   "note": "Proved for exact arithmetic and decomposable statistics, without pruning. The recalculated scores are optimal without L1 regularisation only. For tabular data, ordinal features are excluded if examples have zero weight, as well as the cases excluded by C80. That predictions must be recalculated is proved by a concrete run (not_recalculated_increases)."
  },
  {
   "property": "C85",
   "status": "partial",
   "theorems": [
    "MLRL.TrainingLoss.outOfSample_correct",
    "MLRL.TrainingLoss.outOfSample_complete",
    "MLRL.TrainingLoss.outOfSample_smallest_partial",
    "MLRL.TrainingLoss.outOfSample_ignores_scores",
    "MLRL.TrainingLoss.rule_pruned",
    "MLRL.TrainingLoss.pruned_training_partial",
    "MLRL.TrainingLoss.pruned_increases"
   ],
   "note": "Proved for exact arithmetic and decomposable statistics. The quality on the prune set is the smallest objective without L1 regularisation only. The result about training is for tabular data and requires that predictions are recalculated; ordinal features and the cases excluded by C80 are missing. That the stored scores differ from the predictions of the model, and that a rule increases the loss, is proved by a concrete run that meets all requirements (pruned_increases)."
  },
  {
   "property": "C86",
   "status": "partial",
   "theorems": [
    "MLRL.SparseData.createColumns_ok",
    "MLRL.SparseData.applyRules_eq_dense",
    "MLRL.SparseData.sparse_training_partial",
    "MLRL.SparseData.sparse_training_fails"
   ],
   "note": "That rules are applied to the rows of CSR matrices with the same result as to dense rows is proved in full. Training is proved for matrices without missing values in which the elements of a numerical feature are stored for all or for no examples; the stored elements of other features must not have the sparse value and it must be possible to convert them into integers; no example has zero weight if a feature is ordinal. If the elements of a numerical feature are stored for some examples only, the statement is false of the code: sparse_training_fails is a run in which the loss increases."
  },
  {
   "property": "C87",
   "status": "partial",
   "theorems": [
    "MLRL.BinnedTraining.complete_bounded",
    "MLRL.BinnedTraining.bounded_decreases",
    "MLRL.BinnedTraining.bounded_default",
    "MLRL.BinnedTraining.binned_training",
    "MLRL.BinnedTraining.fixed_training_fails",
    "MLRL.BinnedTraining.dynamic_training_fails",
    "MLRL.BinnedTraining.single_output_undefined"
   ],
   "note": "Proved for complete heads and every execution without undefined behaviour (see C41 for when label binning has undefined behaviour, single_output_undefined is a general case). For partial heads with a fixed or a varying number of outputs, the statement is false of the code: fixed_training_fails and dynamic_training_fails are runs in which the only rule that is learned increases the loss."
  },
  {
   "property": "C88",
   "status": "partial",
   "theorems": [
    "MLRL.SecoMatrix.predict_eq_dense",
    "MLRL.SecoMatrix.seco_sparse_prediction_partial",
    "MLRL.SecoMatrix.seco_dense_matrix_partial",
    "MLRL.SecoMatrix.seco_sparse_matrix_partial",
    "MLRL.SecoMatrix.seco_predictors_agree_iff",
    "MLRL.SecoMatrix.sparse_predictions_fail"
   ],
   "note": "The conditions of C83 (end of training, default rule) and of C81/C86 (values of the features) are needed. That both predictors predict the same labels is false of the code: seco_predictors_agree_iff says for which examples they differ and sparse_predictions_fail is a run in which all training examples are predicted correctly by the dense predictor only."
  },
  {
   "property": "C89",
   "status": "partial",
   "theorems": [
    "MLRL.Boosting.beamInduce_rule",
    "MLRL.Boosting.beam_decreases",
    "MLRL.Boosting.beamInduce_total",
    "MLRL.Boosting.beam_terminates_partial",
    "MLRL.Tabular.approximatelyEqual_ok",
    "MLRL.Tabular.Trainable.beam",
    "MLRL.Tabular.beam_prediction_partial",
    "MLRL.Tabular.beam_matrix_partial",
    "MLRL.Tabular.beam_diverges"
   ],
   "note": "Training terminates if the number of conditions is limited. Otherwise, the claim is false of the code: beam_diverges shows that training does not terminate for a data set with ten examples and four features, for each implementation of std::sort and each interleaving of threads, although all other requirements are met (exBeamOptions_loop). Rules are neither pruned nor are their predictions recalculated."
  },
  {
   "property": "C90",
   "status": "partial",
   "theorems": [
    "MLRL.Tabular.sampled_terminates_partial",
    "MLRL.Tabular.pruned_terminates_partial",
    "MLRL.TrainingLoss.single_stable",
    "MLRL.TrainingLoss.complete_covering",
    "MLRL.TrainingLoss.fixed_covering",
    "MLRL.TrainingLoss.dynamic_covering"
   ],
   "note": "Ordinal features are excluded if there are examples with zero weight (see C82), as are the cases that C80 excludes. The features that are sampled must exist and the evaluation that is used for pruning must be able to evaluate the heads that have been found (Stable), which is shown for all kinds of heads."
  },
  {
   "property": "C91",
   "status": "partial",
   "theorems": [
    "MLRL.Probability.predict_spec",
    "MLRL.Probability.predict_none",
    "MLRL.Probability.incremental_spec",
    "MLRL.Probability.incremental_none",
    "MLRL.Probability.incremental_eq_oneShot",
    "MLRL.Probability.marginal_spec",
    "MLRL.Probability.predict_outputWise",
    "MLRL.Probability.joint_spec_partial",
    "MLRL.Probability.predict_marginalized_partial",
    "MLRL.Probability.predict_marginalized_nan"
   ],
   "note": "Marginalized probabilities: marginal probabilities must not be calibrated or the thresholds of joint calibration models must be positive. Otherwise, a joint probability of zero may be calibrated by dividing zero by zero (predict_marginalized_nan)."
  },
  {
   "property": "C92",
   "status": "partial",
   "theorems": [
    "MLRL.Probability.fitMarginal_ok",
    "MLRL.Probability.fitJoint_ok_partial",
    "MLRL.Probability.fitCalibrationModels_ok_partial",
    "MLRL.Probability.calibrated_predictions_partial",
    "MLRL.Probability.fitJoint_zero_nan",
    "MLRL.Probability.calibrated_nan",
    "MLRL.Probability.fit_empty_holdout"
   ],
   "note": "Marginalized probabilities: if marginal and joint probabilities are both calibrated, predictions may divide zero by zero, even for training examples (fitJoint_zero_nan, calibrated_nan). Scores are dense."
  },
  {
   "property": "C93",
   "status": "partial",
   "theorems": [
    "MLRL.FloatingPoint.roundings_exist",
    "MLRL.FloatingPoint.threshold_separates_partial",
    "MLRL.FloatingPoint.between_of_not_isEqual",
    "MLRL.FloatingPoint.condition_separates_partial",
    "MLRL.FloatingPoint.threshold_adjacent",
    "MLRL.FloatingPoint.threshold_adjacent_normal",
    "MLRL.FloatingPoint.threshold_overflow"
   ],
   "note": "Proved for values with a number in between, which includes all values that are not considered equal by the code, and if their difference is finite. Thresholds next to the sparse value are not guarded by such a check and may not separate adjacent values (threshold_adjacent, threshold_adjacent_normal). Thresholds are infinite if the difference of the values overflows (threshold_overflow)."
  },
  {
   "property": "C94",
   "status": "proved",
   "theorems": [
    "MLRL.FloatingPoint.roundings_exist",
    "MLRL.FloatingPoint.ceilFraction_bounds",
    "MLRL.FloatingPoint.truncFraction_lt",
    "MLRL.FloatingPoint.calculateBoundedFraction_bounds",
    "MLRL.FloatingPoint.ceilFraction_one",
    "MLRL.FloatingPoint.ceilFraction_one_badCast",
    "MLRL.FloatingPoint.ceilFraction_differs"
   ],
   "note": "The fraction must be less than one, as demanded by the documentation of the function. ceilFraction_one and ceilFraction_one_badCast show that this is necessary."
  },
  {
   "property": "C95",
   "status": "partial",
   "theorems": [
    "MLRL.FloatingPoint.getBinIndex_lt_partial",
    "MLRL.FloatingPoint.getBinIndex_mono",
    "MLRL.FloatingPoint.getBinIndex_min",
    "MLRL.FloatingPoint.binWidth_pos",
    "MLRL.FloatingPoint.getBinIndex_threshold",
    "MLRL.FloatingPoint.getBinIndex_zero_width",
    "MLRL.FloatingPoint.getBinIndex_infinite"
   ],
   "note": "Proved if the width is neither infinite nor rounded to zero, which is the case if the difference between the maximum and the minimum is finite and at least the number of bins times the smallest positive number (binWidth_pos). Otherwise, the index may be undefined (getBinIndex_zero_width, getBinIndex_infinite)."
  },
  {
   "property": "C96",
   "status": "partial",
   "theorems": [
    "MLRL.SecoTraining.evaluate_iff",
    "MLRL.SecoTraining.evaluate_fault",
    "MLRL.SecoTraining.recalculate_fault",
    "MLRL.SecoTraining.recalculate_iff",
    "MLRL.SecoTraining.seco_finishing_partial",
    "MLRL.SecoTraining.seco_recalculate_fault",
    "MLRL.SecoTraining.seco_pruning_fault",
    "MLRL.SecoTraining.seco_rule_pruned"
   ],
   "note": "The property is false: the sums of confusion matrices are stored in vectors with as many elements as there are examples, hence elements beyond the end of the last row of the label and coverage matrices are accessed if there are more examples than labels (evaluate_fault, recalculate_fault, seco_recalculate_fault, seco_pruning_fault). Exactly when recalculation and (for single-output heads) the evaluation on a prune set are possible is shown by recalculate_iff and evaluate_iff, what training results in by seco_finishing_partial. Missing: whole training with pruning if there are at most as many examples as labels, which is only shown for a single rule (seco_rule_pruned)."
  },
  {
   "property": "C97",
   "status": "proved",
   "theorems": [
    "MLRL.Serialization.fromConditions_of_create",
    "MLRL.Serialization.save_load",
    "MLRL.Serialization.save_load_predict",
    "MLRL.Serialization.save_load_save",
    "MLRL.Serialization.save_iff",
    "MLRL.Serialization.load_version",
    "MLRL.Serialization.load_fixes_used",
    "MLRL.Serialization.calibration_save_load",
    "MLRL.Serialization.calibration_version",
    "MLRL.Serialization.labels_save_load",
    "MLRL.Serialization.labels_save_load_created",
    "MLRL.Serialization.labels_version"
   ],
   "note": "The restriction to rules that predict for at least one output is necessary (save_iff). The implementation of pickle itself is not modelled."
  },
  {
   "property": "C98",
   "status": "partial",
   "theorems": [
    "MLRL.PythonInput.features_partial",
    "MLRL.PythonInput.features_explicit_zero",
    "MLRL.PythonInput.features_accepted",
    "MLRL.PythonInput.features_all_zero",
    "MLRL.PythonInput.columns_partial",
    "MLRL.PythonInput.labels_partial",
    "MLRL.PythonInput.labels_explicit_zero",
    "MLRL.PythonInput.regression_faithful",
    "MLRL.PythonInput.auto_features",
    "MLRL.PythonInput.auto_regression",
    "MLRL.PythonInput.auto_regression_wrong"
   ],
   "note": "False of the code for explicitly stored zeros (features_explicit_zero, labels_explicit_zero), for sparse matrices without stored elements (features_all_zero) and for the automatic choice of the representation for regression scores (auto_regression_wrong). Proved in all other cases."
  },
  {
   "property": "C99",
   "status": "partial",
   "theorems": [
    "MLRL.PythonFeatures.createFeatureInfo_partial",
    "MLRL.PythonFeatures.createFeatureInfo_none",
    "MLRL.PythonFeatures.createFeatureInfo_counts",
    "MLRL.PythonFeatures.createFeatureInfo_negative",
    "MLRL.PythonFeatures.createFeatureInfo_invalid"
   ],
   "note": "False of the code if exactly one of the lists is not given (createFeatureInfo_none), if a list contains duplicates (createFeatureInfo_counts) and if there is no feature with an index (createFeatureInfo_invalid). Proved in all other cases (createFeatureInfo_partial)."
  },
  {
   "property": "C100",
   "status": "partial",
   "theorems": [
    "MLRL.PythonPrediction.nonNative_correct",
    "MLRL.PythonPrediction.nonNative_eq_native",
    "MLRL.PythonPrediction.nonNative_rejects",
    "MLRL.PythonPrediction.native_read_partial",
    "MLRL.PythonPrediction.native_overwritten",
    "MLRL.PythonPrediction.native_dangling",
    "MLRL.PythonPrediction.toSklearn_correct",
    "MLRL.PythonPrediction.unsupported_partial",
    "MLRL.PythonPrediction.unsupported_diverges"
   ],
   "note": "Proved if there is no native support. False of the code with native support: arrays that have been returned are overwritten by later calls (native_overwritten) and must not be accessed after the predictor has been deallocated (native_dangling). If probabilities are not supported, predict_proba_incrementally does not terminate (unsupported_diverges)."
  },
  {
   "property": "C101",
   "status": "partial",
   "theorems": [
    "MLRL.PythonPrediction.evaluate_partial",
    "MLRL.PythonPrediction.evaluate_exceeds",
    "MLRL.PythonPrediction.nonNative_behaves",
    "MLRL.PythonPrediction.native_behaves",
    "MLRL.PythonPrediction.invoke_value_partial",
    "MLRL.PythonPrediction.probabilities_ignore_value"
   ],
   "note": "False of the code if the model has more than max_size rules: the evaluation continues and reports the predictions of larger models as those of a model with max_size rules (evaluate_exceeds). Keyword arguments are ignored if probabilities are predicted (probabilities_ignore_value). Proved in all other cases (evaluate_partial). It is proved that predictors with and without native support behave as assumed (nonNative_behaves, native_behaves)."
  },
  {
   "property": "C102",
   "status": "partial",
   "theorems": [
    "MLRL.PythonOptions.create_text",
    "MLRL.PythonOptions.get_text",
    "MLRL.PythonOptions.create_ok",
    "MLRL.PythonOptions.create_error",
    "MLRL.PythonOptions.parse_ok",
    "MLRL.PythonOptions.parse_text_partial",
    "MLRL.PythonOptions.parse_error",
    "MLRL.PythonOptions.parse_shadowed"
   ],
   "note": "Proved for the list of options (create_text, create_ok, create_error) and for texts that are accepted (parse_ok) or rejected (parse_error). That all well-formed texts are accepted is false if an allowed value is the beginning of one that comes later (parse_shadowed), and proved otherwise (parse_text_partial). C103 shows that the latter is the case for all parameters that exist."
  },
  {
   "property": "C103",
   "status": "partial",
   "theorems": [
    "MLRL.PythonParameters.configure_used_partial",
    "MLRL.PythonParameters.configure_accepted_partial",
    "MLRL.PythonParameters.configure_attribute_partial",
    "MLRL.PythonParameters.configure_unchanged_partial",
    "MLRL.PythonParameters.outputSampling_attribute",
    "MLRL.PythonParameters.mem_union",
    "MLRL.PythonParameters.auto_rejected",
    "MLRL.PythonParameters.auto_provided",
    "MLRL.PythonParameters.configureAll_perm"
   ],
   "note": "False of the code: the value auto of five parameters is documented, but rejected (auto_rejected, auto_provided), and an AttributeError may be raised if a configuration supports the sampling of features, but not of outputs (outputSampling_attribute). Proved for all other nominal parameters and values."
  },
  {
   "property": "C104",
   "status": "partial",
   "theorems": [
    "MLRL.PythonSetters.apply_translated",
    "MLRL.PythonSetters.run_translated",
    "MLRL.PythonSetters.run_sampler_partial",
    "MLRL.PythonSetters.run_sampler_safe_partial",
    "MLRL.PythonSetters.toUint32_float",
    "MLRL.PythonSetters.sampler_nan",
    "MLRL.PythonSetters.sampler_small",
    "MLRL.PythonSetters.sampler_large",
    "MLRL.PythonSetters.sampler_undefined",
    "MLRL.PythonSetters.outputSampling_minimum"
   ],
   "note": "Proved for feature sampling, feature binning, label binning and partial heads (run_translated). False of the code for instance sampling and output sampling: the program is terminated if a ratio is NaN or becomes zero or one when rounded (sampler_nan, sampler_small, sampler_large), and the behaviour is undefined if an integer is greater than 2^32 - 128 (sampler_undefined). Proved for all other values (run_sampler_safe_partial) and, if integers are at most 2^24, that they are stored exactly (run_sampler_partial)."
  },
  {
   "property": "C105",
   "status": "partial",
   "theorems": [
    "MLRL.CrossValidation.foldSets_eq",
    "MLRL.CrossValidation.foldSets_perm",
    "MLRL.CrossValidation.predefined_full",
    "MLRL.CrossValidation.predefined_single",
    "MLRL.CrossValidation.predefined_index",
    "MLRL.CrossValidation.outputs_full",
    "MLRL.CrossValidation.outputs_single",
    "MLRL.CrossValidation.outputs_trainTest",
    "MLRL.CrossValidation.averages_partial",
    "MLRL.CrossValidation.averages_incremental_partial",
    "MLRL.CrossValidation.averages_ignore_size",
    "MLRL.CrossValidation.averages_incremental_wrong",
    "MLRL.CrossValidation.put_ok"
   ],
   "note": "Proved for models that are evaluated as a whole (averages_partial) and for folds that are predefined (foldSets_eq, foldSets_perm, predefined_full). If models are evaluated incrementally, the averages are wrong, except for the largest size (averages_incremental_partial, averages_ignore_size, averages_incremental_wrong). What is reported in any case is given by outputs_full. The splits computed by scikit-learn, if folds are not predefined, are not modelled."
  },
  {
   "property": "C106",
   "status": "partial",
   "theorems": [
    "MLRL.DataSets.load_end",
    "MLRL.DataSets.load_start",
    "MLRL.DataSets.roundtrip_dense",
    "MLRL.DataSets.load_sparse",
    "MLRL.DataSets.roundtrip_sparse_iff",
    "MLRL.DataSets.roundtrip_relation_partial",
    "MLRL.DataSets.load_order_wrong",
    "MLRL.DataSets.load_interleaved_wrong",
    "MLRL.DataSets.load_sparse_zero",
    "MLRL.DataSets.load_relation_wrong",
    "MLRL.DataSets.roundtrip_sparse_wrong",
    "MLRL.DataSets.roundtrip_ordinal_wrong",
    "MLRL.DataSets.parse_quoted",
    "MLRL.DataSets.parse_unquoted",
    "MLRL.DataSets.toFeature_iff"
   ],
   "note": "Proved for the dense format with an XML file (load_end, load_start, roundtrip_dense). For the sparse format, the data set is restored if and only if the last row and the last column contain non-zero values (roundtrip_sparse_iff), otherwise features may be loaded as outputs (roundtrip_sparse_wrong). Without an XML file, the data set is restored if the outputs are at the start (roundtrip_relation_partial), otherwise all columns are treated as outputs (load_relation_wrong). Ordinal features become numerical (roundtrip_ordinal_wrong). The columns of outputs that are not contiguous or ordered differently in the XML file are wrong (load_order_wrong, load_interleaved_wrong). The textual representation of files is not modelled. The names and types of features are given by parse_quoted, parse_unquoted and toFeature_iff."
  },
  {
   "property": "C107",
   "status": "partial",
   "theorems": [
    "MLRL.LabelCharacteristics.labelVectors_ok",
    "MLRL.LabelCharacteristics.labelVectors_error",
    "MLRL.LabelCharacteristics.denseVector_get",
    "MLRL.LabelCharacteristics.characteristics_toDense",
    "MLRL.LabelCharacteristics.density_explicit_zero",
    "MLRL.LabelCharacteristics.perRow_perCol",
    "MLRL.LabelCharacteristics.labelCardinality_eq",
    "MLRL.LabelCharacteristics.labelImbalanceRatio_none",
    "MLRL.LabelCharacteristics.labelImbalanceRatio_some",
    "MLRL.LabelCharacteristics.numUnique_eq",
    "MLRL.LabelCharacteristics.distinctLabelVectors_toDense",
    "MLRL.LabelCharacteristics.density_dense"
   ],
   "note": "The label vectors and frequencies are correct, if at least one label is relevant to each example (labelVectors_ok). Otherwise, an exception is raised (labelVectors_error), i.e., this part of the property is false of the code. The characteristics are the same for both formats, if no zeros are stored explicitly (characteristics_toDense, distinctLabelVectors_toDense; density_explicit_zero shows that this is needed). Quotients are exact rather than rounded, the formatting of values is not modelled."
  },
  {
   "property": "C108",
   "status": "partial",
   "theorems": [
    "MLRL.ModelOutput.tabularize_ok",
    "MLRL.ModelOutput.tabularize_wrong",
    "MLRL.ModelOutput.statistics_ok",
    "MLRL.ModelOutput.statistics_error",
    "MLRL.ModelOutput.format_ok",
    "MLRL.ModelOutput.format_lines",
    "MLRL.ModelOutput.format_negative"
   ],
   "note": "Proved for all models with at most one default rule (tabularize_ok, statistics_ok) and for all models in which nominal values are not negative (format_ok, format_lines). A negative nominal value is shown as another value (format_negative), a default rule without predictions results in an exception (statistics_error). Fractions are computed exactly. How numbers and tables are formatted is not modelled."
  },
  {
   "property": "C109",
   "status": "partial",
   "theorems": [
    "MLRL.ParameterFiles.csv_roundtrip",
    "MLRL.ParameterFiles.csv_roundtrip_windows",
    "MLRL.ParameterFiles.read_saved",
    "MLRL.ParameterFiles.read_saved_windows",
    "MLRL.ParameterFiles.read_saved_none",
    "MLRL.ParameterFiles.apply_saved",
    "MLRL.ParameterFiles.parameters_restored",
    "MLRL.ParameterFiles.bool_not_restored",
    "MLRL.ParameterFiles.fileNamePerFold_inj",
    "MLRL.ParameterFiles.incremental_ok",
    "MLRL.ParameterFiles.incremental_stale"
   ],
   "note": "Proved if at least one parameter is not None (read_saved, apply_saved) and has a value of the right type (parameters_restored). False of the code if all parameters have default values: the file can be saved, but an exception is raised when reading it (read_saved_none). Results are appended to those of an earlier run, if the output directory is not cleared, i.e., if a single fold is performed (incremental_stale), otherwise they are proved to be correct (incremental_ok). On Windows, line breaks in values are changed (read_saved_windows). The module csv is modelled after its implementation in CPython, conversions between numbers and strings are parameters."
  },
  {
   "property": "C110",
   "status": "partial",
   "theorems": [
    "MLRL.OneHotEncoding.encode_ok",
    "MLRL.OneHotEncoding.encode_none",
    "MLRL.OneHotEncoding.encode_eq_iff",
    "MLRL.OneHotEncoding.encode_injective",
    "MLRL.OneHotEncoding.condition_iff",
    "MLRL.OneHotEncoding.predefined_ok",
    "MLRL.OneHotEncoding.predefined_unencoded",
    "MLRL.OneHotEncoding.predefined_loses_values",
    "MLRL.OneHotEncoding.ordinal_lost"
   ],
   "note": "Proved for the matrix the encoder is fit to. False for predefined folds (and training and test sets): the encoder is fit to the first fold only, examples that differ in values that do not occur there are encoded equally (encode_eq_iff is the exact condition, predefined_loses_values is a witness). Ordinal features become numerical features (ordinal_lost). The classes ColumnTransformer and OneHotEncoder of scikit-learn are modelled after their documentation."
  },
  {
   "property": "C111",
   "status": "proved",
   "theorems": [
    "MLRL.ConfigSlots.accessed_ok",
    "MLRL.ConfigSlots.last_selection_used",
    "MLRL.ConfigSlots.selected",
    "MLRL.ConfigSlots.defaults_restored",
    "MLRL.ConfigSlots.has_default",
    "MLRL.ConfigSlots.regression_loss_missing"
   ],
   "note": "The getters a part may evaluate are over-approximated by all getters it holds, except that the format of statistics accesses the loss function of the respective problem only. Lifetimes of the objects are not modelled."
  },
  {
   "property": "C112",
   "status": "proved",
   "theorems": [
    "MLRL.Duration.format_eq",
    "MLRL.Duration.reading_format",
    "MLRL.Duration.format_eq_iff",
    "MLRL.Duration.reading_bounds",
    "MLRL.Duration.format_ne_nil"
   ],
   "note": "Durations are rational numbers; rounding errors of the multiplication of the fractional part by 1000 are not modelled."
  },
  {
   "property": "C113",
   "status": "partial",
   "theorems": [
    "MLRL.Experiment.train_settles",
    "MLRL.Experiment.predict_settles",
    "MLRL.Experiment.train_of_dense",
    "MLRL.Experiment.evaluate_eq",
    "MLRL.Experiment.run_files",
    "MLRL.Experiment.second_run",
    "MLRL.Experiment.fresh_run_partial",
    "MLRL.Experiment.stale_model"
   ],
   "note": "Models that have been trained for another split of the data are loaded if they are found in the directory (`stale_model`). Therefore `fresh_run_partial` assumes that no models are stored for the folds initially. Data, learners and predictions are parameters; errors when accessing files, output writers and measured times are not modelled."
  },
  {
   "property": "C114",
   "status": "partial",
   "theorems": [
    "MLRL.Measures.functions_filter",
    "MLRL.Measures.names_nodup",
    "MLRL.Measures.reported",
    "MLRL.Measures.reported_valid",
    "MLRL.Measures.select_enabled",
    "MLRL.Measures.options_nodup_partial",
    "MLRL.Measures.median_not_selectable"
   ],
   "note": "The median absolute error cannot be selected individually, because its option has the same key as the mean absolute error's (`median_not_selectable`); therefore `options_nodup_partial` excludes regression measures. Scores are rational numbers computed by functions that are parameters; the order of rows on the console and averages over folds (C105) are not modelled."
  },
  {
   "property": "C115",
   "status": "proved",
   "theorems": [
    "MLRL.ResultFiles.fileName_inj",
    "MLRL.ResultFiles.writeAll_other",
    "MLRL.ResultFiles.written",
    "MLRL.ResultFiles.evaluationFiles_nodup"
   ],
   "note": "The names of files are modelled, without the directory. The rows that are appended to CSV files when evaluating models of different sizes are the subject of C109."
  },
  {
   "property": "C116",
   "status": "partial",
   "theorems": [
    "MLRL.CalibrationOutput.write_nth",
    "MLRL.CalibrationOutput.console_partial",
    "MLRL.CalibrationOutput.csv_mixed_up",
    "MLRL.CalibrationOutput.csv_wrong",
    "MLRL.CalibrationOutput.csv_doubled"
   ],
   "note": "Proved for the console, which is always the first sink (console_partial). False of the code for CSV files: thresholds and probabilities are mixed up (csv_mixed_up says what the file contains, csv_wrong is the negation for all models with a bin), and bins are repeated if the model has been written to the console before (csv_doubled). How tables are converted to text is not modelled."
  },
  {
   "property": "C117",
   "status": "proved",
   "theorems": [
    "MLRL.DataSplitting.crossValidation_folds",
    "MLRL.DataSplitting.crossValidation_predefined",
    "MLRL.DataSplitting.crossValidation_single",
    "MLRL.DataSplitting.crossValidation_succeeds",
    "MLRL.DataSplitting.trainTest_ok",
    "MLRL.DataSplitting.checkIfFilesExist_error",
    "MLRL.DataSplitting.checkIfFilesExist_true",
    "MLRL.DataSplitting.checkIfFilesExist_false",
    "MLRL.DataSplitting.folds_ignored",
    "MLRL.DataSplitting.foldNames_eq",
    "MLRL.DataSplitting.noSplit_ok"
   ],
   "note": "scikit-learn's `train_test_split` and the shuffling of `KFold` are parameters that must yield a partition or a permutation of the indices, respectively; how KFold forms folds is modelled after its documentation. Preprocessing via one-hot encoding (C110) is left out. folds_ignored: files of predefined folds that exceed the given number of folds are ignored."
  },
  {
   "property": "C118",
   "status": "partial",
   "theorems": [
    "MLRL.PythonLearners.configure_partial",
    "MLRL.PythonLearners.configure_nodup",
    "MLRL.PythonLearners.construct_ok",
    "MLRL.PythonLearners.construct_attribute",
    "MLRL.PythonLearners.construct_attribute_only",
    "MLRL.PythonLearners.run_ok",
    "MLRL.PythonLearners.run_partial",
    "MLRL.PythonLearners.random_state_ignored",
    "MLRL.PythonLearners.run_random_state"
   ],
   "note": "False of the code for the random state in case of regression problems, which is accepted but ignored (random_state_ignored, run_random_state): BoomerRegressorConfig does not inherit from RNGMixin. Proved for all other arguments. The argument parser of Python (e.g., abbreviations, conversion of numbers) is only modelled as far as described in Verif/Model/PythonLearners.lean; what the individual parameters do is the subject of C103."
  },
  {
   "property": "C119",
   "status": "partial",
   "theorems": [
    "MLRL.DataSplitOption.create_partial",
    "MLRL.DataSplitOption.random_state_zero",
    "MLRL.DataSplitOption.run_cleared",
    "MLRL.DataSplitOption.run_folds"
   ],
   "note": "False of the code if the random state is zero, which is not rejected but replaced by the default value (random_state_zero); create_partial is proved for all other values. Numbers are parsed by functions that are parameters, and floating point numbers are elements of an ordered field. Subdirectories and failing file operations are not modelled."
  },
  {
   "property": "C120",
   "status": "partial",
   "theorems": [
    "MLRL.PythonPrePruning.configurePrePruning_ok",
    "MLRL.PythonPrePruning.stop_interval_multiple",
    "MLRL.PythonPrePruning.update_interval_alone",
    "MLRL.PythonPrePruning.stop_interval_zero",
    "MLRL.PythonPrePruning.stop_interval_zero_fault",
    "MLRL.PythonPrePruning.min_improvement_nan",
    "MLRL.PythonPrePruning.configurePostPruning_ok"
   ],
   "note": "Proved in full for post-pruning. For pre-pruning, configurePrePruning_ok says exactly which values are accepted: in addition to valid ones, a stop interval of zero (an integer is divided by it later on, stop_interval_zero_fault) and a minimum improvement that is not a number. Numbers are parsed by functions that are parameters."
  },
  {
   "property": "C121",
   "status": "proved",
   "theorems": [
    "MLRL.PythonRuleInduction.configureGreedy_ok",
    "MLRL.PythonRuleInduction.configureBeamSearch_ok",
    "MLRL.PythonRuleInduction.configureGreedy_default"
   ],
   "note": "Numbers are parsed by functions that are parameters. The rounding to the format binary32 is any rounding to nearest."
  },
  {
   "property": "C122",
   "status": "partial",
   "theorems": [
    "MLRL.PythonScalars.set_double_partial",
    "MLRL.PythonScalars.set_ratio_partial",
    "MLRL.PythonScalars.set_exponent_partial",
    "MLRL.PythonScalars.set_ratio_large",
    "MLRL.PythonScalars.set_nan",
    "MLRL.PythonScalars.set_infinite",
    "MLRL.PythonScalars.set_int",
    "MLRL.PythonScalars.set_int_error"
   ],
   "note": "Proved for integers and for finite values of type float64. The claim is false for values that are not numbers, which are accepted by setters with a lower bound that is included (set_nan), and for fractions of type float32 that are rounded to zero or one, which are rejected (set_ratio_large). Arguments of type int given to setters for floating point values are not modelled."
  },
  {
   "property": "C123",
   "status": "proved",
   "theorems": [
    "MLRL.PythonScalarOptions.configureLimits_ok",
    "MLRL.PythonScalarOptions.configureShrinkage_ok",
    "MLRL.PythonScalarOptions.configureRegularization_ok",
    "MLRL.PythonScalarOptions.configureLift_ok",
    "MLRL.PythonScalarOptions.configureHeuristic_ok",
    "MLRL.PythonScalarOptions.configureHeads_ok",
    "MLRL.PythonScalarOptions.configurePostOptimization_ok",
    "MLRL.PythonScalarOptions.configureThreads_ok",
    "MLRL.PythonScalarOptions.configure_default",
    "MLRL.PythonScalarOptions.configureHoldout_training",
    "MLRL.PythonScalarOptions.holdout_default_empty"
   ],
   "note": "Numbers are parsed by functions that are parameters. The roundings to the formats binary32 and binary64 are any roundings to nearest. What remains of a configuration when an exception is raised is not modelled."
  }
 ]
}
