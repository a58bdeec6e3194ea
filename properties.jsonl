{"id": "C01", "title": "Ring buffer keeps the most recent values", "statement": "After any sequence of pushes into a ring buffer of capacity c >= 1, the buffer contains exactly the min(n, c) most recently pushed values (each as often as it was pushed among them), reports that number of elements, reports 'full' exactly when n >= c, and the push that evicts a value returns exactly the value pushed c pushes earlier.", "quantifier": "all capacities >= 1 and all finite sequences of pushed values", "why_tests_cant": "The claim is about every push history; wrap-around can go wrong only after arbitrarily long histories and at arbitrary capacities.", "anchors": ["cpp/subprojects/common/include/mlrl/common/data/ring_buffer.hpp: RingBuffer::RingBuffer, push, getNumElements, isFull, cbegin, cend"]}
{"id": "C02", "title": "Pre-pruning consults a full window before stopping", "statement": "The pre-pruning criterion never requests the induction of rules to stop (or reports a number of used rules) before both score windows (past and recent) are completely filled; it does so exactly at the first assessment on the stop grid where the relative improvement of the recent over the past window is below the configured minimum improvement; the number of used rules it reports is the first rule count at which the lowest hold-out score has been observed since the windows have been filled, and it exceeds the configured minimum number of rules; it stops learning at that point iff unused rules should be removed.", "quantifier": "all parameter settings accepted by the setters and all sequences of rule counts and hold-out scores", "why_tests_cant": "It is a statement about every possible history of scores; the interesting cases depend on the interplay of update interval, stop interval and both buffer sizes.", "anchors": ["cpp/subprojects/common/src/mlrl/common/stopping/global_pruning_pre.cpp: PrePruning::test, PrePruningFactory, PrePruningConfig setters", "cpp/subprojects/common/src/mlrl/common/stopping/aggregation_function_common.hpp"]}
{"id": "C03", "title": "Post-pruning selects the globally best prefix", "statement": "After any number of rules has been learned with post-pruning, the number of used rules that is reported is the smallest rule count >= minRules (on the evaluation grid) whose hold-out score is minimal among all evaluated rule counts; without any evaluation nothing is pruned.", "quantifier": "all intervals, minimum rule counts and all score sequences", "why_tests_cant": "Requires the argmin property for every score history, including ties.", "anchors": ["cpp/subprojects/common/src/mlrl/common/stopping/global_pruning_post.cpp: PostPruning::test, PostPruningConfig"]}
{"id": "C04", "title": "Combination of stopping criteria", "statement": "When several stopping criteria are combined, every criterion is consulted exactly once per test, learning stops iff at least one of them demands it, and the number of used rules is the last non-zero number that has been reported; if each criterion reports numbers that do not exceed the current number of rules, the final model never uses more rules than it has.", "quantifier": "all lists of stopping criteria and all result sequences they produce", "why_tests_cant": "Quantifies over arbitrary lists of criteria and histories.", "anchors": ["cpp/subprojects/common/src/mlrl/common/stopping/stopping_criterion_list.cpp: StoppingCriterionList::test", "cpp/subprojects/common/src/mlrl/common/rule_model_assemblage/rule_model_assemblage_sequential.cpp"]}
{"id": "C05", "title": "Rule limit is respected and learning terminates", "statement": "With a size stopping criterion of maxRules, sequential rule induction always terminates, never produces a model with more than maxRules rules (the default rule counts towards the limit), and stops with fewer only if the rule inducer fails to find another rule or another stopping criterion demands to stop.", "quantifier": "all rule inducers (arbitrary success/failure sequence), all limits, all additional criteria", "why_tests_cant": "Termination and an upper bound for every behaviour of the inner learner cannot be established by finitely many runs.", "anchors": ["cpp/subprojects/common/src/mlrl/common/rule_model_assemblage/rule_model_assemblage_sequential.cpp: SequentialRuleModelAssemblage::induceRules", "cpp/subprojects/common/src/mlrl/common/stopping/stopping_criterion_size.cpp: SizeStoppingCriterion::test"]}
{"id": "C06", "title": "Rule list iteration order and used rules", "statement": "For every sequence of addRule/addDefaultRule/setNumUsedRules calls, iterating over a rule list yields every added rule exactly once, in the order of addition, with the default rule first or last as requested at construction; iterating over used rules with a limit yields precisely the first min(limit, numUsed) rules, where a default rule at the end is always kept and counts towards the limit, provided that numUsed does not exceed the number of rules; getNumRules equals the length of the iteration.", "quantifier": "all call histories and all limits", "why_tests_cant": "Iterator arithmetic over an optional default rule at either end has to be right for every combination of sizes.", "anchors": ["cpp/subprojects/common/src/mlrl/common/model/rule_list.cpp: RuleList::ConstIterator, cbegin, cend, used_cbegin, used_cend, addDefaultRule, addRule, getNumUsedRules, setNumUsedRules"]}
{"id": "C07", "title": "A rule covers an example iff all of its conditions hold", "statement": "A conjunctive body covers a dense example exactly if every condition (numerical <=, >, ordinal <=, >, nominal ==, !=) is satisfied by the example's feature value. A missing (NaN) value satisfies every numerical <= condition and no numerical > condition; testing a missing value with an ordinal or nominal condition is undefined behaviour.", "quantifier": "all bodies, all feature vectors including missing values", "why_tests_cant": "Six kinds of conditions in arbitrary numbers; needs proof for all lists.", "anchors": ["cpp/subprojects/common/src/mlrl/common/model/body_conjunctive.cpp: ConjunctiveBody::covers", "cpp/subprojects/common/src/mlrl/common/model/condition_list.cpp: createConjunctiveBody"]}
{"id": "C08", "title": "Dense and sparse inputs give the same coverage", "statement": "Testing a whole list of rules against a sparse example (indices, values, sparse value, with temporary arrays shared between the rules) yields for every rule the same answer as testing it against the corresponding dense example.", "quantifier": "all rule lists, all sparse rows with distinct indices and all sparse values", "why_tests_cant": "The temporary arrays are re-used without clearing between rules; correctness depends on an invariant over the whole history of earlier rules.", "anchors": ["cpp/subprojects/common/src/mlrl/common/model/body_conjunctive.cpp: covers (sparse)", "cpp/subprojects/boosting/include/mlrl/boosting/prediction/predictor_score_common.hpp: applyRules (CSR)"]}
{"id": "C09", "title": "Copying a condition list preserves it", "statement": "A copy of a condition list yields a body that is satisfied by exactly the same examples as the body created from the original, and building a body never reads or writes outside of its arrays.", "quantifier": "all sequences of conditions added to and removed from the list before copying", "why_tests_cant": "Needs the relation between counters and stored conditions for every add/remove history.", "anchors": ["cpp/subprojects/common/src/mlrl/common/model/condition_list.cpp: ConditionList(const ConditionList&), addCondition, removeLastCondition, createConjunctiveBody"]}
{"id": "C10", "title": "Incremental prediction equals one-shot prediction", "statement": "Applying the rules of a model in any number of incremental steps of arbitrary sizes yields after each step the predictions that a one-shot prediction with the same number of rules yields; the predictor reports the remaining number of rules correctly and never applies a rule twice.", "quantifier": "all models, examples, step size sequences and rule limits", "why_tests_cant": "All partitions of a rule sequence into steps are covered only by a proof.", "anchors": ["cpp/subprojects/common/include/mlrl/common/prediction/predictor_common.hpp: AbstractIncrementalPredictor", "cpp/subprojects/boosting/include/mlrl/boosting/prediction/predictor_score_common.hpp: ScorePredictor", "cpp/subprojects/boosting/include/mlrl/boosting/prediction/predictor_binary_common.hpp"]}
{"id": "C11", "title": "Parallel prediction is schedule independent", "statement": "Predicting in parallel gives every example the prediction it gets sequentially, for every assignment of examples to threads and every order in which threads process them; every thread touches only its own scratch row and the prediction rows of its own examples, and all scratch rows exist.", "quantifier": "all schedules, thread counts, examples and models", "why_tests_cant": "Schedules cannot be enumerated by tests, data races are non-deterministic.", "anchors": ["cpp/subprojects/common/include/mlrl/common/prediction/predictor_common.hpp: PredictionDispatcher::predict, BinarySparsePredictionDispatcher::predict", "cpp/subprojects/boosting/include/mlrl/boosting/prediction/predictor_binary_common.hpp: PredictionDelegate"]}
{"id": "C12", "title": "Sampling without replacement draws distinct indices", "statement": "Drawing k of n indices without replacement yields exactly k pairwise distinct valid indices, whichever of the internal strategies is selected by the ratio k/n and whatever the random number generator returns; with k = n every index is drawn.", "quantifier": "all n, all k <= n, all streams of random numbers", "why_tests_cant": "Three algorithms, chosen by ratio; must hold for each random stream.", "anchors": ["cpp/subprojects/common/src/mlrl/common/sampling/index_sampling.hpp: sampleIndicesWithoutReplacement*"]}
{"id": "C13", "title": "Instance weights account for every drawn sample", "statement": "Instance sampling with replacement produces weights that sum up to the number of drawn samples with the reported number of non-zero weights; without replacement it yields 0/1 weights with exactly numSamples ones, among the training examples only. Stratified sampling selects of each stratum the given fraction, rounded up or down.", "quantifier": "all numbers of examples, sample sizes and random streams", "why_tests_cant": "Counts must be right for each random stream.", "anchors": ["cpp/subprojects/common/include/mlrl/common/sampling/weight_sampling.hpp", "cpp/subprojects/common/src/mlrl/common/sampling/instance_sampling_with_replacement.cpp", "cpp/subprojects/common/src/mlrl/common/sampling/instance_sampling_without_replacement.cpp"]}
{"id": "C14", "title": "Hold-out split is a partition", "statement": "Splitting examples into training and hold-out set, randomly or stratified by label vectors, yields two disjoint sets that together contain every example exactly once and have exactly the configured sizes, for every random stream and also when re-partitioning repeatedly. The strata used for stratification contain each example exactly once and two examples share a stratum iff their label vectors are equal.", "quantifier": "all numbers of examples, hold-out sizes, random streams and re-partitioning histories", "why_tests_cant": "Randomised and stateful.", "anchors": ["cpp/subprojects/common/src/mlrl/common/sampling/partition_sampling_bi_random.cpp", "cpp/subprojects/common/src/mlrl/common/sampling/partition_bi.cpp: BiPartition", "cpp/subprojects/common/src/mlrl/common/sampling/stratified_sampling_example_wise.cpp"]}
{"id": "C15", "title": "Random numbers stay in range", "statement": "randomInt(min, max) returns a value in [min, max) for all min < max and every seed, the generator never gets stuck (its internal state stays non-zero), and equal seeds give equal sequences.", "quantifier": "all 32-bit states, all ranges", "why_tests_cant": "2^32 states times all ranges; bit-level reasoning needed.", "anchors": ["cpp/subprojects/common/src/mlrl/common/random/rng.cpp: RNG::randomInt, randomBool"]}
{"id": "C16", "title": "Round-robin output sampling is fair", "statement": "In any numOutputs consecutive calls round-robin sampling returns every output exactly once, in cyclic order.", "quantifier": "all numbers of outputs >= 1 and all positions in the call history", "why_tests_cant": "Statement about every window of an unbounded history.", "anchors": ["cpp/subprojects/common/src/mlrl/common/sampling/output_sampling_round_robin.cpp: sample"]}
{"id": "C17", "title": "Bounded fractions respect their bounds", "statement": "The number computed from a fraction of n with a lower and an upper bound is at least min(minimum, n), at most the maximum (if maximum >= minimum), monotone in n, and it is never larger than n for fractions <= 1.", "quantifier": "all n, fractions in (0,1], minima and maxima", "why_tests_cant": "Rounding and bound interplay for all numbers.", "anchors": ["cpp/subprojects/common/include/mlrl/common/util/math.hpp: calculateBoundedFraction"]}
{"id": "C18", "title": "Sparse score rows behave like a map", "statement": "For every history of emplace / add / erase / clear operations a row of a sparse-set matrix contains precisely the entries that a finite map from column to value would contain after the same history; lookups of absent columns return nothing and no entry is duplicated.", "quantifier": "all operation histories, all columns", "why_tests_cant": "Swap-with-last deletion corrupts index tables only under particular histories.", "anchors": ["cpp/subprojects/common/include/mlrl/common/data/view_vector_sparse_set.hpp: operator[], emplace, erase, clear", "cpp/subprojects/boosting/src/mlrl/boosting/data/matrix_sparse_set_numeric.cpp"]}
{"id": "C19", "title": "Bit vectors store independent bits", "statement": "Setting bit i of a bit vector changes bit i only, reading returns the last value set (false initially), and no access to a valid position leaves the allocated words.", "quantifier": "all sizes, positions and histories", "why_tests_cant": "Word/offset arithmetic for all sizes.", "anchors": ["cpp/subprojects/common/src/mlrl/common/data/vector_bit.cpp: BitVector"]}
{"id": "C20", "title": "Sparse iterators reproduce the dense row", "statement": "Iterating over a sparse binary (or valued) row with a forward iterator yields at step j the value the dense row has at column j; iterating over the non-zero indices of a dense or sparse row yields exactly the columns with non-zero values in increasing order.", "quantifier": "all strictly increasing index lists and all row widths", "why_tests_cant": "Look-ahead logic at the ends of rows of any width.", "anchors": ["cpp/subprojects/common/include/mlrl/common/iterator/iterator_forward_sparse_binary.hpp", "cpp/subprojects/common/include/mlrl/common/iterator/iterator_forward_sparse.hpp", "cpp/subprojects/common/include/mlrl/common/iterator/iterator_forward_non_zero_index.hpp"]}
{"id": "C21", "title": "Coverage mask marks exactly the covered examples", "statement": "After any sequence of conditions has been applied to a feature subspace, the coverage mask reports an example as covered iff it satisfies every condition applied since the last reset; resetting makes all examples covered again.", "quantifier": "all condition sequences, all examples, all reset points", "why_tests_cant": "The mask uses indicator values instead of clearing; staleness bugs need histories.", "anchors": ["cpp/subprojects/common/src/mlrl/common/rule_refinement/coverage_mask.cpp: CoverageMask", "cpp/subprojects/common/src/mlrl/common/rule_refinement/feature_space_tabular.cpp: filterSubspace, resetSubspace", "cpp/subprojects/common/src/mlrl/common/input/feature_vector_decorator_numerical.hpp: updateCoverageMaskAndStatistics"]}
{"id": "C22", "title": "Applying and reverting a prediction cancel out", "statement": "Applying the prediction of a rule adds it to the current scores of exactly the covered examples, for any thread schedule, and reverting it restores the scores (in exact arithmetic) whatever was applied in between.", "quantifier": "all predictions (complete and partial), coverage masks, schedules, interleaved other predictions", "why_tests_cant": "Histories and schedules are unbounded.", "anchors": ["cpp/subprojects/common/src/mlrl/common/rule_refinement/feature_space_tabular.cpp: applyPrediction, revertPrediction", "cpp/subprojects/boosting/src/mlrl/boosting/data/matrix_c_contiguous_numeric.cpp", "cpp/subprojects/boosting/src/mlrl/boosting/data/matrix_sparse_set_numeric.cpp"]}
{"id": "C23", "title": "Statistics are updated exactly for the examples the final rule covers", "statement": "When a rule has been added to the model, the scores that the learner maintains for each training example equal the sum of the heads of all rules in the model that cover the example, i.e. what the predictor would output for it.", "quantifier": "all sequences of induced rules, with and without pruning", "why_tests_cant": "Relates learner state and predictor output over a whole training run; only violated when pruning shortens a rule.", "anchors": ["cpp/subprojects/common/src/mlrl/common/rule_induction/rule_induction_common.hpp: induceRule", "cpp/subprojects/common/src/mlrl/common/rule_pruning/rule_pruning_irep.cpp: prune", "cpp/subprojects/boosting/include/mlrl/boosting/prediction/predictor_score_common.hpp"]}
{"id": "C24", "title": "Parallel rule refinement is deterministic", "statement": "The refinement that is selected when the features are searched by several threads equals the one selected by a sequential search in feature order: the first one of best quality; it does not depend on the schedule.", "quantifier": "all schedules, numbers of features, refinement qualities including ties", "why_tests_cant": "Schedules are not enumerable and ties are where it breaks.", "anchors": ["cpp/subprojects/common/src/mlrl/common/rule_refinement/rule_refinement_statistics_based.cpp: findRefinement", "cpp/subprojects/common/src/mlrl/common/rule_refinement/refinement_comparator_single.cpp: pushRefinement, merge"]}
{"id": "C25", "title": "k-best refinement comparator keeps the k best refinements", "statement": "After any sequence of pushed refinements (of which only improvements over the reported minimum are pushed) the fixed-size comparator holds the k best refinements seen, ordered from best to worst.", "quantifier": "all k >= 1 and all sequences of qualities", "why_tests_cant": "Argument over arbitrary sequences with ties and a moving admission threshold.", "anchors": ["cpp/subprojects/common/src/mlrl/common/rule_refinement/refinement_comparator_fixed.cpp: isImprovement, pushRefinement, merge"]}
{"id": "C26", "title": "Greedy rule growing strictly improves", "statement": "Each condition that greedy top-down induction adds yields a refinement strictly better than the one before, the resulting rule has at most maxConditions conditions (if limited), every condition added covers at least minCoverage examples provided the search guarantees so, and the returned head is that of the best refinement found.", "quantifier": "all search results at each step, all limits", "why_tests_cant": "Quantifies over arbitrary behaviours of the inner search and unbounded numbers of steps.", "anchors": ["cpp/subprojects/common/src/mlrl/common/rule_induction/rule_induction_top_down_greedy.cpp: growRule"]}
{"id": "C27", "title": "Numerical search reports what its condition covers", "statement": "Every refinement that the search on a numerical feature proposes reports as number of covered examples, and evaluates on, exactly the examples with non-zero weight that satisfy the proposed condition.", "quantifier": "all sorted feature vectors (dense/sparse), all weights, all thresholds", "why_tests_cant": "Loops over runs of equal values with weights; all inputs required.", "anchors": ["cpp/subprojects/common/src/mlrl/common/input/feature_based_search_numerical.hpp: searchForNumericalRefinementInternally"]}
{"id": "C28", "title": "Nominal and binary search report what their condition covers", "statement": "Every refinement that the search on a nominal or binary feature proposes (== or !=) reports and is evaluated on exactly the weighted examples satisfying the condition.", "quantifier": "all nominal vectors, all weights, presence of a majority value and of missing values", "why_tests_cant": "All inputs required.", "anchors": ["cpp/subprojects/common/src/mlrl/common/input/feature_based_search_nominal.hpp", "cpp/subprojects/common/src/mlrl/common/input/feature_based_search_binary.hpp"]}
{"id": "C29", "title": "Ordinal search reports what its condition covers", "statement": "Every refinement that the search on an ordinal feature proposes (<= or >) reports and is evaluated on exactly the weighted examples satisfying the condition.", "quantifier": "all ordinal vectors, weights, majority values", "why_tests_cant": "All inputs required.", "anchors": ["cpp/subprojects/common/src/mlrl/common/input/feature_based_search_ordinal.hpp"]}
{"id": "C30", "title": "Covered plus uncovered statistics equal the total", "statement": "At any time during the search the statistics reported for the covered and the uncovered side of a candidate condition add up to the statistics of all examples in the subspace without excluded (missing) examples, for accumulated and non-accumulated subsets.", "quantifier": "all histories of addToSubset / resetSubset / excluded examples, all weights", "why_tests_cant": "An invariant over arbitrary call histories.", "anchors": ["cpp/subprojects/boosting/src/mlrl/boosting/statistics/statistics_common.hpp: WeightedStatisticsSubset", "cpp/subprojects/seco/src/mlrl/seco/statistics/statistics_common.hpp"]}
{"id": "C31", "title": "Sparse statistics represent the dense ones", "statement": "A sparse vector of gradients and Hessians yields, at each position, the same sums as the dense vector that receives the same weighted examples, where absent entries stand for gradient 0 and Hessian 1.", "quantifier": "all histories of additions and removals, all weights", "why_tests_cant": "Invariant over histories, implicit Hessian bookkeeping.", "anchors": ["cpp/subprojects/boosting/src/mlrl/boosting/data/vector_statistic_decomposable_sparse.cpp"]}
{"id": "C32", "title": "Closed-form scores minimise the regularised loss", "statement": "The score computed for an output from summed gradient and Hessian minimises the L1/L2-regularised quadratic approximation of the loss, and the reported quality is the minimum, hence never positive.", "quantifier": "all gradients, positive Hessians and non-negative regularisation weights", "why_tests_cant": "Optimality over a continuum of alternatives.", "anchors": ["cpp/subprojects/boosting/src/mlrl/boosting/rule_evaluation/rule_evaluation_decomposable_common.hpp: calculateOutputWiseScore, calculateOutputWiseQuality, getL1RegularizationWeight"]}
{"id": "C33", "title": "Gradients and Hessians are the derivatives of the loss", "statement": "For every differentiable loss, gradient and Hessian computed for a score are the first and second derivative of the value the evaluation measure of the same loss assigns (up to the documented constant factor).", "quantifier": "all real scores and both label values (or real targets)", "why_tests_cant": "Statement about real functions at all points.", "anchors": ["cpp/subprojects/boosting/src/mlrl/boosting/losses/loss_decomposable_logistic.cpp", "cpp/subprojects/boosting/src/mlrl/boosting/losses/loss_decomposable_squared_error.cpp", "cpp/subprojects/boosting/src/mlrl/boosting/losses/loss_decomposable_squared_hinge.cpp", "cpp/subprojects/boosting/src/mlrl/boosting/losses/loss_non_decomposable_logistic.cpp", "cpp/subprojects/boosting/src/mlrl/boosting/losses/loss_non_decomposable_squared_error.cpp"]}
{"id": "C34", "title": "Evaluation measures average over outputs and vanish on perfect predictions", "statement": "The loss of an example is the arithmetic mean over all outputs of the output-wise losses, computed incrementally; it is non-negative, zero for a perfect prediction (squared error/hinge), and the sparse implementation returns the value of the dense one.", "quantifier": "all numbers of outputs, scores, labels", "why_tests_cant": "All sizes, iterative mean, sparse merge.", "anchors": ["cpp/subprojects/boosting/src/mlrl/boosting/losses/loss_decomposable_common.hpp: evaluate", "cpp/subprojects/boosting/src/mlrl/boosting/losses/loss_decomposable_sparse_common.hpp: evaluate", "cpp/subprojects/boosting/src/mlrl/boosting/losses/loss_non_decomposable_squared_error.cpp"]}
{"id": "C35", "title": "Updating statistics of some outputs touches only those outputs", "statement": "Updating gradients and Hessians for a subset of outputs sets exactly the entries of these outputs to the values a complete update would compute and leaves all others unchanged.", "quantifier": "all index subsets, losses, label matrices", "why_tests_cant": "All subsets; wrong indices show only for particular subsets.", "anchors": ["cpp/subprojects/boosting/src/mlrl/boosting/losses/loss_decomposable_common.hpp: updateDecomposableStatistics (partial)", "cpp/subprojects/boosting/src/mlrl/boosting/losses/loss_decomposable_sparse_common.hpp"]}
{"id": "C36", "title": "GFM predicts the label set with maximum expected F1", "statement": "Given a probability distribution over label vectors, the GFM transformation predicts a label set whose expected example-wise F1 measure is at least that of every one of the 2^L label sets, and dense and sparse output agree.", "quantifier": "all finite distributions over label vectors, all label set sizes", "why_tests_cant": "Optimality over exponentially many alternatives.", "anchors": ["cpp/subprojects/boosting/src/mlrl/boosting/prediction/transformation_binary_gfm.cpp"]}
{"id": "C37", "title": "Example-wise prediction returns a closest known label vector", "statement": "The example-wise binary prediction is always one of the label vectors seen in training and no known label vector has a smaller distance to the predicted scores; ties go to the more frequent / earlier one as documented.", "quantifier": "all label vector sets, scores and distance measures", "why_tests_cant": "Optimality over all known label vectors, all inputs.", "anchors": ["cpp/subprojects/boosting/src/mlrl/boosting/prediction/transformation_binary_example_wise.cpp", "cpp/subprojects/boosting/include/mlrl/boosting/losses/loss.hpp", "cpp/subprojects/common/include/mlrl/common/measures/measure_distance.hpp"]}
{"id": "C38", "title": "Label vector set lists each distinct label vector once with its frequency", "statement": "The set of label vectors extracted from a label matrix contains every distinct row exactly once, with its number of occurrences; frequencies sum to the number of examples, for dense and sparse label matrices alike.", "quantifier": "all label matrices", "why_tests_cant": "Hash-based deduplication must be right for all matrices and all hash collisions.", "anchors": ["cpp/subprojects/common/src/mlrl/common/prediction/label_vector_set.cpp: LabelVectorSet", "cpp/subprojects/common/include/mlrl/common/input/label_vector.hpp"]}
{"id": "C39", "title": "Marginalised probabilities are marginals of the joint distribution", "statement": "The probability predicted for a label is the sum of the normalised joint probabilities of the known label vectors that contain it; it lies in [0,1] and equals 0 if no known label vector contains the label.", "quantifier": "all label vector sets and joint probabilities", "why_tests_cant": "All finite distributions.", "anchors": ["cpp/subprojects/boosting/src/mlrl/boosting/prediction/transformation_probability_marginalized.cpp"]}
{"id": "C40", "title": "Calibrated probabilities are monotone and valid", "statement": "A fitted isotonic calibration model has strictly increasing thresholds and non-decreasing calibrated values in [0,1], and calibrating maps larger input probabilities to larger or equal outputs in [0,1].", "quantifier": "all training score/label lists, all query probabilities", "why_tests_cant": "Pool-adjacent-violators has data dependent merges; monotonicity over all pairs.", "anchors": ["cpp/subprojects/common/src/mlrl/common/prediction/probability_calibration_isotonic.cpp: fit, calibrateProbability", "cpp/subprojects/boosting/src/mlrl/boosting/prediction/probability_calibration_isotonic.cpp"]}
{"id": "C41", "title": "Label binning assigns every label to an existing bin", "statement": "Equal-width label binning maps each label to a bin index smaller than the number of allocated bins, labels with larger criteria never get into a bin with smaller index within the positive (negative) group, and no computation divides by zero.", "quantifier": "all criteria vectors and all accepted binning configurations", "why_tests_cant": "Boundary values and configurations for all vectors.", "anchors": ["cpp/subprojects/boosting/src/mlrl/boosting/binning/label_binning_equal_width.cpp: getMaxBins, getLabelInfo, createBins", "cpp/subprojects/boosting/src/mlrl/boosting/rule_evaluation/rule_evaluation_decomposable_binned_common.hpp"]}
{"id": "C42", "title": "Partial heads contain the outputs with the best scores", "statement": "A fixed-size partial head predicts for the k outputs with the largest absolute scores; a single-output head predicts for an output of largest absolute score; a dynamic head predicts for exactly those outputs whose weighted score reaches the threshold and always for the best one.", "quantifier": "all statistic vectors and head sizes", "why_tests_cant": "Selection optimality for all vectors.", "anchors": ["cpp/subprojects/boosting/src/mlrl/boosting/rule_evaluation/rule_evaluation_decomposable_partial_fixed_common.hpp", "cpp/subprojects/boosting/src/mlrl/boosting/rule_evaluation/rule_evaluation_decomposable_single.cpp", "cpp/subprojects/boosting/src/mlrl/boosting/rule_evaluation/rule_evaluation_decomposable_partial_dynamic_common.hpp"]}
{"id": "C43", "title": "Separate-and-conquer coverage bookkeeping", "statement": "After any history of applied and reverted rules the coverage of a label cell equals the number of applied rules that cover the example and predict the minority value of the label, the sum of uncovered weights equals its initial value minus the number of covered cells, and reverting undoes applying.", "quantifier": "all histories of rules and predictions", "why_tests_cant": "Invariant over unbounded histories.", "anchors": ["cpp/subprojects/seco/src/mlrl/seco/data/matrix_coverage_dense.cpp: increaseCoverage, decreaseCoverage"]}
{"id": "C44", "title": "Coverage stopping criterion stops exactly when enough labels are covered", "statement": "Rule induction stops if and only if the number of uncovered minority labels in the training data is at most the threshold.", "quantifier": "all histories and label matrices", "why_tests_cant": "Depends on bookkeeping over the whole history.", "anchors": ["cpp/subprojects/seco/src/mlrl/seco/stopping/stopping_criterion_coverage.cpp", "cpp/subprojects/seco/src/mlrl/seco/data/matrix_coverage_dense.cpp", "cpp/subprojects/seco/src/mlrl/seco/statistics/statistics_provider_decomposable_dense.cpp"]}
{"id": "C45", "title": "Decision list semantics of separate-and-conquer predictions", "statement": "The prediction for a label is determined by the first rule in the list that covers the example and predicts this label (the default rule last); dense and sparse predictors agree.", "quantifier": "all rule lists, examples", "why_tests_cant": "All rule lists.", "anchors": ["cpp/subprojects/seco/src/mlrl/seco/prediction/predictor_binary_output_wise.cpp: applyHead, predictForExample"]}
{"id": "C46", "title": "Heuristics are well-behaved", "statement": "Each heuristic returns a value in [0,1], returns 0 if nothing is covered, and is invariant under swapping positive and negative labels together with predictions, as the interface documents.", "quantifier": "all confusion matrices with non-negative entries", "why_tests_cant": "Continuum of inputs, division by zero corner cases.", "anchors": ["cpp/subprojects/seco/include/mlrl/seco/heuristics/heuristic.hpp", "cpp/subprojects/seco/src/mlrl/seco/heuristics/heuristic_accuracy.cpp", "cpp/subprojects/seco/src/mlrl/seco/heuristics/heuristic_f_measure.cpp", "cpp/subprojects/seco/src/mlrl/seco/heuristics/heuristic_laplace.cpp", "cpp/subprojects/seco/src/mlrl/seco/heuristics/heuristic_m_estimate.cpp", "cpp/subprojects/seco/src/mlrl/seco/heuristics/heuristic_common.hpp"]}
{"id": "C47", "title": "Partial head evaluation finds the best label subset", "statement": "The multi-label head chosen for a rule has the maximum lifted quality among all non-empty subsets of labels, although the search considers only sorted prefixes and stops early.", "quantifier": "all quality vectors in [0,1] and all admissible lift functions", "why_tests_cant": "Optimality over exponentially many subsets with pruning.", "anchors": ["cpp/subprojects/seco/src/mlrl/seco/rule_evaluation/rule_evaluation_decomposable_partial.cpp: calculateScores", "cpp/subprojects/seco/src/mlrl/seco/lift_functions/lift_function_kln.cpp"]}
{"id": "C48", "title": "Lift functions are bounded by their reported maximum", "statement": "For every number of labels n, the lift is at least 1 and the maximum lift reported for n is at least the lift of every m >= n up to the number of labels.", "quantifier": "all parameter settings and numbers of labels", "why_tests_cant": "All n and parameters; floating-point shape functions.", "anchors": ["cpp/subprojects/seco/src/mlrl/seco/lift_functions/lift_function_kln.cpp", "cpp/subprojects/seco/src/mlrl/seco/lift_functions/lift_function_no.cpp", "cpp/subprojects/seco/src/mlrl/seco/lift_functions/lift_function_peak.cpp"]}
{"id": "C49", "title": "Confusion matrices sum up to the total weight", "statement": "The confusion matrix of a label, accumulated for a set of examples, has entries that add up to the total weight of the examples whose label is not yet covered, and covered plus uncovered confusion matrices add up to that of all examples.", "quantifier": "all label matrices, weights, subsets", "why_tests_cant": "Invariant over histories.", "anchors": ["cpp/subprojects/seco/src/mlrl/seco/data/vector_confusion_matrix_dense.cpp", "cpp/subprojects/seco/include/mlrl/seco/data/confusion_matrix.hpp"]}
{"id": "C50", "title": "Sorting a partial head keeps index/value pairs together", "statement": "Sorting the outputs of a partial prediction yields increasing indices and moves every score along with its output index.", "quantifier": "all partial predictions", "why_tests_cant": "In-place cyclic permutation must be right for all permutations.", "anchors": ["cpp/subprojects/common/src/mlrl/common/rule_refinement/prediction_partial.cpp: sort"]}
{"id": "C51", "title": "Sequential post-optimisation keeps model and statistics consistent", "statement": "Replacing rules one by one during post-optimisation leaves the number of rules unchanged and, at the end, the statistics reflect exactly the rules in the model.", "quantifier": "all models, iterations, inducer outcomes (including failure to find a replacement)", "why_tests_cant": "Depends on inducer outcomes at every step.", "anchors": ["cpp/subprojects/common/src/mlrl/common/post_optimization/post_optimization_sequential.cpp", "cpp/subprojects/common/src/mlrl/common/post_optimization/model_builder_intermediate.cpp"]}
{"id": "C52", "title": "Unused-rule removal does not change predictions", "statement": "Removing unused rules in the post-optimisation phase leaves the sequence of used rules, and thereby every prediction, unchanged.", "quantifier": "all models and numbers of used rules", "why_tests_cant": "All histories.", "anchors": ["cpp/subprojects/common/src/mlrl/common/post_optimization/post_optimization_unused_rule_removal.cpp", "cpp/subprojects/common/src/mlrl/common/post_optimization/model_builder_intermediate.cpp"]}
{"id": "C53", "title": "Accepted configurations are consistent", "statement": "Whatever sequence of setter calls is accepted, the resulting configuration satisfies the documented relations between parameters (minimum <= maximum or maximum disabled, stop interval a multiple of the update interval, ratios in range).", "quantifier": "all sequences of setter calls", "why_tests_cant": "Order-dependent validation requires reasoning over all sequences.", "anchors": ["cpp/subprojects/common/src/mlrl/common/stopping/global_pruning_pre.cpp: setUpdateInterval, setStopInterval", "cpp/subprojects/common/src/mlrl/common/sampling/instance_sampling_without_replacement.cpp: setMinSamples, setMaxSamples", "cpp/subprojects/boosting/src/mlrl/boosting/binning/label_binning_equal_width.cpp"]}
{"id": "C54", "title": "Joint label-vector calibration compares whole label vectors", "statement": "When fitting joint probabilities, the true probability of a label vector for an example is 1 exactly if the example's label vector equals that label vector.", "quantifier": "all label matrices and label vectors", "why_tests_cant": "Prefix relations between label vectors appear only in particular data.", "anchors": ["cpp/subprojects/boosting/src/mlrl/boosting/prediction/probability_calibration_isotonic.cpp: areLabelVectorsEqual"]}
{"id": "C55", "title": "Feature binning puts every value into a bin whose condition it satisfies", "statement": "With equal-width or equal-frequency binning of a feature, the examples assigned to bins up to b are exactly those whose value satisfies the condition 'value <= threshold of b' that the search would propose.", "quantifier": "all feature vectors and bin counts", "why_tests_cant": "Boundary values for all vectors.", "anchors": ["cpp/subprojects/common/src/mlrl/common/input/feature_binning_equal_width.cpp", "cpp/subprojects/common/src/mlrl/common/input/feature_binning_equal_frequency.cpp", "cpp/subprojects/common/src/mlrl/common/input/feature_vector_binned_allocated.hpp"]}
{"id": "C56", "title": "IREP pruning never worsens the rule on the pruning set", "statement": "Pruning a rule removes a trailing sequence of conditions only, never all of them, and the quality of the pruned rule on the pruning examples is at least as good as that of the original rule and of any other candidate considered.", "quantifier": "all rules and evaluations", "why_tests_cant": "All condition lists and all evaluation outcomes.", "anchors": ["cpp/subprojects/common/src/mlrl/common/rule_pruning/rule_pruning_irep.cpp: prune"]}
{"id": "C57", "title": "Time limit counts from the first test", "statement": "The time stopping criterion never stops learning at its first test, and each later test demands to stop iff at least the configured number of seconds has passed since the first test, regardless of when the criterion was created.", "quantifier": "all time limits and all sequences of clock readings", "why_tests_cant": "Depends on arbitrary sequences of clock readings, which a test cannot control.", "anchors": ["cpp/subprojects/common/src/mlrl/common/stopping/stopping_criterion_time.cpp: TimeStoppingCriterion::test"]}
{"id": "C58", "title": "Sorted views of a hold-out split stay sorted", "statement": "After sortFirst()/sortSecond() of a BiPartition the indices in the respective set are in increasing order, also if the partition has been drawn anew in between.", "quantifier": "all partitions and histories of drawing and sorting", "why_tests_cant": "Depends on cached flags across calls.", "anchors": ["cpp/subprojects/common/src/mlrl/common/sampling/partition_bi.cpp: sortFirst, sortSecond, partition"]}
{"id": "C59", "title": "Statistics marked as covered are those of the covered examples", "statement": "While conditions are added to a feature subspace, the sum of the weighted statistics that are marked as covered equals the sum over exactly the examples that satisfy all conditions.", "quantifier": "all condition sequences, all feature types, all statistics", "why_tests_cant": "Invariant over histories of additions and removals; violated only by resets and by missing values of nominal features.", "anchors": ["cpp/subprojects/common/src/mlrl/common/rule_refinement/feature_space_tabular.cpp: filterSubspace, resetSubspace", "cpp/subprojects/common/src/mlrl/common/input/feature_vector_decorator_nominal.hpp: createFilteredNominalFeatureVectorDecorator"]}
{"id": "C60", "title": "Filtered feature vectors contain exactly the covered examples", "statement": "A vector provided to the search for refinements consists of exactly those entries of the original vector that belong to examples covered by the current conditions, in the same order, no matter how the cached vectors have been filtered before; or the feature is excluded from the search.", "quantifier": "all histories of filtering, copying and resetting a subspace, all feature types besides binned ones", "why_tests_cant": "Caches are filtered lazily by mask or by interval; all interleavings matter.", "anchors": ["cpp/subprojects/common/src/mlrl/common/rule_refinement/feature_space_tabular.cpp: Callback::invoke", "cpp/subprojects/common/src/mlrl/common/input/feature_vector_decorator_numerical.hpp"]}
{"id": "C61", "title": "Joint scores minimise the quadratic approximation with the full Hessian matrix", "statement": "The scores predicted for several outputs by the rule evaluation for non-decomposable losses minimise the L1/L2-regularised quadratic approximation that is given by the gradients and the full Hessian matrix of the outputs the head predicts for, and the reported quality is the value of that function.", "quantifier": "all gradients, Hessian matrices for which the regularised matrix is positive semi-definite, non-negative regularisation weights, heads and contents of the temporary arrays", "why_tests_cant": "Optimality over a continuum of alternatives and packing of triangular matrices for all sizes.", "anchors": ["cpp/subprojects/boosting/src/mlrl/boosting/rule_evaluation/rule_evaluation_non_decomposable_complete_common.hpp", "cpp/subprojects/boosting/src/mlrl/boosting/rule_evaluation/rule_evaluation_non_decomposable_partial_fixed.cpp", "cpp/subprojects/boosting/src/mlrl/boosting/rule_evaluation/rule_evaluation_non_decomposable_partial_dynamic.cpp"]}
{"id": "C62", "title": "Binned rule evaluation aggregates statistics per bin and is optimal among scores that are equal within bins", "statement": "The binned rule evaluations for decomposable losses predict the same score for all outputs in a bin, the quality is the value of the regularised quadratic approximation for the predicted scores and no other scores that are equal for the outputs in each bin achieve a smaller value.", "quantifier": "all gradients, Hessians, regularisation weights, binning configurations, heads and contents of the temporary arrays", "why_tests_cant": "Optimality over a continuum of alternatives for all assignments of outputs to bins.", "anchors": ["cpp/subprojects/boosting/src/mlrl/boosting/rule_evaluation/rule_evaluation_decomposable_binned_common.hpp", "cpp/subprojects/boosting/src/mlrl/boosting/rule_evaluation/rule_evaluation_decomposable_partial_fixed_binned.cpp", "cpp/subprojects/boosting/src/mlrl/boosting/rule_evaluation/rule_evaluation_decomposable_partial_dynamic_binned.cpp"]}
{"id": "C63", "title": "Extraction of bins for calibration does not depend on data formats", "statement": "The bins that are extracted for fitting a calibration model for marginal probabilities consist, for each label, of one bin per example that combines the marginal probability with the true label, regardless of whether labels are stored in a dense or CSR matrix and of whether scores are dense or sparse.", "quantifier": "all label matrices, score matrices and partitions of the examples", "why_tests_cant": "Which examples lack a score for which label depends on the rules; the four variants of the code are only selected for particular formats.", "anchors": ["cpp/subprojects/boosting/src/mlrl/boosting/prediction/probability_calibration_isotonic.cpp: extractThresholdsAndProbabilities"]}
{"id": "C64", "title": "Heuristics are gain metrics", "statement": "If a rule covers, in addition, labels for which its prediction is correct, no heuristic decreases; if it covers, in addition, labels for which its prediction is incorrect, no heuristic increases.", "quantifier": "all heuristics with all accepted parameters, all non-negative confusion matrices, all amounts of weight that are moved from the uncovered to the covered elements", "why_tests_cant": "Tests evaluate few fixed confusion matrices; monotonicity is a statement about all pairs of matrices.", "anchors": ["cpp/subprojects/seco/src/mlrl/seco/heuristics/heuristic_common.hpp:11-37", "cpp/subprojects/seco/src/mlrl/seco/heuristics/heuristic_m_estimate.cpp:24-46", "cpp/subprojects/seco/src/mlrl/seco/heuristics/heuristic_f_measure.cpp:24-42"]}
{"id": "C65", "title": "Refinement search over binned features evaluates each candidate on the examples it covers", "statement": "When searching for refinements by a feature whose values have been assigned to bins, each candidate that is considered reports the number of examples that satisfy its condition, is evaluated on the sum of the statistics of exactly these examples, and its interval of bins and threshold describe them; in particular, its threshold exists.", "quantifier": "all numbers of bins, all assignments of examples to bins that are consistent with the thresholds, all indices of the bin for sparse values, weights and statistics", "why_tests_cant": "It depends on the interplay of empty subsets, the accumulated totals of two scans, weights that are zero and the position of the bin for sparse values; a candidate evaluated on the wrong statistics still yields a valid rule, so no test fails.", "anchors": ["cpp/subprojects/common/src/mlrl/common/input/feature_based_search_binned.hpp"]}
{"id": "C66", "title": "Filtering a binned feature vector keeps its bins consistent with its thresholds", "statement": "If a feature vector whose values have been assigned to bins is filtered by the interval of a condition or by a coverage mask, the result contains exactly the covered examples, each bin is separated from the next one by a threshold that lies between their values, bins without covered examples are removed, and the bin for sparse values remains the bin for sparse values; no element of an array that does not exist is accessed.", "quantifier": "all vectors whose bins are consistent with their thresholds, all intervals of conditions, all coverage masks, filtering in place or into a new vector, arbitrary sequences of such filters", "why_tests_cant": "The result of one filter is the input of the next one; a bin, a threshold or the index of the bin for sparse values that is off by one results in valid rules with different coverage, and depends on which bins become empty in which order.", "anchors": ["cpp/subprojects/common/src/mlrl/common/input/feature_vector_decorator_binned.hpp"]}
{"id": "C67", "title": "A beam search keeps a bounded set of consistently refined rules and terminates", "statement": "When a rule is induced via a beam search, each entry of the beam corresponds to a sequence of refinements: its conditions, its subspace and its head are those that result from applying these refinements one after the other, pointers to outputs are never dangling, there are never more entries than allowed and never fewer than before, no entry is worse than the worst one before, the rule respects the limits on conditions, coverage and heads, the best entry is returned and the search terminates; the scores of examples change by the prediction of the rule for exactly the examples it covers.", "quantifier": "all beam widths, limits, subspaces, candidates, schedules of the parallel search, sorting functions that meet the specification of std::sort and quality measures that are strict weak orders", "why_tests_cant": "The entries of a beam are moved and overwritten in place; entries that share or lose conditions result in rules that are valid but do not correspond to the statistics they have been evaluated on. Which entries are overwritten depends on the order in which refinements are found.", "anchors": ["cpp/subprojects/common/src/mlrl/common/rule_induction/rule_induction_top_down_beam_search.cpp"]}
{"id": "C68", "title": "With label binning, joint scores minimise the approximated loss among scores that are equal within each bin", "statement": "For non-decomposable loss functions, a rule evaluation that assigns labels to bins predicts the same score for all labels in the same bin and zero for labels without bin; bins without labels are removed without mixing up the remaining ones; the quality is the value of the regularised quadratic approximation of the loss for the predicted scores, and no other scores that are equal within bins are better; no array is left, and it fails only if no solution is found.", "quantifier": "all numbers of labels and bins, all gradients and Hessian matrices, regularisation weights and previous contents of the arrays", "why_tests_cant": "Gradients and Hessians are aggregated in place, bins are renumbered while labels are already assigned to the old numbers, and the arrays are reused; a wrong entry of the aggregated Hessian matrix yields scores that are slightly worse, but plausible.", "anchors": ["cpp/subprojects/boosting/src/mlrl/boosting/rule_evaluation/rule_evaluation_non_decomposable_binned_common.hpp", "cpp/subprojects/boosting/src/mlrl/boosting/rule_evaluation/rule_evaluation_non_decomposable_partial_fixed_binned.cpp", "cpp/subprojects/boosting/src/mlrl/boosting/rule_evaluation/rule_evaluation_non_decomposable_partial_dynamic_binned.cpp"]}
{"id": "C69", "title": "Feature vectors represent the columns of a feature matrix", "statement": "The feature vector that is created from a column of a dense or sparse feature matrix represents exactly the values in this column: each example is in the bin of its (integral) value, or it has the majority value and is in no bin, or its value is missing and is recorded as such; bins have different values, are not empty and, for ordinal features, sorted; the majority value of a dense column is a most frequent one; numerical vectors contain all stored values in increasing order; an equal feature vector is only created if all values are equal; no array is left and no element is read before it is initialised.", "quantifier": "all columns with any number of rows and missing values, dense or sparse, all iteration orders of the hash map, all results std::sort may return", "why_tests_cant": "Offsets of bins are computed from counters that are overwritten while the bins are filled in reverse order, and the number of bins depends on whether values are not stored; a wrong counter writes into a neighbouring bin only for certain combinations of values, and the iteration order of a hash map can not be controlled by tests.", "anchors": ["cpp/subprojects/common/src/mlrl/common/input/feature_type_nominal.cpp", "cpp/subprojects/common/src/mlrl/common/input/feature_type_nominal_common.hpp", "cpp/subprojects/common/src/mlrl/common/input/feature_type_ordinal.cpp", "cpp/subprojects/common/src/mlrl/common/input/feature_type_numerical.cpp", "cpp/subprojects/common/src/mlrl/common/input/feature_type_numerical_common.hpp", "cpp/subprojects/common/src/mlrl/common/input/feature_vector_nominal_allocated.hpp"]}
{"id": "C70", "title": "Output-wise stratification creates the strata of iterative stratification", "statement": "The strata that are used for output-wise stratified sampling are those of iterative stratification: as long as there are examples with relevant labels, the remaining examples of the label with the fewest remaining examples (ties: the smallest index) form the next stratum; all examples without relevant labels form the last one. Thus, each example belongs to exactly one stratum, no stratum is empty, dense and sparse label matrices result in the same strata, and sampling from these strata partitions all examples. The constructor terminates, never leaves an array, never erases an element that does not exist and never uses an element that has not been initialised.", "quantifier": "all dense and sparse label matrices of any size, all subsets of the examples in any order, all iteration orders of the hash map of affected labels, all random numbers", "why_tests_cant": "The counters of all labels of an example are updated while strata are created, and the entries of a sorted set are replaced afterwards; if a counter and the set disagree for some combination of labels, an element that does not exist is erased or a label is processed too early, which leads to valid but differently distributed samples.", "anchors": ["cpp/subprojects/common/src/mlrl/common/sampling/stratified_sampling_output_wise.cpp", "cpp/subprojects/common/src/mlrl/common/sampling/partition_sampling_bi_stratified_output_wise.cpp", "cpp/subprojects/common/src/mlrl/common/sampling/instance_sampling_stratified_output_wise.cpp"]}
{"id": "C71", "title": "Sparse binary predictions of several threads agree with dense ones", "statement": "The sparse binary predictor returns a matrix in the CSR format whose i-th row consists of exactly the labels that are predicted for the i-th example, regardless of how the examples are assigned to threads, how the threads interleave and in which order their numbers of predicted labels are added. Both arrays of the matrix have the right size, all of their elements are initialised and none of them is written out of bounds. The k-th matrix of an incremental predictor results from the rules of the first k calls. The labels are the same as those of the dense predictor.", "quantifier": "all rule models, transformations, numbers of examples, labels and threads, all assignments of examples to threads, all interleavings of the threads' steps, all orders of the reduction, all numbers of incremental calls", "why_tests_cant": "The size of the array is the sum of numbers counted by different threads, the array is filled afterwards; a missing or duplicated label, a row that is not cleared or a wrong offset only shows up for certain predictions and schedules, and writing beyond the end of an array does not necessarily lead to a crash.", "anchors": ["cpp/subprojects/common/include/mlrl/common/prediction/predictor_common.hpp", "cpp/subprojects/common/src/mlrl/common/prediction/prediction_matrix_sparse_binary.cpp", "cpp/subprojects/common/include/mlrl/common/data/view_matrix_csr_binary.hpp", "cpp/subprojects/boosting/include/mlrl/boosting/prediction/predictor_binary_common.hpp"]}
{"id": "C72", "title": "The automatic options of a boosting algorithm are consistent", "statement": "Whatever sequence of calls configures a boosting algorithm, each combination of a loss function, a format of statistics, a type of heads and a default rule is accepted (in regression problems: each one whose loss supports regression), and the outcome only depends on the last call of each kind. The automatic default rule is used unless it prevents a sparse format from being used: no default rule is learned from sparse statistics, and leaving out the default rule does not change the statistics. A default rule predicts for all outputs. The chosen format and type of heads are the ones that are used, and rules are refined and pruned with the same type of heads.", "quantifier": "all sequences of calls of the mixins in any order, all loss functions, formats, types of heads and default rules, all output matrices", "why_tests_cant": "The default rule asks the statistics and the loss, the statistics ask the default rule and the heads, the heads ask the loss; the outcome further depends on the format and the number of columns of the training data. The tests train a few of the combinations on small data sets, on which sparse statistics are never chosen automatically.", "anchors": ["cpp/subprojects/boosting/src/mlrl/boosting/rule_model_assemblage/default_rule_auto.cpp", "cpp/subprojects/boosting/src/mlrl/boosting/statistics/statistic_format_auto.cpp", "cpp/subprojects/boosting/src/mlrl/boosting/rule_evaluation/head_type_auto.cpp", "cpp/subprojects/boosting/include/mlrl/boosting/losses/loss_non_decomposable.hpp", "cpp/subprojects/boosting/src/mlrl/boosting/losses/loss_decomposable_squared_hinge.cpp", "cpp/subprojects/boosting/include/mlrl/boosting/learner_common.hpp"]}
{"id": "C73", "title": "Label vectors and hold-out sets are available whenever they are needed", "statement": "If a boosting algorithm claims to support binary labels or probabilities, the corresponding predictor can be created from the trained model, i.e., the set of label vectors it needs has been stored. The calibration of joint probabilities never fails for lack of label vectors. With the automatic partition sampling, a hold-out set exists whenever a component learns from it, and only then. The automatic binary predictor is available for each loss, the automatic probability predictor for the logistic losses.", "quantifier": "all losses, predictors, calibrators and types of global pruning", "why_tests_cant": "The set of label vectors is stored by a function that consults the configurations of all predictors and calibrators, whereas it is used by factories that consult the loss; the two must agree for each combination.", "anchors": ["cpp/subprojects/boosting/src/mlrl/boosting/prediction/predictor_binary_auto.cpp", "cpp/subprojects/boosting/src/mlrl/boosting/prediction/predictor_probability_auto.cpp", "cpp/subprojects/boosting/src/mlrl/boosting/prediction/predictor_binary_example_wise.cpp", "cpp/subprojects/boosting/src/mlrl/boosting/prediction/probability_calibration_isotonic.cpp", "cpp/subprojects/boosting/src/mlrl/boosting/sampling/partition_sampling_auto.cpp", "cpp/subprojects/common/include/mlrl/common/learner_common.hpp"]}
{"id": "C74", "title": "Dense matrices hold the elements that have been written", "statement": "A dense matrix, in C- or Fortran-contiguous layout, behaves like a function of rows and columns: reading an element yields the value that was written most recently to this row and column, writing an element affects no other element, iterating over a row or column yields its elements in order, the end of a line is the beginning of the next one, clearing sets all elements to zero, and the same memory in the other layout is the transposed matrix.", "quantifier": "all matrices of less than 2^32 elements, both layouts, all rows, columns and values; all larger matrices for the negation", "why_tests_cant": "Offsets are products of unsigned 32 bit integers. A test would have to allocate matrices with billions of elements to notice that they wrap around, in which case rows silently overlap.", "anchors": ["cpp/subprojects/common/include/mlrl/common/data/view_matrix_dense.hpp", "cpp/subprojects/common/include/mlrl/common/data/view_matrix_c_contiguous.hpp", "cpp/subprojects/common/include/mlrl/common/data/view_matrix_fortran_contiguous.hpp", "cpp/subprojects/common/include/mlrl/common/util/memory.hpp"]}
{"id": "C75", "title": "Gradients and Hessians are those of the current scores throughout training", "statement": "From the creation of the statistics on, after any sequence of predictions that are applied to or reverted from any sets of examples, and of switches between rule evaluations, the scores are the sums of the predictions and the gradients and Hessians are those of the loss at these scores, also if statistics that are not decomposable are converted into decomposable ones in between, which keeps the gradients and the diagonal of the Hessian matrix and happens at the first switch of a convertible provider only. The rule evaluation in use is the one that was switched to most recently.", "quantifier": "all numbers of examples and outputs, all sequences of events, all orders in which examples are processed by several threads, all uninitialised memory, all labels, the three non-decomposable losses and all decomposable losses", "why_tests_cant": "Whether statistics are stale is visible only in later rules. Statistics are updated by different functions before and after a conversion, partial predictions update a part of them, and memory is not initialised.", "anchors": ["cpp/subprojects/boosting/src/mlrl/boosting/statistics/statistics_provider_non_decomposable.hpp", "cpp/subprojects/boosting/src/mlrl/boosting/statistics/statistics_provider_non_decomposable_dense.cpp", "cpp/subprojects/boosting/src/mlrl/boosting/statistics/statistics_non_decomposable_common.hpp", "cpp/subprojects/boosting/src/mlrl/boosting/statistics/statistics_decomposable_common.hpp", "cpp/subprojects/boosting/src/mlrl/boosting/data/view_statistic_non_decomposable_dense.cpp", "cpp/subprojects/boosting/include/mlrl/boosting/iterator/iterator_diagonal.hpp", "cpp/subprojects/boosting/include/mlrl/boosting/util/math.hpp"]}
{"id": "C76", "title": "Global post-pruning returns the best model that was seen during training", "statement": "If training uses global post-pruning and no other criterion marks rules as unused, the model that is returned uses the first k rules that were learned (the default rule, if there is one, is the first of them), where k is the smallest of the assessed numbers of rules for which the average loss of the model on the examples that are used for pruning is minimal, or all rules if no number of rules was assessed. The predictor computes exactly the scores of these rules, and the phase that removes unused rules leaves exactly these rules.", "quantifier": "all learners, data sets, numbers of rules, numbers of threads, limits on the number of rules and the training time, minimum numbers of rules and intervals, all evaluation measures that depend on the scores of an example", "why_tests_cant": "Average losses are computed from scores that are updated in place while rules are learned, the number of used rules travels through a list of stopping criteria, the model assemblage, the model builder, the post-optimisation phase and the predictor. A test sees the final predictions only, for which any number of rules is plausible.", "anchors": ["cpp/subprojects/common/include/mlrl/common/learner_common.hpp", "cpp/subprojects/common/include/mlrl/common/learner_classification_common.hpp", "cpp/subprojects/common/src/mlrl/common/rule_model_assemblage/rule_model_assemblage_sequential.cpp", "cpp/subprojects/common/src/mlrl/common/stopping/global_pruning_common.hpp", "cpp/subprojects/common/src/mlrl/common/stopping/global_pruning_post.cpp", "cpp/subprojects/common/src/mlrl/common/post_optimization/post_optimization_unused_rule_removal.cpp"]}
{"id": "C77", "title": "Probability calibration models are fitted to the scores the model predicts", "statement": "The scores of the training examples from which the calibration models are fitted at the end of training are those that the returned model predicts for the same examples.", "quantifier": "all learners, data sets, numbers of rules, numbers of threads, with and without a default rule, stopping criteria and post-optimisation", "why_tests_cant": "The scores are updated incrementally by each rule that is learned, replaced or removed. A discrepancy shows in slightly worse probability estimates only, which no test can tell from a bad model.", "anchors": ["cpp/subprojects/common/include/mlrl/common/learner_classification_common.hpp", "cpp/subprojects/common/src/mlrl/common/rule_model_assemblage/rule_model_assemblage_sequential.cpp", "cpp/subprojects/common/src/mlrl/common/post_optimization/post_optimization_unused_rule_removal.cpp", "cpp/subprojects/common/src/mlrl/common/post_optimization/post_optimization_sequential.cpp"]}
{"id": "C78", "title": "Training terminates without undefined behaviour if it is limited", "statement": "If the number of rules is limited or there is a time limit, and if none of the exchangeable components (search for refinements, calculation of predictions, evaluation measure) fails, then training terminates, accesses no element that does not exist, divides by nothing that is zero, and uses no value that is not initialised; its result is uniquely determined. This includes the default rule, global post-pruning, the pruning of rules, the recalculation of predictions, the removal of unused rules and sequential post-optimisation. Without any limit, training may go on forever.", "quantifier": "all learners whose components do not fail, all data sets, numbers of threads and orders of their steps, all parameters that are accepted by the setters, all clocks that advance", "why_tests_cant": "Neither termination nor the absence of undefined behaviour can be observed by a test, which runs for a bounded time with specific parameters.", "anchors": ["cpp/subprojects/common/include/mlrl/common/learner_classification_common.hpp", "cpp/subprojects/common/src/mlrl/common/rule_model_assemblage/rule_model_assemblage_sequential.cpp", "cpp/subprojects/common/src/mlrl/common/rule_induction/rule_induction_common.hpp", "cpp/subprojects/common/src/mlrl/common/rule_induction/rule_induction_top_down_greedy.cpp", "cpp/subprojects/common/src/mlrl/common/stopping/stopping_criterion_size.cpp", "cpp/subprojects/common/src/mlrl/common/stopping/stopping_criterion_time.cpp", "cpp/subprojects/common/src/mlrl/common/post_optimization/post_optimization_unused_rule_removal.cpp", "cpp/subprojects/common/src/mlrl/common/post_optimization/post_optimization_sequential.cpp"]}
{"id": "C79", "title": "Each rule decreases the training loss", "statement": "If a decomposable squared error or squared hinge loss is minimised, each rule that is added to the model after the default rule strictly decreases the weighted training loss of the model. This holds for complete, single-output, fixed and dynamic partial heads, for all L1 and L2 regularisation weights that are not negative, for each shrinkage that is greater than zero and at most one, and regardless of which features, outputs and examples are sampled and of the order in which threads find refinements. If predictions are recalculated on all examples, the loss does not increase. The default rule does not increase the loss of all examples. For the logistic loss, none of this is guaranteed: a rule with a negative quality may increase the loss, if neither L2 regularisation nor shrinkage is used.", "quantifier": "all data sets, weights, sampled features and outputs, regularisation weights, shrinkages and schedules, all numbers of rules and conditions", "why_tests_cant": "A test observes the loss for a few data sets and parameters; whether a rule may increase it depends on sums of gradients and Hessians over arbitrary sets of examples.", "anchors": ["cpp/subprojects/boosting/include/mlrl/boosting/rule_evaluation/rule_compare_function.hpp", "cpp/subprojects/boosting/src/mlrl/boosting/rule_evaluation/rule_evaluation_decomposable_common.hpp", "cpp/subprojects/common/src/mlrl/common/rule_induction/rule_induction_common.hpp", "cpp/subprojects/common/src/mlrl/common/rule_induction/rule_induction_top_down_greedy.cpp", "cpp/subprojects/boosting/src/mlrl/boosting/losses/loss_decomposable_squared_error.cpp", "cpp/subprojects/boosting/src/mlrl/boosting/losses/loss_decomposable_squared_hinge.cpp", "cpp/subprojects/boosting/src/mlrl/boosting/losses/loss_decomposable_logistic.cpp", "cpp/subprojects/boosting/src/mlrl/boosting/post_processing/shrinkage_constant.cpp"]}
{"id": "C80", "title": "Training on tabular data decreases the loss and the model predicts what it has been trained for", "statement": "If a decomposable squared loss is minimised on the feature vectors of a data set, each rule that is added after the default rule strictly decreases the weighted training loss. If the first m rules of the model are applied to the feature values of a training example, they predict the sum of the predictions of those rules whose conditions the example has been considered to satisfy during training, so the loss of the predictions decreases, too. Without global pruning and post-optimisation, the final model predicts the scores with which training has ended for each training example.", "quantifier": "all data sets, weights, types of features, numbers of rules and conditions, sampled features, outputs and examples, and schedules", "why_tests_cant": "Training and prediction test conditions by entirely different code: intervals of sorted vectors, sparse values and coverage masks as opposed to thresholds. Whether they agree depends on the values and on which conditions have been added before.", "anchors": ["cpp/subprojects/common/src/mlrl/common/rule_refinement/feature_space_tabular.cpp", "cpp/subprojects/common/src/mlrl/common/rule_refinement/rule_refinement_statistics_based.cpp", "cpp/subprojects/common/src/mlrl/common/input/feature_based_search.hpp", "cpp/subprojects/common/src/mlrl/common/input/feature_based_search_numerical.hpp", "cpp/subprojects/common/src/mlrl/common/rule_induction/rule_induction_top_down_greedy.cpp", "cpp/subprojects/common/src/mlrl/common/model/condition_list.cpp"]}
{"id": "C81", "title": "Training and prediction on a dense feature matrix", "statement": "The type of a feature is the one that has been declared last. If a model is trained on a dense feature matrix with numerical, nominal and ordinal features, feature vectors can be created for all columns, and the first m rules of the model can be applied to the rows of the same matrix. If a decomposable squared loss is minimised, each rule that is added after the default rule strictly decreases the weighted loss of these predictions.", "quantifier": "all feature matrices, types of features, ground truths, weights, numbers of rules and conditions, orders in which hash maps are visited, and schedules", "why_tests_cant": "The values in a matrix are counted, sorted, assigned to bins, searched for thresholds, masked and filtered during training, but compared to thresholds at prediction time. Tests check that on a few data sets only.", "anchors": ["cpp/subprojects/common/src/mlrl/common/input/feature_info_mixed.cpp", "cpp/subprojects/common/src/mlrl/common/input/feature_info_equal.cpp", "cpp/subprojects/common/src/mlrl/common/input/feature_matrix_fortran_contiguous.cpp", "cpp/subprojects/common/src/mlrl/common/input/feature_type_nominal.cpp", "cpp/subprojects/common/src/mlrl/common/input/feature_type_ordinal.cpp", "cpp/subprojects/common/src/mlrl/common/input/feature_type_numerical.cpp", "cpp/subprojects/common/src/mlrl/common/rule_refinement/feature_space_tabular.cpp"]}
{"id": "C82", "title": "Boosting algorithms terminate", "statement": "If the number of rules or the time is limited, training a boosting algorithm with a decomposable loss terminates, without leaving memory and without any component failing, even if the number of conditions per rule is not limited: each refinement that is better than the previous one covers fewer examples or predicts for fewer outputs. On a dense feature matrix, the training data is created, training terminates, and the resulting model decreases the loss.", "quantifier": "all training data, losses, regularisation weights, types of heads, samples of features and outputs, numbers of threads and schedules", "why_tests_cant": "Refinements that cover all examples that are already covered are possible and are only rejected because their quality is not better. A test cannot rule out that a rule is refined forever for some combination of data and heads.", "anchors": ["cpp/subprojects/common/src/mlrl/common/rule_induction/rule_induction_top_down_greedy.cpp", "cpp/subprojects/common/src/mlrl/common/rule_refinement/score_processor.cpp", "cpp/subprojects/boosting/src/mlrl/boosting/rule_evaluation/rule_evaluation_decomposable_complete.cpp", "cpp/subprojects/boosting/src/mlrl/boosting/rule_evaluation/rule_evaluation_decomposable_partial_dynamic.cpp", "cpp/subprojects/common/src/mlrl/common/stopping/stopping_criterion_size.cpp", "cpp/subprojects/common/src/mlrl/common/stopping/stopping_criterion_time.cpp"]}
{"id": "C83", "title": "Training by separate-and-conquer algorithms", "statement": "When a separate-and-conquer algorithm has been trained, each rule predicts the inverse of the majority value for some labels and has been grown with respect to the labels its predecessors do not cover; the coverage matrix holds the number of rules that cover an example and predict for a label, and the sum of the weights of uncovered labels is the number of labels that differ from the majority value minus the number of covered labels. The model predicts the minority value for a label of a training example if and only if one of the used rules covers it, and the number of wrong predictions is the sum of the weights of uncovered labels plus twice the number of wrongly covered ones. Training ends if the maximum number of rules is reached, the time is exceeded, the coverage threshold is met or no rule is found. It terminates if the number of rules is limited or the heuristic is precision, recall, WRA, F-measure or an m-estimate without a prior. With the Laplace heuristic it may learn copies of a useless rule forever; with a default rule and more examples than labels it leaves memory.", "quantifier": "all label matrices, feature values, heuristics, single-label and partial heads, weights and samples in each round, numbers of threads and schedules of the search", "why_tests_cant": "The coverage matrix, the confusion matrices, the rule evaluation and the decision list are implemented separately and only agree if each of them uses the same notion of a covered label. A test trains on a few datasets and cannot relate the bookkeeping to the final predictions for all of them.", "anchors": ["cpp/subprojects/seco/src/mlrl/seco/learner_seco_classifier.cpp", "cpp/subprojects/seco/src/mlrl/seco/statistics/statistics_common.hpp", "cpp/subprojects/seco/src/mlrl/seco/statistics/statistics_provider_decomposable_dense.cpp", "cpp/subprojects/seco/src/mlrl/seco/rule_evaluation/rule_evaluation_decomposable_single.cpp", "cpp/subprojects/seco/src/mlrl/seco/rule_evaluation/rule_evaluation_decomposable_partial.cpp", "cpp/subprojects/seco/src/mlrl/seco/stopping/stopping_criterion_coverage.cpp", "cpp/subprojects/seco/src/mlrl/seco/model/decision_list_builder.cpp", "cpp/subprojects/common/src/mlrl/common/rule_model_assemblage/rule_model_assemblage_sequential.cpp", "cpp/subprojects/common/src/mlrl/common/rule_induction/rule_induction_common.hpp", "cpp/subprojects/common/src/mlrl/common/rule_induction/rule_induction_top_down_greedy.cpp"]}
{"id": "C84", "title": "Sampling of examples and recalculation of predictions in boosting algorithms", "statement": "If some examples have zero weight, the prediction of a new rule is recalculated from all training examples the rule covers (each with weight one): it predicts for the same outputs as before, and the scores are those that result from the sums of the gradients and Hessians of these examples, so that, without L1 regularisation, no other scores for these outputs are better. As a consequence, no rule that is learned after the default rule increases the loss of the training examples, no matter how examples are sampled, and the stored scores remain those the model predicts. If predictions are not recalculated, a rule may increase the loss. Even if they are, a rule does not necessarily decrease it.", "quantifier": "all datasets, partitions into training and holdout sets, weights of the examples in each round, decomposable losses with an upper bound on the second derivative, complete and partial heads, regularisation weights and shrinkage in (0, 1]", "why_tests_cant": "Rules are selected based on a sample, but are applied to all examples. Whether the loss of the training examples increases depends on the random sample, the covered examples and the statistics of the round; tests only see few samples, and a wrong set of examples, weight or order of the outputs still results in plausible models.", "anchors": ["cpp/subprojects/common/src/mlrl/common/rule_refinement/feature_space_tabular.cpp", "cpp/subprojects/common/src/mlrl/common/rule_refinement/prediction_complete.cpp", "cpp/subprojects/common/src/mlrl/common/rule_refinement/prediction_partial.cpp", "cpp/subprojects/common/src/mlrl/common/rule_evaluation/score_vector_dense.cpp", "cpp/subprojects/common/src/mlrl/common/rule_induction/rule_induction_common.hpp", "cpp/subprojects/common/src/mlrl/common/rule_model_assemblage/rule_model_assemblage_sequential.cpp"]}
{"id": "C85", "title": "Pruning of rules by boosting algorithms", "statement": "If some examples have zero weight, they form a prune set. The rule with the first conditions that have been found is evaluated by the quality of the scores that result from the sums of the gradients and Hessians of the covered examples in the prune set (without L1 regularisation, the smallest objective that can be reached by predicting for the same outputs); the scores the rule predicts do not matter. A pruned rule retains the shortest non-empty prefix of its conditions with the smallest quality. If predictions are recalculated, no rule that is learned after the default rule increases the loss of the training examples, given the stored scores. However, the stored scores are updated for the examples that satisfy all conditions but the last one of those that have been found, so that they are not those the model predicts, and a rule may increase the loss of the training examples.", "quantifier": "all datasets, prune sets, conditions, heads, decomposable losses with an upper bound on the second derivative, regularisation weights and shrinkage in (0, 1]", "why_tests_cant": "The stored scores are wrong only if rules have at least two conditions and differ from the model by the contribution of single rules; no exception is raised and the model still works. Tests that only check that training succeeds cannot notice it. That the quality does not depend on the scores of a rule can not be noticed from the outside at all.", "anchors": ["cpp/subprojects/common/src/mlrl/common/rule_refinement/feature_space_tabular.cpp", "cpp/subprojects/common/src/mlrl/common/sampling/weight_vector_out_of_sample.cpp", "cpp/subprojects/common/src/mlrl/common/rule_induction/rule_induction_common.hpp", "cpp/subprojects/common/src/mlrl/common/rule_pruning/rule_pruning_irep.cpp", "cpp/subprojects/common/src/mlrl/common/rule_model_assemblage/rule_model_assemblage_sequential.cpp"]}
{"id": "C86", "title": "Training and prediction on sparse feature matrices", "statement": "If a boosting algorithm is trained on a sparse feature matrix in the CSC format, with features of which the types have been declared, the vectors that are created represent the columns of the matrix. The first rules of the resulting model can be applied to the rows of a matrix with the same elements in the CSR format, whatever the order of the elements within a row is. The predictions are the same as for a dense matrix with the same elements, and each rule that is added after the default rule decreases the loss of the predictions for the training examples.", "quantifier": "all CSC and CSR matrices with valid arrays, sparse values, types of features, losses, settings, numbers of rules and interleavings of threads", "why_tests_cant": "Errors depend on which elements are stored, on the order of elements within rows and on the sparse value, and they change single predictions or statistics only. Tests compare a few models that have been trained on sparse data to stored results, which have been obtained from the same code.", "anchors": ["cpp/subprojects/common/include/mlrl/common/data/view_matrix_csc.hpp", "cpp/subprojects/common/include/mlrl/common/data/view_matrix_csr.hpp", "cpp/subprojects/common/src/mlrl/common/input/feature_matrix_csc.cpp", "cpp/subprojects/common/src/mlrl/common/input/feature_type_nominal.cpp", "cpp/subprojects/common/src/mlrl/common/input/feature_based_search_numerical.hpp", "cpp/subprojects/boosting/include/mlrl/boosting/prediction/predictor_score_common.hpp"]}
{"id": "C87", "title": "Boosting with gradient-based label binning", "statement": "If gradient-based label binning is used, outputs are assigned to bins when a rule is evaluated and the same score is predicted for all outputs of a bin. For decomposable losses, the quality of a rule is never less than the change of the loss that is expected if the scores in its head are predicted. Each rule that is learned after the default rule decreases the weighted training loss, whatever the outputs that are assigned to a bin are.", "quantifier": "all losses that are majorised by their statistics, bounds on the number of bins, regularization weights, data sets, numbers of rules and interleavings of threads", "why_tests_cant": "The evaluation works on aggregated statistics while the head is expanded to the individual outputs by other code. If one of these did not match the other, models would still be plausible. Tests with label binning compare models to stored results.", "anchors": ["cpp/subprojects/common/src/mlrl/common/rule_evaluation/score_vector_binned_dense.cpp", "cpp/subprojects/common/include/mlrl/common/iterator/iterator_binned.hpp", "cpp/subprojects/common/src/mlrl/common/rule_refinement/score_processor.cpp", "cpp/subprojects/boosting/src/mlrl/boosting/rule_evaluation/rule_evaluation_decomposable_binned_common.hpp", "cpp/subprojects/boosting/src/mlrl/boosting/rule_evaluation/rule_evaluation_decomposable_complete_binned.cpp", "cpp/subprojects/boosting/src/mlrl/boosting/rule_evaluation/rule_evaluation_decomposable_partial_fixed_binned.cpp", "cpp/subprojects/boosting/src/mlrl/boosting/rule_evaluation/rule_evaluation_decomposable_partial_dynamic_binned.cpp", "cpp/subprojects/boosting/src/mlrl/boosting/binning/label_binning_equal_width.cpp"]}
{"id": "C88", "title": "Separate-and-conquer algorithms on feature matrices", "statement": "If a separate-and-conquer algorithm is trained on a dense feature matrix or on a sparse one in the CSC format, training ends and the first rules of the resulting model can be applied to the rows of the matrix, which are given in the C-contiguous or the CSR format. The predictor that returns dense predictions and the one that returns sparse predictions predict the same labels, and the number of labels of training examples that are predicted incorrectly follows from the coverage matrix.", "quantifier": "all dense and sparse matrices with valid arrays, sparse values, types of features, label matrices, heuristics, settings, numbers of rules and interleavings of threads", "why_tests_cant": "The dense and the sparse predictor are different pieces of code and they only differ in examples for which a rule revokes what the default rule predicts. Tests compare the predictions of a few models to stored results, which have been obtained from the same code.", "anchors": ["cpp/subprojects/seco/src/mlrl/seco/prediction/predictor_binary_output_wise.cpp", "cpp/subprojects/seco/src/mlrl/seco/statistics/statistics_provider_decomposable_dense.cpp", "cpp/subprojects/common/src/mlrl/common/input/feature_matrix_csc.cpp", "cpp/subprojects/common/include/mlrl/common/data/view_matrix_csr.hpp", "cpp/subprojects/common/src/mlrl/common/rule_model_assemblage/rule_model_assemblage_sequential.cpp"]}
{"id": "C89", "title": "Training with a beam search", "statement": "If rules are learned via a beam search, each rule decreases the loss on the training data, the model predicts what its rules say, also if it is applied to the rows of the feature matrix, and training terminates without undefined behaviour, although the subspaces of different rules in a beam are copies that share the weights and the original feature vectors, but not the filtered vectors.", "quantifier": "all feature matrices, targets, losses that are bounded by the second order approximation, beam widths, implementations of std::sort, interleavings of threads, sampled features and numbers of rules", "why_tests_cant": "A beam search is not the default and the copies of subspaces make a difference only if features are searched again after a condition has been added. Tests compare a few models to stored results; whether a search ends for all data cannot be tested.", "anchors": ["cpp/subprojects/common/src/mlrl/common/rule_induction/rule_induction_top_down_beam_search.cpp", "cpp/subprojects/common/src/mlrl/common/rule_refinement/feature_space_tabular.cpp", "cpp/subprojects/common/src/mlrl/common/rule_model_assemblage/rule_model_assemblage_sequential.cpp", "cpp/subprojects/common/include/mlrl/common/data/types.hpp"]}
{"id": "C90", "title": "Training with sampling, recalculated predictions and pruning terminates", "statement": "If the number of rules or the time is limited, training a boosting algorithm terminates without undefined behaviour, no matter how examples are sampled for each rule, whether predictions of a rule are recalculated on all training examples and whether rules are pruned by evaluating them on the examples that have not been sampled, where heads may predict for a single output, for some outputs or for all of them.", "quantifier": "all feature matrices, targets, weights for each rule, implementations of std::sort, interleavings of threads, heads, numbers of rules and cells that are up to date", "why_tests_cant": "Each of the options changes which rows of statistics are accessed and for which outputs scores are calculated. Whether the number of scores agrees with the number of outputs of a head depends on the data, and tests run a few combinations on a few data sets only.", "anchors": ["cpp/subprojects/common/src/mlrl/common/rule_induction/rule_induction_common.hpp", "cpp/subprojects/common/src/mlrl/common/rule_model_assemblage/rule_model_assemblage_sequential.cpp", "cpp/subprojects/common/src/mlrl/common/rule_pruning/rule_pruning_irep.cpp", "cpp/subprojects/common/src/mlrl/common/rule_refinement/feature_space_tabular.cpp"]}
{"id": "C91", "title": "Probabilities that are predicted incrementally, in place and by several threads", "statement": "For dense and sparse feature matrices, any number of threads and any interleaving of their steps, the predicted matrix of probabilities consists of the transformed sums of the scores that are predicted by the rules that cover the individual examples, although scores are overwritten by probabilities. Incremental predictions agree with one-shot predictions that are limited to the number of applied rules. Output-wise probabilities are in [0,1], do not decrease with the scores and are greater than 1/2 if and only if binary predictions are relevant. Marginalized probabilities are the marginals of the calibrated joint probabilities, which are in [0,1].", "quantifier": "all feature matrices, models, numbers of rules, scores, calibration models that have been fitted, label vectors, step sizes, assignments of examples to threads and interleavings", "why_tests_cant": "Data races and overwritten scores show up for some interleavings only. Whether calibrated probabilities are valid for all scores cannot be tested exhaustively.", "anchors": ["cpp/subprojects/boosting/src/mlrl/boosting/prediction/predictor_probability_output_wise.cpp", "cpp/subprojects/boosting/src/mlrl/boosting/prediction/predictor_probability_marginalized.cpp", "cpp/subprojects/boosting/src/mlrl/boosting/prediction/transformation_probability_output_wise.cpp", "cpp/subprojects/boosting/src/mlrl/boosting/prediction/transformation_probability_marginalized.cpp", "cpp/subprojects/boosting/src/mlrl/boosting/prediction/probability_function_logistic.cpp", "cpp/subprojects/boosting/src/mlrl/boosting/prediction/probability_function_chain_rule.cpp", "cpp/subprojects/boosting/src/mlrl/boosting/prediction/discretization_function_probability.cpp", "cpp/subprojects/boosting/include/mlrl/boosting/prediction/predictor_probability_common.hpp"]}
{"id": "C92", "title": "Probabilities that are predicted by calibrated models", "statement": "After calibration models have been fitted to at least one example, be it a training example or one that belongs to the holdout set, output-wise probabilities can be predicted for all query examples without undefined behaviour and are in [0,1]. The same applies to marginalized probabilities, unless marginal and joint probabilities are both calibrated.", "quantifier": "all label matrices, scores, partitions, calibrators, implementations of std::sort, label vectors, models and query examples", "why_tests_cant": "Which bins result from isotonic regression depends on the training data. Probabilities that are not numbers result from joint probabilities that are exactly zero, which are encountered for some data sets only.", "anchors": ["cpp/subprojects/boosting/src/mlrl/boosting/prediction/probability_calibration_isotonic.cpp", "cpp/subprojects/common/src/mlrl/common/prediction/probability_calibration_isotonic.cpp", "cpp/subprojects/common/include/mlrl/common/learner_classification_common.hpp", "cpp/subprojects/boosting/src/mlrl/boosting/prediction/probability_function_chain_rule.cpp"]}
{"id": "C93", "title": "Thresholds separate feature values despite rounding", "statement": "The threshold of a numerical condition, which is calculated as the arithmetic mean of two different feature values via floating point operations, is finite, not less than the smaller value and less than the larger one. Hence, the condition is satisfied by exactly those examples that are covered by the refinement.", "quantifier": "all pairs of finite numbers of type float32 and all ways to break ties when rounding to nearest", "why_tests_cant": "There are about 2^63 pairs of values. Rounding matters for few of them.", "anchors": ["cpp/subprojects/common/include/mlrl/common/util/math.hpp", "cpp/subprojects/common/include/mlrl/common/data/types.hpp", "cpp/subprojects/common/src/mlrl/common/input/feature_based_search_numerical.hpp", "cpp/subprojects/common/src/mlrl/common/input/feature_binning_equal_frequency.cpp"]}
{"id": "C94", "title": "Numbers of samples are in range despite rounding", "statement": "If a fraction in (0,1) of n >= 1 elements should be sampled, the number of samples, which is calculated via floating point operations, is at least one and at most n, subject to the given bounds, and can be represented by an unsigned integer. If a fraction of the examples should be included in a holdout set, at least one example remains for training.", "quantifier": "all numbers n, fractions of type float32, bounds and all ways to break ties when rounding to nearest", "why_tests_cant": "Numbers greater than 2^24 are affected by rounding before and after the multiplication.", "anchors": ["cpp/subprojects/common/include/mlrl/common/util/math.hpp", "cpp/subprojects/common/src/mlrl/common/sampling/partition_sampling_bi_random.cpp", "cpp/subprojects/common/src/mlrl/common/sampling/instance_sampling_without_replacement.cpp"]}
{"id": "C95", "title": "Equal-width bins are in range and monotone despite rounding", "statement": "When feature values or labels are assigned to bins of equal width, of which there is at least one, the index of the bin, which is calculated via floating point operations, exists for each value between the minimum and the maximum, is less than the number of bins, does not decrease for greater values and is zero for the minimum.", "quantifier": "all finite minima, maxima and values, all numbers of bins up to 2^30, all ways to break ties when rounding to nearest, float32 and float64", "why_tests_cant": "The quotient of two rounded numbers may exceed the number of bins or be undefined for few out of many values.", "anchors": ["cpp/subprojects/common/src/mlrl/common/input/feature_binning_equal_width.cpp", "cpp/subprojects/boosting/src/mlrl/boosting/binning/label_binning_equal_width.cpp"]}
{"id": "C96", "title": "Recalculating predictions and pruning rules in a separate-and-conquer algorithm", "statement": "If a separate-and-conquer algorithm learns a rule from a sample of the training examples, recalculating the prediction of the rule on all examples does not access invalid memory and does not change the prediction, and pruning the rule based on the examples that have not been sampled does not access invalid memory.", "quantifier": "all numbers of examples and labels, all label matrices and feature values, all samples, all heuristics and lift functions, all numbers of rules, conditions and threads, single-output and partial heads", "why_tests_cant": "Reading beyond the end of a row or a vector often goes unnoticed. Whether it happens depends on the number of examples and labels and not on the rules that are learned.", "anchors": ["cpp/subprojects/seco/src/mlrl/seco/statistics/statistics_common.hpp", "cpp/subprojects/common/src/mlrl/common/rule_induction/rule_induction_common.hpp", "cpp/subprojects/common/src/mlrl/common/rule_pruning/rule_pruning_irep.cpp", "cpp/subprojects/seco/src/mlrl/seco/learner_seco_classifier.cpp"]}
{"id": "C97", "title": "Models survive being saved and loaded", "statement": "If a rule model, all rules of which predict for at least one output, a model for the calibration of probabilities via isotonic regression or a set of label vectors is saved and loaded again, no exception is raised, and the result is equivalent to the original object: a loaded rule model has the same rules in the same order and results in the same predictions, whether the number of rules is restricted or not. Data that was saved by an incompatible version is rejected.", "quantifier": "all numbers of rules, conditions and outputs, all types of conditions and heads, with and without default rules, all numbers of used rules, all bins and all label vectors", "why_tests_cant": "Whether a model survives depends on the combination of condition types, heads, default rules and numbers of used rules it contains. Tests usually only compare the predictions of a few models.", "anchors": ["python/subprojects/common/mlrl/common/cython/rule_model.pyx", "python/subprojects/common/mlrl/common/cython/probability_calibration.pyx", "python/subprojects/common/mlrl/common/cython/output_space_info.pyx", "cpp/subprojects/common/src/mlrl/common/model/rule_list.cpp", "cpp/subprojects/common/src/mlrl/common/prediction/label_vector_set.cpp"]}
{"id": "C98", "title": "Matrices that are given to the Python API are represented faithfully", "statement": "The feature values, labels and regression scores that are used by a rule learner are those of the matrices that are given to the Python API: the values that are stored, and the sparse value for elements that are not stored. They depend neither on the type of the matrix (NumPy array, SciPy matrix in different formats), nor on whether a sparse or dense representation is used. Every matrix that has at least one row and one column is accepted. If the representation is chosen automatically, the one that requires less memory is used.", "quantifier": "all numbers of rows and columns, all values, all formats, all policies, all sparse values", "why_tests_cant": "The representation depends on the number of elements that are stored, the number of rows and columns and a policy. Explicitly stored zeros are usually not contained in data sets that are used for testing.", "anchors": ["python/subprojects/common/mlrl/common/arrays.py", "python/subprojects/common/mlrl/common/rule_learners.py", "python/subprojects/common/mlrl/common/cython/feature_matrix.pyx", "python/subprojects/common/mlrl/common/cython/label_matrix.pyx", "python/subprojects/common/mlrl/common/cython/regression_matrix.pyx"]}
{"id": "C99", "title": "Features have the types that are given to the Python API", "statement": "Each feature whose index is contained in the list of ordinal (nominal) features that is given to the Python API is an ordinal (nominal) feature. All other features are numerical. This includes the cases where one of the lists or both are not given. If a list contains an index that does not belong to any feature, an error is raised.", "quantifier": "all numbers of features, all lists of indices, which may not be given", "why_tests_cant": "There are special cases if all or no features are of the same type, which are decided by comparing the length of the lists. The command line API always provides both lists.", "anchors": ["python/subprojects/common/mlrl/common/rule_learners.py", "python/subprojects/common/mlrl/common/cython/feature_info.pyx", "cpp/subprojects/common/src/mlrl/common/input/feature_info_mixed.cpp"]}
{"id": "C100", "title": "Predictions that are obtained incrementally via the Python API are those of the first rules", "statement": "If predictions are obtained incrementally via the Python API, the array that is returned by a call of apply_next contains the predictions of the first rules of the model, the number of which is the sum of the step sizes so far, but at most the number of rules that may be used. It continues to do so, whatever is done with the predictor later. The remaining number of rules is reported correctly. This does not depend on whether incremental prediction is supported natively. If a kind of prediction is not supported, an error is raised. The probabilities that are returned for a single label are those of the negative and positive class and sum up to one.", "quantifier": "all models, all limits of the number of rules, all sequences of step sizes", "why_tests_cant": "The content of arrays that have been returned before is usually not accessed again by tests. Accessing freed memory often goes unnoticed.", "anchors": ["python/subprojects/common/mlrl/common/rule_learners.py", "python/subprojects/common/mlrl/common/mixins.py", "python/subprojects/common/mlrl/common/cython/prediction.pyx", "python/subprojects/common/mlrl/common/cython/_arrays.pxd", "cpp/subprojects/boosting/include/mlrl/boosting/prediction/predictor_score_common.hpp"]}
{"id": "C101", "title": "The incremental evaluation of a model reports predictions for the sizes it claims", "statement": "If a model is evaluated incrementally by the command line API, models with min_size rules, min_size + step_size rules, and so on are evaluated, until max_size or the number of rules is reached. The predictions that are reported for a certain number of rules are those of a model with that number of rules. The value of sparse features that is specified by the user is used when obtaining predictions.", "quantifier": "all predictors with any number of rules, all minimum, maximum and step sizes, all values", "why_tests_cant": "Output that is reported for a certain size is not compared to the output of a model of this size by tests. The number of combinations of sizes is unbounded.", "anchors": ["python/subprojects/testbed/mlrl/testbed/experiments.py", "python/subprojects/common/mlrl/common/rule_learners.py", "python/subprojects/common/mlrl/common/mixins.py"]}
{"id": "C102", "title": "Values and options of parameters are parsed faithfully", "statement": "A text that consists of one of the allowed values, optionally followed by a list of options in curly braces, is parsed as this value, and each option has the value that is given last. Any other text is rejected: one that does not start with an allowed value, contains options that are not allowed for the value, or is not well-formed. No other error than a ValueError is raised.", "quantifier": "all texts, all lists of allowed values and options", "why_tests_cant": "The number of texts is unbounded. Whether one of the allowed values is the beginning of another one depends on the parameter.", "anchors": ["python/subprojects/common/mlrl/common/options.py"]}
{"id": "C103", "title": "The values of parameters configure a rule learning algorithm as intended", "statement": "If a value is given for a parameter of BOOMER or a SeCo algorithm, the method of the configuration that corresponds to this value is called, the properties for which options are given are set to the values of these options, and all others keep their default values. Each value that is documented is accepted, provided that the configuration supports it. If a value is not supported, a ValueError is raised; no AttributeError is raised. The order in which parameters are processed has no effect.", "quantifier": "all nominal parameters of all algorithms, all configurations, all texts, all values of options", "why_tests_cant": "There are dozens of parameters, each with several values and options. Whether the documented values are accepted depends on the equality of parameters when forming the union of two sets.", "anchors": ["python/subprojects/common/mlrl/common/config.py", "python/subprojects/boosting/mlrl/boosting/config.py", "python/subprojects/seco/mlrl/seco/config.py", "doc/user_guide/boosting/parameters.md"]}
{"id": "C104", "title": "Setters of the Python API store valid values and raise errors otherwise", "statement": "If a ratio, a minimum or a maximum is set via the Python API, and the value is documented to be valid, it is stored. A ratio is stored as the closest number of type float32, a minimum or maximum is stored exactly. If a value is not valid, an error is raised in Python and the configuration remains as it is. The program is never terminated and its behaviour is never undefined.", "quantifier": "all classes with a ratio, a minimum and a maximum, all sequences of calls, all floating point numbers including infinities and NaN, all integers", "why_tests_cant": "Whether exceptions are translated depends on a specifier that is easily forgotten, as are the types of arguments in declarations. Tests only use values that are valid.", "anchors": ["python/subprojects/common/mlrl/common/cython/instance_sampling.pyx", "python/subprojects/common/mlrl/common/cython/instance_sampling.pxd", "python/subprojects/common/mlrl/common/cython/output_sampling.pyx", "python/subprojects/common/mlrl/common/cython/output_sampling.pxd", "python/subprojects/common/mlrl/common/cython/feature_sampling.pxd", "python/subprojects/common/mlrl/common/cython/feature_binning.pxd", "python/subprojects/common/mlrl/common/cython/validation.py", "python/subprojects/boosting/mlrl/boosting/cython/label_binning.pxd", "python/subprojects/boosting/mlrl/boosting/cython/head_type.pxd"]}
{"id": "C105", "title": "Cross validation uses disjoint training and test sets and reports scores averaged over the folds", "statement": "When a cross validation is performed, the model of each fold is trained on the examples of all other folds and is evaluated on the examples of the fold. Each example is used exactly once for testing. For each evaluation, the scores of the respective fold are reported. At the end of a full cross validation, the averages and standard deviations of the scores of all folds are reported for each type of data and, if models are evaluated incrementally, for each size of the models. If a single fold is performed, no averages are reported.", "quantifier": "all numbers of folds, all predefined folds, all sets of measures, all scores, all sequences of evaluations", "why_tests_cant": "Tests do not compare averages to the scores of the individual folds, and incremental evaluation is not tested in combination with cross validation.", "anchors": ["python/subprojects/testbed/mlrl/testbed/data_splitting.py", "python/subprojects/testbed/mlrl/testbed/evaluation.py", "python/subprojects/testbed/mlrl/testbed/output_writer.py", "python/subprojects/testbed/mlrl/testbed/experiments.py"]}
{"id": "C106", "title": "Data sets can be loaded from files and are restored after they have been saved", "statement": "If a data set is loaded from an ARFF file and the corresponding XML file, the columns of the feature matrix are those of the features in the meta-data, and the columns of the output matrix are those of the outputs in the XML file. If a data set is saved and loaded again, regardless of whether it is saved in the dense or sparse format and whether an XML file is available, then the feature matrix, the output matrix and the meta-data are restored.", "quantifier": "all feature and output matrices, all meta-data with different names of features and outputs, outputs at the start or end, dense and sparse formats", "why_tests_cant": "Tests load a few data sets only, in which the last row and column of each file contain non-zero values and for which XML files are available.", "anchors": ["python/subprojects/testbed/mlrl/testbed/data.py", "python/subprojects/testbed/mlrl/testbed/predictions.py", "python/subprojects/testbed/mlrl/testbed/data_splitting.py"]}
{"id": "C107", "title": "The unique label vectors and characteristics of a data set are determined correctly", "statement": "The label vectors that are written for a data set are the distinct label vectors that occur in it, in the order of their first occurrence, and their frequencies are the numbers of their occurrences. The density, sparsity, label cardinality, label imbalance ratio and number of distinct label vectors do not depend on whether the label matrix is given in a dense or sparse format and are consistent with each other.", "quantifier": "all label matrices, in a dense or sparse format", "why_tests_cant": "Tests compare the output for a few data sets, in which at least one label is relevant to each example.", "anchors": ["python/subprojects/testbed/mlrl/testbed/label_vectors.py", "python/subprojects/testbed/mlrl/testbed/characteristics.py"]}
{"id": "C108", "title": "The characteristics and textual representations of rule models are correct", "statement": "The table of model characteristics contains one row per used rule, in the order of the rules, with the number of conditions of each type and the number of positive and negative predictions. The totals, fractions, minima, averages and maxima are those of the local rules. The textual representation of a model consists of one line per used rule, which lists all conditions and predictions of the rule, where features, nominal values and outputs are denoted by their names, if known, or their indices, otherwise.", "quantifier": "all rule models with at most one default rule at any position, all numbers of conditions and predictions, all options", "why_tests_cant": "Tests compare the output for a few models with a single default rule at a fixed position.", "anchors": ["python/subprojects/testbed/mlrl/testbed/model_characteristics.py", "python/subprojects/testbed/mlrl/testbed/models.py"]}
{"id": "C109", "title": "Parameters and results that are stored in CSV files are restored", "statement": "A learner that loads the parameters of another learner from a CSV file is configured in the same way, no matter which characters the values contain. Results of models of different sizes that are appended to a CSV file are exactly the rows of this file. Files that correspond to different folds of a cross validation have different names.", "quantifier": "all rows of arbitrary strings, all dictionaries of parameters (including None), all numbers of appended results, all folds", "why_tests_cant": "Tests store and load the parameters of a few learners, none of which uses default values only, and do not repeat experiments with the same output directory.", "anchors": ["python/subprojects/testbed/mlrl/testbed/parameters.py", "python/subprojects/testbed/mlrl/testbed/io.py", "python/subprojects/testbed/mlrl/testbed/output_writer.py", "python/subprojects/testbed/mlrl/testbed/experiments.py", "python/subprojects/testbed/mlrl/testbed/runnables.py", "python/subprojects/common/mlrl/common/config.py"]}
{"id": "C110", "title": "One-hot encoding preserves the values of features", "statement": "If one-hot encoding is used, there is one column for each value of a nominal feature, which is one for the examples with this value and zero for all others, and one column for each of the other features. Different examples are encoded differently. All folds of a cross validation, as well as training and test sets, are encoded in the same way.", "quantifier": "all feature matrices, all types of features, all numbers of folds", "why_tests_cant": "Tests run a single data set for which each value occurs in each fold and only check that no exception is raised.", "anchors": ["python/subprojects/testbed/mlrl/testbed/data.py", "python/subprojects/testbed/mlrl/testbed/data_splitting.py"]}
{"id": "C111", "title": "A rule learner's configuration is complete, and the last selection is used", "statement": "Whatever functions offered by the configuration of a rule learner have been called, and in whatever order, no getter that is evaluated when training a model or obtaining predictions encounters a null pointer. This includes the getters that are held by the selected parts and are evaluated later. For each aspect of a learner, the alternative that has been selected last is the one that is used, regardless of selections made for other aspects.", "quantifier": "all three learners, all sequences of calls of the functions they offer, all chains of getters", "why_tests_cant": "Tests only try a few dozens of combinations, each one in the fixed order in which the Python code processes parameters.", "anchors": ["cpp/subprojects/common/include/mlrl/common/util/properties.hpp", "cpp/subprojects/common/include/mlrl/common/learner.hpp", "cpp/subprojects/common/include/mlrl/common/learner_common.hpp", "cpp/subprojects/common/include/mlrl/common/learner_classification.hpp", "cpp/subprojects/boosting/include/mlrl/boosting/learner.hpp", "cpp/subprojects/boosting/include/mlrl/boosting/learner_classification.hpp", "cpp/subprojects/boosting/include/mlrl/boosting/learner_common.hpp", "cpp/subprojects/boosting/src/mlrl/boosting/learner_boomer_classifier.cpp", "cpp/subprojects/boosting/src/mlrl/boosting/learner_boomer_regressor.cpp", "cpp/subprojects/seco/include/mlrl/seco/learner.hpp", "cpp/subprojects/seco/include/mlrl/seco/learner_common.hpp", "cpp/subprojects/seco/src/mlrl/seco/learner_seco_classifier.cpp"]}
{"id": "C112", "title": "The textual representation of a duration tells the number of milliseconds", "statement": "The text that is created for a training or prediction time enumerates the days, hours, minutes, seconds and milliseconds the duration consists of, omitting those that are zero. Reading the text from left to right results in the number of complete milliseconds. Hence, two durations are represented by the same text if and only if they consist of the same number of milliseconds. The text is never empty.", "quantifier": "all non-negative durations", "why_tests_cant": "There are no tests for this function. Tests would check individual durations, but not that different durations result in different texts.", "anchors": ["python/subprojects/testbed/mlrl/testbed/format.py"]}
{"id": "C113", "title": "Experiments evaluate models that have been trained on the training data of the respective split", "statement": "For each split of the available data, a learner with the parameters of the respective fold is fit to the training data of the split and evaluated on its test data. Sparse matrices are used if the learner can deal with them, otherwise they are converted into a dense format. If models are stored, repeating the experiment results in the same learners and predictions without training any models, and no files other than those of the experiment's own folds are affected.", "quantifier": "all learners, splits, and files that exist initially", "why_tests_cant": "Integration tests run experiments in directories that only contain the models that belong to the tested configuration. They neither combine different splits of the data with stored models, nor learners that reject sparse matrices.", "anchors": ["python/subprojects/testbed/mlrl/testbed/experiments.py", "python/subprojects/testbed/mlrl/testbed/persistence.py", "python/subprojects/testbed/mlrl/testbed/data_splitting.py", "python/subprojects/testbed/mlrl/testbed/io.py"]}
{"id": "C114", "title": "Exactly the evaluation measures that are enabled are reported", "statement": "Each sink (the console or a CSV file) reports the scores according to exactly those evaluation measures, available for the respective type of predictions, that have been enabled by its own options, regardless of the options of other sinks. A measure is enabled if its option is set to true, or if it is not set and enable_all is not set to false. Scores are given as a percentage if this is possible and not disabled. If all options have been set to valid values, no error is raised. Each individual measure can be selected.", "quantifier": "all combinations of options, numbers of sinks, types of predictions and scores", "why_tests_cant": "The measures are filtered twice, with different defaults, by the options of all sinks and afterwards by those of the individual sink. Tests only use a few of the exponentially many combinations of options.", "anchors": ["python/subprojects/testbed/mlrl/testbed/evaluation.py", "python/subprojects/testbed/mlrl/testbed/format.py", "python/subprojects/testbed/mlrl/testbed/output_writer.py", "python/subprojects/testbed/mlrl/testbed/runnables.py"]}
{"id": "C115", "title": "Different results are written to different files", "statement": "Two results of an experiment are written to the same file if and only if they are of the same kind and belong to the same type of data, the same fold and, if they are predictions, to models of the same size. If several different results are written, each of them can be found in its file afterwards. In particular, the results obtained for the individual folds of a cross validation, and for training and test data, do not overwrite each other.", "quantifier": "all kinds of results, types of data, model sizes, folds and sequences of results", "why_tests_cant": "File names are concatenated from several optional parts. A collision silently overwrites results and only occurs for particular combinations of parts.", "anchors": ["python/subprojects/testbed/mlrl/testbed/io.py", "python/subprojects/testbed/mlrl/testbed/output_writer.py", "python/subprojects/testbed/mlrl/testbed/predictions.py", "python/subprojects/testbed/mlrl/testbed/prediction_scope.py", "python/subprojects/testbed/mlrl/testbed/data_splitting.py"]}
{"id": "C116", "title": "Textual representations of calibration models show the thresholds and probabilities of all bins", "statement": "If a model for the calibration of probabilities via isotonic regression is written to the console or to a CSV file, the thresholds and probabilities of all bins are shown exactly once, in the order of the bins, in columns that are named accordingly and belong to the respective label or label vector, regardless of whether the model is written to other sinks as well.", "quantifier": "all models (numbers of lists and bins), lists of sinks and functions for formatting numbers", "why_tests_cant": "The columns of a table are only checked by comparing with files that have been written by the same code. Whether a sink is affected by previous ones depends on the combination of sinks.", "anchors": ["python/subprojects/testbed/mlrl/testbed/probability_calibration.py", "python/subprojects/testbed/mlrl/testbed/output_writer.py", "cpp/subprojects/common/src/mlrl/common/prediction/probability_calibration_isotonic.cpp"]}
{"id": "C117", "title": "Each example is used either for training or for testing, and for testing in exactly one fold", "statement": "If a data set is split into a training and a test set or into the folds of a cross validation, then for each split the training set and the test set together consist of exactly the examples of the data set, and the test sets of all folds together do so, too. This applies to data sets that are stored in a single file, as well as to those whose folds (of the given number) are stored in individual files. In the latter case, the examples in the file of a fold are used for testing in that fold. Performing a single fold results in the same training and test set as in a full cross validation. If some, but not all, files of a predefined split are missing, an error is raised.", "quantifier": "all contents of the file system, names of data sets, numbers of folds (at least 2), numbers of examples and ways of shuffling examples", "why_tests_cant": "Tests run a few data sets for which all files exist, and only compare the resulting output; an example that is missing from all training sets or that leaks into the training set does not result in an error.", "anchors": ["python/subprojects/testbed/mlrl/testbed/data_splitting.py", "python/subprojects/testbed/mlrl/testbed/data.py"]}
{"id": "C118", "title": "The arguments of rule learners and of their command line interface affect the configuration", "statement": "If an argument, other than the formats of matrices, is passed to the constructor of a rule learner or given on the command line, the corresponding parameter is configured with exactly this value (the last one, if it is given several times on the command line), exactly once. Parameters for which no value is given are not configured, unless the constructor provides a default value. Arguments for parameters that are not supported by an algorithm are rejected, and all arguments that are accepted on the command line are accepted by the constructor.", "quantifier": "all rule learners (BOOMER for classification and regression, separate-and-conquer), and all lists of arguments and values", "why_tests_cant": "A parameter that is silently ignored does not result in an error; the attributes, parameters and mixins are listed in several places that must agree, and a test would have to observe the effect of each individual parameter for each algorithm.", "anchors": ["python/subprojects/boosting/mlrl/boosting/boosting_learners.py", "python/subprojects/seco/mlrl/seco/seco_learners.py", "python/subprojects/common/mlrl/common/config.py", "python/subprojects/boosting/mlrl/boosting/cython/learner_boomer.pyx", "python/subprojects/testbed/mlrl/testbed/runnables.py"]}
{"id": "C119", "title": "Data sets are split as specified on the command line, and the results of individual folds are retained", "statement": "If the option for splitting data sets is valid, an object with exactly the specified values, or default values, is created: the number of folds is at least two, the specified fold (counted from one) exists, the size of the test set is between zero and one, and the random state is at least one. Invalid values are rejected. If folds of a cross validation are performed one after the other, using the same output directory, it finally contains the results of all of them. In all other cases, it only contains the results of the last experiment.", "quantifier": "all values of the option, all functions for parsing numbers, and all sequences of experiments and results", "why_tests_cant": "Requires to run an experiment for each combination of options; results of an earlier run being deleted or retained is only noticed when running several experiments in succession.", "anchors": ["python/subprojects/testbed/mlrl/testbed/runnables.py", "python/subprojects/testbed/mlrl/testbed/io.py", "python/subprojects/testbed/mlrl/testbed/experiments.py", "python/subprojects/common/mlrl/common/options.py"]}
{"id": "C120", "title": "Pre-pruning and post-pruning are configured as specified by the options of a parameter", "statement": "The options for pre-pruning and post-pruning are accepted if and only if they specify valid values, i.e., numbers of rules, intervals and sizes of buffers are positive integers with 32 bits, the stop interval is a multiple of the update interval, and the minimum improvement is in [0, 1]. If so, all properties of the C++ API are set to the specified values, or keep their default values.", "quantifier": "all options and all functions for parsing numbers", "why_tests_cant": "The values are checked in Python and C++ and converted in between; the check of one property depends on the value of another one and hence on the order in which they are set, and default values are checked as well.", "anchors": ["python/subprojects/common/mlrl/common/config.py", "python/subprojects/common/mlrl/common/cython/stopping_criterion.pyx", "python/subprojects/common/mlrl/common/cython/stopping_criterion.pxd", "python/subprojects/common/mlrl/common/cython/validation.py", "cpp/subprojects/common/src/mlrl/common/stopping/global_pruning_pre.cpp", "cpp/subprojects/common/src/mlrl/common/stopping/global_pruning_post.cpp"]}
{"id": "C121", "title": "The induction of individual rules is configured as specified by the options of a parameter", "statement": "The options for a greedy search or a beam search are accepted if and only if they specify valid values: the minimum coverage is a positive integer with 32 bits, the minimum support is in [0, 1) and does not become one when rounded to the format binary32, the maximum number of conditions is zero or at least one (two for a beam search), the maximum number of refinements of a head is not negative, and the beam width is at least two. If so, all properties of the C++ API are set to the specified values (the minimum support is rounded), or keep their default values.", "quantifier": "all options, all functions for parsing numbers, any rounding to nearest and any machine epsilon in [0, 1)", "why_tests_cant": "The values are checked in Python and C++, and are converted into types of a different range and precision in between; infinities, values that are not a number and values next to the limits are not covered by tests.", "anchors": ["python/subprojects/common/mlrl/common/config.py", "python/subprojects/common/mlrl/common/cython/rule_induction.pyx", "python/subprojects/common/mlrl/common/cython/rule_induction.pxd", "cpp/subprojects/common/src/mlrl/common/rule_induction/rule_induction_top_down_greedy.cpp", "cpp/subprojects/common/src/mlrl/common/rule_induction/rule_induction_top_down_beam_search.cpp"]}
{"id": "C122", "title": "Setters of the Python API for individual numbers accept exactly the documented values", "statement": "A setter of the Python API for a single number (the maximum number of rules, time limit, seed, number of iterations, number of threads, peak label, regularization weight, shrinkage, lift, curvature, k, beta, m, coverage threshold, size of the holdout set, threshold and exponent of dynamic heads) accepts a value if and only if it is in the documented range, which is checked in Python and C++, and stores it (rounded, if the C++ API expects a value of type float32). Otherwise, an exception is raised.", "quantifier": "all setters and values, including infinities and values that are not numbers, and any rounding to nearest", "why_tests_cant": "Each value is checked twice by functions that differ in their treatment of values that are not numbers, and is converted into a type of a different range and precision in between; tests only use ordinary values.", "anchors": ["python/subprojects/common/mlrl/common/cython/validation.py", "python/subprojects/common/mlrl/common/cython/stopping_criterion.pyx", "python/subprojects/common/mlrl/common/cython/rng.pyx", "python/subprojects/common/mlrl/common/cython/post_optimization.pyx", "python/subprojects/common/mlrl/common/cython/multi_threading.pyx", "python/subprojects/common/mlrl/common/cython/partition_sampling.pyx", "python/subprojects/boosting/mlrl/boosting/cython/head_type.pyx", "python/subprojects/boosting/mlrl/boosting/cython/post_processor.pyx", "python/subprojects/boosting/mlrl/boosting/cython/regularization.pyx", "python/subprojects/seco/mlrl/seco/cython/lift_function.pyx", "python/subprojects/seco/mlrl/seco/cython/heuristic.pyx", "python/subprojects/seco/mlrl/seco/cython/stopping_criterion.pyx", "cpp/subprojects/common/include/mlrl/common/util/validation.hpp", "cpp/subprojects/seco/src/mlrl/seco/lift_functions/lift_function_peak.cpp", "cpp/subprojects/boosting/src/mlrl/boosting/rule_evaluation/head_type_partial_dynamic.cpp", "cpp/subprojects/common/src/mlrl/common/sampling/partition_sampling_bi_random.cpp"]}
{"id": "C123", "title": "Numerical parameters and options with individual numbers are configured as specified", "statement": "The parameters max_rules, time_limit, shrinkage and l1/l2_regularization_weight are accepted if and only if they are in the documented range (or an infinite weight), where a neutral value (zero or one) turns off the respective functionality. The options of lift functions, heuristics, dynamic partial heads, holdout sets, the sequential post-optimization and multi-threading are accepted if and only if each of the values is accepted by its setter (C122). If so, all specified values are stored, and others keep their default values, which are valid and do not change when being converted from float32 to float64 and back. A warning is logged if and only if more threads are requested than available.", "quantifier": "all texts and options, all functions for parsing numbers and any roundings to nearest", "why_tests_cant": "Each option passes through parsing, a check in Python, a conversion and a check in C++; the set of texts is infinite, and tests use a few valid values only.", "anchors": ["python/subprojects/common/mlrl/common/config.py", "python/subprojects/boosting/mlrl/boosting/config.py", "python/subprojects/seco/mlrl/seco/config.py", "python/subprojects/common/mlrl/common/options.py", "cpp/subprojects/seco/src/mlrl/seco/lift_functions/lift_function_peak.cpp", "cpp/subprojects/seco/src/mlrl/seco/heuristics/heuristic_f_measure.cpp", "cpp/subprojects/boosting/src/mlrl/boosting/rule_evaluation/head_type_partial_dynamic.cpp", "cpp/subprojects/common/src/mlrl/common/post_optimization/post_optimization_sequential.cpp", "cpp/subprojects/common/src/mlrl/common/multi_threading/multi_threading_manual.cpp"]}
