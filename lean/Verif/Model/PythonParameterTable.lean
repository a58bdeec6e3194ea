import Verif.Model.PythonParameters

/-!
# The parameters of rule learning algorithms

Sources: `/repo/python/subprojects/common/mlrl/common/config.py`, `/repo/python/subprojects/boosting/mlrl/boosting/config.py`,
`/repo/python/subprojects/seco/mlrl/seco/config.py`, as well as the files `learner*.pyx` in the directories `cython`, which define the mixins.

A mixin is identified with the only method it declares, e.g. `NoFeatureSamplingMixin` with `use_no_feature_sampling`. Parameters with a numerical value are not
included. The properties of a configuration are named like their setters, i.e., `get_min_coverage` and `set_min_coverage` access the property `min_coverage`,
`are_predictions_recalculated` and `set_recalculate_predictions` access the property `recalculate_predictions`. Statements that merely write to the log are left
out. If `_configure` consists of several conditional statements (or calls `_configure` of the base class first), they are given as a single chain of branches, because
their conditions exclude each other.
-/

namespace MLRL.PythonParameters

open PythonOptions

/-- Strings are lists of characters. -/
local instance : Coe String Str := ⟨String.toList⟩

/-- `RuleInductionParameter`, common/mlrl/common/config.py:296-354. -/
def ruleInductionParameter : Nominal :=
  { name := "rule_induction"
    values := [
      ⟨"top-down-greedy", "use_greedy_top_down_rule_induction", some ["min_coverage", "min_support", "max_conditions", "max_head_refinements",
        "recalculate_predictions"]⟩,
      ⟨"top-down-beam-search", "use_beam_search_top_down_rule_induction", some ["min_coverage", "min_support", "max_conditions", "max_head_refinements",
        "recalculate_predictions", "beam_width", "resample_features"]⟩]
    branches := [
      ⟨some "top-down-greedy", "use_greedy_top_down_rule_induction", [⟨"min_coverage", "min_coverage", .int, "min_coverage"⟩, ⟨"min_support",
        "min_support", .float, "min_support"⟩, ⟨"max_conditions", "max_conditions", .int, "max_conditions"⟩, ⟨"max_head_refinements", "max_head_refinements",
        .int, "max_head_refinements"⟩, ⟨"recalculate_predictions", "recalculate_predictions", .bool, "recalculate_predictions"⟩]⟩,
      ⟨some "top-down-beam-search", "use_beam_search_top_down_rule_induction", [⟨"min_coverage", "min_coverage", .int, "min_coverage"⟩, ⟨"min_support",
        "min_support", .float, "min_support"⟩, ⟨"max_conditions", "max_conditions", .int, "max_conditions"⟩, ⟨"max_head_refinements", "max_head_refinements",
        .int, "max_head_refinements"⟩, ⟨"recalculate_predictions", "recalculate_predictions", .bool, "recalculate_predictions"⟩, ⟨"beam_width", "beam_width",
        .int, "beam_width"⟩, ⟨"resample_features", "resample_features", .bool, "resample_features"⟩]⟩] }

/-- `FeatureBinningParameter`, common/mlrl/common/config.py:357-384. -/
def featureBinningParameter : Nominal :=
  { name := "feature_binning"
    values := [
      ⟨"none", "use_no_feature_binning", none⟩,
      ⟨"equal-frequency", "use_equal_frequency_feature_binning", some ["bin_ratio", "min_bins", "max_bins"]⟩,
      ⟨"equal-width", "use_equal_width_feature_binning", some ["bin_ratio", "min_bins", "max_bins"]⟩]
    branches := [
      ⟨some "none", "use_no_feature_binning", []⟩,
      ⟨some "equal-frequency", "use_equal_frequency_feature_binning", [⟨"bin_ratio", "bin_ratio", .float, "bin_ratio"⟩, ⟨"min_bins", "min_bins", .int,
        "min_bins"⟩, ⟨"max_bins", "max_bins", .int, "max_bins"⟩]⟩,
      ⟨some "equal-width", "use_equal_width_feature_binning", [⟨"bin_ratio", "bin_ratio", .float, "bin_ratio"⟩, ⟨"min_bins", "min_bins", .int, "min_bins"⟩,
        ⟨"max_bins", "max_bins", .int, "max_bins"⟩]⟩] }

/-- `OutputSamplingParameter`, common/mlrl/common/config.py:387-411. -/
def outputSamplingParameter : Nominal :=
  { name := "output_sampling"
    values := [
      ⟨"none", "use_no_feature_sampling", none⟩,
      ⟨"without-replacement", "use_feature_sampling_without_replacement", some ["sample_size", "min_samples", "max_samples"]⟩,
      ⟨"round-robin", "use_round_robin_output_sampling", none⟩]
    branches := [
      ⟨some "none", "use_no_output_sampling", []⟩,
      ⟨some "without-replacement", "use_output_sampling_without_replacement", [⟨"sample_size", "sample_size", .float, "sample_size"⟩, ⟨"min_samples",
        "min_samples", .int, "min_samples"⟩, ⟨"max_samples", "max_samples", .int, "max_samples"⟩]⟩,
      ⟨some "round-robin", "use_round_robin_output_sampling", []⟩] }

/-- `InstanceSamplingParameter`, common/mlrl/common/config.py:414-458. -/
def instanceSamplingParameter : Nominal :=
  { name := "instance_sampling"
    values := [
      ⟨"none", "use_no_instance_sampling", none⟩,
      ⟨"with-replacement", "use_instance_sampling_with_replacement", some ["sample_size", "min_samples", "max_samples"]⟩,
      ⟨"without-replacement", "use_instance_sampling_without_replacement", some ["sample_size", "min_samples", "max_samples"]⟩,
      ⟨"stratified-output-wise", "use_output_wise_stratified_instance_sampling", some ["sample_size", "min_samples", "max_samples"]⟩,
      ⟨"stratified-example-wise", "use_example_wise_stratified_instance_sampling", some ["sample_size", "min_samples", "max_samples"]⟩]
    branches := [
      ⟨some "none", "use_no_instance_sampling", []⟩,
      ⟨some "with-replacement", "use_instance_sampling_with_replacement", [⟨"sample_size", "sample_size", .float, "sample_size"⟩, ⟨"min_samples",
        "min_samples", .int, "min_samples"⟩, ⟨"max_samples", "max_samples", .int, "max_samples"⟩]⟩,
      ⟨some "without-replacement", "use_instance_sampling_without_replacement", [⟨"sample_size", "sample_size", .float, "sample_size"⟩, ⟨"min_samples",
        "min_samples", .int, "min_samples"⟩, ⟨"max_samples", "max_samples", .int, "max_samples"⟩]⟩,
      ⟨some "stratified-output-wise", "use_output_wise_stratified_instance_sampling", [⟨"sample_size", "sample_size", .float, "sample_size"⟩,
        ⟨"min_samples", "min_samples", .int, "min_samples"⟩, ⟨"max_samples", "max_samples", .int, "max_samples"⟩]⟩,
      ⟨some "stratified-example-wise", "use_example_wise_stratified_instance_sampling", [⟨"sample_size", "sample_size", .float, "sample_size"⟩,
        ⟨"min_samples", "min_samples", .int, "min_samples"⟩, ⟨"max_samples", "max_samples", .int, "max_samples"⟩]⟩] }

/-- `FeatureSamplingParameter`, common/mlrl/common/config.py:461-484. -/
def featureSamplingParameter : Nominal :=
  { name := "feature_sampling"
    values := [
      ⟨"none", "use_no_feature_sampling", none⟩,
      ⟨"without-replacement", "use_feature_sampling_without_replacement", some ["sample_size", "min_samples", "max_samples", "num_retained"]⟩]
    branches := [
      ⟨some "none", "use_no_feature_sampling", []⟩,
      ⟨some "without-replacement", "use_feature_sampling_without_replacement", [⟨"sample_size", "sample_size", .float, "sample_size"⟩, ⟨"min_samples",
        "min_samples", .int, "min_samples"⟩, ⟨"max_samples", "max_samples", .int, "max_samples"⟩, ⟨"num_retained", "num_retained", .int, "num_retained"⟩]⟩] }

/-- `PartitionSamplingParameter`, common/mlrl/common/config.py:487-520. -/
def partitionSamplingParameter : Nominal :=
  { name := "holdout"
    values := [
      ⟨"none", "use_no_partition_sampling", none⟩,
      ⟨"random", "use_random_bi_partition_sampling", some ["holdout_set_size"]⟩,
      ⟨"stratified-output-wise", "use_output_wise_stratified_bi_partition_sampling", some ["holdout_set_size"]⟩,
      ⟨"stratified-example-wise", "use_example_wise_stratified_bi_partition_sampling", some ["holdout_set_size"]⟩]
    branches := [
      ⟨some "none", "use_no_partition_sampling", []⟩,
      ⟨some "random", "use_random_bi_partition_sampling", [⟨"holdout_set_size", "holdout_set_size", .float, "holdout_set_size"⟩]⟩,
      ⟨some "stratified-output-wise", "use_output_wise_stratified_bi_partition_sampling", [⟨"holdout_set_size", "holdout_set_size", .float, "holdout_set_size"⟩]⟩,
      ⟨some "stratified-example-wise", "use_example_wise_stratified_bi_partition_sampling", [⟨"holdout_set_size", "holdout_set_size", .float,
        "holdout_set_size"⟩]⟩] }

/-- `GlobalPruningParameter`, common/mlrl/common/config.py:523-609. -/
def globalPruningParameter : Nominal :=
  { name := "global_pruning"
    values := [
      ⟨"none", "use_no_global_pruning", none⟩,
      ⟨"post-pruning", "use_global_post_pruning", some ["use_holdout_set", "remove_unused_rules", "min_rules", "interval"]⟩,
      ⟨"pre-pruning", "use_global_pre_pruning", some ["use_holdout_set", "remove_unused_rules", "min_rules", "aggregation", "update_interval",
        "stop_interval", "num_past", "num_recent", "min_improvement"]⟩]
    branches := [
      ⟨some "none", "use_no_global_pruning", []⟩,
      ⟨some "post-pruning", "use_global_post_pruning", [⟨"use_holdout_set", "use_holdout_set", .bool, "use_holdout_set"⟩, ⟨"remove_unused_rules",
        "remove_unused_rules", .bool, "remove_unused_rules"⟩, ⟨"min_rules", "min_rules", .int, "min_rules"⟩, ⟨"interval", "interval", .int, "interval"⟩]⟩,
      ⟨some "pre-pruning", "use_global_pre_pruning", [⟨"use_holdout_set", "use_holdout_set", .bool, "use_holdout_set"⟩, ⟨"remove_unused_rules",
        "remove_unused_rules", .bool, "remove_unused_rules"⟩, ⟨"min_rules", "min_rules", .int, "min_rules"⟩, ⟨"aggregation_function", "aggregation_function",
        .aggregation, "aggregation"⟩, ⟨"update_interval", "update_interval", .int, "update_interval"⟩, ⟨"stop_interval", "stop_interval", .int,
        "stop_interval"⟩, ⟨"num_past", "num_past", .int, "num_past"⟩, ⟨"num_current", "num_current", .int, "num_recent"⟩, ⟨"min_improvement",
        "min_improvement", .float, "min_improvement"⟩]⟩] }

/-- `RulePruningParameter`, common/mlrl/common/config.py:612-629. -/
def rulePruningParameter : Nominal :=
  { name := "rule_pruning"
    values := [
      ⟨"none", "use_no_rule_pruning", none⟩,
      ⟨"irep", "use_irep_rule_pruning", none⟩]
    branches := [
      ⟨some "none", "use_no_rule_pruning", []⟩,
      ⟨some "irep", "use_irep_rule_pruning", []⟩] }

/-- `ParallelRuleRefinementParameter`, common/mlrl/common/config.py:632-658. -/
def parallelRuleRefinementParameter : Nominal :=
  { name := "parallel_rule_refinement"
    values := [
      ⟨"false", "use_no_parallel_rule_refinement", none⟩,
      ⟨"true", "use_parallel_rule_refinement", some ["num_preferred_threads"]⟩]
    branches := [
      ⟨some "false", "use_no_parallel_rule_refinement", []⟩,
      ⟨none, "use_parallel_rule_refinement", [⟨"num_preferred_threads", "num_preferred_threads", .int, "num_preferred_threads"⟩]⟩] }

/-- `ParallelStatisticUpdateParameter`, common/mlrl/common/config.py:661-688. -/
def parallelStatisticUpdateParameter : Nominal :=
  { name := "parallel_statistic_update"
    values := [
      ⟨"false", "use_no_parallel_statistic_update", none⟩,
      ⟨"true", "use_parallel_statistic_update", some ["num_preferred_threads"]⟩]
    branches := [
      ⟨some "false", "use_no_parallel_statistic_update", []⟩,
      ⟨none, "use_parallel_statistic_update", [⟨"num_preferred_threads", "num_preferred_threads", .int, "num_preferred_threads"⟩]⟩] }

/-- `ParallelPredictionParameter`, common/mlrl/common/config.py:691-717. -/
def parallelPredictionParameter : Nominal :=
  { name := "parallel_prediction"
    values := [
      ⟨"false", "use_no_parallel_prediction", none⟩,
      ⟨"true", "use_parallel_prediction", some ["num_preferred_threads"]⟩]
    branches := [
      ⟨some "false", "use_no_parallel_prediction", []⟩,
      ⟨none, "use_parallel_prediction", [⟨"num_preferred_threads", "num_preferred_threads", .int, "num_preferred_threads"⟩]⟩] }

/-- `SequentialPostOptimizationParameter`, common/mlrl/common/config.py:758-785. -/
def sequentialPostOptimizationParameter : Nominal :=
  { name := "sequential_post_optimization"
    values := [
      ⟨"false", "use_no_sequential_post_optimization", none⟩,
      ⟨"true", "use_sequential_post_optimization", some ["num_iterations", "refine_heads", "resample_features"]⟩]
    branches := [
      ⟨some "false", "use_no_sequential_post_optimization", []⟩,
      ⟨some "true", "use_sequential_post_optimization", [⟨"num_iterations", "num_iterations", .int, "num_iterations"⟩, ⟨"refine_heads", "refine_heads",
        .bool, "refine_heads"⟩, ⟨"resample_features", "resample_features", .bool, "resample_features"⟩]⟩] }

/-- `ExtendedPartitionSamplingParameter`, boosting/mlrl/boosting/config.py:36-52. -/
def extendedPartitionSamplingParameter : Nominal :=
  { name := "holdout"
    values := [
      ⟨"none", "use_no_partition_sampling", none⟩,
      ⟨"random", "use_random_bi_partition_sampling", some ["holdout_set_size"]⟩,
      ⟨"stratified-output-wise", "use_output_wise_stratified_bi_partition_sampling", some ["holdout_set_size"]⟩,
      ⟨"stratified-example-wise", "use_example_wise_stratified_bi_partition_sampling", some ["holdout_set_size"]⟩,
      ⟨"auto", "use_automatic_partition_sampling", none⟩]
    branches := [
      ⟨some "auto", "use_automatic_partition_sampling", []⟩,
      ⟨some "none", "use_no_partition_sampling", []⟩,
      ⟨some "random", "use_random_bi_partition_sampling", [⟨"holdout_set_size", "holdout_set_size", .float, "holdout_set_size"⟩]⟩,
      ⟨some "stratified-output-wise", "use_output_wise_stratified_bi_partition_sampling", [⟨"holdout_set_size", "holdout_set_size", .float, "holdout_set_size"⟩]⟩,
      ⟨some "stratified-example-wise", "use_example_wise_stratified_bi_partition_sampling", [⟨"holdout_set_size", "holdout_set_size", .float,
        "holdout_set_size"⟩]⟩] }

/-- `ExtendedFeatureBinningParameter`, boosting/mlrl/boosting/config.py:55-71. -/
def extendedFeatureBinningParameter : Nominal :=
  { name := "feature_binning"
    values := [
      ⟨"none", "use_no_feature_binning", none⟩,
      ⟨"equal-frequency", "use_equal_frequency_feature_binning", some ["bin_ratio", "min_bins", "max_bins"]⟩,
      ⟨"equal-width", "use_equal_width_feature_binning", some ["bin_ratio", "min_bins", "max_bins"]⟩,
      ⟨"auto", "use_automatic_feature_binning", none⟩]
    branches := [
      ⟨some "auto", "use_automatic_feature_binning", []⟩,
      ⟨some "none", "use_no_feature_binning", []⟩,
      ⟨some "equal-frequency", "use_equal_frequency_feature_binning", [⟨"bin_ratio", "bin_ratio", .float, "bin_ratio"⟩, ⟨"min_bins", "min_bins", .int,
        "min_bins"⟩, ⟨"max_bins", "max_bins", .int, "max_bins"⟩]⟩,
      ⟨some "equal-width", "use_equal_width_feature_binning", [⟨"bin_ratio", "bin_ratio", .float, "bin_ratio"⟩, ⟨"min_bins", "min_bins", .int, "min_bins"⟩,
        ⟨"max_bins", "max_bins", .int, "max_bins"⟩]⟩] }

/-- `ExtendedParallelRuleRefinementParameter`, boosting/mlrl/boosting/config.py:74-90. -/
def extendedParallelRuleRefinementParameter : Nominal :=
  { name := "parallel_rule_refinement"
    values := [
      ⟨"false", "use_no_parallel_rule_refinement", none⟩,
      ⟨"true", "use_parallel_rule_refinement", some ["num_preferred_threads"]⟩,
      ⟨"auto", "use_automatic_parallel_rule_refinement", none⟩]
    branches := [
      ⟨some "auto", "use_automatic_parallel_rule_refinement", []⟩,
      ⟨some "false", "use_no_parallel_rule_refinement", []⟩,
      ⟨none, "use_parallel_rule_refinement", [⟨"num_preferred_threads", "num_preferred_threads", .int, "num_preferred_threads"⟩]⟩] }

/-- `ExtendedParallelStatisticUpdateParameter`, boosting/mlrl/boosting/config.py:93-109. -/
def extendedParallelStatisticUpdateParameter : Nominal :=
  { name := "parallel_statistic_update"
    values := [
      ⟨"false", "use_no_parallel_statistic_update", none⟩,
      ⟨"true", "use_parallel_statistic_update", some ["num_preferred_threads"]⟩,
      ⟨"auto", "use_automatic_parallel_statistic_update", none⟩]
    branches := [
      ⟨some "auto", "use_automatic_parallel_statistic_update", []⟩,
      ⟨some "false", "use_no_parallel_statistic_update", []⟩,
      ⟨none, "use_parallel_statistic_update", [⟨"num_preferred_threads", "num_preferred_threads", .int, "num_preferred_threads"⟩]⟩] }

/-- `DefaultRuleParameter`, boosting/mlrl/boosting/config.py:164-181. -/
def defaultRuleParameter : Nominal :=
  { name := "default_rule"
    values := [
      ⟨"false", "use_no_default_rule", none⟩,
      ⟨"true", "use_default_rule", none⟩,
      ⟨"auto", "use_automatic_default_rule", none⟩]
    branches := [
      ⟨some "false", "use_no_default_rule", []⟩,
      ⟨some "true", "use_default_rule", []⟩,
      ⟨some "auto", "use_automatic_default_rule", []⟩] }

/-- `StatisticFormatParameter`, boosting/mlrl/boosting/config.py:184-211. -/
def statisticFormatParameter : Nominal :=
  { name := "statistic_format"
    values := [
      ⟨"dense", "use_dense_statistics", none⟩,
      ⟨"sparse", "use_sparse_statistics", none⟩,
      ⟨"auto", "use_automatic_statistics", none⟩]
    branches := [
      ⟨some "dense", "use_dense_statistics", []⟩,
      ⟨some "sparse", "use_sparse_statistics", []⟩,
      ⟨some "auto", "use_automatic_statistics", []⟩] }

/-- `LabelBinningParameter`, boosting/mlrl/boosting/config.py:214-241. -/
def labelBinningParameter : Nominal :=
  { name := "label_binning"
    values := [
      ⟨"none", "use_no_label_binning", none⟩,
      ⟨"equal-width", "use_equal_width_label_binning", some ["bin_ratio", "min_bins", "max_bins"]⟩,
      ⟨"auto", "use_automatic_label_binning", none⟩]
    branches := [
      ⟨some "none", "use_no_label_binning", []⟩,
      ⟨some "equal-width", "use_equal_width_label_binning", [⟨"bin_ratio", "bin_ratio", .float, "bin_ratio"⟩, ⟨"min_bins", "min_bins", .int, "min_bins"⟩,
        ⟨"max_bins", "max_bins", .int, "max_bins"⟩]⟩,
      ⟨some "auto", "use_automatic_label_binning", []⟩] }

/-- `RegressionLossParameter`, boosting/mlrl/boosting/config.py:244-262. -/
def regressionLossParameter : Nominal :=
  { name := "loss"
    values := [
      ⟨"squared-error-decomposable", "use_decomposable_squared_error_loss", none⟩,
      ⟨"squared-error-non-decomposable", "use_non_decomposable_squared_error_loss", none⟩]
    branches := [
      ⟨some "squared-error-decomposable", "use_decomposable_squared_error_loss", []⟩,
      ⟨some "squared-error-non-decomposable", "use_non_decomposable_squared_error_loss", []⟩] }

/-- `ClassificationLossParameter`, boosting/mlrl/boosting/config.py:265-295. -/
def classificationLossParameter : Nominal :=
  { name := "loss"
    values := [
      ⟨"squared-error-decomposable", "use_decomposable_squared_error_loss", none⟩,
      ⟨"squared-error-non-decomposable", "use_non_decomposable_squared_error_loss", none⟩,
      ⟨"logistic-decomposable", "use_decomposable_logistic_loss", none⟩,
      ⟨"logistic-non-decomposable", "use_non_decomposable_logistic_loss", none⟩,
      ⟨"squared-hinge-decomposable", "use_decomposable_squared_hinge_loss", none⟩,
      ⟨"squared-hinge-non-decomposable", "use_non_decomposable_squared_hinge_loss", none⟩]
    branches := [
      ⟨some "squared-error-decomposable", "use_decomposable_squared_error_loss", []⟩,
      ⟨some "squared-error-non-decomposable", "use_non_decomposable_squared_error_loss", []⟩,
      ⟨some "logistic-decomposable", "use_decomposable_logistic_loss", []⟩,
      ⟨some "logistic-non-decomposable", "use_non_decomposable_logistic_loss", []⟩,
      ⟨some "squared-hinge-decomposable", "use_decomposable_squared_hinge_loss", []⟩,
      ⟨some "squared-hinge-non-decomposable", "use_non_decomposable_squared_hinge_loss", []⟩] }

/-- `HeadTypeParameter`, boosting/mlrl/boosting/config.py:298-347. -/
def headTypeParameter : Nominal :=
  { name := "head_type"
    values := [
      ⟨"single", "use_single_output_heads", none⟩,
      ⟨"partial-fixed", "use_fixed_partial_heads", some ["output_ratio", "min_outputs", "max_outputs"]⟩,
      ⟨"partial-dynamic", "use_dynamic_partial_heads", some ["threshold", "exponent"]⟩,
      ⟨"complete", "use_complete_heads", none⟩]
    branches := [
      ⟨some "single", "use_single_output_heads", []⟩,
      ⟨some "partial-fixed", "use_fixed_partial_heads", [⟨"output_ratio", "output_ratio", .float, "output_ratio"⟩, ⟨"min_outputs", "min_outputs", .int,
        "min_outputs"⟩, ⟨"max_outputs", "max_outputs", .int, "max_outputs"⟩]⟩,
      ⟨some "partial-dynamic", "use_dynamic_partial_heads", [⟨"threshold", "threshold", .float, "threshold"⟩, ⟨"exponent", "exponent", .float, "exponent"⟩]⟩,
      ⟨some "complete", "use_complete_heads", []⟩,
      ⟨some "auto", "use_automatic_heads", []⟩] }

/-- `MarginalProbabilityCalibrationParameter`, boosting/mlrl/boosting/config.py:350-368. -/
def marginalProbabilityCalibrationParameter : Nominal :=
  { name := "marginal_probability_calibration"
    values := [
      ⟨"none", "use_no_marginal_probability_calibration", none⟩,
      ⟨"isotonic", "use_isotonic_marginal_probability_calibration", some ["use_holdout_set"]⟩]
    branches := [
      ⟨some "none", "use_no_marginal_probability_calibration", []⟩,
      ⟨some "isotonic", "use_isotonic_marginal_probability_calibration", [⟨"use_holdout_set", "use_holdout_set", .bool, "use_holdout_set"⟩]⟩] }

/-- `JointProbabilityCalibrationParameter`, boosting/mlrl/boosting/config.py:371-389. -/
def jointProbabilityCalibrationParameter : Nominal :=
  { name := "joint_probability_calibration"
    values := [
      ⟨"none", "use_no_joint_probability_calibration", none⟩,
      ⟨"isotonic", "use_isotonic_joint_probability_calibration", some ["use_holdout_set"]⟩]
    branches := [
      ⟨some "none", "use_no_joint_probability_calibration", []⟩,
      ⟨some "isotonic", "use_isotonic_joint_probability_calibration", [⟨"use_holdout_set", "use_holdout_set", .bool, "use_holdout_set"⟩]⟩] }

/-- `BinaryPredictorParameter`, boosting/mlrl/boosting/config.py:392-441. -/
def binaryPredictorParameter : Nominal :=
  { name := "binary_predictor"
    values := [
      ⟨"output-wise", "use_output_wise_binary_predictor", some ["based_on_probabilities", "use_probability_calibration"]⟩,
      ⟨"example-wise", "use_example_wise_binary_predictor", some ["based_on_probabilities", "use_probability_calibration"]⟩,
      ⟨"gfm", "use_gfm_binary_predictor", some ["use_probability_calibration"]⟩,
      ⟨"auto", "use_automatic_binary_predictor", none⟩]
    branches := [
      ⟨some "output-wise", "use_output_wise_binary_predictor", [⟨"based_on_probabilities", "based_on_probabilities", .bool, "based_on_probabilities"⟩,
        ⟨"use_probability_calibration_model", "use_probability_calibration_model", .bool, "use_probability_calibration"⟩]⟩,
      ⟨some "example-wise", "use_example_wise_binary_predictor", [⟨"based_on_probabilities", "based_on_probabilities", .bool, "based_on_probabilities"⟩,
        ⟨"use_probability_calibration_model", "use_probability_calibration_model", .bool, "use_probability_calibration"⟩]⟩,
      ⟨some "gfm", "use_gfm_binary_predictor", [⟨"use_probability_calibration_model", "use_probability_calibration_model", .bool, "use_probability_calibration"⟩]⟩,
      ⟨some "auto", "use_automatic_binary_predictor", []⟩] }

/-- `ProbabilityPredictorParameter`, boosting/mlrl/boosting/config.py:444-479. -/
def probabilityPredictorParameter : Nominal :=
  { name := "probability_predictor"
    values := [
      ⟨"output-wise", "use_output_wise_probability_predictor", some ["use_probability_calibration"]⟩,
      ⟨"marginalized", "use_marginalized_probability_predictor", some ["use_probability_calibration"]⟩,
      ⟨"auto", "use_automatic_probability_predictor", none⟩]
    branches := [
      ⟨some "output-wise", "use_output_wise_probability_predictor", [⟨"use_probability_calibration_model", "use_probability_calibration_model", .bool,
        "use_probability_calibration"⟩]⟩,
      ⟨some "marginalized", "use_marginalized_probability_predictor", [⟨"use_probability_calibration_model", "use_probability_calibration_model", .bool,
        "use_probability_calibration"⟩]⟩,
      ⟨some "auto", "use_automatic_probability_predictor", []⟩] }

/-- `HeadTypeParameter`, seco/mlrl/seco/config.py:36-54. -/
def secoHeadTypeParameter : Nominal :=
  { name := "head_type"
    values := [
      ⟨"single", "use_single_output_heads", none⟩,
      ⟨"partial", "use_partial_heads", none⟩]
    branches := [
      ⟨some "single", "use_single_output_heads", []⟩,
      ⟨some "partial", "use_partial_heads", []⟩] }

/-- `LiftFunctionParameter`, seco/mlrl/seco/config.py:57-93. -/
def liftFunctionParameter : Nominal :=
  { name := "lift_function"
    values := [
      ⟨"none", "use_no_lift_function", none⟩,
      ⟨"peak", "use_peak_lift_function", some ["peak_label", "max_lift", "curvature"]⟩,
      ⟨"kln", "use_kln_lift_function", some ["k"]⟩]
    branches := [
      ⟨some "none", "use_no_lift_function", []⟩,
      ⟨some "peak", "use_peak_lift_function", [⟨"peak_label", "peak_label", .int, "peak_label"⟩, ⟨"max_lift", "max_lift", .float, "max_lift"⟩,
        ⟨"curvature", "curvature", .float, "curvature"⟩]⟩,
      ⟨some "kln", "use_kln_lift_function", [⟨"k", "k", .float, "k"⟩]⟩] }

/-- `HeuristicParameter`, seco/mlrl/seco/config.py:96-127. -/
def heuristicParameter : Nominal :=
  { name := "heuristic"
    values := [
      ⟨"accuracy", "use_accuracy_heuristic", none⟩,
      ⟨"precision", "use_precision_heuristic", none⟩,
      ⟨"recall", "use_recall_heuristic", none⟩,
      ⟨"laplace", "use_laplace_heuristic", none⟩,
      ⟨"weighted-relative-accuracy", "use_wra_heuristic", none⟩,
      ⟨"f-measure", "use_f_measure_heuristic", some ["beta"]⟩,
      ⟨"m-estimate", "use_m_estimate_heuristic", some ["m"]⟩]
    branches := [
      ⟨some "accuracy", "use_accuracy_heuristic", []⟩,
      ⟨some "precision", "use_precision_heuristic", []⟩,
      ⟨some "recall", "use_recall_heuristic", []⟩,
      ⟨some "laplace", "use_laplace_heuristic", []⟩,
      ⟨some "weighted-relative-accuracy", "use_wra_heuristic", []⟩,
      ⟨some "f-measure", "use_f_measure_heuristic", [⟨"beta", "beta", .float, "beta"⟩]⟩,
      ⟨some "m-estimate", "use_m_estimate_heuristic", [⟨"m", "m", .float, "m"⟩]⟩] }

/-- `PruningHeuristicParameter`, seco/mlrl/seco/config.py:130-162. -/
def pruningHeuristicParameter : Nominal :=
  { name := "pruning_heuristic"
    values := [
      ⟨"accuracy", "use_accuracy_pruning_heuristic", none⟩,
      ⟨"precision", "use_precision_pruning_heuristic", none⟩,
      ⟨"recall", "use_recall_pruning_heuristic", none⟩,
      ⟨"laplace", "use_laplace_pruning_heuristic", none⟩,
      ⟨"weighted-relative-accuracy", "use_wra_pruning_heuristic", none⟩,
      ⟨"f-measure", "use_f_measure_pruning_heuristic", some ["beta"]⟩,
      ⟨"m-estimate", "use_m_estimate_pruning_heuristic", some ["m"]⟩]
    branches := [
      ⟨some "accuracy", "use_accuracy_pruning_heuristic", []⟩,
      ⟨some "precision", "use_precision_pruning_heuristic", []⟩,
      ⟨some "recall", "use_recall_pruning_heuristic", []⟩,
      ⟨some "laplace", "use_laplace_pruning_heuristic", []⟩,
      ⟨some "weighted-relative-accuracy", "use_wra_pruning_heuristic", []⟩,
      ⟨some "f-measure", "use_f_measure_pruning_heuristic", [⟨"beta", "beta", .float, "beta"⟩]⟩,
      ⟨some "m-estimate", "use_m_estimate_pruning_heuristic", [⟨"m", "m", .float, "m"⟩]⟩] }

/-- `RULE_LEARNER_PARAMETERS`, common/mlrl/common/config.py:788-804, without the parameters that have a numerical value. -/
def ruleLearnerParameters : List Nominal :=
  [ruleInductionParameter, featureBinningParameter, outputSamplingParameter, instanceSamplingParameter, featureSamplingParameter,
    partitionSamplingParameter, globalPruningParameter, rulePruningParameter, parallelRuleRefinementParameter, parallelStatisticUpdateParameter,
    parallelPredictionParameter, sequentialPostOptimizationParameter]

/-- `BOOMER_CLASSIFIER_PARAMETERS`, boosting/mlrl/boosting/config.py:482-499, without the parameters that have a numerical value. -/
def boomerClassifierParameters : List Nominal :=
  union ruleLearnerParameters
    [extendedPartitionSamplingParameter, extendedFeatureBinningParameter, extendedParallelRuleRefinementParameter,
    extendedParallelStatisticUpdateParameter, defaultRuleParameter, statisticFormatParameter, labelBinningParameter,
    classificationLossParameter, headTypeParameter, marginalProbabilityCalibrationParameter, jointProbabilityCalibrationParameter,
    binaryPredictorParameter, probabilityPredictorParameter]

/-- `BOOMER_REGRESSOR_PARAMETERS`, boosting/mlrl/boosting/config.py:501-513, without the parameters that have a numerical value. -/
def boomerRegressorParameters : List Nominal :=
  union ruleLearnerParameters
    [extendedPartitionSamplingParameter, extendedFeatureBinningParameter, extendedParallelRuleRefinementParameter,
    extendedParallelStatisticUpdateParameter, defaultRuleParameter, statisticFormatParameter, regressionLossParameter, headTypeParameter]

/-- `SECO_CLASSIFIER_PARAMETERS`, seco/mlrl/seco/config.py:165-171, without the parameters that have a numerical value. -/
def secoClassifierParameters : List Nominal :=
  union ruleLearnerParameters
    [featureBinningParameter, secoHeadTypeParameter, liftFunctionParameter, heuristicParameter, pruningHeuristicParameter]

/-- The mixins `BoomerClassifierConfig` inherits from, boosting/mlrl/boosting/cython/learner_boomer.pyx:75-155. -/
def boomerClassifierConfig : List Str :=
  List.map String.toList ["use_rng", "use_automatic_partition_sampling", "use_automatic_feature_binning", "use_automatic_parallel_rule_refinement",
    "use_automatic_parallel_statistic_update", "use_constant_shrinkage_post_processor", "use_no_l1_regularization",
    "use_l1_regularization", "use_no_l2_regularization", "use_l2_regularization", "use_no_default_rule",
    "use_default_rule", "use_automatic_default_rule", "use_complete_heads", "use_fixed_partial_heads",
    "use_dynamic_partial_heads", "use_single_output_heads", "use_automatic_heads", "use_dense_statistics",
    "use_sparse_statistics", "use_automatic_statistics", "use_decomposable_logistic_loss",
    "use_decomposable_squared_error_loss", "use_decomposable_squared_hinge_loss", "use_non_decomposable_logistic_loss",
    "use_non_decomposable_squared_hinge_loss", "use_non_decomposable_squared_error_loss", "use_no_label_binning",
    "use_equal_width_label_binning", "use_automatic_label_binning", "use_isotonic_marginal_probability_calibration",
    "use_isotonic_joint_probability_calibration", "use_output_wise_binary_predictor", "use_example_wise_binary_predictor",
    "use_gfm_binary_predictor", "use_automatic_binary_predictor", "use_output_wise_score_predictor",
    "use_output_wise_probability_predictor", "use_marginalized_probability_predictor", "use_automatic_probability_predictor",
    "use_sequential_rule_model_assemblage", "use_greedy_top_down_rule_induction", "use_beam_search_top_down_rule_induction",
    "use_no_post_processor", "use_no_feature_binning", "use_equal_width_feature_binning",
    "use_equal_frequency_feature_binning", "use_no_output_sampling", "use_round_robin_output_sampling",
    "use_output_sampling_without_replacement", "use_no_instance_sampling", "use_instance_sampling_with_replacement",
    "use_instance_sampling_without_replacement", "use_output_wise_stratified_instance_sampling",
    "use_example_wise_stratified_instance_sampling", "use_no_feature_sampling", "use_feature_sampling_without_replacement",
    "use_no_partition_sampling", "use_random_bi_partition_sampling", "use_output_wise_stratified_bi_partition_sampling",
    "use_example_wise_stratified_bi_partition_sampling", "use_no_rule_pruning", "use_irep_rule_pruning",
    "use_no_parallel_rule_refinement", "use_parallel_rule_refinement", "use_no_parallel_statistic_update",
    "use_parallel_statistic_update", "use_no_parallel_prediction", "use_parallel_prediction",
    "use_no_size_stopping_criterion", "use_size_stopping_criterion", "use_no_time_stopping_criterion",
    "use_time_stopping_criterion", "use_global_pre_pruning", "use_no_global_pruning", "use_global_post_pruning",
    "use_no_sequential_post_optimization", "use_sequential_post_optimization", "use_no_marginal_probability_calibration",
    "use_no_joint_probability_calibration"]

/-- The mixins `BoomerRegressorConfig` inherits from, boosting/mlrl/boosting/cython/learner_boomer.pyx:578-635. -/
def boomerRegressorConfig : List Str :=
  List.map String.toList ["use_automatic_partition_sampling", "use_automatic_feature_binning", "use_automatic_parallel_rule_refinement",
    "use_automatic_parallel_statistic_update", "use_no_post_processor", "use_constant_shrinkage_post_processor",
    "use_no_l1_regularization", "use_l1_regularization", "use_no_l2_regularization", "use_l2_regularization",
    "use_no_default_rule", "use_default_rule", "use_automatic_default_rule", "use_complete_heads",
    "use_dynamic_partial_heads", "use_fixed_partial_heads", "use_single_output_heads", "use_automatic_heads",
    "use_dense_statistics", "use_sparse_statistics", "use_automatic_statistics", "use_decomposable_squared_error_loss",
    "use_non_decomposable_squared_error_loss", "use_output_wise_score_predictor", "use_sequential_rule_model_assemblage",
    "use_greedy_top_down_rule_induction", "use_beam_search_top_down_rule_induction", "use_no_feature_binning",
    "use_equal_width_feature_binning", "use_equal_frequency_feature_binning", "use_no_output_sampling",
    "use_round_robin_output_sampling", "use_output_sampling_without_replacement", "use_no_instance_sampling",
    "use_instance_sampling_without_replacement", "use_instance_sampling_with_replacement", "use_no_feature_sampling",
    "use_feature_sampling_without_replacement", "use_no_partition_sampling", "use_random_bi_partition_sampling",
    "use_no_rule_pruning", "use_irep_rule_pruning", "use_no_parallel_rule_refinement", "use_parallel_rule_refinement",
    "use_no_parallel_statistic_update", "use_parallel_statistic_update", "use_no_parallel_prediction",
    "use_parallel_prediction", "use_no_size_stopping_criterion", "use_size_stopping_criterion",
    "use_no_time_stopping_criterion", "use_time_stopping_criterion", "use_global_pre_pruning", "use_no_global_pruning",
    "use_global_post_pruning", "use_no_sequential_post_optimization", "use_sequential_post_optimization"]

/-- The mixins `SeCoClassifierConfig` inherits from, seco/mlrl/seco/cython/learner_seco.pyx:55-113. -/
def seCoClassifierConfig : List Str :=
  List.map String.toList ["use_rng", "use_no_coverage_stopping_criterion", "use_coverage_stopping_criterion", "use_single_output_heads",
    "use_partial_heads", "use_no_lift_function", "use_peak_lift_function", "use_kln_lift_function",
    "use_accuracy_heuristic", "use_accuracy_pruning_heuristic", "use_f_measure_heuristic", "use_f_measure_pruning_heuristic",
    "use_m_estimate_heuristic", "use_m_estimate_pruning_heuristic", "use_laplace_heuristic", "use_laplace_pruning_heuristic",
    "use_precision_heuristic", "use_precision_pruning_heuristic", "use_recall_heuristic", "use_recall_pruning_heuristic",
    "use_wra_heuristic", "use_wra_pruning_heuristic", "use_output_wise_binary_predictor",
    "use_sequential_rule_model_assemblage", "use_default_rule", "use_greedy_top_down_rule_induction",
    "use_beam_search_top_down_rule_induction", "use_no_feature_binning", "use_equal_width_feature_binning",
    "use_equal_frequency_feature_binning", "use_no_output_sampling", "use_round_robin_output_sampling",
    "use_output_sampling_without_replacement", "use_no_instance_sampling", "use_instance_sampling_with_replacement",
    "use_instance_sampling_without_replacement", "use_output_wise_stratified_instance_sampling",
    "use_example_wise_stratified_instance_sampling", "use_no_feature_sampling", "use_feature_sampling_without_replacement",
    "use_no_partition_sampling", "use_random_bi_partition_sampling", "use_output_wise_stratified_bi_partition_sampling",
    "use_example_wise_stratified_bi_partition_sampling", "use_no_rule_pruning", "use_irep_rule_pruning",
    "use_no_parallel_rule_refinement", "use_parallel_rule_refinement", "use_no_parallel_statistic_update",
    "use_parallel_statistic_update", "use_no_parallel_prediction", "use_parallel_prediction",
    "use_no_size_stopping_criterion", "use_size_stopping_criterion", "use_no_time_stopping_criterion",
    "use_time_stopping_criterion", "use_no_sequential_post_optimization", "use_sequential_post_optimization"]

end MLRL.PythonParameters
