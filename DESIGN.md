# Formal model of MLRL-Boomer: design

Subject: the C++ code of MLRL-Boomer in `/repo/cpp/subprojects/{common,boosting,seco}` at the pinned commit, and parts of the Cython and Python code
in `/repo/python/subprojects` (parameters, rule learners, conversion of models and the command line interface).
`C:` below abbreviates `/repo/cpp/subprojects/common/`, `B:` boosting, `S:` seco.
Properties are listed in `properties.jsonl`; the mapping from properties to theorems is `MANIFEST.json`.

## 1. Layout

* `lean/Verif/Base.lean` – outcome type for undefined behaviour, checked array accesses, loops and their rules.
* `lean/Verif/Model/*.lean` – the model, one file per component; every definition cites the C++ lines it models.
* `lean/Verif/Spec/*.lean` – small specifications used in theorem statements, written without the model's helpers.
* `lean/Verif/Lemma/*.lean` – auxiliary lemmas (loop invariants etc.).
* `lean/Verif/Props/*.lean` – the property theorems and, beside each, an `example` with a concrete instance.

## 2. Modelling conventions

* **Undefined behaviour** is a distinct outcome. Operations that may leave an array, divide by an integer zero, cast a
  NaN to an integer or read an uninitialised value return `Except Fault _`. A theorem saying "returns `ok`" therefore
  says that no such behaviour occurs under the stated hypotheses.
* **Floating point.** `float32/float64` are modelled as exact numbers: an arbitrary linearly ordered field or the
  rationals for arithmetic code, the reals where `exp`, `log`, `sqrt` occur. Rounding, overflow and infinities are *not*
  modelled unless a file says so. Missing values (NaN) are modelled explicitly where the code compares feature values. The exceptions are C93, C94 and C95, where rounding
  to nearest is a parameter that is characterised by its specification (`Nearest`), and C104, where conversions are parameters.
* **Integers.** `uint32` is a natural number where no wrap-around can occur under the stated hypotheses, and
  `BitVec 32`/`UInt32` where the code relies on or is exposed to wrap-around (random numbers, bit vectors).
* **Randomness.** The generator itself is modelled bit by bit. Samplers are proved for *every* stream of in-range values.
* **Concurrency.** OpenMP loops are modelled as an arbitrary interleaving (permutation / arbitrary merge) of the
  iterations' atomic effects; theorems quantify over it.
* **std::sort etc.** are modelled by relations ("some sorted permutation") or by a verified stand-in, never by an axiom.
* **Virtual calls** to components that are not the subject of a theorem (inner learner, loss, evaluation) are parameters,
  so theorems hold for every behaviour of them.

## 3. Trusted base

* Lean 4.33.0's kernel. Axioms: at most `propext`, `Classical.choice`, `Quot.sound` (checked with the audit of `vcheck`).
  No axioms are declared, no `sorry`, `admit`, `native_decide`, `bv_decide`.
* That the hand-written model agrees with the C++ text. Each definition cites file and lines; simplifications are stated
  in its comment.
* The C++ standard library containers, OpenMP runtime, LAPACK/BLAS and the compiler are outside the model.

## 4. Plan per property

| id | modelled code | proof idea |
|---|---|---|
| C01 | `C:data/ring_buffer.hpp` state (array,pos,full) | invariant by induction over pushes: storage at `j` = last value pushed at an index `≡ j mod c` |
| C02 | pre-pruning `test` as state machine on two ring buffers | invariant over histories; negation witnesses for uninitialised fields and setter order |
| C03 | post-pruning `test` | fold invariant: argmin of prefix |
| C04 | `StoppingCriterionList::test` over arbitrary criteria | case analysis over list induction |
| C05 | `induceRules` loop with arbitrary inducer in `Verif/Model/Stopping.lean`; complete training procedure `Setup.induceRulesWith` in `Verif/Model/Training.lean` | well-founded measure, counter invariant |
| C06 | rule list with iterator arithmetic | refinement to a list |
| C07 | conjunctive body evaluation, six loops with early exit | equivalence with `∀ c ∈ conditions, satisfied` incl. NaN |
| C08 | sparse `covers` with shared temp arrays and stamp `n` | invariant: stamps of earlier rules `< n` |
| C09 | condition list with counters | full property false (copy constructor): negation + partial |
| C10 | incremental predictor over iterator pair | fold over concatenation |
| C11 | dispatcher as arbitrary interleaving of per-example effects | commutation of updates on disjoint rows |
| C12, C13 | three/two sampling algorithms over an oracle | loop invariants |
| C14 | random bi-partition, BiPartition with flags | permutation property; stale flags: negation |
| C15 | xorshift on `BitVec 32` | linear injectivity of xorshift; range |
| C16 | round robin | modular arithmetic |
| C17 | bounded fraction | arithmetic with ceiling |
| C18 | sparse set with index table | refinement to finite map |
| C19 | bit vector on words | `BitVec.getLsbD` lemmas |
| C20 | forward iterators | invariant "look-ahead = first index ≥ position" |
| C21, C59, C60 | feature vectors, coverage mask with indicator values, cached filtered vectors | invariant over histories of filtering, copying and resetting |
| C22 | apply/revert over rows | commutative group action |
| C23 | training loop: score matrix vs predictor | simulation without pruning; negation with pruning |
| C24 | per-feature search results merged in order, arbitrary schedule | merge result independent of schedule |
| C25 | fixed comparator | negation for k ≥ 2, partial: sorted, ≤ k, contains best |
| C26 | `growRule` with arbitrary search | induction on steps |
| C27–C29 | search loops over feature vectors | loop invariants: subset = examples satisfying condition |
| C30 | statistics subset objects | algebraic invariant over call histories |
| C31 | sparse statistic vector | refinement to dense |
| C32 | closed-form score | convexity; L1 case: negation |
| C33 | all losses over ℝ, loops over outputs included | `HasDerivAt` of sums, logarithms and roots; loop invariants for the triangular Hessian matrix; witnesses for regression |
| C34 | evaluation of decomposable losses (dense, CSR, sparse scores), losses over ℝ | loop invariant of the incremental mean; merge of labels and scores as a list; witness for unsorted rows |
| C35 | complete and partial updates of dense and sparse statistics | loop invariants over the indices; running lower bound; witnesses for unsorted indices and dense targets |
| C36 | all of transformation_binary_gfm.cpp; sorting algorithms as parameters | invariants for the sparse matrix of marginals; expected F1 as a sum over labels; exchange argument for the top k, maximum over k |
| C37 | getClosestLabelVector, example-wise and output-wise binary transformations | loop invariant: lexicographic minimum (distance, frequency, position) |
| C38 | constructor of LabelVectorSet with hash map, createLabelVector | invariant: map = enumeration of the vectors, frequencies = counts of processed rows |
| C39 | chain rule, normalisation, marginalisation | loop invariants; expansion of a product of sums |
| C40 | all of common/.../probability_calibration_isotonic.cpp; `std::sort` and `isEqual` as parameters, loops with fuel | pools as a list of segments: invariant (strictly increasing up to the current pool), termination measure (pools + pools to the right); interpolation lemma; witnesses |
| C41 | equal-width label binning over rationals, non-finite values as `none` | bounds on floors and ceilings; witnesses of undefined behaviour |
| C42 | head selection | argmax / top-k |
| C45 | predictor_binary_output_wise.cpp for a single example | induction over the rules, invariant of the merge loops; witnesses |
| C46 | heuristic_common.hpp and all heuristic_*.cpp over an ordered field | arithmetic; witnesses |
| C49 | confusion_matrix.hpp, vector_confusion_matrix_dense.cpp, weighted statistics and subsets of statistics_common.hpp (seco) | laws of vectors of statistics (as in C30) from loop invariants over forward iterators; expansion into sums of weights; partial correctness of loops for the fault |
| C50 | prediction_partial.cpp, score_processor.cpp, ResizableAllocator in view.hpp; std::sort is a parameter | loop invariants, induction over calls |
| C51, C52 | post-optimisation phases | state-machine; negation for failed replacement |
| C53 | validation.hpp and the setters of sampling, binning, partial head, rule induction and pre-pruning configurations | induction over sequences of calls; witnesses for the negations |
| C54 | areLabelVectorsEqual, extraction of bins for joint probabilities | exact characterisation as a prefix test; witness |
| C55 | feature_binning_equal_frequency.cpp, feature_binning_equal_width.cpp, binned_feature_vector.cpp (init, resize), as functions of a sorted feature vector | loop invariants that relate arrays to a list of processed values; the result is compared to a specification (`Separates`) in terms of thresholds only |
| C56 | IREP prune loop | fold invariant |
| C61 | non-decomposable evaluation: packing of the system, solving, quality | loop invariants over triangular indices; convexity |
| C62 | binned evaluation for decomposable losses | loop invariants, exchange of sums over bins and outputs, convexity |
| C63 | the four variants of extractThresholdsAndProbabilities for marginal probabilities | loop invariants over examples and labels; witnesses |
| C64 | as C46 | monotonicity of fractions |
| C65 | feature_based_search_binned.hpp (searchForBinnedRefinementInternally) with bins as lists of examples | induction over the bins in both scans; invariants relate counters and sums to the examples seen; composed with the specification of C55 |
| C66 | feature_vector_decorator_binned.hpp (createFilteredFeatureVector for intervals and coverage masks) on arrays with uninitialised elements | loop invariant over bins and indices of the mask filter; induction over sequences of filters; composed with the search of C65 |
| C67 | rule_induction_top_down_beam_search.cpp (initial beam, refinement of beams, the search, growing and adding a rule); entries refer to all outputs, to the outputs of a head or to nothing; the subspace of an entry is copied for all of its refinements but the last one | invariant of the beam by induction over entries and refinements (each entry is represented by a path of refinements); bound on the depth for termination; composed with C23, C24 and C25 |
| C68 | rule_evaluation_non_decomposable_binned_common.hpp and the partial variants: removal of empty bins, aggregation of gradients and of the triangular Hessian matrix, weighted regularisation, solution and quality; `dsysv` is a parameter with a specification | loop invariants for each aggregation (each entry is a sum over labels), re-indexing of sums over bins as sums over labels, minimality as in C61 |
| C69 | feature_type_nominal.cpp, feature_type_ordinal.cpp, feature_type_numerical.cpp and the helpers they use, including the arrays of the compressed representation (elements that are not initialised are `none`); the iteration order of `std::unordered_map` and `std::sort` are parameters | invariants by induction over the entries: counters, offsets (prefix sums of counters), disjointness of the ranges of bins, filling in reverse order; decoding of the compressed arrays; permutations of the examples of the column; composition with `nominal_sound`, `binary_sound` and `ordinal_sound_partial` |
| C70 | stratified_sampling_output_wise.cpp:12-376 (conversion of dense and sparse label matrices into the CSC format, construction of the stratification matrix), and its use for partitioning and instance sampling; arrays with elements that are not initialised, `std::set` as a list without duplicates, of which the smallest element according to the comparator is used first, `std::unordered_map` with an arbitrary iteration order | the arrays of the CSC matrix represent the columns (prefix sums, disjoint ranges); invariant of the loop (counters = numbers of remaining examples, set = labels with remaining examples, mask = remaining examples, arrays = strata so far); each iteration removes an element from the set; refinement of the inductive relation `Iterative`, which is deterministic up to the order of the last stratum |
| C71 | predictor_common.hpp:151-175, predictor_binary_common.hpp:25-390, prediction_matrix_sparse_binary.cpp:3-16, view_matrix_csr_binary.hpp:78-142: the delegates as sequences of steps on the shared memory (matrix of scores, rows of the prediction matrix, private copies of the number of elements), the reduction, the CSR matrix with elements that may not be initialised | steps of different threads touch disjoint parts of the memory, thus each interleaving has the effect of the threads running on their own; the sum of the private copies is the number of all elements modulo 2^32; invariant of the loops that fill the arrays; induction over the calls of the incremental predictor; composed with C37 |
| C72 | learner_common.hpp:53-157, default_rule_auto.cpp:10-19, statistic_format_*.cpp, head_type_*.cpp, loss_*.cpp, properties.hpp:97-157: the pointers of a configuration, the mixins that set them, the getters and the functions by which the configuration objects consult each other | induction over the calls: the pointers are those set last; case analysis on the options |
| C73 | predictor_*.cpp, probability_calibration_*.cpp, global_pruning_*.cpp, partition_sampling_auto.cpp:9-44, learner_common.hpp:382-391, learner_classification_common.hpp:111-200: conditions under which factories are created, label vectors stored, exceptions thrown and examples held out | case analysis on the options |
| C74 | view_matrix_dense.hpp:16-74, view_matrix_c_contiguous.hpp:76-108, view_matrix_fortran_contiguous.hpp:76-108, memory.hpp:21-27: offsets modulo 2^32 into an array of elements | arithmetic of offsets; the negations by the pigeonhole principle |
| C75 | statistics_provider_non_decomposable.hpp:27-177, statistics_provider_non_decomposable_dense.cpp:108-175, statistics_(non_)decomposable_common.hpp, iterator_diagonal.hpp, math.hpp: a cell per example (scores, gradients, Hessians), steps of different examples in any order; the losses are those of C33, applying and reverting predictions is that of C22 | invariant over all sequences of events; conversion and updates by the rules for loops |
| C76 | learner_common.hpp:325-372, learner_classification_common.hpp:31-123, rule_model_assemblage_sequential.cpp:32-75, rule_induction_common.hpp:77-101, global_pruning_common.hpp:23-70, post_optimization_phase_list.cpp:39-46: the whole of `fit` composed of the models of C04, C05, C57, C03, C02, C23, C51, C52; the clock, the evaluation measure and single refinement searches are parameters | invariant over the loop that adds rules: the scores are those of the rules so far, hence each average loss that is assessed is the one of a prefix of the model; then C03 and C52 |
| C77 | as C76 | the invariant of C76 for the last state; C51 for sequential post-optimisation; a concrete run for the negation |
| C78 | as C76 | total correctness: the remaining number of rules (or readings of the clock) decreases in each iteration, growing a rule ends by C26, updates of statistics succeed by C22, tests of criteria succeed by C02 and C03; more iterations than necessary do not change the result |
| C79 | `Model/Boosting.lean`: the search for refinements, the evaluation of candidates, the default rule and shrinkage are plugged into the model of training (C76) | the quality of a candidate is never less than the change that is expected according to gradients and Hessians; squared losses do not exceed their quadratic approximations; the minimum quality is zero and qualities are compared strictly; induction over the rules. The logistic loss is refuted by two examples whose score is 8 |
| C80 | `Model/Tabular.lean`: the models of subspaces (C59, C60), searches (C27–C29), boosting (C79), bodies (C05) and predictors (C08) are put together | the subspaces that are reachable by adding conditions found by a search satisfy the laws C79 demands; training on all subspaces is simulated by training on reachable ones (`Lemma/Simulation.lean`); conditions found by a search suit the type of their feature, hence the body that is created from them covers the same examples. Refuted in general by two complete training runs |
| C81 | `Model/TabularData.lean`: the types of features (bit vectors, C19), the creation of feature vectors (C69) and training on them (C80) | bit vectors represent the declared types; the vectors that are created from the columns meet the requirements of C80, the rows of the matrix those of prediction; hence the loss of the actual predictions decreases |
| C82 | as C78–C81 | lexicographic measure (number of covered examples, number of predicted outputs); the statistics of a refinement that covers the same examples are the same, hence its quality is the same unless it predicts for fewer outputs; evaluations succeed by C12 and C13, searches by C27–C29, filters by C56; then C78 applies |
| C83 | `Config.fit` of `Verif/Model/SecoTraining.lean` puts together C43 (coverage), C49 (confusion matrices), C46 and C47 (rule evaluation), C80 (tabular search), C26 (growing), C04 and C44 (stopping) and C45 (decision lists) | invariant `Trained` by induction over the rules: coverage, heads, types of conditions, number of rules; a grown rule only depends on which labels are uncovered (`growNext_congr`); for progressive heuristics, a rule of positive quality covers an uncovered label; counting of cells relates the sum of uncovered weights to errors; the negations are a concrete dataset (for every number of rules) and the fault of C49 |
| C84 | `recalculatePrediction` and `Sampled.induceRules` of `Verif/Model/SampledBoosting.lean`; the weights, and thus the subspaces and searches, may differ between rules, the examples that are drawn are a parameter | the loop over the training examples sums up statistics (`addCovered_foldlM`, `sum_coveredStat`); recalculated heads meet the independent specification `Refits`, which makes the expected change of the loss non-positive (`refits_nonpos`); invariant by induction over the rules (`assembleWith_invariant`); for tabular data the simulation of C80 is used with a feature space per rule |
| C85 | `evaluateOutOfSample`, `Config.pruning` and `Sampled.induceRulesPruning` of `Verif/Model/OutOfSample.lean`, put together with `prune` of `Verif/Model/Induction.lean` (C56) and the tabular subspaces of C80 | the loop over the training examples is that of C84 for a smaller mask (`addOutOfSample_eq`); partial correctness of `prune` (`prune_result`); adding the conditions again to a subspace that has been reset behaves as before, because the subspaces only differ in the vectors that have been loaded (`SameButLoaded`, `Trainable.rewalk`), so that the simulation of C80 extends to pruning (`Trainable.pruned_rule`); invariant by induction over the rules with a second list of rules that describes the stored scores (`AppliedAs`) |
| C86 | `SparseView.slice`, `createVector`, `createColumns` and `applyRules` of `Verif/Model/SparseData.lean`, put together with the creation of feature vectors (C69), the tabular subspaces of C80 and the predictor of C08. The specification `Denotes` relates the three arrays of a view to the elements of a matrix by positions | what is read from a column or row stands for the elements (`slice_ok`), hence, vectors are those of a dense column (`cscColumn_eq`) and rows are those of a dense matrix (`toDense_eq`); then as for C81 |
| C87 | `binnedValues`, `completeEvaluation`, `fixedEvaluation` and `dynamicEvaluation` of `Verif/Model/BinnedTraining.lean`: the evaluations of C62, followed by the expansion of binned score vectors to heads, as the evaluation of the boosting algorithm of C79 | the quality of an evaluation without undefined behaviour is the regularized objective of the scores in the head (C62), hence at least the estimated change of the loss (`complete_bounded`); induction over rules as for C79, from the weaker assumption `Bounded` (`bounded_decreases`) |
| C88 | `predictDense` and `predictSparse` of `Verif/Model/SecoMatrix.lean` for the rows of CSR matrices, put together with the separate-and-conquer algorithm of C83, the feature vectors of C81 and C86 and the decision lists of C54 | the tabular subspaces of C83 are created from a matrix (`Settings.ok`); the decision list that results from training is characterized rule by rule (`seco_model`), so that both predictors can be compared label by label |
| C89 | `Config.beamTraining` of `Verif/Model/BeamTraining.lean`: the beam search of C67 takes the place of the greedy search of C80-C82, with copies of the tabular subspaces (`Subspace.copy`) and an arbitrary function `induceRule` in the loop of the assemblage | invariant of all entries of a beam (`BeamTrainable`): their masks are those of their conditions; training is related to a learner whose subspaces are masks (`Config.masked`), so that the results of C80 on single rules can be reused; `beam_diverges` by an invariant of the beam that is shown to hold after any number of iterations |
| C90 | `Sampled.induceRules` and `Sampled.induceRulesPruning` of `Verif/Model/SampledBoosting.lean` on the tabular subspaces, with the evaluations of `Verif/Model/Boosting.lean` | the search ends and finds a head the evaluation can deal with (`found_head`); recalculations and evaluations on other examples do not fail for such heads (`Stable`, `recalculate_total`, `outOfSample_total`); the conditions of a rule can be applied again for pruning (`Trainable.rewalk`); then induction over the rules as for C80 |
| C91 | `predict`, `Incremental`, `outputWise`, `marginalized`, `transformScore`, `transformScores`, `CalibrationModel` in `Verif/Model/ProbabilityPrediction.lean`; the logistic function is the one of `Verif/Model/Loss.lean` over the reals; rows of the matrices of scores and probabilities may be the same memory (`Rows`) | each example is processed by a single thread, so the steps for an example are performed in their original order in every interleaving (`schedule_ok`, `execute_ok`); in-place transformations by loop invariants (`outputWise_transforms`) or simulation (`marginalized_eq`); incremental steps by induction over the calls (`applyAll_ok`); calibrated probabilities via C40, where the logistic function excludes a probability of zero |
| C92 | `fitMarginal`, `fitJoint`, `fitCalibrationModels` in `Verif/Model/Calibrators.lean`, on top of `Verif/Model/Isotonic.lean` and `Verif/Model/ProbabilityPrediction.lean`; dense scores | the extracted bins are those of C54 and C63; fitting them succeeds and thresholds stem from examples (C40), where the logistic function is positive; then C91; the lowest threshold survives fitting (`fitBins_first`), hence the negative result |
| C93 | `arithmeticMean`, `isEqual` for `float32` in `Verif/Model/FloatingPoint.lean`; formats binary32 and binary64 with subnormal numbers, infinity as `none`, any rounding to nearest (`Verif/Spec/FloatingPoint.lean`) | the number before the larger value (`IsFloat32.pred`); the exact sum is closer to it than to the larger value, because the difference is either at least two digits, or exactly one and a half, in which case it is exact (`mean_bound`); values that are not considered equal are not adjacent |
| C94 | `calculateBoundedFraction`, `truncFraction` in `Verif/Model/FloatingPoint.lean` | the fraction is at most `1 - 2^-24`, thus the rounded product is less than the rounded number, and any number of the format that is less than the rounded number is not greater than the exact number |
| C95 | `binWidth`, `getBinIndex`, `binThreshold` in `Verif/Model/FloatBinning.lean`, generic in the format | rounding to nearest is monotone (`Nearest.mono`); a positive number that is not rounded to zero is rounded to at least half of it (`le_two_mul`), hence the quotient is at most twice the number of bins |
| C96 | `outOfSampleWeights`, `evaluateOutOfSample`, `recalculatePrediction` and `Config.fitWith` in `Verif/Model/SecoPruning.lean`, on top of the subsets of `Verif/Model/Confusion.lean` (C49) and training as in C83 | training with pruning and recalculation simulates training without them as long as all rules are admissible (`assembleWith_iff`, induction over the number of rules); otherwise a fault; which conditions are retained if there are enough labels (`seco_rule_pruned`) by simulation of the subspaces that can be reached |
| C97 | `serialize`, `deserialize` (rule models), `serializeCalibration`, `deserializeCalibration`, `serializeLabelVectors` and `deserializeLabelVectors` in `Verif/Model/Serialization.lean`, on top of the rule lists of C06 and the bodies of C07 | round trip for bodies, heads, rules and lists of rules (induction over the rules); all iterators over a loaded rule list are equal to those over the original one |
| C98 | `shouldEnforceSparse`, `enforceDense`, `createRowWiseFeatureMatrix`, `createColumnWiseFeatureMatrix`, `createLabelMatrix` and `createRegressionMatrix` in `Verif/Model/PythonInput.lean` | `HasValue` specifies the value at a position independently of the representation; case distinction over representations; partial, because the property is false of the code |
| C99 | `createFeatureInfo` and `mixedFeatureInfo` in `Verif/Model/PythonFeatures.lean`, on top of the model of C81 | specification `intended`; the calls of `setNominal` and `setOrdinal` are those of C81 (`featureInfo_correct`); partial, because the property is false of the code |
| C100 | `NonNative`, `Native`, `Matrix`, `toSklearn` and `predictIncrementally` in `Verif/Model/PythonPrediction.lean`; arrays either own their content or refer to the memory of a predictor, which may be deallocated | induction over the calls of `apply_next`; `Predicted` refers to the specification of C06; agreement with the model of native predictors (C10); partial, because the property is false of the code |
| C101 | `evaluate` and `invokePredictionFunction` in `Verif/Model/PythonPrediction.lean` | `Sizes` specifies the numbers of rules; induction over the iterations of the loop for any predictor that satisfies `Behaves`, which is shown for predictors with and without native support; partial, because the property is false of the code |
| C102 | `create`, `getString`, `getBool`, `getNumber`, `parseParam` and `parseParamAndOptions` in `Verif/Model/PythonOptions.lean` | the grammar is given by `listText`, `Denotes` and `Means`; induction over the elements of the list and over the allowed values; partial, because the property is false of the code if an allowed value is the beginning of another one |
| C103 | `Nominal.configure` and `configureAll` in `Verif/Model/PythonParameters.lean`, applied to a table of all parameters with nominal values in `Verif/Model/PythonParameterTable.lean`; the methods and setters of the configurations are parameters of the model | `Coherent` and `Typed` relate the values, mixins, options and properties of a parameter to each other and are checked for all parameters by evaluation (a finite set); the theorems for arbitrary texts and configurations follow by induction over the statements of a branch; partial, because the property is false of the code |
| C104 | `PyCall.apply`, `run`, `toUint32` and `configure` in `Verif/Model/PythonSetters.lean`, on top of the model of the setters of the C++ API in `Verif/Model/Config.lean`; rounding functions are parameters | specification `intended`; refinement by induction over the calls, for all functions that round to a nearest number of the formats binary32 and binary64; partial, because the property is false of the code |
| C105 | `predefined`, `Result.put`, `Result.avgDict`, `sink`, `write`, `experiment` in `Verif/Model/CrossValidation.lean`; scores are elements of a field, the square of the standard deviation is modelled | specifications `others`, `final`, `averaged`; invariant of the stored scores over all sequences of evaluations; partial, because the property is false of the code if models are evaluated incrementally |
| C106 | `parseName`, `loadMatrix`, `createMetaData`, `splitMatrix`, `load`, `save` in `Verif/Model/DataSets.lean`; the content of a file is represented by its relation, attributes and rows | specifications `Valid`, `Trimmed`, `joined`; refinement, by induction over rows, columns and attributes; partial, because the property is false of the code for the sparse format and for files without XML file |
| C107 | `labelVectors`, `denseVector`, `density`, `labelCardinality`, `labelImbalanceRatio`, `distinctLabelVectors` in `Verif/Model/LabelCharacteristics.lean`, including the conversion of label vectors to and from strings | specifications by counting, `toDense`; refinement, by induction over rows and columns, injectivity of the textual representation; partial, because an exception is raised if there are examples without relevant labels |
| C108 | `Visitor`, `tabularize`, `statistics`, `Format.visit` in `Verif/Model/ModelOutput.lean`; the rules are given in the order in which they are visited (see C06) | specifications `specRow`, `IsSummary`, `ruleText`; invariant of the visitor by induction over the rules, refinement of the loops; partial, because the formatting of numbers is a parameter and the representation of negative nominal values is wrong |
| C109 | `writeRow`, `readRows`, `writeOutput`, `readParameters`, `applyParameters`, `configureLearner`, `fileNamePerFold` in `Verif/Model/ParameterFiles.lean`; the state machine of `csv.reader` follows CPython | refinement of the reader to the list of rows by induction over characters, fields and rows; specification in terms of the values of dictionaries; partial, because reading fails if all parameters are `None` |
| C110 | `oneHotEncode`, `predefinedFolds` in `Verif/Model/OneHotEncoding.lean`; scikit-learn's classes are modelled after their documentation | specification of the columns and their elements as relations (`IsColumns`, `Encodes`), refinement; partial, because values that do not occur in the first fold are lost |
| C111 | all pointers, getters, setters, functions `use...` and `useDefaults` of the three learners in `Verif/Model/ConfigSlots.lean`; accesses as an inductive relation that follows the getters held by parts | invariant by induction over the sequence of calls; the finite tables of functions are checked by kernel evaluation; selections are specified by aspect and alternative in `Verif/Spec/ConfigSlots.lean` |
| C112 | `format_duration` in `Verif/Model/Duration.lean`, durations are rational numbers | refinement of the text to an enumeration of quantities (`Verif/Spec/Duration.lean`), and a reader that processes one character after the other recovers the number of milliseconds; induction over the list of quantities and over decimal digits |
| C113 | `Experiment.run`, `train_and_evaluate`, `__train`, `__predict_and_evaluate`, `__load_model` and `__save_model`, with a mapping from file names to learners, in `Verif/Model/Experiment.lean` | invariant of the files by induction over the splits, using that the names of the files are different (C109); refinement to the first attempt that does not fail and to the evaluations listed explicitly (`attempts`, `Settles`, `expected`, `Faithful`). Witness `stale_model`: the unrestricted statement is false of the code |
| C114 | `filter_formatters`, the lists of measures, the constructors of the writers, `_populate_result`, `tabularize` and `format` for a single fold in `Verif/Model/Measures.lean`, with the options of C102 | refinement of the two filters to a single condition (`Enabled`), induction over the measures and sinks; the names and keys of the measures, which are constants, are compared by evaluation. Negation for the median absolute error |
| C115 | `get_file_name_per_fold`, `DataType.get_file_name`, `PredictionScope.get_file_name` and the names used by the sinks in `Verif/Model/ResultFiles.lean` | names are split at the last dot and underscore; decimal representations are injective (C109); the constants are compared by evaluation. Contents of files by induction over the results, the files of an experiment by induction over the splits of C113 |
| C116 | `IsotonicProbabilityCalibrationModelFormattable` and the loop over sinks in `Verif/Model/CalibrationOutput.lean`, formatting of numbers is a parameter | visits by induction over the lists of bins (`visitFrom_first`, `visitFrom_again`), rows by induction over the remaining ones, names of columns are injective; induction over the sinks (`write_nth`). Negations for CSV files |
| C117 | `check_if_files_exist`, `NoSplitter`, `TrainTestSplitter` and `CrossValidationSplitter` in `Verif/Model/DataSplitting.lean` on top of C105; examples are elements of lists, file systems are functions | chunks of a permutation make up all indices (sum of their sizes by induction), test sets are filters of the range by a chunk, loop over the folds equals a filtered enumeration (induction); case distinction on which files exist |
| C118 | the constructors of the rule learners, `configure_rule_learner`, `configure_argument_parser`, `create_kwargs_from_parameters` and the creation of rule learners by the command line interface in `Verif/Model/PythonLearners.lean`, with the tables of C103 | induction over the lists of parameters and arguments; that the tables (which are constants) agree is checked by evaluation (`coherent`, `argument_parameter`, `argument_supported`). Negation for the random state |
| C119 | `__create_data_splitter`, `__create_pre_execution_hook` and `clear_directory` in `Verif/Model/DataSplitOption.lean`, with the parser of options of C102 and the files of C115 | an object is created iff the values are valid and specified (`create_partial`); induction over the experiments (`run_folds`). Negation for a random state of zero |
| C120 | `GlobalPruningParameter._configure` and the setters of the Python API for pre-pruning and post-pruning in `Verif/Model/PythonPrePruning.lean`, on top of the setters of the C++ API in `Verif/Model/Config.lean` | each step succeeds iff its value is valid; the conditions are composed. Negation for a stop interval of zero and a minimum improvement that is not a number |
| C121 | `RuleInductionParameter._configure` and the setters of the Python and C++ API for the induction of individual rules in `Verif/Model/PythonRuleInduction.lean` | each step succeeds iff its value is valid; the conditions are composed. Rounding to nearest does not leave the interval from zero to one |
| C122 | setters for individual numbers in `Verif/Model/PythonScalars.lean`; the checks in Python and C++ are modelled separately, including infinities and values that are not numbers | case distinction over the setters; rounding to nearest does not leave an interval with representable limits. Negations: `set_nan`, `set_ratio_large` |
| C123 | `_configure` of the numerical parameters, of lift functions, heuristics, dynamic heads, holdout sets, post-optimization and multi-threading in `Verif/Model/PythonScalarOptions.lean` | each step succeeds iff its value is accepted by the setter according to C122; the conditions are composed. Default values of type `float32` are fixed points of the rounding. Composed with C94: an accepted size of the holdout set always leaves a training example (`configureHoldout_training`) |
| C48 | lift_function_{no,kln,peak}.cpp over the reals, results that are not a number are explicit | analysis of log and pow; witnesses |
| C47 | rule_evaluation_decomposable_{common,majority}.hpp, _partial.cpp, _single.cpp; sorting is a parameter | loop invariant of the search, exchange argument for heads of the same size, averages of decreasing sequences; witnesses |
| C44 | stopping_criterion_coverage.cpp, test | inclusion–exclusion on the invariant of C43; witness |
| C43 | matrix_coverage_dense.cpp, initialisation of majority labels and of the coverage matrix for dense and CSR label matrices, applyPrediction/revertPrediction; concurrent update of the sum as load/store steps | representation invariant (cells = number of rules, sum + covered cells = initial sum) over histories; witnesses |

Deviations found while modelling are recorded in section 5.

## 5. Findings (properties that fail, and why)

Each item is proved as a theorem with a concrete witness (name in brackets) unless marked otherwise.

* `PrePruningFactory` never initialises `removeUnusedRules_`; the setters of the pre-pruning configuration can break the
  constraint between the intervals (C02).
* `ConditionList`'s copy constructor does not copy the counters (C09).
* `RuleList` iteration leaves the array if `numUsedRules` exceeds the number of rules (C06).
* `calculateBoundedFraction` ignores the maximum if it is less than the minimum, which the setters permit
  [`boundedFraction_ignores_maximum`] (C17).
* The default number of sampled features is undefined for one remaining feature and exceeds the number of features for
  none [`numFeatureSamples_one`, `numFeatureSamples_zero`] (C12).
* Stratified instance sampling ignores the minimum and maximum number of samples [`sampleWeights_ignores_bounds`] and
  reads uninitialised bits without a holdout set [`sampleWeights_uninitialised`] (C13).
* `BiPartition`'s flags that cache sortedness are not reset by `partition()` [`sortFirst_after_second_partition`] (C58).
* `randomInt(x, x)` divides by zero [`randomInt_empty_range`] (C15).
* `resetSubspace` does not reset the weighted statistics [`total_stale_after_reset`]; missing values of a nominal feature are
  subtracted from them more than once [`missing_subtracted_twice`] (C59).
* A dense numerical vector filtered by an interval is replaced by the vector of a constant feature although different values
  remain [`interval_filter_loses_values`], so that a copied subspace accepts conditions for which the original throws an
  exception [`copy_differs_from_original`] (C60).
* The backward loop of the numerical search stops before the smallest value that is not less than the sparse value. Dense
  vectors: the split between the two smallest such values is never considered [`numerical_dense_border_omitted`] and the split
  below them uses a wrong threshold [`numerical_dense_unsound`]; sparse vectors: the example is missing in the statistics and the
  threshold is wrong [`numerical_sparse_unsound`, `numerical_sparse_negative_unsound`]. For sparse vectors this is not an exception:
  whenever at least two entries not less than the sparse value have non-zero weight, including the first one, all candidates that
  separate them from the sparse value are unsound [`numerical_sparse_border_unsound`], and the same holds if there are no such entries
  [`numerical_sparse_negative_border_unsound`] (C27).
* Missing values are contained in the number of examples from which the number of uncovered examples is computed
  [`missing_values_overcounted`] (C27-C29).
* The ordinal search treats bins at the wrong side of the majority value if the examples with the smallest value have zero weight
  [`ordinal_first_unsound`], and ignores bins if those with the largest value have [`ordinal_last_unsound`] (C29).
* Sums of non-decomposable statistics over a subset of the outputs take Hessians from wrong positions if the indices are not in
  increasing order, which sampled indices need not be [`nonDecomposable_unsorted_wrong`] (C30).
* A comparator for several refinements requires each further refinement to be better than the worst one it holds even if it does not
  hold the maximum number yet [`fixed_holds_too_few`]; merging the results of several features can therefore keep worse refinements than
  those that have been rejected [`fixed_merge_drops_better`]; ties are resolved in favour of later features
  [`fixed_merge_prefers_later`] (C25).
* After pruning, the prediction of a rule is applied to the examples that satisfy all conditions but the last one of the rule
  *before* pruning, whatever has been removed [`induceRule_effect`, `pruning_updates_wrong_examples`] (C23).
* If sequential post-optimisation finds no replacement for a rule, the rule remains in the model although its prediction has been
  reverted; in the next iteration it is reverted once more [`optimizeRule_not_found`] (C51).
* With L1 regularisation, the scores for decomposable losses are shifted away from the minimum [`l1_never_minimal`], the reported
  quality may be positive [`l1_quality_positive`] (C32). For non-decomposable losses, the weight is ignored if the gradient does not
  exceed it instead of predicting zero [`l1_joint_not_minimal`] (C61).
* The quality of partial heads for non-decomposable losses is computed from the gradients and Hessians of the first outputs instead of
  those the head predicts for [`partial_quality_wrong`]; the indices of heads of a fixed size are not in increasing order, so that wrong
  entries of the Hessian matrix are used for the scores [`fixed_coefficients_wrong`] (C61).
* Equal-width label binning converts a result that is not finite into an integer if the negative (or positive) criteria are all equal,
  for example if there is only one [`equal_negative_undefined`, `equal_positive_undefined`]; the limits on the number of bins are
  applied to negative and positive criteria separately, but allocated only once [`bins_exceed_allocated`, `too_many_bins`] (C41).
* Binned rule evaluations for partial heads aggregate the statistics of the first outputs instead of those the head predicts for
  [`fixedBinned_wrong`, `dynamicBinned_wrong`] (C62).
* The Hessian of the (decomposable and non-decomposable) squared hinge loss is one where the loss is constant [`squaredHinge_flat`,
  `ndSquaredHinge_flat`]. The non-decomposable squared error loss takes the square of expected scores to be one, even for regression data
  [`ndSquaredError_regression_gradient`], and converts targets into Boolean values when updating decomposable statistics
  [`ndSquaredError_regression_direction`] or evaluating predictions [`ndSquaredError_regression_evaluate`] (C33, C34).
* The partial update of decomposable losses for dense targets ignores the indices of the outputs: the first outputs are updated instead
  [`partial_update_regression_wrong`] (C35).
* Partial updates for sparse labels or targets search forward from the last position and thus need sorted indices
  [`partial_update_csr_unsorted`]. Heads are sorted by the greedy induction of rules (rule_induction_top_down_greedy.cpp:87), not by the beam
  search (C35).
* The sparse loss merges relevant labels and scores as if rows of scores were sorted by index, but new entries are appended to the end of a row.
  The score of a relevant label can be mistaken for the one of an irrelevant label [`sparse_unsorted`] (C34, C35).
* Isotonic calibration: the list of bins must not be empty (out-of-bounds access in `fit` and `calibrateProbability`) [`fit_empty_fault`]; a probability of
  zero with a threshold of zero results in `NaN` [`calibrate_zero_nan`]; duplicates of the greatest threshold are not averaged, because line 32 stores
  the last bin instead of `previousBin` [`eliminate_last_group_not_averaged`]; merged pools are weighted equally, thus the result is not the isotonic
  regression [`aggregate_not_least_squares`] (C40).
* `areLabelVectorsEqual` does not check whether the example has further labels: prefixes are considered equal [`areLabelVectorsEqual_wrong`] (C54).
* Calibration with sparse scores: a missing score is represented by a bin with threshold zero, although its marginal probability is the one of a score of
  zero [`extract_dense_sparse_differ`]; if no score is missing, the CSR variant divides zero by zero and the dense variant adds a bin that stands for no
  example [`extract_sparse_all_present`] (C63).
* Coverage matrix: `sumOfUncoveredWeights_` is decreased for each newly covered cell, even if its true label is that of the majority, so rule induction
  may stop although minority labels are uncovered [`stop_too_early`] (C44); with several threads for the update of statistics, the member is updated
  without synchronisation and updates are lost [`uncoveredWeights_race`] (C43).
* `createStatisticsSubsetInternally` (seco/.../statistics_common.hpp:563) allocates the vector of total confusion matrices with `labelMatrix.numRows`
  elements instead of `numCols`: out-of-bounds reads of the coverage matrix if there are more examples than labels [`subsetTotal_fault`], too few totals
  if there are fewer [`subsetTotal_short`] (C49).
* Heuristics: WRA is negative for rules that are worse than the prior [`wra_negative`]; accuracy, Laplace and the m-estimate are not 0 if nothing is
  covered [`nothing_covered_nonzero`]; accuracy counts `uip` instead of `urn` as a correct prediction of uncovered elements (heuristic_accuracy.cpp:17)
  and therefore is not symmetric [`accuracy_not_symmetric`] (C46).
* Peak lift function: the sign of the normalization after the peak is wrong (lift_function_peak.cpp:20-21), lifts are below 1 [`peakLift_below_one`] or
  not a number [`peakLift_nan`]; the maximum lifts are not maxima [`peakLift_max_wrong`] and there is none for heads with all labels
  [`peakLift_max_fault`] (C48). The search for the best head still finds an optimal head [`partial_optimal`, `peakLift_sound`], unless there is a single
  label, where an element of an empty array is accessed [`partial_peak_fault`], or qualities are negative [`partial_wra_peak`] (C47).
* `OutputWiseSparseBinaryPredictor` does not implement decision lists: if the default rule predicts a label as relevant and a preceding rule predicts it as
  irrelevant, the label is considered as relevant, in contrast to the dense predictor [`predictors_disagree`]. It also depends on the order of the
  indices of heads [`unsorted_heads`], which is ensured by the greedy rule induction (rule_induction_top_down_greedy.cpp:87) but not by the beam search
  (C45). A default rule at the end of a rule list is always used, regardless of the limit, hence no element of a dense prediction matrix remains
  uninitialised [`dense_initialised`].
- **C53** The relation between minimum and maximum is only checked when the maximum is set. `setMaxSamples(10)` followed by `setMinSamples(20)` is accepted, and the maximum is then ignored (`maximum_violated`, `maximum_ignored`).
- **C53** `setUpdateInterval` does not check the stop interval, such that `setStopInterval(10)` followed by `setUpdateInterval(3)` is accepted (`stopInterval_not_multiple`). `setStopInterval(0)` is accepted as well and pre-pruning then divides by zero (`stopInterval_zero`).
- **C53** `assertGreaterOrEqual` and `assertLessOrEqual` accept NaN, in contrast to `assertGreater` and `assertLess` (`minImprovement_nan`).
- **C55** Equal-width binning allocates `numBins - 1` thresholds, but writes one for each interval that is not empty. If there is a value in each interval, it writes beyond the end of the array (`equalWidth_fault`).
- **C55** The thresholds of equal-width binning are computed from the number of preceding bins that are not empty, rather than from the index of the interval. Values may be stored in bins that do not match their thresholds (`equalWidth_gap_not_separated`). Values on a boundary are assigned to the upper bin, but satisfy the condition `value <= threshold` (`equalWidth_boundary_not_separated`).
- **C55** Equal-width binning determines the bin of the sparse value even if a feature has no sparse values. If all values are positive, a negative value is converted into an unsigned integer, which is undefined (`equalWidth_positive`).
- **C55** Equal-frequency binning adds a bin for sparse values, for which no space is allocated (`equalFrequency_fault`). As values are compared approximately, several values may be stored in the same bin although they differ by more than the tolerance, or lie on different sides of its threshold (`equalFrequency_approximate_not_separated`).
- **C65** The search over binned features calls `calculateScores` instead of `calculateScoresUncovered` for the candidate `<= t` at the bin for sparse values. It is evaluated on exactly the examples it does not cover (`binned_wrong_statistics`, `binned_unsound`). If the bin for sparse values is the last one, the candidate is even evaluated on no examples at all, and its threshold does not exist (`binned_threshold_fault`).
- **C65** If all examples in the first bin have zero weight, the scan stops, and none of the bins before the bin for sparse values is considered (`binned_first_skipped`). If all examples in the last bin have zero weight, the number of covered examples is wrong (`binned_last_unsound`).
- **C66** When a binned feature vector is filtered by a coverage mask, the index of the bin for sparse values is overwritten whenever a bin is kept, such that it always becomes the last bin; a bin for sparse values without stored examples is removed. Examples with sparse values are then treated as if they belonged to the last bin (`filterMask_sparse`, `exVector_search`).
- **C66** If an interval leaves a single bin, the array of thresholds of the resulting view still exposes thresholds of the original vector, which the search over binned features accesses (C65).
- **C67** The entries of a beam are only sorted when the last entry is overwritten. If refinements do not exceed the width of the beam, `getBestEntry` returns the first entry, which is not necessarily the best one (`beam_not_sorted`).
- **C67** If the beam is full, refinements are written to `newOrder.back()` without comparing them to it. The last entry is not necessarily the worst one, because the entries are not sorted when the beam becomes full, and the best entry may be lost (`beam_loses_best`).
- **C67** A refinement must be better than the last entry of the previous beam, but not better than the entry it refines; the latter is dropped even if it is better than all of its refinements (`beam_gets_worse`). The greedy search stops in this case.
- **C67** The coverage of the first condition is not checked before refining it, and heads for a subset of the outputs are not sorted, as opposed to the greedy search.
- **C68** `aggregateGradientsAndHessians` omits the Hessians of different labels in the same bin, whereas predicting the same score `s` for two labels contributes `h * s * s` to the objective. The score and its quality are wrong if such Hessians are not zero (`pairs_omitted`: the quality is -9, the true value is -9/2, and -6 could be reached).
- **C68** As for decomposable loss functions (C62), heads for a subset of the labels are obtained from the statistics of the *first* labels (`fixedBinned_wrong`, `dynamicBinned_wrong`).
- **C69** In a sparse matrix, the sparse value counts as an additional value if not all rows are stored, even if it is already among the stored values. If, e.g., zeros are stored explicitly, `numValues` is too large by one, and elements of `values` and `indptr` remain uninitialised and are used afterwards (`nominalCsc_uninitialised`, `ordinalCsc_uninitialised`). If the stored values are all zeros, a binary vector with the minority value 0 and the majority value 0 is created (`binaryCsc_wrong`).
- **C69** The sparse value is converted via `static_cast<int32>` even if it is NaN (`nominalCsc_badCast`).
- **C70** The size of the array for the column-wise copy of a dense label matrix is the product of the numbers of examples and labels, converted to `uint32`. For matrices with at least 2^32 elements, the array is too small and is written out of bounds, e.g., with 65536 examples and labels (`copyDense_overflow`).
- **C71** The number of labels predicted by `SparseBinaryPredictor` is summed up as an `uint32`. If 2^32 or more labels are predicted, too little memory is allocated for the CSR matrix and elements are written beyond the end of the array, in each execution (`sparse_predict_overflow`).
- **C72** `INonDecomposableLossConfig::isSparse` returns `true` (`loss_non_decomposable.hpp:150-152`), although there are no sparse non-decomposable statistics. Therefore, the automatic default rule is left out without need: always, if the sparse format is chosen together with a non-decomposable loss, and for sparse label matrices with more than 120 labels and partial heads, if the format is automatic (`default_rule_omitted_iff`). The same happens for the squared hinge loss with the sparse format and complete heads.
- **C72** If the sparse format and a default rule are demanded together with the squared hinge loss and partial heads, the default rule is evaluated with the regular rule evaluation, e.g., it predicts for a single label in case of single-output heads (`default_rule_not_complete`).
- **C73** If an isotonic calibration that uses a hold-out set is configured for a loss without probability function, a part of the examples is held out though nothing is learned from it (`holdout_set_wasted`).
- **C74** Offsets into dense matrices and the amount of memory that is allocated for them are calculated with 32 bit integers. A matrix with 2^32 or more elements has overlapping rows or rows outside of its memory (`allocate_overflow`), which affects feature matrices given by a user (`view_overflow`) and, since each example needs n(n+1)/2 Hessians, already moderately sized multi-label data sets.
- **C75** `triangularNumber` overflows for 65536 or more outputs (`math.hpp:16-18`). Less memory is allocated for Hessians than is written to (`create_overflow`).
- **C75** The pragmas in `statistics_provider_non_decomposable_dense.cpp:121-123, 164-165` refer to a variable `numThreads` that does not exist, i.e., the file does not compile if they are active. They are subject to the macro `MULTI_THREADING_SUPPORT_ENABLED`, which is defined in the `config.hpp` of the common library, but each of the libraries `boosting` and `seco` generates a file of the same name that does not define it (`meson.build`, `config.hpp.in`). Which one is included by `util/openmp.hpp` depends on the order of the include directories. If it is the library's own one, loops in these libraries, including the ones for parallel prediction in the header `predictor_common.hpp`, are executed sequentially, whatever number of threads is configured. The model covers both cases, as an execution one after the other is one of the interleavings.
- **C77** If global pruning is used, the predictions of the rules that turn out to be unused are never reverted from the statistics. Therefore, probability calibration models are fitted to scores that differ from those the model predicts (`calibration_ignores_pruning`), and sequential post-optimisation, which runs after unused rules have been removed, relearns rules for statistics that still include the removed rules.
* C79: for the logistic loss, a rule may increase the training loss even though its quality is negative, because the quadratic approximation is no
  upper bound (`logistic_overshoots`). If one of two examples is associated with a label and a score of 8 is predicted for both of them, the
  calculated score is `-sinh 8`, i.e., less than -1000, although -8 is optimal. L2 regularisation and shrinkage, which are used by default,
  mitigate this.
* C79: the default rule is calculated from all examples, including those of a hold-out set (`EqualWeightVector`, rule_induction_common.hpp:81),
  so what it does not increase is the unweighted loss. Its quality is not compared to the minimum quality.
* C80: for a dense numerical feature with the values -4, 1 and 9, the sparse value 0 and the targets 4, -4 and 0, training ends with the scores
  4, 0 and 0, but the model predicts 4, 4 and 0 (`numerical_training_fails`). According to the statistics, the rule decreases the loss from 32 to
  16, actually it increases it to 64. The same happens if a value is missing (`missing_training_fails`): the rule is not applied to the example
  during training, but at prediction time the comparison with NaN is negated.
* C80: if all values of a numerical feature are greater or equal to the sparse value, the split between the first two of them is never considered
  (feature_based_search_numerical.hpp:132); if there are only two values, there is no refinement at all.
* **Useless rules** (C83, `seco_no_progress`). With heuristics that assign a positive quality to rules that do not cover any uncovered label (Laplace,
  accuracy, m-estimate with m > 0), a rule may be learned that covers nothing new. As the next rule only depends on the uncovered labels, it is learned
  again and again until the maximum number of rules is reached. Neither the quality threshold (zero) nor the coverage stopping criterion prevents this,
  and the minimum coverage does not help, because it counts examples, regardless of whether their labels have already been covered.
* Boosting algorithms that prune rules (C85): the quality of a rule on the prune set is calculated by `calculateScores()` from the statistics of the
  prune set (feature_space_tabular.cpp:24). Hence, it is the quality of scores that have been fitted to the prune set, rather than that of the scores
  the rule predicts, i.e., a rule whose scores are wrong for all examples in the prune set may be evaluated best
  (`outOfSample_ignores_scores`). Moreover, stored scores are not updated for the examples a rule covers if it had at least two conditions before
  pruning, even if none of them has been pruned (see C23). `pruned_increases` is a concrete run where the next rule increases the loss of the training
  examples from 2 to 22, although the stored scores suggest otherwise.
* Sparse numerical features (C86): the refinement that separates the examples with the sparse value from the others is always evaluated on wrong
  examples if at least two elements greater than the sparse value are stored (see C27). `sparse_training_fails` shows what this means for training: for a
  feature with the values 3, 5 and 0, a rule that has been evaluated on the second example is added to the model. It covers the first example as well
  and increases the loss of the training examples.
* Label binning with partial heads (C87): as statistics are aggregated for the wrong outputs (C62), a rule that is expected to decrease the training
  loss may increase it [`fixed_training_fails`, `dynamic_training_fails`]. With a single output, label binning always results in a conversion of a value that is not finite to an integer,
  unless the score is zero [`single_output_undefined`].
* Sparse predictions of separate-and-conquer algorithms (C88): the sparse predictor collects all labels that are predicted as relevant by any rule,
  including the default rule. The dense predictor uses the first rule that covers an example. If there is a default rule, they differ for each example
  for which a rule covers a majority label (`seco_predictors_agree_iff`). In `sparse_predictions_fail`, the dense predictor predicts all training
  examples correctly, while the sparse predictor does not.
* Beam searches without a limit on the number of conditions (C89), which is the default: `FeatureSubspace(const FeatureSubspace&)` does not copy filtered
  vectors. A vector is filtered by the mask of covered examples only if it is used again, and bins that include all covered examples are kept. As a
  result, conditions that do not exclude any example are found again and again. The quality of such a refinement is the same as before and better than the
  worst rule in the beam, so that the search continues forever (`beam_diverges`). If the number of conditions is limited, rules may contain the same
  condition several times (see the examples in `Verif/Props/BeamTraining.lean` and `Verif/Props/BeamDivergence.lean`).
* C91: if marginal probabilities are calibrated by an isotonic model, a calibrated marginal probability, and thus a joint probability, may be exactly zero. Joint probabilities of zero that are encountered while fitting the joint model result in a bin with the threshold zero. Afterwards, calibrating a joint probability of zero divides zero by zero and all marginalized probabilities of the example are NaN (`predict_marginalized_nan`).
* C92: if marginal and joint probabilities are both calibrated via isotonic regression, a joint probability of zero that is encountered when fitting the joint model results in NaN whenever such a joint probability is encountered afterwards (`fitJoint_zero_nan`). Joint probabilities of zero are common, because examples with low scores are calibrated to a marginal probability of zero if their label is irrelevant: `calibrated_nan` is a training set with two examples, for the first one of which NaN is predicted.
* C92: if the holdout set is empty, fitting a calibration model to it accesses a bin that does not exist (`fit_empty_holdout`).
* C93: the thresholds between the sparse value and its neighbours (feature_based_search_numerical.hpp:207-287, feature_binning_equal_frequency.cpp:61) are calculated without checking `isEqual`. If both values are adjacent, the threshold may be the larger one, e.g. `0` for `-2^-149` and `0` (`threshold_adjacent`), and the condition covers other examples than the refinement.
* C93: according to math.hpp:27-28, `arithmeticMean` prevents overflows. This is true if both values have the same sign. Otherwise, the difference may overflow and the threshold is infinite (`threshold_overflow`).
* C94: for a fraction of one, which is permitted for sampling with replacement, the number of samples may exceed the number of elements if there are more than 2^24 (`ceilFraction_one`), which is harmless when sampling with replacement, unless it is not representable (`ceilFraction_one_badCast`).
* C95: different labels may have criteria that are so close to each other that the width of a bin is rounded to zero. Dividing by it is undefined behaviour, as in the case of equal criteria, see C41 (`getBinIndex_zero_width`). The same happens if the difference of feature values overflows (`getBinIndex_infinite`).
* C95, C55: a value may be assigned to a bin although it satisfies the condition of the preceding one, even if it is not on the boundary of a bin when calculated exactly. This affects simple values, e.g., 1/3 if the values are in [0, 1] and there are three bins (`getBinIndex_threshold`).
* C96: the default configuration of the separate-and-conquer learner (stratified instance sampling, IREP, recalculation of predictions; learner_seco_classifier.cpp:22-36) never ends with a model that contains any rule if there are more examples than labels, as is almost always the case: the subset that is created for recalculating predictions accesses elements beyond the end of the rows of the label and coverage matrices (`seco_recalculate_fault`). The cause is the same as for the default rule, see C49 and C83: `labelMatrix.numRows` instead of `labelMatrix.numCols` in statistics_common.hpp:556-568. Pruning is affected as well (`seco_pruning_fault`).
* C97: a rule that does not predict for any output cannot be saved, because `__serialize_complete_head` and `__serialize_partial_head` (rule_model.pyx:319-330) lack the check for arrays without elements that is used for conditions (`save_iff`). No configuration is known that learns such a rule. Loading a model fixes the number of used rules (`load_fixes_used`), which would matter if rules were added to a loaded model.
* C98: if a label matrix is given in a sparse format, a label is relevant if it is *stored* (label_matrix.pyx ignores the values), i.e., explicitly stored zeros become relevant labels (`labels_explicit_zero`). If a feature matrix is converted into a dense one and `sparse_feature_value` is not zero, explicitly stored zeros are replaced by it, because `nonzero()` skips them (arrays.py, `features_explicit_zero`). In both cases, the result depends on a policy that is merely meant to save memory.
* C98: a sparse matrix without stored elements is rejected with an `IndexError` if the sparse format is used, because the address of the first element is taken (`features_accepted`); this is the default for query examples with more than one feature, none of which is nonzero (`features_all_zero`). This assumes that Cython checks bounds, which is the default.
* C98: the memory consumption of regression scores is estimated as if they were labels (rule_learners.py), such that the dense format is used although the sparse format takes less memory (`auto_regression_wrong`).
* C99: if only `ordinal_feature_indices` or only `nominal_feature_indices` is given and some features are numerical, training fails with a `TypeError`, because `None` is passed to `MixedFeatureInfo` (`createFeatureInfo_none`). All features are considered to be ordinal or nominal if the *length* of a list is the number of features, even if it contains duplicates (`createFeatureInfo_counts`). Indices that are too large are written beyond the end of a bit vector (`createFeatureInfo_invalid`).
* C100: if incremental prediction is supported natively, `apply_next` returns a view of the memory of the predictor instead of a copy (prediction.pyx, `c_view_*`). All arrays that have been returned before change with each call (`native_overwritten`), and refer to freed memory once the predictor is deallocated (`native_dangling`). Predictors without native support return arrays that are independent of each other.
* C100: `ClassificationRuleLearner._predict_proba_incrementally` calls `super().predict_proba_incrementally` instead of `super()._predict_proba_incrementally` if probabilities are not supported, and therefore itself (`unsupported_diverges`). The resulting `RecursionError` happens to be a `RuntimeError`, too.
* C101: `max_size` does not end the incremental evaluation of a model (experiments.py). If the model has more rules, evaluations of larger models follow, all of which are reported as evaluations of a model with `max_size` rules (`evaluate_exceeds`).
* C101: `_invoke_prediction_function` does not pass on keyword arguments to the function that predicts probabilities. A value given by the argument `--sparse-feature-value` is used for training, but not for the prediction of probabilities (`probabilities_ignore_value`).
* C103: the sets of parameters of BOOMER are formed by `RULE_LEARNER_PARAMETERS | {ExtendedPartitionSamplingParameter(), ...}`. Parameters are equal if they have the same name, and the union of two sets retains the elements of the first one. The parameters `ExtendedPartitionSamplingParameter`, `ExtendedFeatureBinningParameter`, `ExtendedParallelRuleRefinementParameter` and `ExtendedParallelStatisticUpdateParameter` are hence discarded. The value `auto` of `holdout`, `feature_binning`, `parallel_rule_refinement` and `parallel_statistic_update`, which is documented as the default value of some of them, is rejected (`auto_rejected`). The same applies to `head_type`, where the branch for this value exists, but the value is not added.
* C103: `OutputSamplingParameter` checks for the mixins `NoFeatureSamplingMixin` and `FeatureSamplingWithoutReplacementMixin` instead of those for the sampling of outputs (`outputSampling_attribute`). This goes unnoticed, because all existing configurations inherit from all of these mixins.
* C103: the documentation of parameters of SeCo algorithms mentions `default_rule` and the value `auto` of `holdout`, which do not exist. The default value of `sample_size` of `with-replacement` is documented as 1.0, but is 0.66, and 1.0 is rejected by the Python API, although it is permitted by the C++ API.
* C104: the setters of configurations for instance sampling and output sampling are declared without `except +` in the `.pxd` files, in contrast to all other setters that throw exceptions. Exceptions of the C++ API hence terminate the program. The checks of the Python API (`value <= threshold`) do not catch NaN, and they are applied before the value is rounded to the type `float32`. For example, `sample_size=nan`, `sample_size=1e-50` and `sample_size=0.99999999999` terminate the program (`sampler_nan`, `sampler_small`, `sampler_large`).
* C104: the same setters are declared with arguments of type `float32` instead of `uint32`. Integers above 2^24 are not stored exactly, and the conversion of integers above 2^32 - 128 is undefined (`sampler_undefined`).
* C104: the value `without-replacement{min_samples=2}` of the parameter `output_sampling` is rejected, because the maximum is 1 by default and is set again after the minimum has been set (`outputSampling_minimum`).
* C105: if models are evaluated incrementally in a cross validation, the averages across folds are wrong. There is one dictionary of scores per fold, regardless of the size of the model, which is overwritten by each evaluation. The averages that are written for a certain size while the last fold is processed hence combine the scores of the last fold for this size with the scores of the other folds for their largest models. In the example of `averages_incremental_wrong`, all models of size 1 have the score 1/2, but 3/4 is reported as the average.
* C106: the number of rows and columns of a file in the sparse format is determined by the largest indices that occur in the file, instead of the number of rows and attributes (`data.py`, line 384). If the last output is irrelevant for all examples in the file (e.g., in a test set or a predefined fold), the last feature is loaded as the first output and the other outputs are shifted (`roundtrip_sparse_wrong`). Trailing examples without non-zero values are lost. If there are no non-zero values at all, loading fails (`load_sparse_zero`). By `roundtrip_sparse_iff`, this happens whenever the last row or column contains only zeros.
* C106: if no XML file is available, the number of outputs is taken from the option `-C` of the relation. It is negative if outputs are located at the end, which is how data sets are saved by `save_data_set`. In this case, no outputs are found, and the slices `:-0` and `-0:` assign all columns to the output matrix (`load_relation_wrong`).
* C106: the output matrix is obtained from the first or last columns, although the meta-data is obtained by comparing names. If the order of outputs in the XML file is different, or if outputs are located between features, the columns do not match the meta-data (`load_order_wrong`, `load_interleaved_wrong`).
* C106: ordinal features are declared as `NUMERIC` when a data set is saved and become numerical features when it is loaded (`roundtrip_ordinal_wrong`).
* C107: unique label vectors are represented by strings, which are split and parsed again afterwards (`label_vectors.py`, lines 57-67). The string of a label vector without relevant labels is empty. As `''.split(',')` is `['']` in Python and `int('')` is an error, a `ValueError` is raised if there is any example to which no label is relevant (`labelVectors_error`).
* C107: explicitly stored zeros of sparse matrices are treated as relevant labels when computing characteristics (`density_explicit_zero`).
* C108: a nominal value is used as an index of the list of nominal values, if it is smaller than its length (`models.py`, line 134). A negative value is shown as the name of another value (`format_negative`). Such values do not occur if data is loaded from ARFF files, but may be passed to the Python API.
* C109: if all parameters of a learner have default values, `ParameterWriter` writes a CSV file that consists of two empty rows. `ParameterCsvInput.read_parameters` (`parameters.py`, lines 50-62) raises a `StopIteration` when reading it, because only exceptions of the type `IOError` are handled (`read_saved_none`).
* C109: the output directory is not cleared if a single fold of a cross validation is performed (`runnables.py`, lines 541-544). As results of an incremental evaluation are appended to an existing file, the file contains the results of all earlier runs, too (`incremental_stale`).
* C109: files are opened for writing without `newline=''` (`io.py`, line 94), which is why each row is followed by an empty row on Windows and line breaks in values are changed (`csv_roundtrip_windows`).
* C110: if there are files with predefined folds, the one-hot encoder is fit to the first fold only (`data_splitting.py`, line 419). Values that occur in other folds only are encoded as zeros, even if these folds are used for training. Examples that differ in these values become equal (`predefined_loses_values`).
* C110: one-hot encoding removes the types of all features (`data.py`, line 332). Ordinal features are treated as numerical ones afterwards (`ordinal_lost`), but only if the data set contains nominal features, too.
* C111: the logistic and hinge losses set the pointer to the loss function for regression problems to null (`boosting/learner_classification.hpp`, lines 44, 64, 84, 104), whereas stratified sampling leaves the pointer for regression problems untouched (`common/learner_classification.hpp`, lines 339, 363, 390, 416). Neither has an effect, because these pointers are never accessed by a classifier (`regression_loss_missing`).
- Models trained for other splits are loaded (C113, `stale_model`): the name of the file a model is stored in only consists of
  the learner's name and the fold (persistence.py:31-71). Running an experiment without splitting the data, or a cross
  validation with another number of folds, and afterwards an experiment with a train-test split in the same directory, evaluates
  a model that has been trained on the test examples. Only a difference between parameters is reported
  (experiments.py:471-490).
- If both matrices are sparse and a learner rejects sparse output matrices, a sparse feature matrix is tried with a dense output matrix,
  but a dense feature matrix is never tried with a sparse output matrix (experiments.py:420-443, `attempts`).
- The median absolute error cannot be selected individually (C114, `median_not_selectable`): the constants
  `OPTION_MEAN_ABSOLUTE_ERROR` and `OPTION_MEDIAN_ABSOLUTE_ERROR` are both `'mean_absolute_error'` (evaluation.py:72 and 76), so that
  both measures are always enabled or disabled together. The option `median_absolute_error` is rejected (runnables.py:396-427).
- Measures that are disabled via `enable_all=false` are computed nevertheless, as `filter_formatters` uses `True` as a default value
  (format.py:162); they are only removed from the output.
- CSV files with calibration models mix up thresholds and probabilities (C116, `csv_mixed_up`, `csv_wrong`): bins are stored as
  `(threshold, probability)` (probability_calibration.py:58), but `tabularize` unpacks them as `probability, threshold` (line 105).
- If a calibration model is printed and stored, each bin is contained twice in the CSV file (C116, `csv_doubled`): `format` and
  `tabularize` both visit the model and append its bins to the same dictionary, which is never cleared (lines 64 and 89).
- Files of predefined folds are ignored without a warning if there are more of them than folds (C117, `folds_ignored`), e.g., if the
  number of folds is 5, but files for 10 folds exist: the remaining examples are used neither for training nor for testing.
- If the files for some folds exist, a cross validation with more folds fails, although a file with all data may exist (C117,
  `crossValidation_succeeds`).
- The random state is ignored in case of regression problems (C118, `random_state_ignored`, `run_random_state`): in contrast to
  `BoomerClassifierConfig`, `BoomerRegressorConfig` (learner_boomer.pyx:578) does not inherit from `RNGMixin`. As a result,
  `RandomStateParameter` is not supported and `configure` does nothing, although `BoomerRegressor` and the command line interface accept
  a random state. The default seed of the C++ implementation is always used.
- `--random-state 0` is not rejected when splitting a data set (C119, `random_state_zero`), although the value must be at least one: zero is
  considered to be false (runnables.py:524,534), and the default value 1 is used instead.
- Options for pre-pruning (C120): a stop interval of zero is accepted (`stop_interval_zero`), which results in a division by zero as soon as the
  buffer for past scores is full (`stop_interval_zero_fault`), and so is a minimum improvement that is not a number (`min_improvement_nan`).
  If only an update interval greater than one is given, it is rejected with an error message about the stop interval
  (`update_interval_alone`), because the default value of the latter, 1, is not a multiple of it.
- Setters for individual numbers (C122): `assert_greater_or_equal` and `util::assertGreaterOrEqual` are both based on the comparison `value < threshold`, which is false for values that are not numbers. Hence, such values are accepted as the lift, beta, m, the coverage threshold and the exponent of dynamic heads (`set_nan`), whereas `util::assertGreater` and `util::assertLess` reject them. Infinite values are accepted by all setters without an upper bound (`set_infinite`). Sizes of a holdout set less than one that are rounded to one are rejected, although they are in the documented range (`set_ratio_large`).
- Options with individual numbers (C123): the default value of the option `beta` of the F-measure is documented as 1.0 (doc/user_guide/seco/parameters.md:85), but it is 0.25 (heuristic_f_measure.cpp:68, see `configure_default`). With at most three examples, the default size of the holdout set results in an empty holdout set (`holdout_default_empty`), cf. C92.

## 6. What is modelled and what is not

Modelled so far: ring buffer, stopping criteria and training loop, rule lists, conjunctive bodies (dense and sparse
coverage), score predictor, parallel dispatch, sparse-set rows, bit vectors, forward iterators, random number generator,
index/feature/output/instance sampling, hold-out partitions, example-wise stratification, feature
vectors (numerical, nominal, ordinal, binary), coverage masks and feature subspaces, the search for
refinements on numerical (non-binned), nominal, binary and ordinal features, vectors of decomposable (dense, sparse) and
non-decomposable statistics and subsets of them, comparators of refinements and the parallel search over
features, applying and reverting predictions, greedy induction of rules, IREP pruning, the loop of the learner and sequential
post-optimisation, closed-form scores and selection of partial heads for decomposable losses, joint scores for non-decomposable
losses, equal-width label binning and binned rule evaluation for decomposable losses, loss functions, updates of statistics and evaluation measures, label vector sets, joint probabilities, GFM,
isotonic calibration,
coverage matrix and initialisation of the majority labels, coverage stopping criterion,
confusion matrices and statistics of the separate-and-conquer algorithm,
heuristics, lift functions and rule evaluation of the separate-and-conquer algorithm,
binary predictors of the separate-and-conquer algorithm,
partial predictions, the processing of scores and resizable vectors,
assertions on parameters and the setters of seven configurations with a ratio, a minimum and a maximum, of rule induction and of pre-pruning,
equal-width and equal-frequency feature binning,
the search for refinements over binned features,
filters of binned feature vectors,
the top-down beam search,
rule evaluations for non-decomposable loss functions with label binning,
creation of numerical, nominal, ordinal and binary feature vectors from columns of dense and sparse matrices,
strata of the output-wise stratification,
sparse binary predictions and their CSR matrix,
automatic options of boosting algorithms (default rule, statistics, heads, predictors, partition sampling),
dense matrices (offsets, allocation, clearing), providers of statistics and their conversion,
training as a whole (`fit`): creation of the stopping criteria, the default rule, the loop that adds rules, post-optimisation and the resulting model,
`Model/Boosting.lean`: boosting with dense decomposable statistics as a whole, i.e., `induceDefaultRule`, the scoring of candidates, `ScoreProcessor`, constant shrinkage and the comparison of qualities,
`Model/Tabular.lean`: the search by a feature of a tabular feature space as a whole, the condition that results from it and the body that is created from conditions,
`Model/TabularData.lean`: `BitFeatureInfo`, the feature infos for features of the same type, `createFeatureVector` of dense matrices,
training by separate-and-conquer algorithms from the label matrix to the predictions of the decision list (without post-optimisation),
`Model/SecoPruning.lean`: the recalculation of predictions and the evaluation of rules on prune sets in separate-and-conquer algorithms (for training
data that is not partitioned),
the recalculation of predictions and training of boosting algorithms whose weights differ between rules (decomposable statistics, without
pruning),
the evaluation of rules on prune sets and training of boosting algorithms that prune rules (decomposable statistics),
sparse feature matrices (CSC for training, CSR for prediction),
gradient-based label binning during training (decomposable losses),
separate-and-conquer algorithms on dense and sparse feature matrices,
boosting algorithms that use a beam search,
the choice of rule evaluation factories between evaluations for all outputs and for some of them (a partial head is evaluated for all of its outputs
if a rule is refined further, recalculated or pruned),
Saving and loading models: `__reduce__` and `__setstate__` of rule models, isotonic calibration models and sets of label vectors (`python/subprojects/common/mlrl/common/cython/`); numpy arrays are lists, the format in which `pickle` writes them is not modelled.,
Conversion of input matrices by the Python API (`arrays.py`, `rule_learners.py`, `cython/*_matrix.pyx` in `python/subprojects/common/mlrl/common/`); conversions of element types and the validation by scikit-learn (e.g., of missing values) are not modelled, the semantics of the SciPy functions that are used is part of the model.,
The types of features given to the Python API (`rule_learners.py`, `cython/feature_info.pyx`), incremental prediction via the Python API (`rule_learners.py`, `mixins.py`, `cython/prediction.pyx`) and the incremental evaluation of models (`experiments.py`); the creation of predictors and writing of output are not modelled,
Parsing of parameter values and configuration of algorithms via the Python API (`options.py`, `config.py` of the three packages); numerical parameters like `max_rules` are subject to C123, the textual representation of numbers is not modelled,
Setters of the Python API for classes with a ratio, a minimum and a maximum (`instance_sampling.pyx`, `output_sampling.pyx`, `feature_sampling.pyx`, `feature_binning.pyx`, `label_binning.pyx`, `head_type.pyx`, `validation.py`); the conversion of arguments by Cython is modelled according to its documentation,
Cross validation with predefined folds and the averaging of evaluation results (`data_splitting.py`, `evaluation.py` and `output_writer.py` in `python/subprojects/testbed/mlrl/testbed/`); evaluation measures, options and the formatting of scores are not modelled,
Loading and saving of data sets (`python/subprojects/testbed/mlrl/testbed/data.py`), without one-hot encoding; the textual representation of ARFF and XML files is not modelled,
Unique label vectors and characteristics of output matrices (`python/subprojects/testbed/mlrl/testbed/label_vectors.py`, `characteristics.py`),
Characteristics and textual representations of rule models (`python/subprojects/testbed/mlrl/testbed/model_characteristics.py`, `models.py`),
Reading and writing parameters and CSV files (`python/subprojects/testbed/mlrl/testbed/parameters.py`, `io.py` without XML files, class `CsvSink` in `output_writer.py`), the configuration of learners via numerical parameters (`python/subprojects/common/mlrl/common/config.py`),
One-hot encoding (`one_hot_encode` in `python/subprojects/testbed/mlrl/testbed/data.py`) and its use in `data_splitting.py`,
Configuration objects (`properties.hpp`, the mixins in `learner.hpp` and `learner_classification.hpp`, `useDefaults` of the three learners),
Textual representations of durations (`format_duration` in `python/subprojects/testbed/mlrl/testbed/format.py`),
Experiments (`Experiment` in `python/subprojects/testbed/mlrl/testbed/experiments.py`, `ModelPersistence` in `persistence.py`),
Selection of evaluation measures (`python/subprojects/testbed/mlrl/testbed/evaluation.py` and `format.py`),
Names of output files (`python/subprojects/testbed/mlrl/testbed/output_writer.py`, `predictions.py` and `prediction_scope.py`),
Textual representations of calibration models (`python/subprojects/testbed/mlrl/testbed/probability_calibration.py`),
Splitting of data sets (`python/subprojects/testbed/mlrl/testbed/data_splitting.py`) apart from one-hot encoding,
Constructors of rule learners and their creation from command line arguments (`boosting_learners.py`, `seco_learners.py`, `config.py`, `runnables.py`),
The option `--data-split` and the deletion of files in the output directory (`runnables.py`, `io.py`),
Options for pre-pruning and post-pruning (`config.py`, `stopping_criterion.pyx`),
Options for the induction of individual rules (`config.py`, `rule_induction.pyx`),
Setters for individual numbers (`*.pyx`, `validation.py`, `validation.hpp`),
Numerical parameters and options with individual numbers (`config.py` of all packages). The midpoint of two values is computed exactly
(in floating point arithmetic it may coincide with the larger value; values that are that close are considered equal by `isEqual`).
Not modelled: Cython/Python bindings other than those named above, configuration factories other than those named
above, I/O and LAPACK/BLAS routines (used as a specification: a solution of the linear system).
