import Verif.Lemma.SampledBoosting
import Verif.Lemma.Assemble
import Verif.Props.Tabular

/-!
# C84: sampling of examples and recalculation of predictions in boosting algorithms
-/

namespace MLRL.TrainingLoss

open RuleEval Predictor Boosting Induction

section
variable {σ K T : Type} [Field K] [LinearOrder K] [IsStrictOrderedRing K]

/-! ### Recalculating a prediction -/

/-- Predictions are recalculated without a fault. -/
theorem recalculate_total {evaluation : Evaluation K} {n : Nat} {examples : List Nat} {cells : List (Update.Cell (List K) (List (Stat K)))}
    (hlt : ∀ e ∈ examples, e < cells.length) (mask : Nat → Bool) {head : Head K} (hd : Distinct n head) (hpredicts : Predicts evaluation head) :
    ∃ head', recalculatePrediction evaluation n examples cells mask head = .ok head' := by
  obtain ⟨sums, h1⟩ := addCovered_total (cells := cells) (mask := mask) (sums := 0) hlt
  cases head with
  | complete values =>
    have h2 := outputStats_total (n := n) (outputs := List.range values.length)
      (fun j hj => by have := List.mem_range.1 hj; have : values.length = n := hd; omega) sums
    obtain ⟨s, h3, h4⟩ := hpredicts _ (List.length_map (fun j => (⟨(sums j).1, (sums j).2⟩ : Stat K))).symm
    simp only [outputsOf, isComplete, List.length_range] at h3 h4
    simp only [recalculatePrediction, h1, ok_bind, h2, h3, copyScores_total h4]
    exact ⟨_, rfl⟩
  | partial_ entries =>
    have h2 := outputStats_total (n := n) (outputs := entries.map Prod.fst)
      (fun j hj => by obtain ⟨e, he, rfl⟩ := List.mem_map.1 hj; exact hd.1 e he) sums
    obtain ⟨s, h3, h4⟩ := hpredicts _ (List.length_map (fun j => (⟨(sums j).1, (sums j).2⟩ : Stat K))).symm
    simp only [outputsOf, isComplete, List.length_map] at h3 h4
    simp only [recalculatePrediction, h1, ok_bind, h2, h3, copyScores_total h4]
    exact ⟨_, rfl⟩

/-- **C84**: predictions are recalculated without a fault and as specified, no matter which examples are covered. The evaluation must be able to
predict for all outputs of the prediction. -/
theorem recalculate_correct {l1 l2 : K} {evaluation : Evaluation K} (he : Recalculating l1 l2 evaluation) {data : Data K T}
    {update : T → K → Stat K} {examples : List Nat} (hnd : examples.Nodup) (hlt : ∀ e ∈ examples, e < data.numExamples)
    {cells : List (Update.Cell (List K) (List (Stat K)))} {scores : Nat → Nat → K}
    (hcells : GoodCells data (fun r : List K => r.length = data.numOutputs) (UpToDate data update) cells)
    (hsc : ScoresOf data.numOutputs Update.denseValue cells scores) (mask : Nat → Bool) {head : Head K} (hd : Distinct data.numOutputs head)
    (hsuit : Suits evaluation head) (hpredicts : Predicts evaluation head) :
    ∃ head', recalculatePrediction evaluation data.numOutputs examples cells mask head = .ok head' ∧
      Distinct data.numOutputs head' ∧ Refits (data.training examples) update scores mask l1 l2 head head' := by
  obtain ⟨head', hr⟩ := recalculate_total (evaluation := evaluation) (cells := cells) (fun e he => by rw [hcells.1]; exact hlt e he) mask hd hpredicts
  exact ⟨head', hr, recalculatePrediction_refits he hnd hlt hcells hsc hd hsuit hr⟩

/-- **C84** for evaluations that predict for all outputs they are given. -/
theorem recalculate_complete {l1 l2 : K} {scratch : List Nat → List K} (hsl : ∀ outputs, (scratch outputs).length = outputs.length)
    {data : Data K T} {update : T → K → Stat K} {examples : List Nat} (hnd : examples.Nodup) (hlt : ∀ e ∈ examples, e < data.numExamples)
    {cells : List (Update.Cell (List K) (List (Stat K)))} {scores : Nat → Nat → K}
    (hcells : GoodCells data (fun r : List K => r.length = data.numOutputs) (UpToDate data update) cells)
    (hsc : ScoresOf data.numOutputs Update.denseValue cells scores) (mask : Nat → Bool) {head : Head K} (hd : Distinct data.numOutputs head) :
    ∃ head', recalculatePrediction (Boosting.completeEvaluation l1 l2 scratch) data.numOutputs examples
        cells mask head = .ok head' ∧
      Distinct data.numOutputs head' ∧ Refits (data.training examples) update scores mask l1 l2 head head' := by
  refine recalculate_correct ⟨complete_scoring l1 l2 scratch hsl, complete_aligned l1 l2 scratch hsl⟩ hnd hlt hcells hsc mask hd
    (by cases head <;> trivial) (fun stats hl => ?_)
  have h := complete_ok l1 l2 (outputsOf head) (scratch (outputsOf head)) stats (by rw [hsl, hl])
  cases head <;> exact ⟨_, h, by simp [hl]⟩

/-- **C84**: without L1 regularisation, no other scores for the same outputs are better than recalculated ones, as far as the covered training
examples are concerned. Missing is L1 regularisation, for which scores are not optimal (`l1_never_minimal`). -/
theorem refits_optimal_partial {l2 : K} (h2 : 0 < l2) {data : Data K T} {update : T → K → Stat K} {scores : Nat → Nat → K} {mask : Nat → Bool}
    {head head' : Head K} (hd : Distinct data.numOutputs head') (hh : ∀ j < data.numOutputs, 0 ≤ data.hessian update scores mask j)
    (h : Refits data update scores mask 0 l2 head head') (v : Nat → K) (hv : ∀ j, j ∉ outputsOf head → v j = 0) :
    data.objective update scores mask l2 (fun j => Spec.contribution j head') ≤ data.objective update scores mask l2 v := by
  unfold Data.objective Data.estimate
  rw [← Finset.sum_add_distrib, ← Finset.sum_add_distrib]
  refine Finset.sum_le_sum (fun j hj => ?_)
  beta_reduce
  have hH := hh j (Finset.mem_range.1 hj)
  by_cases hm : j ∈ outputsOf head
  · rw [h.scores j hm]
    have := (score_minimises_partial (data.gradient update scores mask j) (data.hessian update scores mask j) l2 (by linarith)).1 (v j)
    rw [quality_is_objective] at this
    unfold RuleEval.objective at this
    simp only [zero_mul, zero_add] at this
    refine le_trans (le_of_eq ?_) (le_trans this (le_of_eq ?_)) <;> ring
  · rw [contribution_outside hd (by rw [h.outputs]; exact hm), hv j hm]

/-! ### Learning a rule -/

theorem recalculate_fits {evaluation : Evaluation K} {n : Nat} {examples : List Nat} {cells : List (Update.Cell (List K) (List (Stat K)))}
    {mask : Nat → Bool} {head head' : Head K} (hf : Update.Fits n head)
    (h : recalculatePrediction evaluation n examples cells mask head = .ok head') : Update.Fits n head' := by
  cases head with
  | complete values =>
    simp only [recalculatePrediction] at h
    obtain ⟨sums, h1, h⟩ := TabularData.ok_of_bind h
    obtain ⟨stats, h2, h⟩ := TabularData.ok_of_bind h
    obtain ⟨scoreVector, h3, h⟩ := TabularData.ok_of_bind h
    obtain ⟨values', h4, h⟩ := TabularData.ok_of_bind h
    cases h
    obtain ⟨k1, rfl⟩ := copyScores_ok h4
    have hf' : values.length = n := hf
    show (scoreVector.values.take values.length).length = n
    rw [List.length_take]
    omega
  | partial_ entries =>
    simp only [recalculatePrediction] at h
    obtain ⟨sums, h1, h⟩ := TabularData.ok_of_bind h
    obtain ⟨stats, h2, h⟩ := TabularData.ok_of_bind h
    obtain ⟨scoreVector, h3, h⟩ := TabularData.ok_of_bind h
    obtain ⟨values', h4, h⟩ := TabularData.ok_of_bind h
    cases h
    exact fun e hm => (outputStats_ok h2).1 _ (List.of_mem_zip hm).1

theorem suits_headOf {evaluation : Evaluation K} {all : Bool} {scores : ScoreVector K} :
    Suits evaluation (sortHead (headOf (evaluation.complete && all) scores)) := by
  unfold headOf
  cases h : (evaluation.complete && all) with
  | true =>
    rw [Bool.and_eq_true] at h
    exact h.1
  | false => trivial

/-- Searches find heads that predict for each output at most once, and that are complete only if the evaluation predicts for all outputs. -/
theorem config_distinct {cfg : Config σ K} {data : Data K T} {values : Nat → Nat → Option Rat} {l1 l2 : K}
    (h : ComponentsOk cfg data values l1 l2) (k : Nat) : DistinctHeads data.numOutputs (Suits cfg.evaluation) sortHead (cfg.round k).search := by
  intro cells m s o candidates ho hc x hx
  obtain ⟨f, _, l, hl, c, hcl, stats, scoreVector, hst, hev, rfl⟩ := candidates_origin hc x hx
  rw [h.numOutputs] at hst hev ⊢
  obtain ⟨o1, o2⟩ := searchOutputs_ok (h.sampledOutputs k) ho
  exact ⟨distinct_sortHead (evaluated_head h.regularization.1 h.regularization.2 h.evaluation o2 o1 hst hev).1, suits_headOf⟩

/-- What is assumed of the recalculation of predictions. -/
structure RecalculationOk (cfg : Sampled σ K) (data : Data K T) (l1 l2 : K) : Prop where
  numOutputs : cfg.base.numOutputs = data.numOutputs
  recalculate : cfg.recalculate = true
  distinct : cfg.examples.Nodup
  exist : ∀ e ∈ cfg.examples, e < data.numExamples
  evaluations : Recalculating l1 l2 cfg.base.evaluation
  /-- If no example has zero weight, all training examples have weight one. -/
  unsampled : ∀ k, cfg.hasZeroWeights k = false → ∀ e < data.numExamples, cfg.weights k e = if e ∈ cfg.examples then 1 else 0

/-- What holds if rules have been learned: the stored scores are the sums of the predictions of the rules. -/
def Consistent (data : Data K T) (update : T → K → Stat K) (values : Nat → Nat → Option Rat)
    (rules : List (Rule Boosting.Condition K)) (cells : List (Update.Cell (List K) (List (Stat K)))) : Prop :=
  Training.Trained data.numExamples data.numOutputs (Boosting.Condition.holds values) (fun r : List K => r.length = data.numOutputs) Update.denseValue
    (UpToDate data update) rules cells

/-- **C84** for a single rule, which has been learned for any weights: it does not increase the loss of the training examples. -/
theorem rule_recalculated {τ : Type} {cfg : Sampled σ K} {data : Data K T} {update : T → K → Stat K} {values : Nat → Nat → Option Rat} {l1 l2 : K}
    (hrc : RecalculationOk cfg data l1 l2) {evaluate : T → K → K} {factor : K} (hm : Majorised update evaluate factor) {k fuel : Nat}
    {round : Config τ K} (hc : ConfigOk round (data.weighted (cfg.weights k)) update values l1 l2)
    (hz : round.hasZeroWeights = cfg.hasZeroWeights k) (he : round.evaluation = cfg.base.evaluation) {rules : List (Rule Boosting.Condition K)}
    {cells cells' : List (Update.Cell (List K) (List (Stat K)))} {rule : Rule Boosting.Condition K} (ht : Consistent data update values rules cells)
    (h : (round.recalculating cfg.recalculation).induceRule (round.round k) fuel cells = Run.done (some (cells', rule))) :
    Consistent data update values (rules ++ [rule]) cells' ∧
      (data.training cfg.examples).loss evaluate (modelScores (Boosting.Condition.holds values) (rules ++ [rule])) ≤
        (data.training cfg.examples).loss evaluate (modelScores (Boosting.Condition.holds values) rules) := by
  have hb := config_setup hc
  have hnum : round.numExamples = data.numExamples := hc.numExamples
  have hl := hb.setup.learner
  have hr := hb.setup.rounds k
  rw [show round.setup.numExamples = data.numExamples from hnum] at hl hr
  have hrecalc : (round.recalculating cfg.recalculation).recalculate =
      some (recalculatePrediction cfg.base.evaluation data.numOutputs cfg.examples) := by
    show cfg.recalculation = _
    unfold Sampled.recalculation
    rw [hrc.recalculate, if_pos rfl, hrc.numOutputs]
  have hl' : (round.recalculating cfg.recalculation).Ok data.numExamples data.numOutputs (Boosting.Condition.holds values)
      (fun r : List K => r.length = data.numOutputs) Update.denseValue (UpToDate data update) := by
    refine ⟨hl.better, hl.subspaces, hl.updates, hl.postProcess, fun f hf cells mask head head' hfit hh => ?_⟩
    rw [hrecalc] at hf
    cases hf
    exact recalculate_fits hfit hh
  have hr' : (round.round k).Ok (round.recalculating cfg.recalculation) data.numExamples data.numOutputs := ⟨hr.search, hr.heads, hr.applied⟩
  refine ⟨Training.trained_append hl' hr' (Or.inr rfl) ht h, ?_⟩
  obtain ⟨g1, g2⟩ := trained_scoresOf ht
  rw [modelScores_append]
  cases hzero : cfg.hasZeroWeights k with
  | true =>
    refine induceRule_recalculated (data := data.training cfg.examples) hl' rfl rfl hb.positive hb.atMostOne hb.postProcess hm ?_ hr' (hz.trans hzero)
      rfl hrecalc ?_ (config_distinct hc.toComponentsOk k) g1 h g2
    · intro i
      unfold Data.training Data.weighted
      simp only
      split
      · exact zero_le_one
      · exact le_rfl
    · intro cells scores hcells hsc mask head head' hd hsuit hh
      obtain ⟨k1, k2⟩ := recalculatePrediction_refits hrc.evaluations hrc.distinct hrc.exist hcells hsc hd (he ▸ hsuit) hh
      refine refits_nonpos hc.regularization.1 hc.regularization.2 k1 (fun j hj => ?_) k2
      refine Finset.sum_nonneg (fun i _ => ?_)
      split
      · refine mul_nonneg ?_ (hm.hessian _ _)
        unfold Data.training Data.weighted
        simp only
        split
        · exact zero_le_one
        · exact le_rfl
      · exact le_rfl
  | false =>
    have hloss : ∀ s : Nat → Nat → K, (data.training cfg.examples).loss evaluate s = (data.weighted (cfg.weights k)).loss evaluate s := by
      intro s
      refine Finset.sum_congr rfl (fun i hi => ?_)
      show (if i ∈ cfg.examples then (1 : K) else 0) * _ = cfg.weights k i * _
      rw [hrc.unsampled k hzero i (Finset.mem_range.1 hi)]
      rfl
    rw [hloss, hloss]
    exact (induceRule_decreases (data := data.weighted (cfg.weights k)) hl' rfl rfl hb.positive hb.atMostOne hb.postProcess hm hb.weights hr'
      (Or.inr rfl) (Or.inl (hz.trans hzero)) (hb.searches k) g1 h g2).le

/-! ### Training -/

/-- What is assumed of a boosting algorithm: it meets the requirements of C79 for the weights of each rule, and predictions are recalculated. -/
structure SampledOk (cfg : Sampled σ K) (data : Data K T) (update : T → K → Stat K) (values : Nat → Nat → Option Rat) (l1 l2 : K) : Prop
    extends RecalculationOk cfg data l1 l2 where
  rounds : ∀ k, ConfigOk (cfg.at k) (data.weighted (cfg.weights k)) update values l1 l2

/-- **C84**: if predictions are recalculated, no rule that is learned after the default rule increases the loss of the training examples, no matter
how examples are sampled, and the stored scores are those that are predicted by the model. -/
theorem sampled_training {cfg : Sampled σ K} {data : Data K T} {update : T → K → Stat K} {values : Nat → Nat → Option Rat} {l1 l2 : K}
    (hc : SampledOk cfg data update values l1 l2) {evaluate : T → K → K} {factor : K} (hm : Majorised update evaluate factor)
    {cells : List (Update.Cell (List K) (List (Stat K)))}
    (hi : Training.Initial data.numExamples data.numOutputs (fun r : List K => r.length = data.numOutputs) Update.denseValue
      (UpToDate data update) cells) {fuel : Nat} {st : Training.State Boosting.Condition K (List K) (List (Stat K))}
    (h : cfg.induceRules fuel cells = Run.done st) :
    Stepwise (· ≤ ·) (fun rules => (data.training cfg.examples).loss evaluate (modelScores (Boosting.Condition.holds values) rules))
      (if cfg.base.useDefaultRule then 1 else 0) st.allRules ∧ Consistent data update values st.allRules st.cells := by
  unfold Sampled.induceRules Training.Setup.induceRulesWith at h
  obtain ⟨st0, h1, h⟩ := lift_bind_done h
  have hb := (config_setup (hc.rounds 0)).setup
  obtain ⟨s1, s2, s3⟩ := Training.start_trained (t := (cfg.at 0).setup) hb
    (by rw [show (cfg.at 0).setup.numExamples = data.numExamples from (hc.rounds 0).numExamples]; exact hi) h1
  rw [show (cfg.at 0).setup.numExamples = data.numExamples from (hc.rounds 0).numExamples] at s1
  have hall : st0.allRules = st0.builder.defaultRule.toList := by rw [Training.State.allRules, s2, List.append_nil]
  refine Training.assembleWith_invariant (fun rules cells => Stepwise (· ≤ ·) (fun rules => (data.training cfg.examples).loss evaluate
    (modelScores (Boosting.Condition.holds values) rules)) (if cfg.base.useDefaultRule then 1 else 0) rules ∧ Consistent data update values rules cells) ?_
    fuel _ _ _ st0 st ⟨?_, by rw [hall]; exact s1⟩ h
  · rintro k rules cells cells' rule ⟨p1, p2⟩ hind
    obtain ⟨q1, q2⟩ := rule_recalculated hc.toRecalculationOk hm (hc.rounds k) rfl rfl p2 hind
    exact ⟨stepwise_append p1 q2, q1⟩
  · intro m g1 g2
    have s3' : st0.builder.defaultRule.toList.length = if cfg.base.useDefaultRule then 1 else 0 := s3
    rw [hall, s3'] at g2
    omega

/-! ### Tabular training data -/

section
open Tabular

/-- What is assumed of a boosting algorithm that is given tabular training data: it meets the requirements of C80 for the weights of each rule, and
predictions are recalculated. As the number of examples with non-zero weight differs between rules, so do the feature spaces. -/
structure SampledTrainable (cfg : Sampled (FeatureSpace.Subspace Unit) K) (data : Data K T) (envs : Nat → Env) (values : Nat → Nat → Option Rat)
    (l1 l2 : K) : Prop extends RecalculationOk cfg data l1 l2 where
  rounds : ∀ k, Trainable (cfg.at k) (data.weighted (cfg.weights k)) (envs k) values l1 l2

/-- **C84** for tabular training data. Missing are ordinal features if there are examples with zero weight, and the cases C80 excludes. -/
theorem tabular_sampled_partial {cfg : Sampled (FeatureSpace.Subspace Unit) K} {data : Data K T} {update : T → K → Stat K} {envs : Nat → Env}
    {values : Nat → Nat → Option Rat} {l1 l2 : K} (hc : SampledTrainable cfg data envs values l1 l2)
    (hu : Update.Laws cfg.base.updates data.numOutputs (fun r : List K => r.length = data.numOutputs) Update.denseValue (UpToDate data update))
    {evaluate : T → K → K} {factor : K} (hm : Majorised update evaluate factor) {cells : List (Update.Cell (List K) (List (Stat K)))}
    (hi : Training.Initial data.numExamples data.numOutputs (fun r : List K => r.length = data.numOutputs) Update.denseValue
      (UpToDate data update) cells) {fuel : Nat} {st : Training.State Boosting.Condition K (List K) (List (Stat K))}
    (h : cfg.induceRules fuel cells = Run.done st) :
    Stepwise (· ≤ ·) (fun rules => (data.training cfg.examples).loss evaluate (modelScores (Boosting.Condition.holds values) rules))
      (if cfg.base.useDefaultRule then 1 else 0) st.allRules ∧ Consistent data update values st.allRules st.cells ∧
      ∀ rule ∈ st.allRules, ∃ k, ∀ c ∈ rule.conditions, Typed (envs k) c := by
  unfold Sampled.induceRules Training.Setup.induceRulesWith at h
  obtain ⟨st0, h1, h⟩ := lift_bind_done h
  have hb := (config_setup (ConfigOk.mk (hc.rounds 0).components hu)).setup
  have hn : (cfg.at 0).numExamples = data.numExamples := (hc.rounds 0).numExamples
  obtain ⟨s1, s2, s3⟩ := Training.start_trained (t := ((cfg.at 0).using (reachable (hc.rounds 0).table) Subtype.val).setup) hb
    (by rw [show ((cfg.at 0).using (reachable (hc.rounds 0).table) Subtype.val).setup.numExamples = data.numExamples from hn]; exact hi) h1
  rw [show ((cfg.at 0).using (reachable (hc.rounds 0).table) Subtype.val).setup.numExamples = data.numExamples from hn] at s1
  have hall : st0.allRules = st0.builder.defaultRule.toList := by rw [Training.State.allRules, s2, List.append_nil]
  have key := Training.assembleWith_invariant (fun rules cells => Stepwise (· ≤ ·) (fun rules => (data.training cfg.examples).loss evaluate
    (modelScores (Boosting.Condition.holds values) rules)) (if cfg.base.useDefaultRule then 1 else 0) rules ∧
    Consistent data update values rules cells ∧ ∀ rule ∈ rules, ∃ k, ∀ c ∈ rule.conditions, Typed (envs k) c) ?_
    fuel _ _ _ st0 st ⟨?_, by rw [hall]; exact s1, ?_⟩ h
  · exact key
  · rintro k rules cells cells' rule ⟨p1, p2, p3⟩ hind
    have hind' := hind
    unfold Sampled.induceRule at hind'
    rw [← induceRule_recalculating better_strictWeak (hc.rounds k).searchSchedule (hc.rounds k).same] at hind'
    obtain ⟨q1, q2⟩ := rule_recalculated hc.toRecalculationOk hm (ConfigOk.mk (hc.rounds k).components hu) rfl rfl p2 hind'
    refine ⟨stepwise_append p1 q2, q1, fun rule' hrule' => ?_⟩
    rcases List.mem_append.1 hrule' with hr | hr
    · exact p3 rule' hr
    · rw [List.mem_singleton] at hr
      subst hr
      exact ⟨k, (hc.rounds k).typed_rule _ hind'⟩
  · intro m g1 g2
    have s3' : st0.builder.defaultRule.toList.length = if cfg.base.useDefaultRule then 1 else 0 := s3
    rw [hall, s3'] at g2
    omega
  · intro rule hrule
    rw [hall] at hrule
    refine ⟨0, fun c hcm => ?_⟩
    rw [default_conditions h1 rule hrule] at hcm
    cases hcm

/-- **C84**: the first rules of a model predict for each training example the scores whose loss `tabular_sampled_partial` is about. -/
theorem sampled_prediction_partial {cfg : Sampled (FeatureSpace.Subspace Unit) K} {data : Data K T} {update : T → K → Stat K} {envs : Nat → Env}
    {values : Nat → Nat → Option Rat} {l1 l2 : K} (hc : SampledTrainable cfg data envs values l1 l2)
    (hu : Update.Laws cfg.base.updates data.numOutputs (fun r : List K => r.length = data.numOutputs) Update.denseValue (UpToDate data update))
    {evaluate : T → K → K} {factor : K} (hm : Majorised update evaluate factor) {cells : List (Update.Cell (List K) (List (Stat K)))}
    (hi : Training.Initial data.numExamples data.numOutputs (fun r : List K => r.length = data.numOutputs) Update.denseValue
      (UpToDate data update) cells) {fuel : Nat} {st : Training.State Boosting.Condition K (List K) (List (Stat K))}
    (h : cfg.induceRules fuel cells = Run.done st) {rows : Nat → List FVal} (hrows : ∀ k, RowsOk (envs k) data.numExamples values rows)
    (hn : 0 < data.numExamples) (m : Nat) :
    ∃ rules, (st.allRules.take m).mapM createRule = .ok rules ∧
      ∀ e < data.numExamples, applyRulesDense (rows e) rules (List.replicate data.numOutputs 0) =
        .ok ((List.range data.numOutputs).map (modelScores (Boosting.Condition.holds values) (st.allRules.take m) e)) := by
  obtain ⟨_, h2, h3⟩ := tabular_sampled_partial hc hu hm hi h
  refine rules_predict (fun rule hrule => ?_) (fun rule hrule => h2.2.2.1 rule (List.mem_of_mem_take hrule))
  obtain ⟨k, hk⟩ := h3 rule (List.mem_of_mem_take hrule)
  exact createBody_covers (hrows k) hk hn

end

end

/-! ### Examples -/

theorem initial_good {K T : Type} [Field K] [LinearOrder K] [IsStrictOrderedRing K] {data : Data K T} {update : T → K → Stat K}
    {cells : List (Update.Cell (List K) (List (Stat K)))}
    (h : Training.Initial data.numExamples data.numOutputs (fun r : List K => r.length = data.numOutputs) Update.denseValue (UpToDate data update)
      cells) :
    GoodCells data (fun r : List K => r.length = data.numOutputs) (UpToDate data update) cells ∧
      ScoresOf data.numOutputs Update.denseValue cells (fun _ _ => 0) :=
  ⟨⟨h.1, fun i c hc => (h.2 i c hc).1⟩, fun i c hc j hj => (h.2 i c hc).2 j hj⟩

/-- The entries of a partial head. -/
def entriesOf : Head ℚ → List (Nat × ℚ)
  | .complete _ => []
  | .partial_ entries => entries

section
open Tabular FeatureSpace Search

/-- The examples are drawn with replacement: the last one and the first one, respectively, are not among them. -/
def drawn (even : Bool) (e : Nat) : ℚ := if even then ([1, 1, 2, 0] : List ℚ).getD e 0 else ([0, 2, 1, 1] : List ℚ).getD e 0

def drawnColumn : Nat → FeatureVector
  | 0 => .numerical [(1, 1), (2, 2), (0, 3), (3, 5)] 0 false []
  | 1 => .nominal .nominal [(2, [2]), (5, [3])] 7 []
  | 2 => .nominal .binary [(1, [0])] 0 []
  | _ => .equal

def drawnEnv (even : Bool) : Env := ⟨⟨4, 3, drawnColumn, fun a b => decide (a = b), fun _ => ()⟩, fun e => decide (drawn even e ≠ 0), 1⟩

theorem drawnEnv_ok (even : Bool) : (drawnEnv even).Ok 4 exTableValues where
  numExamples := rfl
  size := by decide
  numNonZero := by cases even <;> decide +kernel
  isEqual x := decide_eq_true rfl
  column f := by
    show ColumnOk 4 _ (exTableValues f) (drawnColumn f)
    match f with
    | 0 =>
      refine ColumnOk.numerical (by simp) (by unfold SortedEntries; decide +kernel) (by decide +kernel) ?_ (by decide +kernel)
        (Or.inr (by decide +kernel))
      intro e
      simp only [List.map_cons, List.map_nil, List.mem_cons, List.not_mem_nil, or_false]
      omega
    | 1 => exact ColumnOk.nominal (by simp) (by decide) (by decide) (by decide) (by decide +kernel) (by decide +kernel) (by simp) (by simp)
    | 2 => exact ColumnOk.nominal (by simp) (by decide) (by decide) (by decide) (by decide +kernel) (by decide +kernel) (by simp) (by simp)
    | _ + 3 => exact ColumnOk.equal

/-- All examples but the last one are used for training. -/
def exSampled : Sampled (FeatureSpace.Subspace Unit) ℚ where
  base := { exTabular with stopping := ⟨some 5, none, none⟩ }
  subspaces k := Tabular.subspaces (drawnEnv (k % 2 == 0))
  searchFeature k := Tabular.searchFeature (drawnEnv (k % 2 == 0))
  weights k := drawn (k % 2 == 0)
  hasZeroWeights _ := true
  examples := [2, 0, 1]
  recalculate := true

theorem exSampled_ok : SampledTrainable exSampled exData (fun k => drawnEnv (k % 2 == 0)) exTableValues 0 1 where
  numOutputs := rfl
  recalculate := rfl
  distinct := by decide
  exist := by decide
  evaluations := ⟨single_scoring 0 1, single_aligned 0 1⟩
  unsampled k h := by cases h
  rounds k :=
    { numExamples := rfl
      numOutputs := rfl
      weight := rfl
      regularization := ⟨le_rfl, zero_le_one⟩
      weights := fun e => by
        show 0 ≤ drawn (k % 2 == 0) e
        have : ∀ b, 0 ≤ drawn b e := by
          intro b
          match e with
          | 0 | 1 | 2 | 3 => cases b <;> decide +kernel
          | _ + 4 => cases b <;> simp [drawn]
        exact this _
      positive := exConfig_ok.positive
      atMostOne := exConfig_ok.atMostOne
      evaluation := single_scoring 0 1
      defaultEvaluation := complete_scoring 0 1 _ (fun _ => by simp)
      sampled := fun k l h => by cases h
      searchSchedule := fun _ _ _ => sequentially_interleaving _
      applySchedule := fun _ _ => sequentially_interleaving _
      subspaces := rfl
      searchFeature := rfl
      nonZero := rfl
      table := drawnEnv_ok _ }

theorem drawnRows_ok (even : Bool) : RowsOk (drawnEnv even) 4 exTableValues exRows := by
  intro e he f
  have h := exRows_ok e he f
  match f with
  | 0 | 1 | 2 => exact h
  | _ + 3 => trivial

/-- The losses of the models that consist of the default rule and the first rules. -/
def exSampledLosses (st : Training.State Boosting.Condition ℚ (List ℚ) (List (Stat ℚ))) : List ℚ :=
  (List.range (st.allRules.length + 1)).map
    (fun k => (exData.training exSampled.examples).loss exEvaluate (modelScores (Boosting.Condition.holds exTableValues) (st.allRules.take k)))

example (fuel : Nat) (st : Training.State Boosting.Condition ℚ (List ℚ) (List (Stat ℚ)))
    (h : exSampled.induceRules fuel exCells = Run.done st) :
    Stepwise (· ≤ ·) (fun rules => (exData.training [2, 0, 1]).loss exEvaluate (modelScores (Boosting.Condition.holds exTableValues) rules)) 1
      st.allRules :=
  (tabular_sampled_partial exSampled_ok exConfig_ok.updates exMajorised exCells_initial h).1

/-- Four rules are learned after the default rule. -/
example : (exSampled.induceRules 20 exCells >>= fun st => Run.done
      (st.allRules.map (fun rule => rule.conditions.map (fun c => (c.feature, c.threshold))), exSampledLosses st)) =
    Run.done ([[], [(1, 7)], [(1, 2)], [(1, 7)], [(1, (2 : ℚ))]],
      [43, 627 / 25, 5393 / 225, 3953 / 225, 34577 / 2025, 32309 / 2025]) := by decide +kernel

example (fuel m : Nat) (st : Training.State Boosting.Condition ℚ (List ℚ) (List (Stat ℚ)))
    (h : exSampled.induceRules fuel exCells = Run.done st) :
    ∃ rules, (st.allRules.take m).mapM createRule = .ok rules ∧ ∀ e < 4, applyRulesDense (exRows e) rules [0, 0] =
      .ok ((List.range 2).map (modelScores (Boosting.Condition.holds exTableValues) (st.allRules.take m) e)) :=
  sampled_prediction_partial exSampled_ok exConfig_ok.updates exMajorised exCells_initial h (fun _ => drawnRows_ok _) (by decide) m

/-- A head is recalculated for the examples 0, 1 and 2, of which the last two are covered. -/
example : ∃ head', recalculatePrediction (Boosting.completeEvaluation (0 : ℚ) 1 (fun outputs => List.replicate outputs.length 0)) 2 [2, 0, 1] exCells (fun e => decide (0 < e))
      (.partial_ [(1, 7)]) = .ok head' ∧ Distinct 2 head' ∧
    Refits (exData.training [2, 0, 1]) exUpdate (fun _ _ => 0) (fun e => decide (0 < e)) 0 1 (.partial_ [(1, 7)]) head' :=
  recalculate_complete (data := exData) (scratch := fun outputs => List.replicate outputs.length 0) (fun _ => by simp) (by decide) (by decide)
    (initial_good exCells_initial).1 (initial_good exCells_initial).2 _
    ⟨by decide, by decide⟩

example : (recalculatePrediction (Boosting.completeEvaluation (0 : ℚ) 1 (fun outputs => List.replicate outputs.length 0)) 2 [2, 0, 1] exCells (fun e => decide (0 < e))
      (.partial_ [(1, 7), (0, 7)])).toOption.map entriesOf = some [(1, -2 / 3), (0, 4 / 3)] := by decide +kernel

/-! ### What the requirements are needed for -/

/-- The second of three examples has zero weight. -/
def unluckyEnv : Env :=
  ⟨⟨3, 2, fun f => if f = 0 then .nominal .nominal [(1, [0, 1])] 0 [] else .equal, fun a b => decide (a = b), fun _ => ()⟩, fun e => decide (e ≠ 1), 1⟩

/-- A single rule with a single condition is learned. -/
def unlucky (recalculate : Bool) : Sampled (FeatureSpace.Subspace Unit) ℚ where
  base := badConfig [4, -4, 0] .equal
  subspaces _ := Tabular.subspaces unluckyEnv
  searchFeature _ := Tabular.searchFeature unluckyEnv
  weights _ e := if e = 1 then 0 else 1
  hasZeroWeights _ := true
  examples := [0, 1, 2]
  recalculate := recalculate

/-- The losses of the training examples before and after the rule has been learned. -/
def unluckyLosses (recalculate : Bool) : Run (List ℚ) := do
  let st ← (unlucky recalculate).induceRules 20 (badCells [4, -4, 0])
  Run.done ((List.range (st.allRules.length + 1)).map (fun k => ((badData [4, -4, 0]).training [0, 1, 2]).loss exEvaluate
    (modelScores (Boosting.Condition.holds (fun _ e => ([1, 1, 0] : List ℚ)[e]?)) (st.allRules.take k))))

/-- **C84**, negative part: unless predictions are recalculated, a rule may increase the loss of the training examples. Moreover, if predictions are
recalculated, a rule does not necessarily decrease the loss. -/
theorem not_recalculated_increases : unluckyLosses false = Run.done [32, 64] ∧ unluckyLosses true = Run.done [32, 32] := by
  decide +kernel

end

end MLRL.TrainingLoss
