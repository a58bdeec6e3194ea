import Verif.Lemma.OutOfSample
import Verif.Lemma.PruneSimulation
import Verif.Props.SampledBoosting

/-!
# C85: pruning of rules by boosting algorithms
-/

namespace MLRL.TrainingLoss

open RuleEval Predictor Boosting Induction

section
variable {σ K T : Type} [Field K] [LinearOrder K] [IsStrictOrderedRing K]

/-! ### The evaluation on the prune set -/

/-- The quality of the scores that are calculated for the outputs of a head from the gradients and Hessians of the prune set. -/
def pruneQuality (data : Data K T) (update : T → K → Stat K) (scores : Nat → Nat → K) (covered : Nat → Bool) (l1 l2 : K) (outputs : List Nat) : K :=
  (outputs.map (fun j => objective (data.gradient update scores covered j) (data.hessian update scores covered j) l1 l2
    (outputScore (data.gradient update scores covered j) (data.hessian update scores covered j) l1 l2))).sum

/-- **C85**: rules are evaluated without a fault, and on the covered examples of the prune set only. -/
theorem outOfSample_correct {l1 l2 : K} {evaluation : Evaluation K} (he : Recalculating l1 l2 evaluation) {data : Data K T}
    {update : T → K → Stat K} {examples : List Nat} (hnd : examples.Nodup) (hlt : ∀ e ∈ examples, e < data.numExamples) (weights : Nat → K)
    {cells : List (Update.Cell (List K) (List (Stat K)))} {scores : Nat → Nat → K}
    (hcells : GoodCells data (fun r : List K => r.length = data.numOutputs) (UpToDate data update) cells)
    (hsc : ScoresOf data.numOutputs Update.denseValue cells scores) (mask : Nat → Bool) {head : Head K} (hd : Distinct data.numOutputs head)
    (hsuit : Suits evaluation head) (hpredicts : Predicts evaluation head) :
    evaluateOutOfSample evaluation data.numOutputs examples weights cells head mask =
      .ok (pruneQuality (data.pruneSet examples weights) update scores mask l1 l2 (outputsOf head)) := by
  obtain ⟨sums, h1⟩ := addCovered_total (cells := cells) (mask := fun e => decide (weights e = 0) && mask e) (sums := 0) (examples := examples)
    (fun e he => by rw [hcells.1]; exact hlt e he)
  have hq : ∀ j < data.numOutputs, ∀ t : Stat K, t = ⟨(sums j).1, (sums j).2⟩ → t.quality l1 l2 (t.score l1 l2) =
      objective ((data.pruneSet examples weights).gradient update scores mask j) ((data.pruneSet examples weights).hessian update scores mask j) l1 l2
        (outputScore ((data.pruneSet examples weights).gradient update scores mask j)
          ((data.pruneSet examples weights).hessian update scores mask j) l1 l2) := by
    rintro j hj t rfl
    rw [← pruneSet_gradient, ← pruneSet_hessian, addCovered_foldlM h1, zero_add, sum_coveredStat hcells hsc hnd hlt _ hj,
      ← quality_is_objective]
    rfl
  rw [← addOutOfSample_eq] at h1
  cases head with
  | complete values =>
    have hlen : values.length = data.numOutputs := hd
    have h2 := outputStats_total (n := data.numOutputs) (outputs := List.range values.length)
      (fun j hj => by have := List.mem_range.1 hj; omega) sums
    obtain ⟨s, h3, h4⟩ := hpredicts _ (List.length_map (fun j => (⟨(sums j).1, (sums j).2⟩ : Stat K))).symm
    simp only [outputsOf, isComplete] at h3 h4
    simp only [evaluateOutOfSample, h1, ok_bind, h2, h3]
    rw [calculated_quality he.scoring he.aligned (fun _ => hsuit) h3 List.nodup_range h4]
    refine congrArg Except.ok (congrArg _ (List.map_congr_left (fun j hj => hq j ?_ _ rfl)))
    have := List.mem_range.1 hj
    omega
  | partial_ entries =>
    have h2 := outputStats_total (n := data.numOutputs) (outputs := entries.map Prod.fst)
      (fun j hj => by obtain ⟨e, he, rfl⟩ := List.mem_map.1 hj; exact hd.1 e he) sums
    obtain ⟨s, h3, h4⟩ := hpredicts _ (List.length_map (fun j => (⟨(sums j).1, (sums j).2⟩ : Stat K))).symm
    simp only [outputsOf, isComplete] at h3 h4
    simp only [evaluateOutOfSample, h1, ok_bind, h2, h3]
    rw [calculated_quality he.scoring he.aligned (fun h => by cases h) h3 hd.2 h4]
    refine congrArg Except.ok (congrArg _ (List.map_congr_left (fun j hj => hq j ?_ _ rfl)))
    obtain ⟨e, he, rfl⟩ := List.mem_map.1 hj
    exact hd.1 e he

/-- **C85** for evaluations that predict for all outputs they are given. -/
theorem outOfSample_complete {l1 l2 : K} {scratch : List Nat → List K} (hsl : ∀ outputs, (scratch outputs).length = outputs.length)
    {data : Data K T} {update : T → K → Stat K} {examples : List Nat} (hnd : examples.Nodup) (hlt : ∀ e ∈ examples, e < data.numExamples)
    (weights : Nat → K) {cells : List (Update.Cell (List K) (List (Stat K)))} {scores : Nat → Nat → K}
    (hcells : GoodCells data (fun r : List K => r.length = data.numOutputs) (UpToDate data update) cells)
    (hsc : ScoresOf data.numOutputs Update.denseValue cells scores) (mask : Nat → Bool) {head : Head K} (hd : Distinct data.numOutputs head) :
    evaluateOutOfSample (Boosting.completeEvaluation l1 l2 scratch) data.numOutputs examples weights
        cells head mask =
      .ok (pruneQuality (data.pruneSet examples weights) update scores mask l1 l2 (outputsOf head)) := by
  refine outOfSample_correct ⟨complete_scoring l1 l2 scratch hsl, complete_aligned l1 l2 scratch hsl⟩ hnd hlt weights hcells hsc mask hd
    (by cases head <;> trivial) (fun stats hl => ?_)
  have h := complete_ok l1 l2 (outputsOf head) (scratch (outputsOf head)) stats (by rw [hsl, hl])
  cases head <;> exact ⟨_, h, by simp [hl]⟩

/-- **C85**: without L1 regularisation, the quality of a rule on the prune set is the smallest objective that can be reached by predicting for the same
outputs. Missing is L1 regularisation, for which calculated scores do not reach the smallest objective (`l1_never_minimal`). -/
theorem outOfSample_smallest_partial {l2 : K} (h2 : 0 < l2) {data : Data K T} {update : T → K → Stat K} {scores : Nat → Nat → K} {mask : Nat → Bool}
    {outputs : List Nat} (hnd : outputs.Nodup) (hlt : ∀ j ∈ outputs, j < data.numOutputs)
    (hh : ∀ j < data.numOutputs, 0 ≤ data.hessian update scores mask j) :
    SmallestObjective data update scores mask l2 outputs (pruneQuality data update scores mask 0 l2 outputs) := by
  have hobj : ∀ v : Nat → K, (∀ j, j ∉ outputs → v j = 0) → data.objective update scores mask l2 v =
      (outputs.map (fun j => objective (data.gradient update scores mask j) (data.hessian update scores mask j) 0 l2 (v j))).sum := by
    intro v hv
    unfold Data.objective Data.estimate
    rw [← Finset.sum_add_distrib, ← List.sum_toFinset _ hnd]
    symm
    refine Finset.sum_subset_zero_on_sdiff (fun j hj => Finset.mem_range.2 (hlt j (List.mem_toFinset.1 hj))) (fun j hj => ?_) (fun j _ => ?_)
    · rw [Finset.mem_sdiff, List.mem_toFinset] at hj
      rw [hv j hj.2]
      ring
    · unfold RuleEval.objective
      ring
  classical
  refine ⟨⟨fun j => if j ∈ outputs then outputScore (data.gradient update scores mask j) (data.hessian update scores mask j) 0 l2 else 0,
    fun j hj => if_neg hj, ?_⟩, ?_⟩
  · rw [hobj _ (fun j hj => if_neg hj)]
    refine congrArg _ (List.map_congr_left (fun j hj => ?_))
    rw [if_pos hj]
  · rintro x ⟨v, hv, rfl⟩
    rw [hobj v hv]
    refine List.sum_le_sum (fun j hj => ?_)
    have hH := hh j (hlt j hj)
    have := (score_minimises_partial (data.gradient update scores mask j) (data.hessian update scores mask j) l2 (by linarith)).1 (v j)
    rwa [quality_is_objective] at this

/-- **C85**: the evaluation does not depend on the scores a rule predicts. In particular, it does not tell whether the scores suit the prune set. -/
theorem outOfSample_ignores_scores (evaluation : Evaluation K) (numOutputs : Nat) (examples : List Nat) (weights : Nat → K)
    (cells : List (Update.Cell (List K) (List (Stat K)))) (mask : Nat → Bool) {head head' : Head K} (ho : outputsOf head = outputsOf head')
    (hc : isComplete head = isComplete head') :
    evaluateOutOfSample evaluation numOutputs examples weights cells head mask =
      evaluateOutOfSample evaluation numOutputs examples weights cells head' mask := by
  cases head with
  | complete values =>
    cases head' with
    | complete values' =>
      simp only [evaluateOutOfSample]
      simp only [outputsOf] at ho
      rw [ho]
    | partial_ entries' => cases hc
  | partial_ entries =>
    cases head' with
    | complete values' => cases hc
    | partial_ entries' =>
      simp only [evaluateOutOfSample]
      simp only [outputsOf] at ho
      rw [ho]

/-! ### Pruning a rule -/

/-- **C85**: of all conditions that have been found, a pruned rule retains the shortest non-empty prefix with the smallest quality on the prune set.
If its prediction is recalculated, adding its contribution to the scores does not increase the loss of the training examples. -/
theorem rule_pruned {τ : Type} {cfg : Sampled σ K} {data : Data K T} {update : T → K → Stat K} {values : Nat → Nat → Option Rat} {l1 l2 : K}
    (hrc : RecalculationOk cfg data l1 l2) {evaluate : T → K → K} {factor : K} (hm : Majorised update evaluate factor) {k fuel : Nat}
    {round : Config τ K} (hc : ConfigOk round (data.weighted (cfg.weights k)) update values l1 l2) (hz : round.hasZeroWeights = true)
    (he : round.evaluation = cfg.base.evaluation) {evaluation : Evaluation K} {cells cells' : List (Update.Cell (List K) (List (Stat K)))} {rule : Rule Boosting.Condition K}
    (hcells : GoodCells data (fun r : List K => r.length = data.numOutputs) (UpToDate data update) cells) {scores : Nat → Nat → K}
    (hsc : ScoresOf data.numOutputs Update.denseValue cells scores)
    (h : (round.pruning (cfg.outOfSample evaluation k) cfg.recalculation).induceRule (round.round k) fuel cells =
      Run.done (some (cells', rule))) :
    (data.training cfg.examples).loss evaluate (fun i j => scores i j + rule.contribution (Boosting.Condition.holds values) i j) ≤
        (data.training cfg.examples).loss evaluate scores ∧
      ∃ found head, Distinct data.numOutputs head ∧ rule.conditions <+: found ∧ rule.conditions ≠ [] ∧
        (1 < found.length → ∃ (q : Nat → K) (n : Nat), rule.conditions = found.take n ∧ BestPrefix q found.length n ∧
          ∀ j, 1 ≤ j → j ≤ found.length → evaluateOutOfSample evaluation data.numOutputs cfg.examples (cfg.weights k) cells head
            (coverage data.numExamples (Boosting.Condition.holds values) (found.take j)) = .ok (q j)) ∧
        Update.Fits data.numOutputs rule.head ∧ GoodCells data (fun r : List K => r.length = data.numOutputs) (UpToDate data update) cells' ∧
        ScoresOf data.numOutputs Update.denseValue cells'
          (fun i j => scores i j + (Rule.mk (if found.length ≤ 1 then found else found.dropLast) rule.head).contribution
            (Boosting.Condition.holds values) i j) := by
  have hb := config_setup hc
  have hl := hb.setup.learner
  have hr := hb.setup.rounds k
  have hnum : round.setup.numExamples = data.numExamples := hc.numExamples
  rw [hnum] at hl hr
  have hrecalc : (round.pruning (cfg.outOfSample evaluation k) cfg.recalculation).recalculate =
      some (recalculatePrediction cfg.base.evaluation data.numOutputs cfg.examples) := by
    show cfg.recalculation = _
    unfold Sampled.recalculation
    rw [hrc.recalculate, if_pos rfl, hrc.numOutputs]
  have hl' : (round.pruning (cfg.outOfSample evaluation k) cfg.recalculation).Ok data.numExamples data.numOutputs (Boosting.Condition.holds values)
      (fun r : List K => r.length = data.numOutputs) Update.denseValue (UpToDate data update) := by
    refine ⟨hl.better, hl.subspaces, hl.updates, hl.postProcess, fun f hf cells mask head head' hfit hh => ?_⟩
    rw [hrecalc] at hf
    cases hf
    exact recalculate_fits hfit hh
  have hdistinct := config_distinct hc.toComponentsOk k
  unfold Learner.induceRule at h
  obtain ⟨g, h1, h⟩ := run_bind_done h
  obtain ⟨chosen, s', q, outputs, k1, k2, rfl⟩ := growRule_greedy hl'.better (hr.search cells) h1
  cases hlast : chosen.getLast? with
  | none =>
    rw [hlast] at h
    cases h
  | some x =>
    rw [hlast] at h
    simp only [Option.map_some] at h
    obtain ⟨r, h2, h⟩ := lift_bind_done h
    cases Run.done_inj h
    have hne : chosen ≠ [] := by rintro rfl; cases hlast
    have hcov := create_covers hl'.subspaces k1.filtered
    obtain ⟨hhead, hsuit⟩ : Distinct data.numOutputs (sortHead x.refinement.head) ∧ Suits round.evaluation (sortHead x.refinement.head) := by
      cases k1 with
      | start => cases hlast
      | @step chosen s q outputs candidates y s1 g1 g2 g3 g4 g5 g6 g7 =>
        rw [List.getLast?_concat] at hlast
        cases hlast
        exact hdistinct cells _ _ _ _ (greedy_outputs (fun k s o candidates ho hc x hx => (hdistinct cells k s o candidates ho hc x hx).1) g1) g4 x (FirstBest.mem g5)
    generalize hfound : chosen.map (fun y => y.refinement.condition) = found at h2 hcov
    have hfne : found ≠ [] := by
      rw [← hfound]
      simpa using hne
    have hfits : Update.Fits data.numOutputs (sortHead x.refinement.head) := by
      cases hx : sortHead x.refinement.head with
      | complete values => rw [hx] at hhead; exact hhead
      | partial_ entries => rw [hx] at hhead; exact hhead.1
    unfold Learner.finishRule at h2
    obtain ⟨pruned, hp, h2⟩ := TabularData.ok_of_bind h2
    obtain ⟨head, hrec, h2⟩ := TabularData.ok_of_bind h2
    obtain ⟨cells1, hexec, h2⟩ := TabularData.ok_of_bind h2
    cases h2
    -- the conditions, the mask and the examples the prediction is applied to
    obtain ⟨c1, c2, c3, c4, c5⟩ : pruned.conditions <+: found ∧ pruned.conditions ≠ [] ∧
        (1 < found.length → ∃ (q : Nat → K) (n : Nat), pruned.conditions = found.take n ∧ BestPrefix q found.length n ∧
          ∀ j, 1 ≤ j → j ≤ found.length → evaluateOutOfSample evaluation data.numOutputs cfg.examples (cfg.weights k) cells
            (sortHead x.refinement.head) (coverage data.numExamples (Boosting.Condition.holds values) (found.take j)) = .ok (q j)) ∧
        pruned.mask.getD ((round.pruning (cfg.outOfSample evaluation k) cfg.recalculation).subspaces.covers pruned.subspace) =
          coverage data.numExamples (Boosting.Condition.holds values) pruned.conditions ∧
        (round.pruning (cfg.outOfSample evaluation k) cfg.recalculation).subspaces.covers pruned.subspace = coverage data.numExamples (Boosting.Condition.holds values)
          (if found.length ≤ 1 then found else found.dropLast) := by
      unfold Learner.pruneRule at hp
      rw [show (round.round k).hasZeroWeights = true from hz] at hp
      simp only [Config.pruning] at hp
      by_cases hn : 1 < found.length
      · obtain ⟨q, n, p1, p2, p3, p4, p5, p6, p7⟩ := prune_result hl'.better hl'.subspaces hn hcov hp
        have hsub := (prune_subspace hl'.subspaces hn hp).2
        refine ⟨by rw [p2]; exact List.take_prefix _ _, ?_, fun _ => ⟨q, n, p2, ⟨p4, p5, fun j j1 j2 => ?_, fun j j1 j2 => ?_⟩, ?_⟩, ?_, ?_⟩
        · rw [p2]
          intro hnil
          have := congrArg List.length hnil
          rw [List.length_take, List.length_nil] at this
          omega
        · exact not_lt.1 (of_decide_eq_false (p6 j j1 j2))
        · exact of_decide_eq_true (p7 j j1 j2)
        · rw [← hrc.numOutputs]
          exact p1
        · rw [p3, p2]
          rfl
        · rw [if_neg (by omega)]
          exact hsub
      · rw [prune_single (by omega)] at hp
        cases hp
        exact ⟨List.prefix_rfl, hfne, fun h' => absurd h' hn, hcov, by rw [if_pos (by omega)]; exact hcov⟩
    have hrec' := hrec
    unfold Learner.recalculateHead at hrec'
    rw [show (round.round k).hasZeroWeights = true from hz, hrecalc] at hrec'
    simp only [c4] at hrec'
    obtain ⟨d1, d2⟩ := recalculatePrediction_refits hrc.evaluations hrc.distinct hrc.exist hcells hsc hhead (he ▸ hsuit) hrec'
    have hw : ∀ i, 0 ≤ (data.training cfg.examples).weight i := by
      intro i
      unfold Data.training Data.weighted
      simp only
      split
      · exact zero_le_one
      · exact le_rfl
    have hest := refits_nonpos (data := data.training cfg.examples) hc.regularization.1 hc.regularization.2 d1 (fun j _ => Finset.sum_nonneg (fun i _ => by
      split
      · exact mul_nonneg (hw i) (hm.hessian _ _)
      · exact le_rfl)) d2
    have hpost := hb.postProcess
    have happly := Update.exec_exact hl'.updates ⟨(round.pruning (cfg.outOfSample evaluation k) cfg.recalculation).subspaces.covers pruned.subspace,
      (round.pruning (cfg.outOfSample evaluation k) cfg.recalculation).postProcess head, false⟩ (hl'.postProcess _ (recalculate_fits hfits hrec')) cells hcells.2
      ((round.round k).applySchedule _) (by rw [hcells.1]; exact hr.applied _)
    obtain ⟨cells2, e1, e2, e3⟩ := happly
    rw [e1] at hexec
    cases hexec
    refine ⟨?_, found, _, hhead, c1, c2, c3, hl'.postProcess _ (recalculate_fits hfits hrec'), ⟨by rw [e2]; exact hcells.1, fun i c hi => ?_⟩, fun i c hi j hj => ?_⟩
    · have hle := loss_le (data := data.training cfg.examples) hm hw hb.positive.le hb.atMostOne scores
        (coverage data.numExamples (Boosting.Condition.holds values) pruned.conditions) (fun j => Spec.contribution j head)
      refine le_trans (le_of_eq ?_) (le_trans hle ?_)
      · unfold Data.loss
        refine Finset.sum_congr rfl (fun i hi => ?_)
        have hi' : i < data.numExamples := Finset.mem_range.1 hi
        congr 1
        refine Finset.sum_congr rfl (fun j _ => ?_)
        congr 2
        simp only [coverage, hi', decide_true, Bool.true_and, Induction.Rule.contribution]
        have := hpost head j
        split
        · exact congrArg (scores i j + ·) this
        · rfl
      · have := mul_nonpos_of_nonneg_of_nonpos (mul_pos hm.positive hb.positive).le hest
        linarith
    · have hi0 : i < cells.length := by
        rw [← e2]
        exact (List.getElem?_eq_some_iff.1 hi).1
      obtain ⟨c', f1, f2, _, _⟩ := e3 i _ (List.getElem?_eq_getElem hi0)
      rw [hi] at f1
      cases f1
      exact f2
    · have hi0 : i < cells.length := by
        rw [← e2]
        exact (List.getElem?_eq_some_iff.1 hi).1
      obtain ⟨c', f1, f2, _, f4⟩ := e3 i _ (List.getElem?_eq_getElem hi0)
      rw [hi] at f1
      cases f1
      have hi' : i < data.numExamples := by rw [← hcells.1]; exact hi0
      rw [f4 j hj, hsc i _ (List.getElem?_eq_getElem hi0) j hj]
      simp only [Update.Call.effect, Rule.contribution, c5, coverage, hi', decide_true, Bool.true_and, Bool.false_eq_true, if_false]

/-! ### Training -/

/-- If no example has zero weight, rules are not pruned. -/
theorem induceRule_unpruned {τ : Type} {round : Config τ K} (hz : round.hasZeroWeights = false)
    (evaluate : List (Update.Cell (List K) (List (Stat K))) → Head K → (Nat → Bool) → Res K)
    (f : Option (List (Update.Cell (List K) (List (Stat K))) → (Nat → Bool) → Head K → Res (Head K))) (k fuel : Nat)
    (cells : List (Update.Cell (List K) (List (Stat K)))) :
    (round.pruning evaluate f).induceRule (round.round k) fuel cells = (round.recalculating f).induceRule (round.round k) fuel cells := by
  have hz' : (round.round k).hasZeroWeights = false := hz
  have hf : ∀ conditions subspace head, (round.pruning evaluate f).finishRule (round.round k) cells conditions subspace head =
      (round.recalculating f).finishRule (round.round k) cells conditions subspace head := by
    intro conditions subspace head
    simp only [Learner.finishRule, Learner.pruneRule, Learner.recalculateHead, hz']
    rfl
  unfold Learner.induceRule
  show (growRule (round.recalculating f).subspaces (round.recalculating f).better (round.recalculating f).sortHead (round.recalculating f).config
    ((round.round k).search cells) (round.recalculating f).minQuality fuel >>= _) = _
  congr 1
  funext grown
  cases grown.head with
  | none => rfl
  | some head =>
    simp only
    rw [hf]

section
open Tabular

/-- **C85**: no rule that is learned after the default rule increases the loss of the training examples, given the stored scores. However, these are
not the scores that are predicted by the model: they have been updated for the examples that satisfy all conditions but the last one of those that
have been found, rather than the ones that are left. Missing are the cases C84 excludes, and predictions that are not recalculated. -/
theorem pruned_training_partial {cfg : Sampled (FeatureSpace.Subspace Unit) K} {data : Data K T} {update : T → K → Stat K} {envs : Nat → Env}
    {values : Nat → Nat → Option Rat} {l1 l2 : K} (hc : SampledTrainable cfg data envs values l1 l2)
    (hu : Update.Laws cfg.base.updates data.numOutputs (fun r : List K => r.length = data.numOutputs) Update.denseValue (UpToDate data update))
    {evaluate : T → K → K} {factor : K} (hm : Majorised update evaluate factor) {evaluation : Evaluation K}
    {cells : List (Update.Cell (List K) (List (Stat K)))}
    (hi : Training.Initial data.numExamples data.numOutputs (fun r : List K => r.length = data.numOutputs) Update.denseValue
      (UpToDate data update) cells) {fuel : Nat} {st : Training.State Boosting.Condition K (List K) (List (Stat K))}
    (h : cfg.induceRulesPruning evaluation fuel cells = Run.done st) :
    ∃ applied, List.Forall₂ AppliedAs applied st.allRules ∧ Consistent data update values applied st.cells ∧
      ∀ (m : Nat) rule, (if cfg.base.useDefaultRule then 1 else 0) ≤ m → st.allRules[m]? = some rule →
        (data.training cfg.examples).loss evaluate (modelScores (Boosting.Condition.holds values) (applied.take m ++ [rule])) ≤
          (data.training cfg.examples).loss evaluate (modelScores (Boosting.Condition.holds values) (applied.take m)) := by
  unfold Sampled.induceRulesPruning Training.Setup.induceRulesWith at h
  obtain ⟨st0, h1, h⟩ := lift_bind_done h
  have hb := (config_setup (ConfigOk.mk (hc.rounds 0).components hu)).setup
  have hn : (cfg.at 0).numExamples = data.numExamples := (hc.rounds 0).numExamples
  obtain ⟨s1, s2, s3⟩ := Training.start_trained (t := ((cfg.at 0).using (reachable (hc.rounds 0).table) Subtype.val).setup) hb
    (by rw [show ((cfg.at 0).using (reachable (hc.rounds 0).table) Subtype.val).setup.numExamples = data.numExamples from hn]; exact hi) h1
  rw [show ((cfg.at 0).using (reachable (hc.rounds 0).table) Subtype.val).setup.numExamples = data.numExamples from hn] at s1
  have hall : st0.allRules = st0.builder.defaultRule.toList := by rw [Training.State.allRules, s2, List.append_nil]
  refine Training.assembleWith_invariant (fun rules cells => ∃ applied, List.Forall₂ AppliedAs applied rules ∧ Consistent data update values applied cells ∧
    ∀ (m : Nat) rule, (if cfg.base.useDefaultRule then 1 else 0) ≤ m → rules[m]? = some rule →
      (data.training cfg.examples).loss evaluate (modelScores (Boosting.Condition.holds values) (applied.take m ++ [rule])) ≤
        (data.training cfg.examples).loss evaluate (modelScores (Boosting.Condition.holds values) (applied.take m))) ?_
    fuel _ _ _ st0 st ⟨st0.allRules, ?_, by rw [hall]; exact s1, ?_⟩ h
  · rintro k rules cells cells' rule ⟨applied, p1, p2, p3⟩ hind
    -- it is sufficient to provide the rule that is applied
    suffices hs : ∃ a, AppliedAs a rule ∧ Consistent data update values (applied ++ [a]) cells' ∧
        (data.training cfg.examples).loss evaluate (modelScores (Boosting.Condition.holds values) (applied ++ [rule])) ≤
          (data.training cfg.examples).loss evaluate (modelScores (Boosting.Condition.holds values) applied) by
      obtain ⟨a, q1, q2, q3⟩ := hs
      refine ⟨applied ++ [a], List.rel_append p1 (.cons q1 .nil), q2, fun m r hm1 hm2 => ?_⟩
      have hlen := p1.length_eq
      by_cases hlt : m < rules.length
      · rw [List.getElem?_append_left hlt] at hm2
        rw [List.take_append_of_le_length (by omega)]
        exact p3 m r hm1 hm2
      · have hm3 : m = rules.length := by
          have := (List.getElem?_eq_some_iff.1 hm2).1
          rw [List.length_append, List.length_singleton] at this
          omega
        subst hm3
        rw [List.getElem?_concat_length] at hm2
        cases hm2
        rw [← hlen, List.take_left]
        exact q3
    have hind' := (hc.rounds k).pruned_rule hind
    have hcfg := ConfigOk.mk (hc.rounds k).components hu
    cases hz : cfg.hasZeroWeights k with
    | false =>
      rw [induceRule_unpruned (round := (cfg.at k).using (reachable (hc.rounds k).table) Subtype.val) hz] at hind'
      obtain ⟨q1, q2⟩ := rule_recalculated hc.toRecalculationOk hm hcfg rfl rfl p2 hind'
      exact ⟨rule, ⟨rfl, Or.inl rfl⟩, q1, q2⟩
    | true =>
      obtain ⟨g1, g2⟩ := trained_scoresOf p2
      obtain ⟨q1, found, head, _, q2, q3, _, q4, q5, q6⟩ := rule_pruned hc.toRecalculationOk hm hcfg hz rfl g1 g2 hind'
      refine ⟨⟨if found.length ≤ 1 then found else found.dropLast, rule.head⟩, ⟨rfl, ?_⟩, ⟨q5.1, q5.2, ?_, ?_⟩, ?_⟩
      · simp only
        split
        · rename_i hle
          refine Or.inl (q2.eq_of_length_le ?_).symm
          have := List.length_pos_iff.2 q3
          omega
        · rename_i hle
          exact Or.inr ⟨found, by omega, q2, q3, rfl⟩
      · intro x hx
        rcases List.mem_append.1 hx with hx | hx
        · exact p2.2.2.1 x hx
        · rw [List.mem_singleton] at hx
          subst hx
          exact q4
      · intro i c hic j hj
        rw [q6 i c hic j hj, zero_add, List.map_append, List.sum_append]
        simp [modelScores]
      · rw [modelScores_append]
        exact q1
  · exact List.forall₂_same.2 (fun x _ => ⟨rfl, Or.inl rfl⟩)
  · intro m rule hm1 hm2
    have s3' : st0.builder.defaultRule.toList.length = if cfg.base.useDefaultRule then 1 else 0 := s3
    have := (List.getElem?_eq_some_iff.1 hm2).1
    rw [hall, s3'] at this
    omega

end

end

/-! ### Examples -/

section
open Tabular FeatureSpace Search

/-- Six examples and a single output: the true scores are `4, 4, 4, 1, 1, 0`. -/
def pruneData : Data ℚ ℚ := ⟨6, 1, fun _ => 1, fun i _ => if i < 3 then 4 else if i < 5 then 1 else 0⟩

/-- There are two binary features. The first one is one for all examples but the last one, the second one is one for the first three examples. -/
def pruneValues : Nat → Nat → Option Rat
  | 0, e => if e < 5 then some 1 else if e < 6 then some 0 else none
  | 1, e => if e < 3 then some 1 else if e < 6 then some 0 else none
  | _, _ => none

/-- The third and the fifth example belong to the prune set. -/
def pruneWeights (e : Nat) : ℚ := if e = 2 ∨ e = 4 then 0 else 1

def pruneColumn : Nat → FeatureVector
  | 0 => .nominal .binary [(1, [0, 1, 2, 3, 4])] 0 []
  | 1 => .nominal .binary [(1, [0, 1, 2])] 0 []
  | _ => .equal

def pruneEnv : Env := ⟨⟨6, 4, pruneColumn, fun a b => decide (a = b), fun _ => ()⟩, fun e => decide (pruneWeights e ≠ 0), 1⟩

theorem pruneEnv_ok : pruneEnv.Ok 6 pruneValues where
  numExamples := rfl
  size := by decide
  numNonZero := by decide +kernel
  isEqual x := decide_eq_true rfl
  column f := by
    show ColumnOk 6 _ (pruneValues f) (pruneColumn f)
    match f with
    | 0 => exact ColumnOk.nominal (by simp) (by decide) (by decide) (by decide) (by decide +kernel) (by decide +kernel) (by simp) (by simp)
    | 1 => exact ColumnOk.nominal (by simp) (by decide) (by decide) (by decide) (by decide +kernel) (by decide +kernel) (by simp) (by simp)
    | _ + 2 => exact ColumnOk.equal

def pruneUpdates : Update.Ops ℚ (List ℚ) (List (Stat ℚ)) :=
  ⟨Update.changeDense (· + ·), Update.changeDense (· - ·), fun i _ scores _ =>
    .ok ((List.range 1).map (fun j => exUpdate (pruneData.truth i j) (Update.denseValue scores j)))⟩

/-- Two rules are learned. The features are sampled: the first feature is only available for the first condition of the first rule. -/
def pruneSampled : Sampled (FeatureSpace.Subspace Unit) ℚ where
  base :=
    { subspaces := Tabular.subspaces pruneEnv
      updates := pruneUpdates
      grow := ⟨1, 2, 0⟩
      shrinkage := 1
      numExamples := 6
      numOutputs := 1
      weight := pruneWeights
      hasZeroWeights := true
      useDefaultRule := false
      defaultEvaluation := Boosting.completeEvaluation 0 0 (fun outputs => List.replicate outputs.length 0)
      evaluation := Boosting.singleEvaluation 0 0
      searchFeature := Tabular.searchFeature pruneEnv
      features := fun k n => if k = 0 ∧ n = 0 then [0] else [1]
      sampledOutputs := fun _ => none
      searchSchedule := fun _ _ => sequentially
      applySchedule := fun _ call => sequentially (call.tasks pruneUpdates 6)
      stopping := ⟨some 2, none, none⟩
      environment := ⟨fun n => n, [], fun _ _ => .ok 0⟩ }
  subspaces _ := Tabular.subspaces pruneEnv
  searchFeature _ := Tabular.searchFeature pruneEnv
  weights _ := pruneWeights
  hasZeroWeights _ := true
  examples := [0, 1, 2, 3, 4, 5]
  recalculate := true

theorem pruneSampled_ok : SampledTrainable pruneSampled pruneData (fun _ => pruneEnv) pruneValues 0 0 where
  numOutputs := rfl
  recalculate := rfl
  distinct := by decide
  exist := by decide
  evaluations := ⟨single_scoring 0 0, single_aligned 0 0⟩
  unsampled k h := by cases h
  rounds k :=
    { numExamples := rfl
      numOutputs := rfl
      weight := rfl
      regularization := ⟨le_rfl, le_rfl⟩
      weights := fun e => by
        show 0 ≤ pruneWeights e
        unfold pruneWeights
        split
        · exact le_rfl
        · exact zero_le_one
      positive := by norm_num [pruneSampled, Sampled.at]
      atMostOne := by norm_num [pruneSampled, Sampled.at]
      evaluation := single_scoring 0 0
      defaultEvaluation := complete_scoring 0 0 _ (fun _ => by simp)
      sampled := fun k l h => by cases h
      searchSchedule := fun _ _ _ => sequentially_interleaving _
      applySchedule := fun _ _ => sequentially_interleaving _
      subspaces := rfl
      searchFeature := rfl
      nonZero := rfl
      table := pruneEnv_ok }

def pruneCells : List (Update.Cell (List ℚ) (List (Stat ℚ))) :=
  (List.range 6).map (fun i => ⟨[0], [exUpdate (pruneData.truth i 0) 0]⟩)

def pruneRun : Run (Training.State Boosting.Condition ℚ (List ℚ) (List (Stat ℚ))) :=
  pruneSampled.induceRulesPruning (Boosting.singleEvaluation 0 0) 20 pruneCells

theorem pruneCells_initial : Training.Initial 6 1 (fun r : List ℚ => r.length = 1) Update.denseValue (UpToDate pruneData exUpdate) pruneCells := by
  refine ⟨rfl, fun i c hc => ?_⟩
  unfold pruneCells at hc
  rw [List.getElem?_map, Option.map_eq_some_iff] at hc
  obtain ⟨i', hi', rfl⟩ := hc
  obtain ⟨_, rfl⟩ := List.getElem?_eq_some_iff.1 hi'
  rw [List.getElem_range]
  have hz : ∀ j < 1, Update.denseValue [(0 : ℚ)] j = 0 := by decide +kernel
  refine ⟨⟨rfl, ?_⟩, hz⟩
  show [exUpdate (pruneData.truth _ 0) 0] = (List.range 1).map _
  simp [hz 0 (by decide)]

theorem pruneUpdates_laws : Update.Laws pruneUpdates 1 (fun r : List ℚ => r.length = 1) Update.denseValue (UpToDate pruneData exUpdate) :=
  Update.dense_laws 1 _ _ (fun i _ _ r' _ _ _ _ _ _ => ⟨_, rfl, rfl⟩)

example (fuel : Nat) (st : Training.State Boosting.Condition ℚ (List ℚ) (List (Stat ℚ)))
    (h : pruneSampled.induceRulesPruning (Boosting.singleEvaluation 0 0) fuel pruneCells = Run.done st) :
    ∃ applied, List.Forall₂ AppliedAs applied st.allRules ∧ Consistent pruneData exUpdate pruneValues applied st.cells ∧
      ∀ (m : Nat) rule, 0 ≤ m → st.allRules[m]? = some rule →
        (pruneData.training pruneSampled.examples).loss exEvaluate (modelScores (Boosting.Condition.holds pruneValues) (applied.take m ++ [rule])) ≤
          (pruneData.training pruneSampled.examples).loss exEvaluate (modelScores (Boosting.Condition.holds pruneValues) (applied.take m)) :=
  pruned_training_partial pruneSampled_ok pruneUpdates_laws exMajorised pruneCells_initial h

/-- **C85**, negative part: none of the conditions of the first rule is pruned. Nevertheless, its score is added to the stored scores of all examples
that satisfy the first condition. The second rule compensates for this. As a consequence, the loss of the training examples is increased by the
second rule, although predictions are recalculated, and the stored scores, i.e., `4, 4, 4, 2, 2, -2`, are not those that are predicted by the model,
i.e., `4, 4, 4, -2, -2, -2`. -/
theorem pruned_increases : (pruneRun >>= fun st => Run.done
      (st.allRules.map (fun rule => rule.conditions.map (fun c => (c.feature, c.threshold))),
        (List.range 3).map (fun k => (pruneData.training [0, 1, 2, 3, 4, 5]).loss exEvaluate
          (modelScores (Boosting.Condition.holds pruneValues) (st.allRules.take k))),
        st.cells.map (fun c => c.scores),
        (List.range 6).map (fun e => modelScores (Boosting.Condition.holds pruneValues) st.allRules e 0))) =
    Run.done ([[(0, 1), (1, 1)], [(1, (0 : ℚ))]], [50, 2, 22], [[4], [4], [4], [2], [2], [-2]], [4, 4, 4, -2, -2, -2]) := by
  decide +kernel

/-- The first two conditions have been found. On the prune set, which consists of the examples 2 and 4, the rule with both conditions is evaluated as
`-8`, the rule with the first condition only is evaluated as `-25/4`. -/
example : (evaluateOutOfSample (Boosting.singleEvaluation (0 : ℚ) 0) 1 [0, 1, 2, 3, 4, 5] pruneWeights pruneCells
      (.partial_ [(0, 4)]) (fun e => decide (e < 3))).toOption = some (-8) ∧
    (evaluateOutOfSample (Boosting.singleEvaluation (0 : ℚ) 0) 1 [0, 1, 2, 3, 4, 5] pruneWeights pruneCells
      (.partial_ [(0, 4)]) (fun e => decide (e < 5))).toOption = some (-25 / 4) := by
  decide +kernel

example : evaluateOutOfSample (Boosting.completeEvaluation (0 : ℚ) 1 (fun outputs => List.replicate outputs.length 0)) 1 [0, 1, 2, 3, 4, 5] pruneWeights pruneCells
      (.partial_ [(0, 4)]) (fun e => decide (e < 3)) =
    .ok (pruneQuality (pruneData.pruneSet [0, 1, 2, 3, 4, 5] pruneWeights) exUpdate (fun _ _ => 0) (fun e => decide (e < 3)) 0 1 [0]) :=
  outOfSample_complete (data := pruneData) (fun _ => by simp) (by decide) (by decide) _ (initial_good pruneCells_initial).1
    (initial_good pruneCells_initial).2 _ ⟨by decide, by decide⟩

example : SmallestObjective (pruneData.pruneSet [0, 1, 2, 3, 4, 5] pruneWeights) exUpdate (fun _ _ => 0) (fun e => decide (e < 3)) 1 [0]
    (pruneQuality (pruneData.pruneSet [0, 1, 2, 3, 4, 5] pruneWeights) exUpdate (fun _ _ => 0) (fun e => decide (e < 3)) 0 1 [0]) :=
  outOfSample_smallest_partial zero_lt_one (by decide) (by decide) (by decide +kernel)

/-- A rule that predicts `-100` for the example 2, although its true score is `4`, is evaluated in the same way as a rule that predicts `4`. -/
example : evaluateOutOfSample (Boosting.singleEvaluation (0 : ℚ) 0) 1 [0, 1, 2, 3, 4, 5] pruneWeights pruneCells
      (.partial_ [(0, -100)]) (fun e => decide (e < 3)) =
    evaluateOutOfSample (Boosting.singleEvaluation (0 : ℚ) 0) 1 [0, 1, 2, 3, 4, 5] pruneWeights pruneCells
      (.partial_ [(0, 4)]) (fun e => decide (e < 3)) :=
  outOfSample_ignores_scores _ _ _ _ _ _ rfl rfl

end

end MLRL.TrainingLoss
