import Verif.Model.OutOfSample
import Verif.Spec.OutOfSample
import Verif.Lemma.SampledBoosting
import Verif.Props.Induction

/-!
# Lemmas about the evaluation of rules on a prune set
-/

namespace MLRL.Induction

open Refinement

variable {σ Cond Q : Type}

/-- Partial correctness of pruning: if it succeeds, all prefixes have been evaluated and the best one is retained. -/
theorem prune_result {ops : SubspaceOps σ Cond} {better : Q → Q → Bool} (h : StrictWeak better) {numExamples : Nat} {holds : Cond → Nat → Bool}
    (laws : SubspaceLaws ops numExamples holds) {conditions : List Cond} {s0 : σ} (hn : 1 < conditions.length)
    (hcov : ops.covers s0 = coverage numExamples holds conditions) {eval : (Nat → Bool) → Res Q} {r : Pruned σ Cond}
    (hr : prune ops better eval conditions s0 = .ok r) :
    ∃ (q : Nat → Q) (k : Nat), (∀ j, 1 ≤ j → j ≤ conditions.length → eval (coverage numExamples holds (conditions.take j)) = .ok (q j)) ∧
      r.conditions = conditions.take k ∧ r.mask = some (coverage numExamples holds (conditions.take k)) ∧ 1 ≤ k ∧ k ≤ conditions.length ∧
      (∀ j, 1 ≤ j → j ≤ conditions.length → better (q j) (q k) = false) ∧ (∀ j, 1 ≤ j → j < k → better (q k) (q j) = true) := by
  have hr0 := hr
  unfold prune at hr
  rw [if_pos hn] at hr
  obtain ⟨q0, hq0, hr⟩ := TabularData.ok_of_bind hr
  obtain ⟨st, hl, hr⟩ := TabularData.ok_of_bind hr
  have key := loopFrom_inv (body := pruneStep ops better eval conditions)
    (fun n st => (conditions.take (n - 1)).foldlM ops.filter (ops.reset s0) = .ok st.subspace ∧
      ∀ j ≤ n - 1, (∃ s, (conditions.take j).foldlM ops.filter (ops.reset s0) = .ok s) ∧
        (1 ≤ j → ∃ q, eval (coverage numExamples holds (conditions.take j)) = .ok q))
    (conditions.length - 1) 1 _ st ⟨rfl, fun j hj => by
      obtain rfl : j = 0 := by omega
      exact ⟨⟨_, rfl⟩, fun h => by omega⟩⟩ (by
      rintro n t t' hn1 hn2 ⟨p1, p2⟩ hb
      obtain ⟨m, rfl⟩ : ∃ m, n = m + 1 := ⟨n - 1, by omega⟩
      rw [Nat.add_sub_cancel] at p1 p2
      unfold pruneStep at hb
      rw [Nat.add_sub_cancel, readAt_of_lt (by omega : m < conditions.length), ok_bind] at hb
      obtain ⟨s1, hf, hb⟩ := TabularData.ok_of_bind hb
      obtain ⟨q1, he, hb⟩ := TabularData.ok_of_bind hb
      have hs1 : (conditions.take (m + 1)).foldlM ops.filter (ops.reset s0) = .ok s1 := by
        rw [List.take_add_one, List.getElem?_eq_getElem (by omega), List.foldlM_append, p1, ok_bind]
        simp only [Option.toList_some, List.foldlM_cons, List.foldlM_nil]
        rw [hf]
        rfl
      rw [reset_covers laws hs1] at he
      have hsub : t'.subspace = s1 := by
        split at hb <;> cases hb <;> rfl
      rw [Nat.add_sub_cancel]
      refine ⟨by rw [hsub]; exact hs1, fun j hj => ?_⟩
      by_cases hj' : j ≤ m
      · exact p2 j hj'
      · obtain rfl : j = m + 1 := by omega
        exact ⟨⟨_, hs1⟩, fun _ => ⟨_, he⟩⟩) hl
  rw [Nat.add_sub_cancel_left] at key
  have hq : ∀ j, ∃ q, 1 ≤ j → j ≤ conditions.length → eval (coverage numExamples holds (conditions.take j)) = .ok q := by
    intro j
    by_cases hj : 1 ≤ j ∧ j ≤ conditions.length
    · by_cases hj' : j = conditions.length
      · subst hj'
        exact ⟨q0, fun _ _ => by rw [List.take_length, ← hcov]; exact hq0⟩
      · obtain ⟨q, hq⟩ := (key.2 j (by omega)).2 hj.1
        exact ⟨q, fun _ _ => hq⟩
    · exact ⟨q0, fun h1 h2 => absurd ⟨h1, h2⟩ hj⟩
  choose q hq using hq
  obtain ⟨k, s, g1, g2, g3, g4, g5, _⟩ := prune_optimal h laws hn hcov hq (fun j hj => (key.2 j (by omega)).1)
  rw [hr0] at g1
  cases g1
  exact ⟨q, k, hq, rfl, rfl, g2, g3, g4, g5⟩

end MLRL.Induction

namespace MLRL.TrainingLoss

open RuleEval Predictor Boosting Induction

variable {K T : Type} [Field K] [LinearOrder K] [IsStrictOrderedRing K]

omit [IsStrictOrderedRing K] in
/-- Adding an example of the prune set is adding a covered one. -/
theorem addOutOfSample_eq (weights : Nat → K) (cells : List (Update.Cell (List K) (List (Stat K)))) (mask : Nat → Bool) :
    addOutOfSample weights cells mask = addCovered cells (fun e => decide (weights e = 0) && mask e) := by
  funext sums e
  unfold addOutOfSample addCovered
  by_cases hw : weights e = 0
  · have h1 : outOfSampleWeight weights e = 1 := if_pos hw
    have h2 : weightedStat (outOfSampleWeight weights) cells e = weightedStat (fun _ => 1) cells e := by
      unfold weightedStat
      rw [h1]
    rw [h1, h2]
    cases hm : mask e <;> simp [hw, hm]
  · have h1 : outOfSampleWeight weights e = 0 := if_neg hw
    rw [h1]
    simp [hw]

theorem pruneSet_gradient (data : Data K T) (update : T → K → Stat K) (scores : Nat → Nat → K) (examples : List Nat) (weights : Nat → K)
    (mask : Nat → Bool) (j : Nat) : (data.training examples).gradient update scores (fun e => decide (weights e = 0) && mask e) j =
      (data.pruneSet examples weights).gradient update scores mask j := by
  refine Finset.sum_congr rfl (fun i _ => ?_)
  unfold Data.training Data.pruneSet Data.weighted
  by_cases hw : weights i = 0 <;> by_cases hi : i ∈ examples <;> cases hm : mask i <;> simp [hw, hi, hm]

theorem pruneSet_hessian (data : Data K T) (update : T → K → Stat K) (scores : Nat → Nat → K) (examples : List Nat) (weights : Nat → K)
    (mask : Nat → Bool) (j : Nat) : (data.training examples).hessian update scores (fun e => decide (weights e = 0) && mask e) j =
      (data.pruneSet examples weights).hessian update scores mask j := by
  refine Finset.sum_congr rfl (fun i _ => ?_)
  unfold Data.training Data.pruneSet Data.weighted
  by_cases hw : weights i = 0 <;> by_cases hi : i ∈ examples <;> cases hm : mask i <;> simp [hw, hi, hm]

/-- The quality of scores that are calculated for all outputs. -/
theorem calculated_quality {l1 l2 : K} {evaluation : Evaluation K} (he : Scoring l1 l2 evaluation) (ha : Aligned evaluation) {all : Bool}
    (hall : all = true → evaluation.complete = true) {outputs : List Nat}
    {stat : Nat → Stat K} {scores : ScoreVector K} (hs : evaluation.calculateScores all outputs (outputs.map stat) = .ok scores)
    (hnd : outputs.Nodup) (hlen : outputs.length ≤ scores.values.length) :
    scores.quality = (outputs.map (fun j => (stat j).quality l1 l2 ((stat j).score l1 l2))).sum := by
  obtain ⟨chosen, c1, c2, c3, c4, c5, _⟩ := he all outputs _ scores (by simp) hs
  rw [zip_map_self] at c1
  have hmem : ∀ c ∈ chosen, c.1 ∈ outputs ∧ c.2 = stat c.1 := by
    intro c hc
    obtain ⟨j, hj, rfl⟩ := List.mem_map.1 (c1 c hc)
    exact ⟨hj, rfl⟩
  have hle : (chosen.map Prod.fst).length ≤ outputs.length := by
    have hsub : (chosen.map Prod.fst).toFinset ⊆ outputs.toFinset := by
      intro j hj
      obtain ⟨c, hc, rfl⟩ := List.mem_map.1 (List.mem_toFinset.1 hj)
      exact List.mem_toFinset.2 (hmem c hc).1
    have := Finset.card_le_card hsub
    rwa [List.toFinset_card_of_nodup (c2 hnd), List.toFinset_card_of_nodup hnd] at this
  rw [c4, List.length_map] at hlen
  rw [List.length_map] at hle
  have hidx := ha all outputs _ scores hall (by simp) hs (by rw [c3, List.length_map]; omega)
  rw [c5, ← hidx, c3, List.map_map]
  refine congrArg _ (List.map_congr_left (fun c hc => ?_))
  simp only [Function.comp]
  rw [(hmem c hc).2]

end MLRL.TrainingLoss
