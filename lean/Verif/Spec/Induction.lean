import Verif.Model.Induction
import Verif.Spec.Refinement
import Verif.Spec.Update

/-! # Specification of the induction of rules -/

namespace MLRL.Induction

open Refinement Predictor

section
variable {σ Cond H Q : Type}

/-- The greedy choice of refinements: at each step, the first one among the best candidates is chosen, which must be better than the
previous one. The parameters are the refinements that have been chosen so far, the subspace, the quality that has been reached and the
head whose outputs the search is restricted to. -/
inductive Greedy (ops : SubspaceOps σ Cond) (better : Q → Q → Bool) (sortHead : H → H) (cfg : GrowConfig) (search : Search σ Cond H Q)
    (minQuality : Q) : List (Scored (Found Cond H) Q) → σ → Q → Option H → Prop where
  | start : Greedy ops better sortHead cfg search minQuality [] ops.create minQuality none
  | step {chosen s q outputs candidates x s'} : Greedy ops better sortHead cfg search minQuality chosen s q outputs →
      (cfg.maxConditions ≠ 0 → chosen.length < cfg.maxConditions) →
      (∀ y, chosen.getLast? = some y → cfg.minCoverage < y.refinement.numCovered) →
      search.candidates chosen.length s outputs = .ok candidates → FirstBest better candidates.flatten x →
      better x.quality q = true → ops.filter s x.refinement.condition = .ok s' →
      Greedy ops better sortHead cfg search minQuality (chosen ++ [x]) s' x.quality
        (if cfg.maxHeadRefinements ≠ 0 ∧ chosen.length + 1 ≥ cfg.maxHeadRefinements then some (sortHead x.refinement.head) else outputs)

/-- The reasons for not choosing any further refinement: there are enough conditions, few examples are covered, or no candidate is
better. -/
def Finished (better : Q → Q → Bool) (cfg : GrowConfig) (search : Search σ Cond H Q) (chosen : List (Scored (Found Cond H) Q)) (s : σ)
    (q : Q) (outputs : Option H) : Prop :=
  (cfg.maxConditions ≠ 0 ∧ chosen.length = cfg.maxConditions) ∨
  (∃ y, chosen.getLast? = some y ∧ y.refinement.numCovered ≤ cfg.minCoverage) ∨
  ∃ candidates, search.candidates chosen.length s outputs = .ok candidates ∧ ∀ x ∈ candidates.flatten, better x.quality q = false

/-- The order in which threads consider candidates is an interleaving. -/
def Search.Valid (search : Search σ Cond H Q) : Prop := ∀ n candidates, Interleaving candidates (search.schedule n candidates)

/-- The meaning of subspaces: `holds` tells if an example satisfies a condition. A subspace covers the examples that satisfy all
conditions it has been filtered by since it has been created or reset. -/
structure SubspaceLaws (ops : SubspaceOps σ Cond) (numExamples : Nat) (holds : Cond → Nat → Bool) : Prop where
  create : ∀ e, ops.covers ops.create e = decide (e < numExamples)
  reset : ∀ s e, ops.covers (ops.reset s) e = decide (e < numExamples)
  filter : ∀ s c s', ops.filter s c = .ok s' → ∀ e, ops.covers s' e = (ops.covers s e && holds c e)

/-- The examples that satisfy all conditions. -/
def coverage (numExamples : Nat) (holds : Cond → Nat → Bool) (conditions : List Cond) (e : Nat) : Bool :=
  decide (e < numExamples) && conditions.all (fun c => holds c e)

end

section
variable {Cond K : Type}

/-- What a rule contributes to the score of an example for an output. -/
def Rule.contribution [AddCommMonoid K] (holds : Cond → Nat → Bool) (rule : Rule Cond K) (e j : Nat) : K :=
  if rule.conditions.all (fun c => holds c e) then Predictor.Spec.contribution j rule.head else 0

end

end MLRL.Induction
