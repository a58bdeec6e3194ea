import Verif.Props.TrainingLoss
import Verif.Model.SampledBoosting

/-!
# Runs of a boosting algorithm for different implementations of feature subspaces

If two implementations of feature subspaces behave the same for all candidates that are found by a search, training behaves the same.
-/

namespace MLRL.Induction

open Refinement Predictor

variable {σ τ Cond H Q : Type}

/-- Replaces the subspace. -/
def GrowState.onSubspace (φ : σ → τ) (st : GrowState σ Cond H Q) : GrowState τ Cond H Q :=
  ⟨st.conditions, φ st.subspace, st.outputs, st.comparator⟩

/-- The subspaces `ops` behave like the subspaces `ops'`, as far as candidates found by the search are concerned. -/
structure Simulates (ops' : SubspaceOps σ Cond) (ops : SubspaceOps τ Cond) (φ : σ → τ) (search' : Search σ Cond H Q)
    (search : Search τ Cond H Q) : Prop where
  create : φ ops'.create = ops.create
  covers : ∀ s, ops'.covers s = ops.covers (φ s)
  candidates : ∀ n s o, search'.candidates n s o = search.candidates n (φ s) o
  schedule : search'.schedule = search.schedule
  filter : ∀ n s o candidates, search'.candidates n s o = .ok candidates → ∀ x ∈ candidates.flatten,
    (ops'.filter s x.refinement.condition).map φ = ops.filter (φ s) x.refinement.condition

variable {ops' : SubspaceOps σ Cond} {ops : SubspaceOps τ Cond} {φ : σ → τ} {search' : Search σ Cond H Q} {search : Search τ Cond H Q}
  {better : Q → Q → Bool} {sortHead : H → H} {cfg : GrowConfig}

theorem growLoop_simulates (hb : StrictWeak better) (hv : search'.Valid) (h : Simulates ops' ops φ search' search) :
    ∀ (fuel : Nat) (st : GrowState σ Cond H Q),
      (growLoop ops' better sortHead cfg search' fuel st >>= fun r => Run.done (r.onSubspace φ)) =
        growLoop ops better sortHead cfg search fuel (st.onSubspace φ) := by
  intro fuel
  induction fuel with
  | zero => intro st; rfl
  | succ fuel ih =>
    intro st
    simp only [growLoop]
    by_cases hcond : cfg.maxConditions = 0 ∨ st.conditions.length < cfg.maxConditions
    · have hcond' : cfg.maxConditions = 0 ∨ (st.onSubspace φ).conditions.length < cfg.maxConditions := hcond
      rw [if_pos hcond, if_pos hcond']
      simp only [GrowState.onSubspace]
      rw [← h.candidates, ← h.schedule]
      cases hc : search'.candidates st.conditions.length st.subspace st.outputs with
      | error e => rfl
      | ok candidates =>
        simp only [Run.lift_ok, Run.done_bind]
        rcases findRefinement_cases hb hv st.conditions.length candidates st.comparator with ⟨_, g2⟩ | ⟨x, g1, _, g3⟩
        · rw [g2]
          simp only [Run.lift_ok, Run.done_bind, Bool.false_eq_true, if_false]
        · rw [g3]
          simp only [Run.lift_ok, Run.done_bind, if_true]
          have hf := h.filter _ _ _ _ hc x (FirstBest.mem g1)
          simp only [GrowState.addBest, useInit, ok_bind]
          rw [← hf]
          cases hs : ops'.filter st.subspace x.refinement.condition with
          | error e => rfl
          | ok s' =>
            simp only [Except.map, ok_bind, pure_eq_ok, Run.lift_ok, Run.done_bind]
            by_cases hn : x.refinement.numCovered ≤ cfg.minCoverage
            · rw [if_pos hn, if_pos hn]
              rfl
            · rw [if_neg hn, if_neg hn]
              exact ih _
    · have hcond' : ¬ (cfg.maxConditions = 0 ∨ (st.onSubspace φ).conditions.length < cfg.maxConditions) := hcond
      rw [if_neg hcond, if_neg hcond']
      rfl

end MLRL.Induction

namespace MLRL.Boosting

open Induction Predictor RuleEval Refinement

variable {σ τ K : Type} [Field K] [LinearOrder K] [IsStrictOrderedRing K]

/-- A boosting algorithm that uses another implementation of feature subspaces. -/
def Config.using (cfg : Config τ K) (ops' : SubspaceOps σ Condition) (φ : σ → τ) : Config σ K where
  subspaces := ops'
  updates := cfg.updates
  grow := cfg.grow
  shrinkage := cfg.shrinkage
  numExamples := cfg.numExamples
  numOutputs := cfg.numOutputs
  weight := cfg.weight
  hasZeroWeights := cfg.hasZeroWeights
  useDefaultRule := cfg.useDefaultRule
  defaultEvaluation := cfg.defaultEvaluation
  evaluation := cfg.evaluation
  searchFeature := fun f s stat => cfg.searchFeature f (φ s) stat
  features := cfg.features
  sampledOutputs := cfg.sampledOutputs
  searchSchedule := cfg.searchSchedule
  applySchedule := cfg.applySchedule
  stopping := cfg.stopping
  environment := cfg.environment

/-- What has to be shown of another implementation: it behaves the same for all candidates. -/
structure Config.Same (cfg : Config τ K) (ops' : SubspaceOps σ Condition) (φ : σ → τ) : Prop where
  create : φ ops'.create = cfg.subspaces.create
  covers : ∀ s, ops'.covers s = cfg.subspaces.covers (φ s)
  filter : ∀ s f cells candidates, cfg.searchFeature f (φ s) (weightedStat cfg.weight cells) = .ok candidates → ∀ c ∈ candidates,
    (ops'.filter s (conditionOf f c)).map φ = cfg.subspaces.filter (φ s) (conditionOf f c)

/-- A rule that is learned is the same, no matter how predictions are recalculated. -/
theorem induceRule_recalculating {cfg : Config τ K} {ops' : SubspaceOps σ Condition} {φ : σ → τ} (hb : StrictWeak (better : K → K → Bool))
    (hv : ∀ k n candidates, Interleaving candidates (cfg.searchSchedule k n candidates)) (h : cfg.Same ops' φ) (k fuel : Nat)
    (f : Option (List (Update.Cell (List K) (List (Stat K))) → (Nat → Bool) → Head K → Res (Head K)))
    (cells : List (Update.Cell (List K) (List (Stat K)))) :
    ((cfg.using ops' φ).recalculating f).induceRule ((cfg.using ops' φ).round k) fuel cells =
      (cfg.recalculating f).induceRule (cfg.round k) fuel cells := by
  have hsim : Simulates ops' cfg.subspaces φ (((cfg.using ops' φ).round k).search cells) ((cfg.round k).search cells) := by
    refine ⟨h.create, h.covers, fun n s o => rfl, rfl, fun n s o cands hc x hx => ?_⟩
    obtain ⟨f, _, l, h1, c, h2, _, _, _, _, rfl⟩ := TrainingLoss.candidates_origin (s := s) hc x hx
    exact h.filter s f cells l h1 c h2
  have hval : (((cfg.using ops' φ).round k).search cells).Valid := hv k
  have hg := growLoop_simulates (sortHead := sortHead) (cfg := cfg.grow) hb hval hsim fuel ⟨[], ops'.create, none, Single.new 0⟩
  unfold Learner.induceRule growRule
  simp only [GrowState.onSubspace, h.create] at hg
  have e1 : growLoop (cfg.recalculating f).subspaces (cfg.recalculating f).better (cfg.recalculating f).sortHead (cfg.recalculating f).config ((cfg.round k).search cells) fuel
      ⟨[], (cfg.recalculating f).subspaces.create, none, Single.new (cfg.recalculating f).minQuality⟩ = _ := hg.symm
  rw [e1]
  show (growLoop ops' better sortHead cfg.grow (((cfg.using ops' φ).round k).search cells) fuel ⟨[], ops'.create, none, Single.new 0⟩ >>= _) >>= _ = _
  simp only [bind_assoc, Run.done_bind, Run.pure_eq]
  congr 1
  funext st
  cases st.comparator.best.map (fun x => x.refinement.head) with
  | none => rfl
  | some head =>
    simp only
    congr 2
    simp only [Learner.finishRule, Learner.pruneRule, Learner.recalculateHead, Config.recalculating, Config.learner, Config.using, Config.round]
    cases cfg.hasZeroWeights <;> cases f <;> simp [h.covers, ok_bind, pure_eq_ok]

theorem induceRule_using {cfg : Config τ K} {ops' : SubspaceOps σ Condition} {φ : σ → τ} (hb : StrictWeak (better : K → K → Bool))
    (hv : ∀ k n candidates, Interleaving candidates (cfg.searchSchedule k n candidates)) (h : cfg.Same ops' φ) (k fuel : Nat)
    (cells : List (Update.Cell (List K) (List (Stat K)))) :
    (cfg.using ops' φ).learner.induceRule ((cfg.using ops' φ).round k) fuel cells = cfg.learner.induceRule (cfg.round k) fuel cells :=
  induceRule_recalculating hb hv h k fuel none cells

theorem assemble_using {cfg : Config τ K} {ops' : SubspaceOps σ Condition} {φ : σ → τ} (hb : StrictWeak (better : K → K → Bool))
    (hv : ∀ k n candidates, Interleaving candidates (cfg.searchSchedule k n candidates)) (h : cfg.Same ops' φ) (growFuel : Nat) :
    ∀ (fuel : Nat) criteria (numRules used : Nat) (st : Training.State Condition K (List K) (List (Stat K))),
    (cfg.using ops' φ).setup.assemble growFuel fuel criteria numRules used st = cfg.setup.assemble growFuel fuel criteria numRules used st := by
  intro fuel
  induction fuel with
  | zero => intros; rfl
  | succ fuel ih =>
    intro criteria numRules used st
    simp only [Training.Setup.assemble]
    congr 1
    funext r
    cases r.1.stop with
    | true => rfl
    | false =>
      simp only
      have hr := induceRule_using hb hv h numRules growFuel st.cells
      have hr' : (cfg.using ops' φ).setup.learner.induceRule ((cfg.using ops' φ).setup.rounds numRules) growFuel st.cells =
        cfg.setup.learner.induceRule (cfg.setup.rounds numRules) growFuel st.cells := hr
      rw [hr']
      congr 1
      funext x
      match x with
      | none => rfl
      | some (cells, rule) => exact ih _ _ _ _

/-- Training behaves the same. -/
theorem induceRules_using {cfg : Config τ K} {ops' : SubspaceOps σ Condition} {φ : σ → τ} (hb : StrictWeak (better : K → K → Bool))
    (hv : ∀ k n candidates, Interleaving candidates (cfg.searchSchedule k n candidates)) (h : cfg.Same ops' φ) (fuel : Nat)
    (cells : List (Update.Cell (List K) (List (Stat K)))) :
    (cfg.using ops' φ).setup.induceRules fuel cells = cfg.setup.induceRules fuel cells := by
  unfold Training.Setup.induceRules
  have hs : (cfg.using ops' φ).setup.start cells = cfg.setup.start cells := rfl
  rw [hs]
  congr 1
  funext st
  exact assemble_using hb hv h fuel fuel _ _ _ st

end MLRL.Boosting
