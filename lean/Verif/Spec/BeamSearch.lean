import Verif.Model.BeamSearch
import Verif.Spec.Induction

/-! # Specification of beam searches -/

namespace MLRL.Beam

open Refinement Induction

section
variable {σ Cond H Q : Type}

/-- A subspace or a copy of it. -/
def OrCopy (ops : SubspaceOps σ Cond) (s s0 : σ) : Prop := s0 = s ∨ s0 = ops.copy s

/-- A copy covers the same examples. -/
def CopyLaw (ops : SubspaceOps σ Cond) : Prop := ∀ s e, ops.covers (ops.copy s) e = ops.covers s e

/-- Sequences of refinements, each of which is among the candidates that are available after the previous ones. The parameters are the refinements, the subspace
that results from filtering by all their conditions and possibly making copies in between, and the head whose outputs the search is restricted to. The quality of each refinement meets `P`. A refinement that covers few examples is not refined
any further, unless it is the first one. -/
inductive Path (ops : SubspaceOps σ Cond) (cfg : GrowConfig) (search : BeamSearch σ Cond H Q) (P : Q → Prop) : List (Scored (Found Cond H) Q) → σ → Option H → Prop where
  | start : Path ops cfg search P [] ops.create none
  | step {chosen s outputs position candidates x s0 s'} : Path ops cfg search P chosen s outputs →
      (cfg.maxConditions ≠ 0 → chosen.length < cfg.maxConditions) →
      (∀ y, 2 ≤ chosen.length → chosen.getLast? = some y → cfg.minCoverage < y.refinement.numCovered) →
      search.candidates chosen.length position s outputs = .ok candidates → x ∈ candidates.flatten → P x.quality → OrCopy ops s s0 →
      ops.filter s0 x.refinement.condition = .ok s' →
      Path ops cfg search P (chosen ++ [x]) s'
        (if cfg.maxHeadRefinements ≠ 0 ∧ chosen.length + 1 ≥ cfg.maxHeadRefinements then some x.refinement.head else outputs)

/-- The entry consists of the conditions of the given refinements, as well as of the head and the quality of the last one. -/
structure Entry.Represents (e : Entry σ Cond H Q) (chosen : List (Scored (Found Cond H) Q)) (s : σ) : Prop where
  conditions : e.refinement.conditions = chosen.map (fun x => x.refinement.condition)
  subspace : e.refinement.subspace = s
  last : ∃ y, chosen.getLast? = some y ∧ e.refinement.head = y.refinement.head ∧ e.quality = y.quality

/-- The order in which threads consider candidates is an interleaving. -/
def BeamSearch.Valid (search : BeamSearch σ Cond H Q) : Prop := ∀ n p candidates, Interleaving candidates (search.schedule n p candidates)

/-- The search for candidates, as well as filtering the subspace or a copy of it by the conditions of those whose quality meets `P`, succeeds. -/
def Succeeds (ops : SubspaceOps σ Cond) (cfg : GrowConfig) (search : BeamSearch σ Cond H Q) (P : Q → Prop) : Prop :=
  ∀ chosen s outputs, Path ops cfg search P chosen s outputs → ∀ position, ∃ candidates, search.candidates chosen.length position s outputs = .ok candidates ∧
    ∀ x ∈ candidates.flatten, P x.quality → ∀ s0, OrCopy ops s s0 → ∃ s', ops.filter s0 x.refinement.condition = .ok s'

/-- Both kinds of elements are sorted from best to worst. -/
structure Sorts.Spec (better : Q → Q → Bool) (sorts : Sorts σ Cond H Q) : Prop where
  refinements : SortSpec better sorts.refinements
  entries : SortSpec better sorts.entries

/-- Properties that any better quality has as well. -/
def Upward (better : Q → Q → Bool) (P : Q → Prop) : Prop := ∀ a b, P a → better b a = true → P b

/-- An entry of the new beam results from adding a condition to one of the old beam. -/
def Child (ops : SubspaceOps σ Cond) (e c : Entry σ Cond H Q) : Prop :=
  ∃ cond s0, c.refinement.conditions = e.refinement.conditions ++ [cond] ∧ OrCopy ops e.refinement.subspace s0 ∧ ops.filter s0 cond = .ok c.refinement.subspace

/-- What becomes of an entry, if no entries of the new beam are replaced: either it is refined, it is retained or, if it is worse than the given quality, it may be
removed. -/
def Group (ops : SubspaceOps σ Cond) (better : Q → Q → Bool) (q : Q) (e : Entry σ Cond H Q) (g : List (Entry σ Cond H Q)) : Prop :=
  (g ≠ [] ∧ Sorted better g ∧ ∀ c ∈ g, Child ops e c) ∨ g = [{ e with refinement := { e.refinement with outputs := .null } }] ∨
    (g = [] ∧ better q e.quality = true)

end

end MLRL.Beam
