import Verif.Model.Induction

/-!
# Model of the induction of rules via a beam search

Source: `/repo/cpp/subprojects/common/src/mlrl/common/rule_induction/rule_induction_top_down_beam_search.cpp`.

Pointers to lists of conditions, to heads and, apart from copies, to feature subspaces are identified with what they point to: each of them is owned by a single entry and is moved to
another one only if the former is not accessed anymore. The array `entries_` is not modelled separately from the vector `order_`, which refers to all
elements of it that have been assigned.
-/

namespace MLRL.Beam

open Refinement Induction

/-- The pointer `outputIndices` of an entry: a null pointer, a pointer to the output indices that have been passed to `growRule`, or to the head of the entry it
belongs to. A pointer to the head of another entry is dangling as soon as this entry, which belongs to a previous beam, is destructed. -/
inductive Outputs where
  | null
  | all
  | head
  | dangling
  deriving DecidableEq, Repr

/-- What a `BeamEntry` refers to, lines 15-40, apart from the quality of its head. -/
structure Data (σ Cond H : Type) where
  conditions : List Cond
  head : H
  subspace : σ
  outputs : Outputs
  deriving DecidableEq, Repr

/-- `BeamEntry`, lines 15-40, together with the quality of its head. -/
abbrev Entry (σ Cond H Q : Type) := Scored (Data σ Cond H) Q

/-- The parameters of `BeamSearchTopDownRuleInduction`. -/
structure BeamConfig extends GrowConfig where
  width : Nat

/-- The search for refinements: the candidates that are considered for each sampled feature, given the number of conditions so far and the position of the entry
to be refined in the beam (features may be sampled anew for each one of them), its subspace and the head whose outputs the search is restricted to (`none` if it
is not restricted), as well as the order in which the threads consider them. -/
structure BeamSearch (σ Cond H Q : Type) where
  candidates : Nat → Nat → σ → Option H → Res (List (List (Scored (Found Cond H) Q)))
  schedule : Nat → Nat → List (List (Scored (Found Cond H) Q)) → List (Nat × Scored (Found Cond H) Q)

/-- The algorithm `std::sort`, as it is used by comparators and for the entries of a beam. -/
structure Sorts (σ Cond H Q : Type) where
  refinements : List (Scored (Found Cond H) Q) → List (Scored (Found Cond H) Q)
  entries : List (Entry σ Cond H Q) → List (Entry σ Cond H Q)

section
variable {σ Cond H Q : Type} (ops : SubspaceOps σ Cond)

/-- `initializeEntry`, lines 42-51. -/
def initializeEntry (subspace : σ) (keepHead : Bool) (x : Scored (Found Cond H) Q) : Res (Entry σ Cond H Q) := do
  let subspace ← ops.filter subspace x.refinement.condition
  return ⟨⟨[x.refinement.condition], x.refinement.head, subspace, if keepHead then .head else .all⟩, x.quality⟩

/-- The constructor of `Beam`, lines 116-133. The subspace is copied for all refinements but the last one. If there are no refinements, `numEntries_ - 1`
overflows. -/
def newBeam (subspace : σ) (keepHeads : Bool) (refinements : List (Scored (Found Cond H) Q)) : Res (List (Entry σ Cond H Q)) :=
  match refinements.getLast? with
  | none => .error .outOfBounds
  | some last => do
    let entries ← refinements.dropLast.mapM (initializeEntry ops (ops.copy subspace) keepHeads)
    let entry ← initializeEntry ops subspace keepHeads last
    return entries ++ [entry]

/-- Line 65: the pointer is copied from an entry that will be destructed, unless it is a pointer to the head of the new entry. -/
def nextOutputs (keepHead : Bool) (old : Outputs) : Outputs :=
  match keepHead, old with
  | true, _ => .head
  | false, .head => .dangling
  | false, o => o

/-- `copyEntry` for a refinement of an entry, lines 53-67, given the subspace of the entry or a copy of it. -/
def refinedEntry (minCoverage : Nat) (keepHead : Bool) (old : Entry σ Cond H Q) (subspace : σ) (x : Scored (Found Cond H) Q) : Res (Entry σ Cond H Q) := do
  let subspace ← ops.filter subspace x.refinement.condition
  return ⟨⟨old.refinement.conditions ++ [x.refinement.condition], x.refinement.head, subspace,
    if x.refinement.numCovered ≤ minCoverage then .null else nextOutputs keepHead old.refinement.outputs⟩, x.quality⟩

/-- `copyEntry` for an entry that has not been refined, lines 69-74. -/
def frozenEntry (old : Entry σ Cond H Q) : Entry σ Cond H Q := { old with refinement := { old.refinement with outputs := .null } }

/-- The local variables `newOrder`, `minQuality` and `result` of `refine`. -/
structure RefineState (σ Cond H Q : Type) where
  order : List (Entry σ Cond H Q)
  minQuality : Q
  result : Bool
  deriving DecidableEq, Repr

/-- An entry is written to `newOrder.back()`, which is undefined for an empty vector, and `updateOrder` is called, lines 203-207 and lines 76-83. -/
def replaceLast (sorts : Sorts σ Cond H Q) (entry : Entry σ Cond H Q) (s : RefineState σ Cond H Q) : Res (RefineState σ Cond H Q) :=
  match s.order with
  | [] => .error .outOfBounds
  | _ :: _ =>
    match (sorts.entries (s.order.dropLast ++ [entry])).getLast? with
    | none => .error .outOfBounds
    | some worst => .ok { s with order := sorts.entries (s.order.dropLast ++ [entry]), minQuality := worst.quality }

/-- A refinement is added to the new beam, lines 193-208 and lines 213-226. -/
def addRefinement (sorts : Sorts σ Cond H Q) (cfg : BeamConfig) (keepHeads : Bool) (old : Entry σ Cond H Q) (subspace : σ) (s : RefineState σ Cond H Q)
    (x : Scored (Found Cond H) Q) : Res (RefineState σ Cond H Q) := do
  let entry ← refinedEntry ops cfg.minCoverage keepHeads old subspace x
  if s.order.length < cfg.width then
    return { s with order := s.order ++ [entry] }
  else
    replaceLast sorts entry s

variable (better : Q → Q → Bool)

/-- An entry that could not be refined is added to the new beam, lines 233-244. -/
def keepEntry (sorts : Sorts σ Cond H Q) (cfg : BeamConfig) (old : Entry σ Cond H Q) (s : RefineState σ Cond H Q) : Res (RefineState σ Cond H Q) :=
  if s.order.length < cfg.width then
    .ok { s with order := s.order ++ [frozenEntry old] }
  else if better s.minQuality old.quality then
    .ok s
  else
    replaceLast sorts (frozenEntry old) s

/-- Line 181: the outputs, the search for refinements of an entry is restricted to. Accesses via a dangling pointer are undefined behaviour. -/
def outputsOf (old : Entry σ Cond H Q) : Res (Option H) :=
  match old.refinement.outputs with
  | .all => .ok none
  | .head => .ok (some old.refinement.head)
  | .null => .error .uninitialised
  | .dangling => .error .uninitialised

/-- Lines 177-182: the search for refinements of an entry. -/
def findBeamRefinements (sorts : Sorts σ Cond H Q) (cfg : BeamConfig) (search : BeamSearch σ Cond H Q) (depth position : Nat) (old : Entry σ Cond H Q)
    (minQuality : Q) : Res (Fixed (Found Cond H) Q × Bool) := do
  let outputs ← outputsOf old
  let candidates ← search.candidates depth position old.refinement.subspace outputs
  findRefinement (fixedOps better sorts.refinements cfg.width) candidates.length (search.schedule depth position candidates) (Fixed.new minQuality)

/-- Lines 184-227: the refinements of an entry are added to the new beam. The subspace is copied for all of them but the last one. If there are no refinements,
`numRefinements - 1` overflows. -/
def addRefinements (sorts : Sorts σ Cond H Q) (cfg : BeamConfig) (keepHeads : Bool) (old : Entry σ Cond H Q) (refinements : List (Scored (Found Cond H) Q))
    (s : RefineState σ Cond H Q) : Res (RefineState σ Cond H Q) :=
  match refinements.getLast? with
  | none => .error .outOfBounds
  | some last => do
    let s ← refinements.dropLast.foldlM (addRefinement ops sorts cfg keepHeads old (ops.copy old.refinement.subspace)) { s with result := true }
    addRefinement ops sorts cfg keepHeads old old.refinement.subspace s last

/-- The body of the loop in `refine`, lines 170-245. -/
def refineEntry (sorts : Sorts σ Cond H Q) (cfg : BeamConfig) (search : BeamSearch σ Cond H Q) (depth : Nat) (keepHeads : Bool) (s : RefineState σ Cond H Q)
    (p : Entry σ Cond H Q × Nat) : Res (RefineState σ Cond H Q) :=
  match p.1.refinement.outputs with
  | .null => keepEntry better sorts cfg p.1 s
  | _ => do
    let r ← findBeamRefinements better sorts cfg search depth p.2 p.1 s.minQuality
    match r.2 with
    | true => addRefinements ops sorts cfg keepHeads p.1 r.1.order s
    | false => keepEntry better sorts cfg p.1 s

/-- `refine`, lines 157-250. `order.back()` is undefined for an empty vector. -/
def refine (sorts : Sorts σ Cond H Q) (cfg : BeamConfig) (search : BeamSearch σ Cond H Q) (depth : Nat) (keepHeads : Bool) (order : List (Entry σ Cond H Q)) :
    Res (List (Entry σ Cond H Q) × Bool) :=
  match order.getLast? with
  | none => .error .outOfBounds
  | some worst => do
    let s ← order.zipIdx.foldlM (refineEntry ops better sorts cfg search depth keepHeads) ⟨[], worst.quality, false⟩
    return (s.order, s.result)

/-- The loop of `growRule`, lines 340-351, given the number `depth` of conditions so far. -/
def beamLoop (sorts : Sorts σ Cond H Q) (cfg : BeamConfig) (search : BeamSearch σ Cond H Q) : (fuel : Nat) → (depth : Nat) → (found : Bool) →
    List (Entry σ Cond H Q) → Run (List (Entry σ Cond H Q))
  | 0, _, _, _ => Run.unfinished
  | fuel + 1, depth, found, order =>
    if found = true ∧ (cfg.maxConditions = 0 ∨ depth < cfg.maxConditions) then do
      let r ← Run.lift (refine ops better sorts cfg search depth (decide (0 < cfg.maxHeadRefinements ∧ cfg.maxHeadRefinements ≤ depth + 1)) order)
      beamLoop sorts cfg search fuel (depth + 1) r.2 r.1
    else
      Run.done order

/-- `growRule`, lines 318-360. `order_.front()` is undefined for an empty vector. -/
def growRule (sorts : Sorts σ Cond H Q) (cfg : BeamConfig) (search : BeamSearch σ Cond H Q) (minQuality : Q) (fuel : Nat) : Run (Grown σ Cond H) := do
  let candidates ← Run.lift (search.candidates 0 0 ops.create none)
  let r ← Run.lift (findRefinement (fixedOps better sorts.refinements cfg.width) candidates.length (search.schedule 0 0 candidates) (Fixed.new minQuality))
  match r.2 with
  | true => do
    let order ← Run.lift (newBeam ops ops.create (decide (cfg.maxHeadRefinements = 1)) r.1.order)
    let order ← beamLoop ops better sorts cfg search fuel 1 true order
    match order with
    | [] => Run.lift (.error .outOfBounds)
    | best :: _ => return ⟨best.refinement.conditions, best.refinement.subspace, some best.refinement.head⟩
  | false => return ⟨[], ops.create, none⟩

end

/-- `induceRule`, rule_induction_common.hpp:103-143, if rules are grown via a beam search. Returns `none` if no rule has been found. The member `search` of the
round is not used. -/
def induceRule {σ Cond K Q R S : Type} (l : Learner σ Cond K Q R S) (sorts : Sorts σ Cond (Predictor.Head K) Q) (cfg : BeamConfig)
    (search : List (Update.Cell R S) → BeamSearch σ Cond (Predictor.Head K) Q) (round : Round σ Cond K Q R S) (fuel : Nat) (cells : List (Update.Cell R S)) :
    Run (Option (List (Update.Cell R S) × Rule Cond K)) := do
  let grown ← growRule l.subspaces l.better sorts cfg (search cells) l.minQuality fuel
  match grown.head with
  | none => Run.done none
  | some head => do
    let r ← Run.lift (l.finishRule round cells grown.conditions grown.subspace head)
    Run.done (some r)

end MLRL.Beam
