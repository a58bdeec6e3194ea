import Verif.Base

/-!
# Model of partial predictions

Sources: `common/include/mlrl/common/data/view.hpp` (`ResizableAllocator`), `common/src/mlrl/common/rule_refinement/prediction_partial.cpp` and
`common/src/mlrl/common/rule_refinement/score_processor.cpp`.

Scores are elements of an arbitrary type `K`. `std::sort` is a parameter.
-/

namespace MLRL.Refinement

variable {K α : Type}

/-! ### Resizable vectors -/

/-- `ResizableVector`, view_vector.hpp:127 and view.hpp:202-253. The length of `cells` is the member `maxCapacity`; elements that have not been
initialised are `none`. -/
structure ResizableVector (α : Type) where
  cells : List (Option α)
  numElements : Nat
  deriving DecidableEq

/-- Constructor, view.hpp:215-216. -/
def ResizableVector.create (numElements : Nat) : ResizableVector α := { cells := List.replicate numElements none, numElements := numElements }

/-- `reallocateMemory`: elements are kept, as far as possible, and new elements are not initialised. -/
def reallocate (cells : List (Option α)) (n : Nat) : List (Option α) := cells.take n ++ List.replicate (n - cells.length) none

/-- `resize`, view.hpp:240-252. -/
def ResizableVector.resize (v : ResizableVector α) (numElements : Nat) (freeMemory : Bool) : ResizableVector α :=
  if numElements < v.cells.length then
    { cells := if freeMemory then reallocate v.cells numElements else v.cells, numElements := numElements }
  else if numElements > v.cells.length then { cells := reallocate v.cells numElements, numElements := numElements }
  else { v with numElements := numElements }

/-- An element that is read must have been initialised. -/
def ResizableVector.read (v : ResizableVector α) (i : Nat) : Res α := do
  let c ← readAt v.cells i
  match c with
  | some x => .ok x
  | none => .error .uninitialised

/-- Writing an element. -/
def ResizableVector.write (v : ResizableVector α) (i : Nat) (x : α) : Res (ResizableVector α) := do
  let cells ← writeAt v.cells i (some x)
  return { v with cells := cells }

/-- The body of the loop in `copyView`. -/
def copyStep (source : List α) (i : Nat) (v : ResizableVector α) : Res (ResizableVector α) := do
  let x ← readAt source i
  v.write i x

/-- `copyView(source, v.begin(), numElements)`, view_functions.hpp. -/
def copyInto (source : List α) (numElements : Nat) (v : ResizableVector α) : Res (ResizableVector α) := loop numElements (copyStep source) v

/-! ### Partial predictions -/

/-- Members of `PartialPrediction`. The member `quality` is not modelled. -/
structure PartialPrediction (K : Type) where
  values : ResizableVector K
  indices : ResizableVector Nat
  sorted : Bool
  deriving DecidableEq

/-- Constructor, prediction_partial.cpp:9-11. -/
def PartialPrediction.create (numElements : Nat) (sorted : Bool) : PartialPrediction K :=
  { values := .create numElements, indices := .create numElements, sorted := sorted }

/-- `setNumElements`, prediction_partial.cpp:49-52. -/
def PartialPrediction.setNumElements (p : PartialPrediction K) (numElements : Nat) (freeMemory : Bool) : PartialPrediction K :=
  { p with values := p.values.resize numElements freeMemory, indices := p.indices.resize numElements freeMemory }

/-- The loop in lines 68-72: the elements of `sortedVector` that have been set so far. -/
def collectStep (p : PartialPrediction K) (i : Nat) (entries : List (Nat × K)) : Res (List (Nat × K)) := do
  let index ← p.indices.read i
  let value ← p.values.read i
  return entries ++ [(index, value)]

/-- The loop in lines 76-80. -/
def storeStep (entries : List (Nat × K)) (i : Nat) (p : PartialPrediction K) : Res (PartialPrediction K) := do
  let entry ← readAt entries i
  let indices ← p.indices.write i entry.1
  let values ← p.values.write i entry.2
  return { p with indices := indices, values := values }

/-- Lines 60-81. -/
def PartialPrediction.sortEntries (sort : List (Nat × K) → List (Nat × K)) (p : PartialPrediction K) : Res (PartialPrediction K) :=
  if p.values.numElements > 1 then do
    let entries ← loop p.values.numElements (collectStep p) []
    loop p.values.numElements (storeStep (sort entries)) p
  else .ok p

/-- `sort`, prediction_partial.cpp:58-85. -/
def PartialPrediction.sort (sort : List (Nat × K) → List (Nat × K)) (p : PartialPrediction K) : Res (PartialPrediction K) :=
  if !p.sorted then do
    let p ← p.sortEntries sort
    return { p with sorted := true }
  else .ok p

/-- `set`, prediction_partial.cpp:91-97; `values` are the elements `begin` and its successors refer to. -/
def PartialPrediction.set (values : List K) (p : PartialPrediction K) : Res (PartialPrediction K) := do
  let v ← copyInto values p.values.numElements p.values
  return { p with values := v }

/-- The body of the loop over the values in `postProcess`, prediction_partial.cpp:87-89, if each value is processed by `f` (e.g.
shrinkage_constant.cpp:25-31). -/
def postProcessStep (f : K → K) (i : Nat) (p : PartialPrediction K) : Res (PartialPrediction K) := do
  let x ← p.values.read i
  let v ← p.values.write i (f x)
  return { p with values := v }

/-- `postProcess`, prediction_partial.cpp:87-89. -/
def PartialPrediction.postProcess (f : K → K) (p : PartialPrediction K) : Res (PartialPrediction K) :=
  loop p.values.numElements (postProcessStep f) p

/-- A score vector: `getNumElements` is the number of indices (score_vector_dense.cpp:43-46). -/
structure ScoreVector (K : Type) where
  indices : List Nat
  values : List K
  sorted : Bool

/-- Lines 26-37: the head scores are copied to. `none` is a head that does not exist or is not a `PartialPrediction`. -/
def prepareHead (existing : Option (PartialPrediction K)) (numElements : Nat) (sorted : Bool) : PartialPrediction K :=
  match existing with
  | none => .create numElements sorted
  | some head =>
    { (if head.values.numElements ≠ numElements then head.setNumElements numElements false else head) with sorted := sorted }

/-- `processPartialScores`, score_processor.cpp:21-42. -/
def processPartialScores (existing : Option (PartialPrediction K)) (scores : ScoreVector K) : Res (PartialPrediction K) := do
  let head := prepareHead existing scores.indices.length scores.sorted
  let values ← copyInto scores.values scores.indices.length head.values
  let indices ← copyInto scores.indices scores.indices.length head.indices
  return { head with values := values, indices := indices }

/-! ### Sequences of calls -/

/-- The calls that modify the head of a rule. -/
inductive HeadCall (K : Type) where
  | process (scores : ScoreVector K)
  | sort
  | set (values : List K)
  | postProcess (f : K → K)

/-- The effect of a call. Without a head, only `processPartialScores` may be called. -/
def HeadCall.apply (sort : List (Nat × K) → List (Nat × K)) (call : HeadCall K) (p : Option (PartialPrediction K)) :
    Res (Option (PartialPrediction K)) :=
  match call, p with
  | .process scores, p => do
    let q ← processPartialScores p scores
    return some q
  | .sort, some p => do
    let q ← p.sort sort
    return some q
  | .set values, some p => do
    let q ← p.set values
    return some q
  | .postProcess f, some p => do
    let q ← p.postProcess f
    return some q
  | _, none => .error .outOfBounds

/-- The effect of several calls. -/
def runCalls (sort : List (Nat × K) → List (Nat × K)) : List (HeadCall K) → Option (PartialPrediction K) → Res (Option (PartialPrediction K))
  | [], p => .ok p
  | call :: calls, p => do
    let p ← call.apply sort p
    runCalls sort calls p

end MLRL.Refinement
