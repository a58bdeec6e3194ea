import Verif.Base

/-!
# Model of the comparators of refinements and of the parallel search over several features

Sources, in `/repo/cpp/subprojects/common/src/mlrl/common/rule_refinement`: `refinement_comparator_single.cpp`,
`refinement_comparator_fixed.cpp`, `rule_refinement_statistics_based.cpp`.

`A` is the type of what is stored about a refinement (its condition and head), `Q` the type of qualities and `better` the function
`RuleCompareFunction::compare`, which tells if the first quality is better than the second one.
-/

namespace MLRL.Refinement

/-- A refinement together with the quality of its head (`headPtr->quality`). -/
structure Scored (A Q : Type) where
  refinement : A
  quality : Q
  deriving DecidableEq, Repr

section
variable {A Q : Type} (better : Q → Q → Bool)

/-! ### The best refinement -/

/-- `SingleRefinementComparator`: `bestRefinement_` (`none` if its head is a null pointer) and `bestQuality_`. -/
structure Single (A Q : Type) where
  best : Option (Scored A Q)
  quality : Q
  deriving DecidableEq, Repr

/-- Constructor, refinement_comparator_single.cpp:3-5. -/
def Single.new (minQuality : Q) : Single A Q := ⟨none, minQuality⟩

/-- Copy constructor, refinement_comparator_single.cpp:7-9: only the quality is copied. -/
def Single.copy (s : Single A Q) : Single A Q := ⟨none, s.quality⟩

/-- `isImprovement` followed by `pushRefinement` if it returns true, as it is done by all searches for refinements,
refinement_comparator_single.cpp:23-31. -/
def Single.consider (s : Single A Q) (x : Scored A Q) : Single A Q :=
  if better x.quality s.quality then ⟨some x, x.quality⟩ else s

/-- `merge`, refinement_comparator_single.cpp:33-43. Dereferencing a null pointer is undefined behaviour. -/
def Single.merge (s o : Single A Q) : Res (Single A Q × Bool) :=
  if better o.quality s.quality then do
    let x ← useInit o.best
    return (⟨some x, x.quality⟩, true)
  else
    return (s, false)

/-! ### The `k` best refinements -/

/-- `FixedRefinementComparator`: `order_` (references to elements of `refinements_`, which are identified with the elements
themselves) and `minQuality_`. -/
structure Fixed (A Q : Type) where
  order : List (Scored A Q)
  minQuality : Q
  deriving DecidableEq, Repr

/-- Constructor, refinement_comparator_fixed.cpp:7-15. -/
def Fixed.new (minQuality : Q) : Fixed A Q := ⟨[], minQuality⟩

/-- Copy constructor, refinement_comparator_fixed.cpp:17-18. -/
def Fixed.copy (s : Fixed A Q) : Fixed A Q := ⟨[], s.minQuality⟩

/-- `isImprovement` and `pushRefinement`, refinement_comparator_fixed.cpp:36-62, for the maximum number `k` of refinements. `sort`
stands for `std::sort`, which is not stable. `order_.back()` is undefined for an empty vector. -/
def Fixed.consider (sort : List (Scored A Q) → List (Scored A Q)) (k : Nat) (s : Fixed A Q) (x : Scored A Q) : Res (Fixed A Q) :=
  if better x.quality s.minQuality then do
    let order := if s.order.length < k then s.order ++ [x] else s.order.dropLast ++ [x]
    -- `Refinement& worstRefinement = order_.back()`
    if s.order.length < k ∨ s.order ≠ [] then
      let order := sort order
      match order.getLast? with
      | none => .error .outOfBounds
      | some worst => return { order := order, minQuality := worst.quality }
    else
      .error .outOfBounds
  else
    return s

/-- The three loops of `merge`, refinement_comparator_fixed.cpp:74-108: returns the merged refinements and if some of them belong to
the second comparator. `n` is the number of refinements that may still be added. -/
def mergeLoop : (n : Nat) → List (Scored A Q) → List (Scored A Q) → List (Scored A Q) × Bool
  | 0, _, _ => ([], false)
  | _ + 1, [], [] => ([], false)
  | n + 1, x :: l1, [] =>
    let r := mergeLoop n l1 []
    (x :: r.1, r.2)
  | n + 1, [], y :: l2 =>
    let r := mergeLoop n [] l2
    (y :: r.1, true)
  | n + 1, x :: l1, y :: l2 =>
    if better x.quality y.quality then
      let r := mergeLoop n l1 (y :: l2)
      (x :: r.1, r.2)
    else
      let r := mergeLoop n (x :: l1) l2
      (y :: r.1, true)

/-- `merge`, refinement_comparator_fixed.cpp:64-125. -/
def Fixed.merge (k : Nat) (s o : Fixed A Q) : Res (Fixed A Q × Bool) :=
  let r := mergeLoop better k s.order o.order
  match r.1.getLast? with
  | none => return ({ s with order := r.1 }, r.2)
  | some worst => return (⟨r.1, worst.quality⟩, r.2)

end

/-! ### The search over several features -/

/-- What the search requires of a comparator. -/
structure ComparatorOps (C X : Type) where
  copy : C → C
  consider : C → X → Res C
  merge : C → C → Res (C × Bool)

section
variable {C X : Type} (ops : ComparatorOps C X)

/-- The second loop of `findRefinementInternally`, rule_refinement_statistics_based.cpp:46-59: the threads execute steps, each of which
passes a candidate of some feature to the comparator of this feature. `trace` is an arbitrary interleaving. -/
def execTrace : List (Nat × X) → List C → Res (List C)
  | [], entries => .ok entries
  | (i, x) :: trace, entries => do
    let c ← readAt entries i
    let c' ← ops.consider c x
    let entries' ← writeAt entries i c'
    execTrace trace entries'

/-- The third loop, rule_refinement_statistics_based.cpp:62-65. -/
def mergeAll : List C → C → Bool → Res (C × Bool)
  | [], c, found => .ok (c, found)
  | e :: l, c, found => do
    let r ← ops.merge c e
    mergeAll l r.1 (found || r.2)

/-- `findRefinementInternally`, rule_refinement_statistics_based.cpp:26-69, for a number of features and a schedule. -/
def findRefinement (numFeatures : Nat) (trace : List (Nat × X)) (c : C) : Res (C × Bool) := do
  let entries ← execTrace ops trace (List.replicate numFeatures (ops.copy c))
  mergeAll ops entries c false

/-- The same without threads: one feature after the other. -/
def findRefinementSequentially (candidates : List (List X)) (c : C) : Res (C × Bool) := do
  let entries ← candidates.mapM (fun l => l.foldlM ops.consider (ops.copy c))
  mergeAll ops entries c false

end

/-- Operations of `SingleRefinementComparator`. -/
def singleOps {A Q : Type} (better : Q → Q → Bool) : ComparatorOps (Single A Q) (Scored A Q) where
  copy := Single.copy
  consider s x := .ok (s.consider better x)
  merge := Single.merge better

/-- Operations of `FixedRefinementComparator`. -/
def fixedOps {A Q : Type} (better : Q → Q → Bool) (sort : List (Scored A Q) → List (Scored A Q)) (k : Nat) :
    ComparatorOps (Fixed A Q) (Scored A Q) where
  copy := Fixed.copy
  consider := Fixed.consider better sort k
  merge := Fixed.merge better k

end MLRL.Refinement
