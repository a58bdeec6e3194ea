import Verif.Model.FeatureVector

/-!
# Model of `TabularFeatureSpace` and its subspaces

Source: `/repo/cpp/subprojects/common/src/mlrl/common/rule_refinement/feature_space_tabular.cpp`.
-/

namespace MLRL.FeatureSpace

/-- `FilteredCacheEntry`, feature_space_tabular.cpp:51-65. -/
structure CacheEntry where
  vector : Option FeatureVector
  numConditions : Nat
  deriving DecidableEq, Repr

/-- What is fixed for a feature space: the original vector of each feature (feature_space_tabular.cpp:120-124; creating a vector
for the first time is a function of the training data), the comparison of floats, the weighted statistic of each example, the number
of examples and of examples with non-zero weight. -/
structure Env (M : Type) where
  numExamples : Nat
  numNonZero : Nat
  column : Nat → FeatureVector
  isEqual : Rat → Rat → Bool
  stat : Nat → M

/-- `FeatureSubspace`, feature_space_tabular.cpp:144-156. `total` is the sum of the statistics that are marked as covered in
`weightedStatisticsPtr_`; `loaded` tells which features are contained in `featureSpace_.cache_`. -/
structure Subspace (M : Type) where
  mask : CoverageMask
  numCovered : Nat
  numModifications : Nat
  cache : Nat → Option CacheEntry
  loaded : Nat → Bool
  total : M

section
variable {M : Type} [Zero M] [Add M] [Sub M]

/-- Constructor, feature_space_tabular.cpp:168-172. The weighted statistics initially cover all examples (statistics_common.hpp:390-400
of the boosting library). -/
def Subspace.create (env : Env M) : Subspace M :=
  { mask := .create env.numExamples, numCovered := env.numNonZero, numModifications := 0, cache := fun _ => none,
    loaded := fun _ => false, total := (List.range env.numExamples).foldl (fun t e => t + env.stat e) 0 }

/-- `FeatureSubspace(const FeatureSubspace&)`, feature_space_tabular.cpp:177-180: the filtered vectors are not copied. -/
def Subspace.copy (s : Subspace M) : Subspace M := { s with cache := fun _ => none }

/-- The entry `cacheFiltered_.emplace(featureIndex, FilteredCacheEntry()).first` refers to, lines 189 and 203. -/
def Subspace.entry (s : Subspace M) (f : Nat) : CacheEntry := (s.cache f).getD { vector := none, numConditions := 0 }

/-- Updates a map. -/
def upd {α : Type} (m : Nat → α) (f : Nat) (x : α) : Nat → α := fun g => if g = f then x else m g

/-- `createCallback`, feature_space_tabular.cpp:186-199, followed by `Callback::invoke`, lines 110-141. Returns the vector the
callback provides. -/
def Subspace.invoke (env : Env M) (s : Subspace M) (f : Nat) : Res (FeatureVector × Subspace M) := do
  let entry := s.entry f
  let v := entry.vector.getD (env.column f)
  let loaded := if entry.vector.isSome then s.loaded else upd s.loaded f true
  if s.numModifications > entry.numConditions then
    let v ← v.filterMask env.isEqual s.mask
    return (v, { s with cache := upd s.cache f (some { vector := some v, numConditions := s.numModifications }), loaded := loaded })
  else
    return (v, { s with cache := upd s.cache f (some entry), loaded := loaded })

/-- The vector of a feature that is available to `filterSubspace`, feature_space_tabular.cpp:205-211: a null pointer is
dereferenced if the vector has not been loaded before. -/
def Subspace.available (env : Env M) (s : Subspace M) (f : Nat) : Res FeatureVector :=
  match (s.entry f).vector with
  | some v => .ok v
  | none => if s.loaded f then .ok (env.column f) else .error .uninitialised

/-- The vector of a feature after filtering it according to the current mask if it is outdated, feature_space_tabular.cpp:214-219,
and whether it is owned by the cache of the subspace. -/
def Subspace.upToDate (env : Env M) (s : Subspace M) (f : Nat) : Res (FeatureVector × Bool) := do
  let v ← s.available env f
  if s.numModifications > (s.entry f).numConditions then
    let v ← v.filterMask env.isEqual s.mask
    return (v, true)
  else
    return (v, (s.entry f).vector.isSome)

/-- `filterSubspace`, feature_space_tabular.cpp:201-227. `numCovered` is the number of covered examples stored in the
condition. -/
def Subspace.filter (env : Env M) (s : Subspace M) (f : Nat) (i : Interval) (numCovered : Nat) : Res (Subspace M) := do
  let (v, existing) ← s.upToDate env f
  let numModifications := s.numModifications + 1
  let (mask, total) ← v.updateCoverage env.stat i numModifications s.mask s.total
  let v ← v.filterInterval env.isEqual existing i
  return { s with
    mask := mask, numCovered := numCovered, numModifications := numModifications,
    cache := upd s.cache f (some { vector := some v, numConditions := numModifications }), total := total }

/-- `resetSubspace`, feature_space_tabular.cpp:229-234. The weighted statistics are not touched. -/
def Subspace.reset (env : Env M) (s : Subspace M) : Subspace M :=
  { s with numModifications := 0, numCovered := env.numNonZero, cache := fun _ => none, mask := s.mask.reset }

end

end MLRL.FeatureSpace
