import Verif.Model.FeatureSpace

/-!
# Specification of the coverage of a feature subspace

The specification knows nothing about masks, indicator values, caches and filtered vectors: a subspace is described by the list of
the conditions that have been added since it has been created or reset, where a condition is the set of the examples that satisfy
it.
-/

namespace MLRL.FeatureSpace

/-- The examples in the entries or bins of a vector. -/
def FeatureVector.examples : FeatureVector → List Nat
  | .equal => []
  | .numerical entries _ _ _ => entries.map Prod.fst
  | .nominal _ bins _ _ => bins.flatMap Prod.snd

/-- The number of entries or bins of a vector. -/
def FeatureVector.size : FeatureVector → Nat
  | .equal => 0
  | .numerical entries _ _ _ => entries.length
  | .nominal _ bins _ _ => bins.length

/-- The examples in the entries or bins `[start, stop)`. -/
def FeatureVector.slice (start stop : Nat) : FeatureVector → List Nat
  | .equal => []
  | .numerical entries _ _ _ => ((entries.drop start).take (stop - start)).map Prod.fst
  | .nominal _ bins _ _ => ((bins.drop start).take (stop - start)).flatMap Prod.snd

/-- Each example occurs at most once in a vector, either in one of its entries or bins or among the missing values, and bins are not
empty. -/
structure FeatureVector.WellFormed (n : Nat) (v : FeatureVector) : Prop where
  nodup : (v.examples ++ v.missing).Nodup
  lt : ∀ e ∈ v.examples ++ v.missing, e < n
  bins : ∀ k bins mv m, v = .nominal k bins mv m → ∀ b ∈ bins, b.2 ≠ []

/-- The intervals that correspond to conditions: they lie within the vector and, unless the vector is nominal or binary, they start
at its beginning or end at its end. -/
structure FeatureVector.ValidInterval (v : FeatureVector) (i : Interval) : Prop where
  notEqual : v ≠ .equal
  le : i.start ≤ i.stop
  stop_le : i.stop ≤ v.size
  isOpen : (∃ bins mv m, v = .nominal .nominal bins mv m) ∨ (∃ bins mv m, v = .nominal .binary bins mv m) ∨
    i.start = 0 ∨ i.stop = v.size

/-- The interval `i` describes the condition `sat` for the examples `covered`: the examples in the interval are those that satisfy
the condition or, if it is inverse, those that do not (besides the examples with missing values, which satisfy no condition). -/
def FeatureVector.Describes (n : Nat) (covered : Nat → Bool) (v : FeatureVector) (i : Interval) (sat : Nat → Bool) : Prop :=
  ∀ e, e < n → covered e = true →
    (sat e = true ↔ if i.inverse then e ∉ v.slice i.start i.stop ∧ e ∉ v.missing else e ∈ v.slice i.start i.stop)

/-- The examples that satisfy all conditions in a list. -/
def satisfiesAll (conds : List (Nat → Bool)) (e : Nat) : Bool := conds.all (fun sat => sat e)

/-- The states a subspace can be in, together with the conditions that have been added since the subspace has been created or reset,
and whether it has never been reset. -/
inductive History {M : Type} [Zero M] [Add M] [Sub M] (env : Env M) : Subspace M → List (Nat → Bool) → Bool → Prop where
  | create : History env (.create env) [] true
  | copy {s conds fresh} : History env s conds fresh → History env s.copy conds fresh
  | reset {s conds fresh} : History env s conds fresh → History env (s.reset env) [] false
  | invoke {s conds fresh f v s'} : History env s conds fresh → s.invoke env f = .ok (v, s') → History env s' conds fresh
  | filter {s conds fresh f v existing i sat k s'} : History env s conds fresh →
      s.upToDate env f = .ok (v, existing) → v.ValidInterval i → v.Describes env.numExamples (satisfiesAll conds) i sat →
      s.filter env f i k = .ok s' → History env s' (sat :: conds) fresh

/-- The bins that contain examples in `c`, restricted to these examples. -/
def restrictBins (c : Nat → Bool) (bins : List (Int × List Nat)) : List (Int × List Nat) :=
  (bins.map (fun b => (b.1, b.2.filter c))).filter (fun b => !b.2.isEmpty)

/-- `v` consists of exactly those entries (bins) of the column that belong to examples in `c`, in the same order. -/
def FeatureVector.SameEntries (c : Nat → Bool) : (v column : FeatureVector) → Prop
  | .numerical e sv sp _, .numerical e' sv' sp' _ => e = e'.filter (fun x => c x.1) ∧ sv = sv' ∧ sp = sp'
  | .nominal k b mv _, .nominal k' b' mv' _ => k = k' ∧ b = restrictBins c b' ∧ mv = mv'
  | _, _ => False

/-- The sum of the statistics of the examples in `c`. -/
def sumOver {M : Type} [Zero M] [Add M] (n : Nat) (stat : Nat → M) (c : Nat → Bool) : M :=
  (((List.range n).filter c).map stat).sum

end MLRL.FeatureSpace
