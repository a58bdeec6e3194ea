import Verif.Model.Random

/-!
# Specification of sampling
-/

namespace MLRL

/-- A generator whose numbers are in the requested range in all states that fulfil `P`. -/
def Rng.InRange {S : Type} (rng : Rng S) (P : S → Prop) : Prop :=
  ∀ min max s, P s → min < max → max < 2 ^ 32 → ∃ r s', rng.randomInt min max s = .ok (r, s') ∧ min ≤ r ∧ r < max ∧ P s'

namespace Spec

/-- `sample` consists of `k` pairwise distinct elements of `total`. -/
def Drawn (total : List Nat) (k : Nat) (sample : List Nat) : Prop :=
  sample.length = k ∧ sample.Nodup ∧ ∀ x ∈ sample, x ∈ total

end Spec

end MLRL
