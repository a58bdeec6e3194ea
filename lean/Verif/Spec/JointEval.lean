import Verif.Model.JointEval
import Mathlib.Algebra.BigOperators.Group.Finset.Basic

/-!
# Specification of rule evaluations for non-decomposable loss functions
-/

namespace MLRL.JointEval

open Finset

variable {K : Type} [Field K] [LinearOrder K]

/-- The elements of an array (zero outside). -/
def vec (x : List K) (i : Nat) : K := x[i]?.getD 0

/-- The symmetric matrix of which the upper triangle is given column by column: the entry in row `r` and column `c ≥ r` is preceded by
`1 + 2 + ... + c` entries of previous columns. -/
def matrix (hessians : List K) (r c : Nat) : K := vec hessians ((max r c) * (max r c + 1) / 2 + min r c)

/-- The quadratic approximation of the loss of predicting `x` for `n` outputs, plus the L1 and L2 penalties. -/
def objective (g : Nat → K) (H : Nat → Nat → K) (l1 l2 : K) (n : Nat) (x : Nat → K) : K :=
  (∑ i ∈ range n, g i * x i) + (∑ r ∈ range n, ∑ c ∈ range n, H r c * x r * x c) / 2 + l1 * (∑ i ∈ range n, |x i|) +
    l2 * (∑ i ∈ range n, x i ^ 2) / 2

/-- What `dsysv` guarantees: if it succeeds, the first `n` elements of the result solve the system with the symmetric matrix of which the
upper triangle is given by the coefficients (column `c` starts at position `c * n`). -/
def DsysvSpec (dsysv : List K → List K → Nat → Res (List K)) : Prop :=
  ∀ a b n x, dsysv a b n = .ok x → n ≤ b.length → x.length = b.length ∧
    ∀ r < n, ∑ c ∈ range n, vec a (max r c * n + min r c) * vec x c = vec b r

end MLRL.JointEval
