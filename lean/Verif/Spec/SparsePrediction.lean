import Verif.Model.SparsePrediction

/-!
# Specification of sparse binary predictions
-/

namespace MLRL.SparsePrediction

/-- A matrix in the CSR format that represents the given rows: all elements of both arrays are initialised, `indices` consists of the elements of the rows and the `i`-th
element of `indptr` is the number of elements of the first `i` rows. -/
structure Represents (c : Csr) (rows : List (List Nat)) : Prop where
  indices : c.indices = rows.flatten.map some
  indptr_length : c.indptr.length = rows.length + 1
  indptr : ∀ i : Nat, i ≤ rows.length → c.indptr[i]? = some (some ((rows.take i).map List.length).sum)

/-- A call of `applyNext`: the rules to be applied to each example, the assignment of examples to threads, the order of the steps and the order in which private copies
are added. -/
structure Call (K : Type) where
  steps : Nat → List (List K → Res (List K))
  assignment : List (List Nat)
  trace : List (Nat × Action K)
  reduction : List Nat → List Nat

/-- Successive calls of `applyNext`, predictor_binary_common.hpp:260-278: the matrices that are returned. -/
def applyCalls {K : Type} (numThreads : Nat) : List (Call K) → Mem K → Res (List Csr)
  | [], _ => .ok []
  | call :: calls, m => do
    let r ← finishSparse call.reduction call.trace (sparseContinue numThreads m)
    let cs ← applyCalls numThreads calls r.1
    return r.2 :: cs

end MLRL.SparsePrediction
