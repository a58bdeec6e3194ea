import Verif.Model.SparseSet

/-!
# Specification of sparse-set rows: a finite map from columns to values
-/

namespace MLRL.SparseSet.Spec

variable {T : Type}

/-- The effect of an operation on a map. -/
def apply (m : Nat → Option T) : Op T → (Nat → Option T)
  | .modify index d f => fun c => if c = index then some (f ((m index).getD d)) else m c
  | .erase index => fun c => if c = index then none else m c
  | .clear => fun _ => none

/-- The map after a history of operations. -/
def contents (ops : List (Op T)) : Nat → Option T := ops.foldl apply (fun _ => none)

/-- The operation refers to an existing column. -/
def Valid (numCols : Nat) : Op T → Prop
  | .modify index _ _ => index < numCols
  | .erase index => index < numCols
  | .clear => True

end MLRL.SparseSet.Spec
