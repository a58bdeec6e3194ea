import Verif.Model.OutputStrata

/-!
# Specification of the strata for output-wise stratified sampling
-/

namespace MLRL.OutputStrata

/-- Whether a label is relevant to an example. -/
def Labels.relevant : Labels → Nat → Nat → Bool
  | .dense rows, e, l => decide (rows[e]?.bind (fun row => row[l]?) = some true)
  | .csr rows, e, l => decide (∃ row ∈ rows[e]?, l ∈ row)

/-- The shape of a label matrix. -/
def Labels.Valid (numExamples numLabels : Nat) : Labels → Prop
  | .dense rows => rows.length = numExamples ∧ ∀ row ∈ rows, row.length = numLabels
  | .csr rows => rows.length = numExamples ∧ ∀ row ∈ rows, row.Nodup ∧ ∀ l ∈ row, l < numLabels

/-- The examples a label is relevant to. -/
def members (labels : Labels) (examples : List Nat) (label : Nat) : List Nat := examples.filter (fun e => labels.relevant e label)

/-- A label is relevant to fewer examples than another one, or to equally many and its index is smaller, or both are the same. -/
def Rarer (labels : Labels) (examples : List Nat) (a b : Nat) : Prop :=
  (members labels examples a).length < (members labels examples b).length ∨
    (members labels examples a).length = (members labels examples b).length ∧ a ≤ b

/-- Iterative stratification (Sechidis et al., 2011): as long as there are examples with relevant labels, those with the rarest label form a stratum. The examples
without relevant labels form the last one. -/
inductive Iterative (labels : Labels) (numLabels : Nat) : List Nat → List (List Nat) → Prop
  | done : Iterative labels numLabels [] []
  | rest (examples last : List Nat) : examples ≠ [] → (∀ l < numLabels, members labels examples l = []) → last.Perm examples →
      Iterative labels numLabels examples [last]
  | next (examples : List Nat) (label : Nat) (strata : List (List Nat)) : label < numLabels → members labels examples label ≠ [] →
      (∀ l < numLabels, members labels examples l ≠ [] → Rarer labels examples label l) →
      Iterative labels numLabels (examples.filter (fun e => !labels.relevant e label)) strata →
      Iterative labels numLabels examples (members labels examples label :: strata)

/-- A permutation of the elements of a map. -/
def IsOrder (order : List (Nat × Nat) → List (Nat × Nat)) : Prop := ∀ l, (order l).Perm l

end MLRL.OutputStrata
