import Verif.Model.PartialPrediction

/-!
# Specification of partial predictions

A partial prediction is a sequence of outputs with their scores.
-/

namespace MLRL.Refinement.Spec

variable {K : Type}

/-- What is assumed about `std::sort` with `CompareIndex`. -/
structure SortsByIndex (sort : List (Nat × K) → List (Nat × K)) : Prop where
  perm : ∀ l, (sort l).Perm l
  ordered : ∀ l, (sort l).Pairwise (fun a b => a.1 ≤ b.1)

/-- The prediction `p` consists of the given outputs with scores, in this order. -/
structure Holds (p : PartialPrediction K) (entries : List (Nat × K)) : Prop where
  numValues : p.values.numElements = entries.length
  numIndices : p.indices.numElements = entries.length
  eachValue : ∀ (i : Nat) (e : Nat × K), entries[i]? = some e → p.values.cells[i]? = some (some e.2)
  eachIndex : ∀ (i : Nat) (e : Nat × K), entries[i]? = some e → p.indices.cells[i]? = some (some e.1)
  capacity : p.values.numElements ≤ p.values.cells.length ∧ p.indices.numElements ≤ p.indices.cells.length

/-- The outputs with scores of a score vector. -/
def ScoreVector.entries (s : ScoreVector K) : List (Nat × K) := s.indices.zip s.values

/-- A score vector provides a score for each index, and it is sorted if it claims to be. -/
def ScoreVector.Valid (s : ScoreVector K) : Prop := s.values.length = s.indices.length ∧ (s.sorted = true → s.indices.Pairwise (· ≤ ·))

/-- What calls should do with the outputs and scores, where `p` and `q` are the sequences before and after a call. -/
inductive Effect : HeadCall K → Option (List (Nat × K)) → List (Nat × K) → Prop
  | process (s : ScoreVector K) (p : Option (List (Nat × K))) : Effect (.process s) p (ScoreVector.entries s)
  | sort (p q : List (Nat × K)) (h : q.Perm p) (hs : q.Pairwise (fun a b => a.1 ≤ b.1)) : Effect .sort (some p) q
  | set (p : List (Nat × K)) (values : List K) (h : p.length ≤ values.length) : Effect (.set values) (some p) ((p.map Prod.fst).zip values)
  | postProcess (p : List (Nat × K)) (f : K → K) : Effect (.postProcess f) (some p) (p.map (fun e => (e.1, f e.2)))

/-- The possible results of sequences of calls. -/
inductive Effects : List (HeadCall K) → Option (List (Nat × K)) → Option (List (Nat × K)) → Prop
  | nil (p : Option (List (Nat × K))) : Effects [] p p
  | cons (call : HeadCall K) (calls : List (HeadCall K)) (p : Option (List (Nat × K))) (q : List (Nat × K)) (r : Option (List (Nat × K)))
      (h : Effect call p q) (hs : Effects calls (some q) r) : Effects (call :: calls) p r

/-- Calls are valid if the head is created first, and if enough values are provided. -/
def ValidCalls : List (HeadCall K) → (n : Option Nat) → Prop
  | [], _ => True
  | .process s :: calls, _ => ScoreVector.Valid s ∧ ValidCalls calls (some s.indices.length)
  | .sort :: calls, some n => ValidCalls calls (some n)
  | .set values :: calls, some n => n ≤ values.length ∧ ValidCalls calls (some n)
  | .postProcess _ :: calls, some n => ValidCalls calls (some n)
  | _ :: _, none => False

end MLRL.Refinement.Spec
