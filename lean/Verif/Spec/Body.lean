import Verif.Model.Body

/-!
# Specification of the coverage of conditions
-/

namespace MLRL.Body.Spec

/-- Truncation towards zero, i.e. the integer a feature value stands for if the feature is ordinal or nominal. -/
def truncate (q : Rat) : Int := if 0 ≤ q then q.floor else q.ceil

/-- A feature value that is not missing satisfies a condition. -/
def satisfied (x : Rat) (c : Condition) : Prop :=
  match c.comparator, c.threshold with
  | .numericalLeq, .float t => x ≤ t
  | .numericalGr, .float t => t < x
  | .ordinalLeq, .int t => truncate x ≤ t
  | .ordinalGr, .int t => t < truncate x
  | .nominalEq, .int t => truncate x = t
  | .nominalNeq, .int t => truncate x ≠ t
  | _, _ => False

/-- Numerical conditions have a floating point threshold, the others an integer threshold. -/
def WellTyped (c : Condition) : Prop :=
  match c.comparator, c.threshold with
  | .numericalLeq, .float _ => True
  | .numericalGr, .float _ => True
  | .ordinalLeq, .int _ => True
  | .ordinalGr, .int _ => True
  | .nominalEq, .int _ => True
  | .nominalNeq, .int _ => True
  | _, _ => False

/-- Whether a comparator belongs to numerical features. -/
def IsNumerical (k : Comparator) : Prop := k = .numericalLeq ∨ k = .numericalGr

/-- Whether a (possibly missing) feature value satisfies a condition. A missing value satisfies each numerical `≤` condition
and no numerical `>` condition; for other features missing values are excluded by `Admissible`. -/
def holds (v : FVal) (c : Condition) : Prop :=
  match v with
  | some x => satisfied x c
  | none => c.comparator = .numericalLeq

/-- The value may be tested by the condition: if the feature is not numerical, the value must not be missing and the integer
it stands for must fit into 32 bits. -/
def Admissible (v : FVal) (c : Condition) : Prop :=
  ¬ IsNumerical c.comparator → ∃ x, v = some x ∧ -2 ^ 31 ≤ truncate x ∧ truncate x < 2 ^ 31

/-- The dense example that belongs to a sparse one. -/
def toDense (numFeatures : Nat) (row : SparseRow) (sparseValue : FVal) : List FVal :=
  (List.range numFeatures).map (fun f => match row.find? (fun p => p.1 = f) with
    | some p => p.2
    | none => sparseValue)

/-- Calls that modify a condition list. -/
inductive Call where
  | add (c : Condition)
  | removeLast

/-- The conditions that are left after a sequence of calls; `none` if a condition is removed from an empty list. -/
def stack : List Call → List Condition → Option (List Condition)
  | [], l => some l
  | .add c :: cs, l => stack cs (l ++ [c])
  | .removeLast :: cs, l => if l = [] then none else stack cs l.dropLast

end MLRL.Body.Spec

namespace MLRL.ConditionList

/-- Effect of a sequence of calls. -/
def applyCalls : List Body.Spec.Call → ConditionList → Res ConditionList
  | [], l => .ok l
  | .add c :: cs, l => applyCalls cs (l.addCondition c)
  | .removeLast :: cs, l => do
    let l ← l.removeLastCondition
    applyCalls cs l

end MLRL.ConditionList
