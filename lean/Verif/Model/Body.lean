import Verif.Base

/-!
# Model of conditions, condition lists, conjunctive bodies, heads and their application to examples

Sources: `common/include/mlrl/common/model/condition.hpp`, `common/src/mlrl/common/model/condition_list.cpp`,
`common/include/mlrl/common/model/body_conjunctive.hpp`, `common/src/mlrl/common/model/body_conjunctive.cpp`,
`common/src/mlrl/common/model/body_empty.cpp`, `boosting/include/mlrl/boosting/prediction/predictor_score_common.hpp`.

Feature values are rational numbers or missing (`none`, NaN in the code). Thresholds of type `int32` are integers.
-/

namespace MLRL

/-- A feature value (`float32`); `none` is NaN. Every finite `float32` is a rational number. Infinities are not modelled. -/
abbrev FVal := Option Rat

/-- `Comparator`, condition.hpp:13-20. -/
inductive Comparator where
  | numericalLeq | numericalGr | ordinalLeq | ordinalGr | nominalEq | nominalNeq
  deriving DecidableEq, Repr

/-- `Threshold`, condition.hpp:25: `std::variant<float32, int32>`. -/
inductive Threshold where
  | float (t : Rat)
  | int (t : Int)
  deriving DecidableEq, Repr

/-- The fields of `Condition` (condition.hpp:33-81) that matter for coverage; the interval and the number of covered examples
are left out. -/
structure Condition where
  featureIndex : Nat
  comparator : Comparator
  threshold : Threshold
  deriving DecidableEq, Repr

/-- Fields of `ConditionList`, condition_list.hpp:19-21. The array of six counters is a function. -/
structure ConditionList where
  conditions : List Condition
  numPerComparator : Comparator → Nat

namespace ConditionList

/-- Constructor, condition_list.cpp:3. -/
def init : ConditionList := { conditions := [], numPerComparator := fun _ => 0 }

/-- Copy constructor, condition_list.cpp:5-10: the last counter is initialised with the fifth one. -/
def copy (l : ConditionList) : ConditionList :=
  { conditions := l.conditions,
    numPerComparator := fun
      | .numericalLeq => l.numPerComparator .numericalLeq
      | .numericalGr => l.numPerComparator .numericalGr
      | .ordinalLeq => l.numPerComparator .ordinalLeq
      | .ordinalGr => l.numPerComparator .ordinalGr
      | .nominalEq => l.numPerComparator .nominalEq
      | .nominalNeq => l.numPerComparator .nominalEq }

/-- `addCondition`, condition_list.cpp:24-27. -/
def addCondition (l : ConditionList) (c : Condition) : ConditionList :=
  { conditions := l.conditions ++ [c],
    numPerComparator := fun k => if k = c.comparator then l.numPerComparator k + 1 else l.numPerComparator k }

/-- `removeLastCondition`, condition_list.cpp:29-33; `back` of an empty vector is undefined behaviour. -/
def removeLastCondition (l : ConditionList) : Res ConditionList :=
  match l.conditions.getLast? with
  | none => .error .outOfBounds
  | some c => .ok
    { conditions := l.conditions.dropLast,
      numPerComparator := fun k => if k = c.comparator then l.numPerComparator k - 1 else l.numPerComparator k }

end ConditionList

/-- `ConjunctiveBody::ConditionVector`, body_conjunctive.hpp:22-51: two arrays of the same length (feature indices and
thresholds), written as a list of pairs because both are always written together. `none` is an element that has not been
initialised. -/
abbrev ConditionVector := List (Option (Nat × Threshold))

/-- `ConjunctiveBody` (one vector per comparator), or `EmptyBody`. -/
inductive Body where
  | empty
  | conjunctive (vectors : Comparator → ConditionVector)

/-- `*std::get_if<T>(&threshold)`, where `T` is the type that belongs to the comparator (condition_list.cpp:55-85): a null
pointer is dereferenced if the threshold has the wrong type. -/
def checkThreshold : Comparator → Threshold → Res Threshold
  | .numericalLeq, .float t => .ok (.float t)
  | .numericalGr, .float t => .ok (.float t)
  | .ordinalLeq, .int t => .ok (.int t)
  | .ordinalGr, .int t => .ok (.int t)
  | .nominalEq, .int t => .ok (.int t)
  | .nominalNeq, .int t => .ok (.int t)
  | _, _ => .error .outOfBounds

/-- State of the loop in `createConjunctiveBody`: the vectors and the indices of the next elements to be written. -/
structure BodyBuilder where
  vectors : Comparator → ConditionVector
  index : Comparator → Nat

/-- An iteration of the loop, condition_list.cpp:48-92. -/
def BodyBuilder.step (b : BodyBuilder) (c : Condition) : Res BodyBuilder := do
  let t ← checkThreshold c.comparator c.threshold
  let v ← writeAt (b.vectors c.comparator) (b.index c.comparator) (some (c.featureIndex, t))
  return { vectors := fun k => if k = c.comparator then v else b.vectors k,
           index := fun k => if k = c.comparator then b.index k + 1 else b.index k }

/-- The loop, condition_list.cpp:47-93. -/
def BodyBuilder.run : List Condition → BodyBuilder → Res BodyBuilder
  | [], b => .ok b
  | c :: cs, b => do
    let b ← b.step c
    BodyBuilder.run cs b

/-- `createConjunctiveBody`, condition_list.cpp:35-96. -/
def ConditionList.createConjunctiveBody (l : ConditionList) : Res Body := do
  let b ← BodyBuilder.run l.conditions
    { vectors := fun k => List.replicate (l.numPerComparator k) none, index := fun _ => 0 }
  return .conjunctive b.vectors

/-- Conversion of a `float32` to `int32` (truncation). NaN and values that are not representable: undefined behaviour. -/
def castInt32 : FVal → Res Int
  | none => .error .badCast
  | some q =>
    let i := if 0 ≤ q then q.floor else q.ceil
    if -2 ^ 31 ≤ i ∧ i < 2 ^ 31 then .ok i else .error .badCast

/-- `compare_((Threshold) featureValue, threshold)` for the six types of comparators, body_conjunctive.hpp:56-160. Note that
`CompareNumericalLeq` is `!(featureValue > threshold)`. The last case cannot occur for well-typed vectors. -/
def compareValue : Comparator → FVal → Threshold → Res Bool
  | .numericalLeq, v, .float t => .ok (match v with | some x => !decide (x > t) | none => !false)
  | .numericalGr, v, .float t => .ok (match v with | some x => decide (x > t) | none => false)
  | .ordinalLeq, v, .int t => do let x ← castInt32 v; return decide (x ≤ t)
  | .ordinalGr, v, .int t => do let x ← castInt32 v; return decide (x > t)
  | .nominalEq, v, .int t => do let x ← castInt32 v; return decide (x = t)
  | .nominalNeq, v, .int t => do let x ← castInt32 v; return decide (x ≠ t)
  | _, _, _ => .error .badCast

/-- `ConditionVector::covers`, body_conjunctive.cpp:10-28 and 31-52. The two overloads only differ in how the value of a
feature is looked up (`read`). -/
def coversVector (read : Nat → Res FVal) (k : Comparator) : ConditionVector → Res Bool
  | [] => .ok true
  | c :: cs => do
    let (featureIndex, threshold) ← useInit c
    let v ← read featureIndex
    let ok ← compareValue k v threshold
    if ok then coversVector read k cs else return false

/-- `&&` of two conditions with side effects. -/
def andThen (a : Res Bool) (b : Res Bool) : Res Bool := do
  let x ← a
  if x then b else return false

/-- The conjunction over all six vectors, body_conjunctive.cpp:275-277 and 293-304. -/
def coversVectors (read : Nat → Res FVal) (vectors : Comparator → ConditionVector) : Res Bool :=
  andThen (coversVector read .numericalLeq (vectors .numericalLeq)) <|
  andThen (coversVector read .numericalGr (vectors .numericalGr)) <|
  andThen (coversVector read .ordinalLeq (vectors .ordinalLeq)) <|
  andThen (coversVector read .ordinalGr (vectors .ordinalGr)) <|
  andThen (coversVector read .nominalEq (vectors .nominalEq)) <|
  coversVector read .nominalNeq (vectors .nominalNeq)

/-- `covers` for dense examples, body_conjunctive.cpp:274-278 and body_empty.cpp:3-5. -/
def Body.coversDense (row : List FVal) : Body → Res Bool
  | .empty => .ok true
  | .conjunctive vectors => coversVectors (fun f => readAt row f) vectors

/-- A sparse example: indices and values of the dense elements. -/
abbrev SparseRow := List (Nat × FVal)

/-- The temporary arrays `tmpArray1` and `tmpArray2`; elements of the first one may be uninitialised. -/
structure TmpArrays where
  values : List (Option FVal)
  stamps : List Nat

/-- Copying the dense elements to the temporary arrays, body_conjunctive.cpp:284-291. -/
def TmpArrays.fill (n : Nat) : SparseRow → TmpArrays → Res TmpArrays
  | [], t => .ok t
  | (f, v) :: row, t => do
    let values ← writeAt t.values f (some v)
    let stamps ← writeAt t.stamps f n
    TmpArrays.fill n row { values := values, stamps := stamps }

/-- `tmpArray2[featureIndex] == n ? tmpArray1[featureIndex] : sparseValue`, body_conjunctive.cpp:44. -/
def TmpArrays.lookup (t : TmpArrays) (n : Nat) (sparseValue : FVal) (f : Nat) : Res FVal := do
  let stamp ← readAt t.stamps f
  if stamp = n then
    let v ← readAt t.values f
    useInit v
  else return sparseValue

/-- `covers` for sparse examples, body_conjunctive.cpp:280-305 and body_empty.cpp:7-11. -/
def Body.coversSparse (row : SparseRow) (sparseValue : FVal) (t : TmpArrays) (n : Nat) : Body → Res (Bool × TmpArrays)
  | .empty => .ok (true, t)
  | .conjunctive vectors => do
    let t ← t.fill n row
    let b ← coversVectors (t.lookup n sparseValue) vectors
    return (b, t)

end MLRL
