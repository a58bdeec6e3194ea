import Verif.Model.Predictor
import Verif.Model.Isotonic
import Verif.Model.LabelVectors

/-!
# Model of the serialisation ("pickling") of rule models, calibration models and label vectors

Sources: `python/subprojects/common/mlrl/common/cython/rule_model.pyx` ("rules"),
`python/subprojects/common/mlrl/common/cython/probability_calibration.pyx` ("calibration"),
`python/subprojects/common/mlrl/common/cython/output_space_info.pyx` ("labels"), and the functions of
`common/src/mlrl/common/model/rule_list.cpp`, `common/src/mlrl/common/prediction/probability_calibration_isotonic.cpp` and
`common/src/mlrl/common/prediction/label_vector_set.cpp` they call.

`__reduce__` returns a state, which `pickle` writes and reads again without changing it (not modelled); `__setstate__` is
applied to the state. A numpy array is a list, `None` is `none`. Exceptions raised by Python or Cython are reported as
`Fault.exception`.
-/

namespace MLRL.Serialization

open Predictor

variable {K : Type}

/-! ### Rule models -/

/-- The tuple of twelve elements that represents a `ConjunctiveBody`, rules:290-315. -/
structure BodyState where
  numericalLeqThresholds : Option (List Rat)
  numericalLeqIndices : Option (List Nat)
  numericalGrThresholds : Option (List Rat)
  numericalGrIndices : Option (List Nat)
  ordinalLeqThresholds : Option (List Int)
  ordinalLeqIndices : Option (List Nat)
  ordinalGrThresholds : Option (List Int)
  ordinalGrIndices : Option (List Nat)
  nominalEqThresholds : Option (List Int)
  nominalEqIndices : Option (List Nat)
  nominalNeqThresholds : Option (List Int)
  nominalNeqIndices : Option (List Nat)
  deriving DecidableEq

/-- The tuple `(scores,)` or `(scores, indices)` that represents a head, rules:321 and 327-328. -/
structure HeadState (K : Type) where
  scores : List K
  indices : Option (List Nat)
  deriving DecidableEq

/-- A list `[body_state, head_state]`, rules:280 and 316. -/
structure RuleState (K : Type) where
  body : Option BodyState
  head : Option (HeadState K)
  deriving DecidableEq

/-- The state of a rule model, rules:485. -/
structure RuleListState (K : Type) where
  version : Nat
  rules : List (RuleState K)
  defaultRuleTakesPrecedence : Bool
  numUsedRules : Nat
  deriving DecidableEq

/-- `SERIALIZATION_VERSION`, rules:11. -/
def ruleVersion : Nat := 4

/-- The thresholds of numerical conditions are of type `float32`. -/
def floatThreshold : Threshold → Res Rat
  | .float t => .ok t
  | .int _ => .error .badCast

/-- The thresholds of ordinal and nominal conditions are of type `int32`. -/
def intThreshold : Threshold → Res Int
  | .int t => .ok t
  | .float _ => .error .badCast

/-- `np.asarray(<T[:n]>thresholds_cbegin()) if n > 0 else None`, e.g. rules:291-292. -/
def thresholdArray {T : Type} (get : Threshold → Res T) (vector : ConditionVector) : Res (Option (List T)) :=
  if vector.length > 0 then do
    let thresholds ← vector.mapM (fun e => do
      let c ← useInit e
      get c.2)
    return some thresholds
  else return none

/-- `np.asarray(<uint32[:n]>indices_cbegin()) if n > 0 else None`, e.g. rules:293-294. -/
def indexArray (vector : ConditionVector) : Res (Option (List Nat)) :=
  if vector.length > 0 then do
    let indices ← vector.mapM (fun e => do
      let c ← useInit e
      return c.1)
    return some indices
  else return none

/-- `__serialize_conjunctive_body`, rules:283-315, without appending the state. -/
def conjunctiveBodyState (vectors : Comparator → ConditionVector) : Res BodyState := do
  let numericalLeqThresholds ← thresholdArray floatThreshold (vectors .numericalLeq)
  let numericalLeqIndices ← indexArray (vectors .numericalLeq)
  let numericalGrThresholds ← thresholdArray floatThreshold (vectors .numericalGr)
  let numericalGrIndices ← indexArray (vectors .numericalGr)
  let ordinalLeqThresholds ← thresholdArray intThreshold (vectors .ordinalLeq)
  let ordinalLeqIndices ← indexArray (vectors .ordinalLeq)
  let ordinalGrThresholds ← thresholdArray intThreshold (vectors .ordinalGr)
  let ordinalGrIndices ← indexArray (vectors .ordinalGr)
  let nominalEqThresholds ← thresholdArray intThreshold (vectors .nominalEq)
  let nominalEqIndices ← indexArray (vectors .nominalEq)
  let nominalNeqThresholds ← thresholdArray intThreshold (vectors .nominalNeq)
  let nominalNeqIndices ← indexArray (vectors .nominalNeq)
  return ⟨numericalLeqThresholds, numericalLeqIndices, numericalGrThresholds, numericalGrIndices, ordinalLeqThresholds,
    ordinalLeqIndices, ordinalGrThresholds, ordinalGrIndices, nominalEqThresholds, nominalEqIndices, nominalNeqThresholds,
    nominalNeqIndices⟩

/-- `__serialize_empty_body` and `__serialize_conjunctive_body`, rules:278-281 and 283-317. -/
def serializeBody (state : List (RuleState K)) : Body → Res (List (RuleState K))
  | .empty => .ok (state ++ [⟨none, none⟩])
  | .conjunctive vectors => do
    let bodyState ← conjunctiveBodyState vectors
    return state ++ [⟨some bodyState, none⟩]

/-- The conversion of an array with `n` elements into a memory view, `<float64[:n]>`: Cython raises a `ValueError` if there
are no elements. -/
def arrayCast {T : Type} (array : List T) : Res (List T) := if array.length > 0 then .ok array else .error .exception

/-- The state of a head, rules:320-321 and 326-328. -/
def headState : Head K → Res (HeadState K)
  | .complete values => do
    let scores ← arrayCast values
    return ⟨scores, none⟩
  | .partial_ entries => do
    let scores ← arrayCast (entries.map Prod.snd)
    let indices ← arrayCast (entries.map Prod.fst)
    return ⟨scores, some indices⟩

/-- `__serialize_complete_head` and `__serialize_partial_head`, rules:319-323 and 325-330. -/
def serializeHead (state : List (RuleState K)) (head : Head K) : Res (List (RuleState K)) := do
  let head ← headState head
  let ruleState ← readAt state (state.length - 1)
  writeAt state (state.length - 1) { ruleState with head := some head }

/-- `RuleList::Rule::visit`, rule_list.cpp:20-26. -/
def serializeRule (state : List (RuleState K)) (rule : Rule K) : Res (List (RuleState K)) := do
  let state ← serializeBody state rule.body
  serializeHead state rule.head

/-- `__reduce__`, rules:476-487, together with `RuleList::visit`, rule_list.cpp:134-141. -/
def serialize (model : RuleList (Rule K)) : Res (RuleListState K) := do
  let rules ← model.toList 0
  let state ← rules.foldlM serializeRule []
  return ⟨ruleVersion, state, model.defaultRuleTakesPrecedence, model.getNumUsedRules⟩

/-- A memory view of an array or of `None`; there are no valid positions in the latter case. -/
def view {T : Type} : Option (List T) → List T
  | none => []
  | some array => array

/-- `num = thresholds.shape[0] if thresholds is not None else 0` (rules:353-358) and one of the loops in rules:366-405. -/
def deserializeVector {T : Type} (make : T → Threshold) (thresholds : Option (List T)) (indices : Option (List Nat)) :
    Res ConditionVector :=
  loop (view thresholds).length (fun i vector => do
    let threshold ← readAt (view thresholds) i
    let index ← readAt (view indices) i
    writeAt vector i (some (index, make threshold))) (List.replicate (view thresholds).length none)

/-- `__deserialize_conjunctive_body`, rules:340-407. -/
def deserializeConjunctiveBody (s : BodyState) : Res Body := do
  let numericalLeq ← deserializeVector .float s.numericalLeqThresholds s.numericalLeqIndices
  let numericalGr ← deserializeVector .float s.numericalGrThresholds s.numericalGrIndices
  let ordinalLeq ← deserializeVector .int s.ordinalLeqThresholds s.ordinalLeqIndices
  let ordinalGr ← deserializeVector .int s.ordinalGrThresholds s.ordinalGrIndices
  let nominalEq ← deserializeVector .int s.nominalEqThresholds s.nominalEqIndices
  let nominalNeq ← deserializeVector .int s.nominalNeqThresholds s.nominalNeqIndices
  return .conjunctive fun
    | .numericalLeq => numericalLeq
    | .numericalGr => numericalGr
    | .ordinalLeq => ordinalLeq
    | .ordinalGr => ordinalGr
    | .nominalEq => nominalEq
    | .nominalNeq => nominalNeq

/-- `__deserialize_body`, rules:332-338; `none` is the null pointer. -/
def deserializeBody : Option BodyState → Res (Option Body)
  | none => .ok none
  | some s => do
    let body ← deserializeConjunctiveBody s
    return some body

/-- The loop in `__deserialize_complete_head`, rules:422-423. `none` is an element that has not been written. -/
def copyScores (scores : List K) : Res (List (Option K)) :=
  loop scores.length (fun i values => do
    let score ← readAt scores i
    writeAt values i (some score)) (List.replicate scores.length none)

/-- The loop in `__deserialize_partial_head`, rules:436-438. -/
def copyEntries (scores : List K) (indices : List Nat) : Res (List (Option (Nat × K))) :=
  loop scores.length (fun i entries => do
    let score ← readAt scores i
    let index ← readAt indices i
    writeAt entries i (some (index, score))) (List.replicate scores.length none)

/-- `__deserialize_head`, `__deserialize_complete_head` and `__deserialize_partial_head`, rules:409-440. The state `None`
has no length. -/
def deserializeHead : Option (HeadState K) → Res (Head K)
  | none => .error .exception
  | some ⟨scores, none⟩ => do
    let values ← copyScores scores
    let values ← values.mapM useInit
    return .complete values
  | some ⟨scores, some indices⟩ => do
    let entries ← copyEntries scores indices
    let entries ← entries.mapM useInit
    return .partial_ entries

/-- Adding a rule, rules:511-514; `addDefaultRule` creates an empty body (rule_list.cpp:118-120). -/
def addDeserialized (model : RuleList (Rule K)) (head : Head K) : Option Body → RuleList (Rule K)
  | none => model.addDefaultRule ⟨.empty, head⟩
  | some body => model.addRule ⟨body, head⟩

/-- An iteration of the loop in `__setstate__`, rules:507-514. -/
def deserializeRule (model : RuleList (Rule K)) (s : RuleState K) : Res (RuleList (Rule K)) := do
  let body ← deserializeBody s.body
  let head ← deserializeHead s.head
  return addDeserialized model head body

/-- `__setstate__`, rules:489-518. -/
def deserialize (s : RuleListState K) : Res (RuleList (Rule K)) := do
  if s.version ≠ ruleVersion then .error .exception
  let model ← s.rules.foldlM deserializeRule (.init s.defaultRuleTakesPrecedence)
  return model.setNumUsedRules s.numUsedRules

/-! ### Calibration models -/

/-- `SERIALIZATION_VERSION` of calibration models, calibration:8. -/
def calibrationVersion : Nat := 0

/-- The state of a calibration model, calibration:126 and 184. -/
structure CalibrationState (K : Type) where
  version : Nat
  bins : List (List (K × K))
  deriving DecidableEq

/-- `__serialize_bin`, calibration:117-119 and 175-177. -/
def serializeBin (state : List (List (K × K))) (listIndex : Nat) (bin : K × K) : Res (List (List (K × K))) := do
  let binList ← readAt state listIndex
  writeAt state listIndex (binList ++ [bin])

/-- `__reduce__`, calibration:121-128 and 179-186, together with `visit`, probability_calibration_isotonic.cpp:167-178. -/
def serializeCalibration (model : List (List (K × K))) : Res (CalibrationState K) := do
  let state ← loop model.length (fun i state => do
    let bins ← readAt model i
    bins.foldlM (fun state bin => serializeBin state i bin) state) (List.replicate model.length [])
  return ⟨calibrationVersion, state⟩

/-- `__setstate__`, calibration:130-154 and 188-212, together with `addBin`. -/
def deserializeCalibration (s : CalibrationState K) : Res (List (List (K × K))) := do
  if s.version ≠ calibrationVersion then .error .exception
  loop s.bins.length (fun i model => do
    let binList ← readAt s.bins i
    loop binList.length (fun j model => do
      let bin ← readAt binList j
      Isotonic.addBin model i bin) model) (List.replicate s.bins.length [])

/-! ### Label vectors -/

/-- `SERIALIZATION_VERSION` of label vectors, labels:11. -/
def labelVersion : Nat := 3

/-- The state of a `LabelVectorSet`, labels:108. -/
structure LabelState where
  version : Nat
  labelVectors : List (List Nat × Nat)
  deriving DecidableEq

/-- The loop in `__serialize_label_vector`, labels:86-88. -/
def serializeLabelVector (labelVector : List Nat) : Res (List Nat) :=
  loop labelVector.length (fun i state => do
    let labelIndex ← readAt labelVector i
    return state ++ [labelIndex]) []

/-- `__reduce__`, labels:104-110, together with `visit`, label_vector_set.cpp:61-69. -/
def serializeLabelVectors (set : LabelVectors.LabelVectorSet) : Res LabelState := do
  let state ← loop set.vectors.length (fun i state => do
    let labelVector ← readAt set.vectors i
    let frequency ← readAt set.frequencies i
    let labelVectorState ← serializeLabelVector labelVector
    return state ++ [(labelVectorState, frequency)]) []
  return ⟨labelVersion, state⟩

/-- `__deserialize_label_vector`, labels:92-102. -/
def deserializeLabelVector (s : List Nat) : Res (List Nat) := do
  let labelVector ← loop s.length (fun i labelVector => do
    let labelIndex ← readAt s i
    writeAt labelVector i (some labelIndex)) (List.replicate s.length none)
  labelVector.mapM useInit

/-- `addLabelVector`, label_vector_set.cpp:56-59. -/
def addLabelVector (set : LabelVectors.LabelVectorSet) (labelVector : List Nat) (frequency : Nat) :
    LabelVectors.LabelVectorSet :=
  { vectors := set.vectors ++ [labelVector], frequencies := set.frequencies ++ [frequency] }

/-- `__setstate__`, labels:112-129. -/
def deserializeLabelVectors (s : LabelState) : Res LabelVectors.LabelVectorSet := do
  if s.version ≠ labelVersion then .error .exception
  loop s.labelVectors.length (fun i set => do
    let e ← readAt s.labelVectors i
    let labelVector ← deserializeLabelVector e.1
    return addLabelVector set labelVector e.2) { vectors := [], frequencies := [] }

end MLRL.Serialization
