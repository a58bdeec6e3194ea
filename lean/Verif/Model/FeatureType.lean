import Verif.Model.Body
import Verif.Model.RuleList
import Verif.Model.FeatureVector

/-!
# Model of the creation of feature vectors from feature matrices

Sources, all below `/repo/cpp/subprojects/common/src/mlrl/common/input`: `feature_type_nominal_common.hpp`, `feature_type_nominal.cpp`, `feature_type_ordinal.cpp`,
`feature_type_numerical_common.hpp`, `feature_type_numerical.cpp`, `feature_vector_nominal_allocated.hpp`, `feature_vector_numerical_allocated.hpp`.

The column of a feature matrix is a list of pairs, each of which consists of the index of an example and a value, i.e., the arrays `indexIterator` and
`valueIterator` are combined. For a `FortranContiguousView` the index is the position (`IndexIterator`).

The order in which a `std::unordered_map` is iterated depends on hash values. It is given by a function `order` that rearranges the keys.
-/

namespace MLRL.FeatureType

open FeatureSpace (FeatureVector NominalKind readRange)

/-- The index of an example and its value. -/
abbrev Entry := Nat × FVal

/-- `std::unordered_map<int32, Tuple<uint32>>`: keys, together with the two elements of the tuple. -/
abbrev Mapping := List (Int × Nat × Nat)

/-- The keys, in the order in which they have been added. -/
def Mapping.keys (m : Mapping) : List Int := m.map Prod.fst

/-- `mapping.at(key)`: throws an exception if there is no such key. -/
def Mapping.at (m : Mapping) (key : Int) : Res (Nat × Nat) :=
  match m.lookup key with
  | some t => .ok t
  | none => .error .exception

/-- Assigning the elements of a tuple via a reference. -/
def Mapping.assign (m : Mapping) (key : Int) (t : Nat × Nat) : Mapping := m.map (fun e => if e.1 = key then (key, t) else e)

/-- The local variables of `createMapping`. -/
structure Counting where
  mapping : Mapping
  numValues : Nat
  numExamples : Nat
  deriving DecidableEq, Repr

/-- The body of the loop in `createMapping`, feature_type_nominal_common.hpp:19-36. -/
def countStep (s : Counting) (e : Entry) : Res Counting :=
  match e.2 with
  | none => .ok s
  | some x => do
    let value ← castInt32 (some x)
    match s.mapping.lookup value with
    | none => return ⟨s.mapping ++ [(value, (s.numValues, 1))], s.numValues + 1, s.numExamples + 1⟩
    | some t => return ⟨s.mapping.assign value (t.1, t.2 + 1), s.numValues, s.numExamples + 1⟩

/-- `createMapping`, feature_type_nominal_common.hpp:13-39. -/
def createMapping (entries : List Entry) : Res Counting := entries.foldlM countStep ⟨[], 0, 0⟩

/-- The body of the loop in `getMajorityValue`, feature_type_nominal_common.hpp:47-55. -/
def majorityStep (m : Mapping) (s : Int × Nat) (key : Int) : Res (Int × Nat) := do
  let t ← m.at key
  return if t.2 > s.2 then (key, t.2) else s

/-- `getMajorityValue`, feature_type_nominal_common.hpp:41-58. -/
def getMajorityValue (order : List Int → List Int) (m : Mapping) : Res Int :=
  match order m.keys with
  | [] => .error .outOfBounds
  | key :: keys => do
    let t ← m.at key
    let r ← (key :: keys).foldlM (majorityStep m) (key, t.2)
    return r.1

/-- `getMinorityAndMajorityValue`, feature_type_nominal_common.hpp:60-78. -/
def getMinorityAndMajorityValue (order : List Int → List Int) (m : Mapping) : Res (Int × Int) :=
  match order m.keys with
  | first :: second :: _ => do
    let t1 ← m.at first
    let t2 ← m.at second
    return if t1.2 > t2.2 then (second, first) else (first, second)
  | _ => .error .outOfBounds

/-- `AllocatedNominalFeatureVector`; `none` stands for elements that are not initialised. -/
structure Compressed where
  values : List (Option Int)
  indices : List (Option Nat)
  indptr : List (Option Nat)
  majorityValue : Int
  deriving DecidableEq, Repr

/-- The constructor of `AllocatedNominalFeatureVector`, feature_vector_nominal_allocated.hpp:21-26. -/
def Compressed.allocate (numValues numIndices : Nat) (majorityValue : Int) : Res Compressed := do
  let indptr ← writeAt (List.replicate (numValues + 1) none) 0 (some 0)
  let indptr ← writeAt indptr numValues (some numIndices)
  return ⟨List.replicate numValues none, List.replicate numIndices none, indptr, majorityValue⟩

/-- `missingFeatureVector.set(index, true)`, vector_dok_binary.hpp. -/
def setMissing (missing : List Nat) (index : Nat) : List Nat := if index ∈ missing then missing else missing ++ [index]

/-- The local variables of `createBinaryFeatureVectorInternally`. -/
structure BinaryState where
  indices : List (Option Nat)
  n : Nat
  missing : List Nat
  deriving DecidableEq, Repr

/-- The body of the loop in `createBinaryFeatureVectorInternally`, feature_type_nominal_common.hpp:93-107. -/
def binaryStep (minorityValue : Int) (s : BinaryState) (e : Entry) : Res BinaryState :=
  match e.2 with
  | none => .ok { s with missing := setMissing s.missing e.1 }
  | some x => do
    let value ← castInt32 (some x)
    match decide (value = minorityValue) with
    | true => do
      let indices ← writeAt s.indices s.n (some e.1)
      return { s with indices := indices, n := s.n + 1 }
    | false => return s

/-- `createBinaryFeatureVectorInternally`, feature_type_nominal_common.hpp:80-111. -/
def createBinaryInternally (entries : List Entry) (m : Mapping) (minorityValue majorityValue : Int) : Res (Compressed × List Nat) := do
  let t ← m.at minorityValue
  let v ← Compressed.allocate 1 t.2 majorityValue
  let values ← writeAt v.values 0 (some minorityValue)
  let s ← entries.foldlM (binaryStep minorityValue) ⟨v.indices, 0, []⟩
  return ({ v with values := values, indices := s.indices }, s.missing)

/-- `createBinaryFeatureVector`, feature_type_nominal_common.hpp:113-131. -/
def createBinary (order : List Int → List Int) (entries : List Entry) (m : Mapping) (sparse : Bool) (sparseValue : Int) : Res (Compressed × List Nat) :=
  if sparse then
    match order m.keys with
    | [] => .error .outOfBounds
    | key :: _ => createBinaryInternally entries m key sparseValue
  else do
    let r ← getMinorityAndMajorityValue order m
    createBinaryInternally entries m r.1 r.2

/-- The local variables `offset` and `n` of `createNominalFeatureVector`, the mapping and the vector. -/
structure Offsets where
  v : Compressed
  mapping : Mapping
  offset : Nat
  n : Nat
  deriving DecidableEq, Repr

/-- Lines 23-28 of `createNominalFeatureVector`, feature_type_nominal.cpp, and lines 38-42 of `createOrdinalFeatureVector`, feature_type_ordinal.cpp, where `n` is the
loop counter `i`. -/
def offsetStep (s : Offsets) (value : Int) : Res Offsets := do
  let values ← writeAt s.v.values s.n (some value)
  let indptr ← writeAt s.v.indptr s.n (some s.offset)
  let t ← s.mapping.at value
  return ⟨{ s.v with values := values, indptr := indptr }, s.mapping.assign value (s.n, t.2), s.offset + t.2, s.n + 1⟩

/-- The body of the loop in lines 18-30 of `createNominalFeatureVector`, feature_type_nominal.cpp. -/
def nominalOffsetStep (majorityValue : Int) (s : Offsets) (value : Int) : Res Offsets :=
  if value ≠ majorityValue then offsetStep s value else .ok s

/-- The vector, the mapping and the missing values. -/
structure Filling where
  indices : List (Option Nat)
  mapping : Mapping
  missing : List Nat
  deriving DecidableEq, Repr

/-- The body of the loop in lines 32-50 of `createNominalFeatureVector`, feature_type_nominal.cpp, and in lines 45-63 of `createOrdinalFeatureVector`,
feature_type_ordinal.cpp. -/
def fillStep (indptr : List (Option Nat)) (majorityValue : Int) (s : Filling) (e : Entry) : Res Filling :=
  match e.2 with
  | none => .ok { s with missing := setMissing s.missing e.1 }
  | some x => do
    let value ← castInt32 (some x)
    match decide (value ≠ majorityValue) with
    | true => do
      let t ← s.mapping.at value
      let start ← readAt indptr t.1
      let start ← useInit start
      let indices ← writeAt s.indices (start + sub32 t.2 1) (some e.1)
      return ⟨indices, s.mapping.assign value (t.1, sub32 t.2 1), s.missing⟩
    | false => return s

/-- The last part of `createNominalFeatureVector` and `createOrdinalFeatureVector`. -/
def fill (entries : List Entry) (s : Offsets) : Res (Compressed × List Nat) := do
  let r ← entries.foldlM (fillStep s.v.indptr s.v.majorityValue) ⟨s.v.indices, s.mapping, []⟩
  return ({ s.v with indices := r.indices }, r.missing)

/-- `createNominalFeatureVector`, feature_type_nominal.cpp:7-54. -/
def createNominal (order : List Int → List Int) (entries : List Entry) (m : Mapping) (numValues numIndices : Nat) (majorityValue : Int) :
    Res (Compressed × List Nat) := do
  let v ← Compressed.allocate numValues numIndices majorityValue
  let s ← (order m.keys).foldlM (nominalOffsetStep majorityValue) ⟨v, m, 0, 0⟩
  fill entries s

/-- The body of the loop in lines 18-26 of `createOrdinalFeatureVector`, feature_type_ordinal.cpp: the elements of `sortedValues` and `n`. -/
def collectStep (majorityValue : Int) (s : List (Option Int) × Nat) (value : Int) : Res (List (Option Int) × Nat) :=
  match decide (value ≠ majorityValue) with
  | true => do
    let values ← writeAt s.1 s.2 (some value)
    return (values, s.2 + 1)
  | false => .ok s

/-- `createOrdinalFeatureVector`, feature_type_ordinal.cpp:11-67. Sorting values that are not initialised is undefined behaviour. -/
def createOrdinal (order sort : List Int → List Int) (entries : List Entry) (m : Mapping) (numValues numIndices : Nat) (majorityValue : Int) :
    Res (Compressed × List Nat) := do
  let collected ← (order m.keys).foldlM (collectStep majorityValue) (List.replicate numValues none, 0)
  let values ← collected.1.mapM useInit
  let v ← Compressed.allocate numValues numIndices majorityValue
  let s ← (sort values).foldlM offsetStep ⟨v, m, 0, 0⟩
  fill entries s

/-- Lines 61-70 of the second overload of `createNominalFeatureVector`, feature_type_nominal.cpp, and lines 74-83 of the one of `createOrdinalFeatureVector`,
feature_type_ordinal.cpp: the majority value and the number of examples that have it. -/
def selectMajority (order : List Int → List Int) (m : Mapping) (sparse : Bool) (sparseValue : Int) : Res (Int × Nat) :=
  if sparse then .ok (sparseValue, 0)
  else do
    let value ← getMajorityValue order m
    let t ← m.at value
    return (value, t.2)

/-- The created feature vector. -/
inductive Created where
  | equal
  | nominal (kind : NominalKind) (v : Compressed) (missing : List Nat)
  deriving DecidableEq, Repr

/-- `createFeatureVectorInternally` with eight arguments, feature_type_nominal.cpp:76-89 and 56-74. -/
def createNominalFor (order : List Int → List Int) (entries : List Entry) (m : Mapping) (numValues numExamples : Nat) (sparse : Bool) (sparseValue : Int) :
    Res Created :=
  if numValues > 2 then do
    let r ← selectMajority order m sparse sparseValue
    let v ← createNominal order entries m (sub32 numValues 1) (sub32 numExamples r.2) r.1
    return .nominal .nominal v.1 v.2
  else if numValues > 1 then do
    let v ← createBinary order entries m sparse sparseValue
    return .nominal .binary v.1 v.2
  else .ok .equal

/-- `createFeatureVectorInternally` with eight arguments, feature_type_ordinal.cpp:89-102 and 69-87. -/
def createOrdinalFor (order sort : List Int → List Int) (entries : List Entry) (m : Mapping) (numValues numExamples : Nat) (sparse : Bool) (sparseValue : Int) :
    Res Created :=
  if numValues > 2 then do
    let r ← selectMajority order m sparse sparseValue
    let v ← createOrdinal order sort entries m (sub32 numValues 1) (sub32 numExamples r.2) r.1
    return .nominal .ordinal v.1 v.2
  else if numValues > 1 then do
    let v ← createBinary order entries m sparse sparseValue
    return .nominal .binary v.1 v.2
  else .ok .equal

/-- The entries of a dense column. -/
def denseEntries (column : List FVal) : List Entry := column.zipIdx.map (fun p => (p.2, p.1))

/-- `NominalFeatureType::createFeatureVector` for a `FortranContiguousView`, feature_type_nominal.cpp:91-101. -/
def nominalDense (order : List Int → List Int) (column : List FVal) : Res Created := do
  let c ← createMapping (denseEntries column)
  createNominalFor order (denseEntries column) c.mapping c.mapping.length c.numExamples false 0

/-- `NominalFeatureType::createFeatureVector` for a `CscView`, feature_type_nominal.cpp:103-120. -/
def nominalCsc (order : List Int → List Int) (entries : List Entry) (numRows : Nat) (sparseValue : FVal) : Res Created := do
  let c ← createMapping entries
  let value ← castInt32 sparseValue
  createNominalFor order entries c.mapping (if entries.length < numRows then c.mapping.length + 1 else c.mapping.length) c.numExamples
    (decide (entries.length < numRows)) value

/-- `OrdinalFeatureType::createFeatureVector` for a `FortranContiguousView`, feature_type_ordinal.cpp:104-114. -/
def ordinalDense (order sort : List Int → List Int) (column : List FVal) : Res Created := do
  let c ← createMapping (denseEntries column)
  createOrdinalFor order sort (denseEntries column) c.mapping c.mapping.length c.numExamples false 0

/-- `OrdinalFeatureType::createFeatureVector` for a `CscView`, feature_type_ordinal.cpp:116-133. -/
def ordinalCsc (order sort : List Int → List Int) (entries : List Entry) (numRows : Nat) (sparseValue : FVal) : Res Created := do
  let c ← createMapping entries
  let value ← castInt32 sparseValue
  createOrdinalFor order sort entries c.mapping (if entries.length < numRows then c.mapping.length + 1 else c.mapping.length) c.numExamples
    (decide (entries.length < numRows)) value

/-- How the bin at a position is read: its value, and the indices between `indices_cbegin` and `indices_cend`, view_vector_compressed.hpp. -/
def Compressed.bin (v : Compressed) (i : Nat) : Res (Int × List Nat) := do
  let value ← readAt v.values i
  let value ← useInit value
  let start ← readAt v.indptr i
  let start ← useInit start
  let stop ← readAt v.indptr (i + 1)
  let stop ← useInit stop
  let indices ← readRange v.indices start stop
  let indices ← indices.mapM useInit
  return (value, indices)

/-- The feature vector the learner works with, as in `Model/FeatureVector.lean`. -/
def Created.decode : Created → Res FeatureVector
  | .equal => .ok .equal
  | .nominal kind v missing => do
    let bins ← (List.range v.values.length).mapM v.bin
    return .nominal kind bins v.majorityValue missing

/-- The entries and missing values of `createNumericalFeatureVector`. -/
structure NumericalState where
  entries : List (Option (Nat × Rat))
  n : Nat
  missing : List Nat
  deriving DecidableEq, Repr

/-- The body of the loop in `createNumericalFeatureVector`, feature_type_numerical_common.hpp:23-35. -/
def numericalStep (s : NumericalState) (e : Entry) : Res NumericalState :=
  match e.2 with
  | none => .ok { s with missing := setMissing s.missing e.1 }
  | some x => do
    let entries ← writeAt s.entries s.n (some (e.1, x))
    return { s with entries := entries, n := s.n + 1 }

/-- `createNumericalFeatureVector`, feature_type_numerical_common.hpp:15-41: the sorted entries and the missing values. -/
def createNumerical (sort : List (Nat × Rat) → List (Nat × Rat)) (entries : List Entry) : Res (List (Nat × Rat) × List Nat) := do
  let s ← entries.foldlM numericalStep ⟨List.replicate entries.length none, 0, []⟩
  let l ← (s.entries.take s.n).mapM useInit
  return (sort l, s.missing)

/-- Whether the first and the last element have the same value (`isEqual`). -/
def sameValue (isEqual : Rat → Rat → Bool) (l : List (Nat × Rat)) : Res Bool := do
  let first ← readAt l 0
  let last ← readAt l (l.length - 1)
  return isEqual first.2 last.2

/-- `NumericalFeatureType::createFeatureVector` for a `FortranContiguousView`, feature_type_numerical.cpp:9-23. -/
def numericalDense (isEqual : Rat → Rat → Bool) (sort : List (Nat × Rat) → List (Nat × Rat)) (column : List FVal) : Res FeatureVector := do
  let r ← createNumerical sort (denseEntries column)
  match decide (r.1.length > 0) with
  | true => do
    let same ← sameValue isEqual r.1
    return if same then .equal else .numerical r.1 0 false r.2
  | false => return .equal

/-- `NumericalFeatureType::createFeatureVector` for a `CscView`, feature_type_numerical.cpp:25-44. -/
def numericalCsc (isEqual : Rat → Rat → Bool) (sort : List (Nat × Rat) → List (Nat × Rat)) (entries : List Entry) (numRows : Nat) (sparseValue : Rat) :
    Res FeatureVector := do
  let r ← createNumerical sort entries
  match decide (r.1.length > 0) with
  | true =>
    match decide (r.1.length < numRows) with
    | true => return .numerical r.1 sparseValue true r.2
    | false => do
      let same ← sameValue isEqual r.1
      return if same then .equal else .numerical r.1 sparseValue false r.2
  | false => return .equal

end MLRL.FeatureType
