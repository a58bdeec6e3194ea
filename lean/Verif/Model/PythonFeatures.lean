import Verif.Model.TabularData

/-!
# Model of how the types of features are given to the Python API

Sources: `/repo/python/subprojects/common/mlrl/common/rule_learners.py`, `/repo/python/subprojects/common/mlrl/common/cython/feature_info.pyx`.
-/

namespace MLRL.PythonFeatures

open TabularData

/-- Conversion of a Python integer into an `uint32` (`cdef uint32 feature_index`, feature_info.pyx:61,63,66): Cython raises an `OverflowError` if the integer
is negative or too large. -/
def toUint32 (i : Int) : Res Nat := if 0 ≤ i ∧ i < 2 ^ 32 then .ok i.toNat else .error .exception

/-- The loops in feature_info.pyx:63-64,66-67. -/
def setAll (kind : Kind) (info : BitFeatureInfo) (indices : List Int) : Res BitFeatureInfo :=
  indices.foldlM (fun info i => do
    let f ← toUint32 i
    info.set f kind) info

/-- `MixedFeatureInfo.__cinit__`, feature_info.pyx:53-69. Because of `not None`, a `TypeError` is raised if an argument is `None`. -/
def mixedFeatureInfo (numFeatures : Nat) : (ordinal nominal : Option (List Int)) → Res FeatureInfo
  | some ordinal, some nominal => do
    let info ← setAll .nominal (.create numFeatures) nominal
    let info ← setAll .ordinal info ordinal
    return .mixed info
  | _, _ => .error .exception

/-- `0 if indices is None else len(indices)`, rule_learners.py:280-281. -/
def count : Option (List Int) → Nat
  | none => 0
  | some indices => indices.length

/-- `RuleLearner._create_feature_info`, rule_learners.py:271-289. The arguments are the number of columns of the feature matrix and the attributes
`ordinal_feature_indices` and `nominal_feature_indices`, which are `None` if not set by the user. -/
def createFeatureInfo (numFeatures : Nat) (ordinal nominal : Option (List Int)) : Res FeatureInfo :=
  if count ordinal = 0 ∧ count nominal = 0 then .ok (.equal .numerical)
  else if count ordinal = numFeatures then .ok (.equal .ordinal)
  else if count nominal = numFeatures then .ok (.equal .nominal)
  else mixedFeatureInfo numFeatures ordinal nominal

end MLRL.PythonFeatures
