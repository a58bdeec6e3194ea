import Verif.Model.Tabular
import Verif.Model.FeatureType
import Verif.Model.BitVector

/-!
# Model of how the training data of a tabular feature space is created from a dense feature matrix

Sources: `/repo/cpp/subprojects/common/src/mlrl/common/input/feature_info_mixed.cpp`,
`/repo/cpp/subprojects/common/src/mlrl/common/input/feature_info_equal.cpp`,
`/repo/cpp/subprojects/common/src/mlrl/common/input/feature_matrix_fortran_contiguous.cpp`,
`/repo/cpp/subprojects/common/src/mlrl/common/rule_refinement/feature_space_tabular.cpp`.

Simplification: feature binning is not used, i.e., `featureBinningFactory.create()` returns a null pointer (`NoFeatureBinning`).
-/

namespace MLRL.TabularData

open FeatureSpace FeatureType

/-- The classes `NumericalFeatureType`, `OrdinalFeatureType` and `NominalFeatureType`. -/
inductive Kind where
  | numerical
  | ordinal
  | nominal
  deriving DecidableEq, Repr

/-- `BitFeatureInfo`, feature_info_mixed.cpp:12-58. -/
structure BitFeatureInfo where
  ordinal : BitVector
  nominal : BitVector

/-- Constructor, feature_info_mixed.cpp:24-25. -/
def BitFeatureInfo.create (numFeatures : Nat) : BitFeatureInfo := ⟨.create numFeatures true, .create numFeatures true⟩

/-- `setNumerical`, `setOrdinal` and `setNominal`, feature_info_mixed.cpp:44-57. -/
def BitFeatureInfo.set (info : BitFeatureInfo) (f : Nat) : Kind → Res BitFeatureInfo
  | .numerical => do
    let ordinal ← info.ordinal.set f false
    let nominal ← info.nominal.set f false
    return ⟨ordinal, nominal⟩
  | .ordinal => do
    let ordinal ← info.ordinal.set f true
    let nominal ← info.nominal.set f false
    return ⟨ordinal, nominal⟩
  | .nominal => do
    let ordinal ← info.ordinal.set f false
    let nominal ← info.nominal.set f true
    return ⟨ordinal, nominal⟩

/-- `createFeatureType`, feature_info_mixed.cpp:27-42. -/
def BitFeatureInfo.createFeatureType (info : BitFeatureInfo) (f : Nat) : Res Kind := do
  let ordinal ← info.ordinal.get f
  if ordinal then return .ordinal
  let nominal ← info.nominal.get f
  if nominal then return .nominal
  return .numerical

/-- The implementations of `IFeatureInfo`, feature_info_mixed.cpp:12-58 and feature_info_equal.cpp:11-50. -/
inductive FeatureInfo where
  | mixed (info : BitFeatureInfo)
  | equal (kind : Kind)

/-- `createFeatureType`, feature_info_mixed.cpp:27-42, feature_info_equal.cpp:14-17,27-30,40-49. -/
def FeatureInfo.createFeatureType : FeatureInfo → Nat → Res Kind
  | .mixed info, f => info.createFeatureType f
  | .equal kind, _ => .ok kind

/-- What is left open by the C++ standard: the order in which elements of an `unordered_map` are visited and the order of equal elements after sorting;
and the comparison of floats. -/
structure Library where
  order : List Int → List Int
  sort : List Int → List Int
  sortValues : List (Nat × Rat) → List (Nat × Rat)
  isEqual : Rat → Rat → Bool

/-- `createFeatureVector` of the different types of features for the column of a `FortranContiguousView`, feature_type_numerical.cpp:9-23,
feature_type_ordinal.cpp:104-114, feature_type_nominal.cpp:91-101. -/
def createVector (lib : Library) (column : List FVal) : Kind → Res FeatureVector
  | .numerical => numericalDense lib.isEqual lib.sortValues column
  | .ordinal => do
    let c ← ordinalDense lib.order lib.sort column
    c.decode
  | .nominal => do
    let c ← nominalDense lib.order column
    c.decode

/-- `FortranContiguousFeatureMatrix::createFeatureVector`, feature_matrix_fortran_contiguous.cpp:35-38, as it is called in
feature_space_tabular.cpp:120-124. A matrix is given by its columns. -/
def createColumn (lib : Library) (info : FeatureInfo) (matrix : List (List FVal)) (f : Nat) : Res FeatureVector := do
  let kind ← info.createFeatureType f
  let column ← readAt matrix f
  createVector lib column kind

/-- The vectors of all features. In the code, a vector is created when it is needed for the first time. -/
def createColumns (lib : Library) (info : FeatureInfo) (matrix : List (List FVal)) : Res (List FeatureVector) :=
  (List.range matrix.length).mapM (createColumn lib info matrix)

/-- What is fixed for the feature space, constructors of `TabularFeatureSpace` and `FeatureSubspace`, feature_space_tabular.cpp:340-345,168-172. Features that do not exist are never
searched for; for definiteness, their vectors are `EqualFeatureVector`s. -/
def createEnv (lib : Library) (columns : List FeatureVector) (numExamples minCoverage : Nat) (nonZero : Nat → Bool) : Tabular.Env where
  space := { numExamples := numExamples, numNonZero := ((List.range numExamples).filter nonZero).length,
             column := fun f => (columns[f]?).getD .equal, isEqual := lib.isEqual, stat := fun _ => () }
  nonZero := nonZero
  minCoverage := minCoverage

/-- The rows of a matrix, as they are provided for prediction, e.g., by a `CContiguousView`: predictors iterate over the values of a row. -/
def row (matrix : List (List FVal)) (e : Nat) : Res (List FVal) := matrix.mapM (fun column => readAt column e)

end MLRL.TabularData
