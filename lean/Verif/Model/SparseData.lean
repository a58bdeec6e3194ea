import Verif.Model.TabularData

/-!
# Model of how training data is created from a sparse feature matrix and how rules are applied to the rows of a sparse feature matrix

Sources: `/repo/cpp/subprojects/common/include/mlrl/common/data/view_matrix_csc.hpp`,
`/repo/cpp/subprojects/common/include/mlrl/common/data/view_matrix_csr.hpp`,
`/repo/cpp/subprojects/common/src/mlrl/common/input/feature_matrix_csc.cpp`,
`/repo/cpp/subprojects/common/src/mlrl/common/input/feature_matrix_csr.cpp`,
`/repo/cpp/subprojects/boosting/include/mlrl/boosting/prediction/predictor_score_common.hpp`.

Simplifications: feature binning is not used. The sparse value of a matrix is not NaN.
-/

namespace MLRL.SparseData

open FeatureSpace FeatureType TabularData

/-- `CscView` and `CsrView`, view_matrix_csc.hpp:16-135 and view_matrix_csr.hpp:16-135. Both are the same except that the elements are ordered by columns or
by rows. `numMajor` is the number of columns or rows, respectively, `numMinor` the number of rows or columns. -/
structure SparseView where
  values : List FVal
  indices : List Nat
  indptr : List Nat
  numMajor : Nat
  numMinor : Nat
  sparseValue : Rat

/-- The elements between `indices_cbegin` and `indices_cend`, as well as between `values_cbegin` and `values_cend`, of a column or row,
view_matrix_csc.hpp:53-85, view_matrix_csr.hpp:53-85. -/
def SparseView.slice (v : SparseView) (i : Nat) : Res (List (Nat × FVal)) := do
  let start ← readAt v.indptr i
  let stop ← readAt v.indptr (i + 1)
  let indices ← readRange v.indices start stop
  let values ← readRange v.values start stop
  return indices.zip values

/-- `createFeatureVector` of the different types of features for the column of a `CscView`, feature_type_numerical.cpp:25-44,
feature_type_ordinal.cpp:116-133, feature_type_nominal.cpp:103-120. -/
def createVector (lib : Library) (entries : List Entry) (numRows : Nat) (sparseValue : Rat) : Kind → Res FeatureVector
  | .numerical => numericalCsc lib.isEqual lib.sortValues entries numRows sparseValue
  | .ordinal => do
    let c ← ordinalCsc lib.order lib.sort entries numRows (some sparseValue)
    c.decode
  | .nominal => do
    let c ← nominalCsc lib.order entries numRows (some sparseValue)
    c.decode

/-- `CscFeatureMatrix::createFeatureVector`, feature_matrix_csc.cpp:42-45, as it is called in feature_space_tabular.cpp:120-124. -/
def createColumn (lib : Library) (info : FeatureInfo) (csc : SparseView) (f : Nat) : Res FeatureVector := do
  let kind ← info.createFeatureType f
  let entries ← csc.slice f
  createVector lib entries csc.numMinor csc.sparseValue kind

/-- The vectors of all features. In the code, a vector is created when it is needed for the first time. -/
def createColumns (lib : Library) (info : FeatureInfo) (csc : SparseView) : Res (List FeatureVector) :=
  (List.range csc.numMajor).mapM (createColumn lib info csc)

/-- Rules are applied to a row of a `CsrView`, predictor_score_common.hpp:110-117. -/
def applyRules {K : Type} [Add K] (csr : SparseView) (e : Nat) (rules : List (Predictor.Rule K)) (scores : List K) : Res (List K) := do
  let row ← csr.slice e
  Predictor.applyRulesSparse csr.numMinor row (some csr.sparseValue) rules scores

end MLRL.SparseData
