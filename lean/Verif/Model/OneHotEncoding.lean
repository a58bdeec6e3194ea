import Mathlib.Algebra.Order.Field.Rat

/-!
# One-hot encoding of nominal features

Model of `one_hot_encode` in `python/subprojects/testbed/mlrl/testbed/data.py` and of the functions in
`python/subprojects/testbed/mlrl/testbed/data_splitting.py` it is used by. A feature matrix is a list of rows, the values of which are
rational numbers. The classes `ColumnTransformer` and `OneHotEncoder` are part of scikit-learn, their behaviour is modelled after
their documentation. The ground truth is omitted, because it does not affect the encoding.
-/

namespace MLRL.OneHotEncoding

/-- A `ValueError` or an `IndexError`. -/
inductive Err where
  | value
  | index
deriving DecidableEq, Repr

/-- `FeatureType`, data.py:28-37 -/
inductive FeatureType where
  | numerical
  | ordinal
  | nominal
deriving DecidableEq

abbrev Matrix := List (List ℚ)

/-- `MetaData.get_feature_indices` for a single type, data.py:91-100 -/
def featureIndices (features : List FeatureType) (type : FeatureType) : List Nat :=
  (features.zipIdx.filter (fun f => f.1 = type)).map Prod.snd

/-- `row[index]` -/
def get (row : List ℚ) (index : Nat) : Except Err ℚ :=
  match row[index]? with
  | some value => .ok value
  | none => .error .index

def insertUnique (value : ℚ) : List ℚ → List ℚ
  | [] => [value]
  | v :: values => if value < v then value :: v :: values else if value = v then v :: values else v :: insertUnique value values

/-- `np.unique`, i.e., the distinct values in increasing order -/
def unique (values : List ℚ) : List ℚ := values.foldr insertUnique []

/-- A `ColumnTransformer` that applies an `OneHotEncoder` to the given columns. Each of them comes with its categories. -/
structure Encoder where
  numFeatures : Nat
  categories : List (Nat × List ℚ)
deriving DecidableEq

/-- `encoder.fit(x)`. At least one example is required. -/
def fit (x : Matrix) (indices : List Nat) : Except Err Encoder :=
  match x with
  | [] => .error .value
  | first :: _ => do
    let categories ← indices.mapM (fun index => do
      let column ← x.mapM (fun row => get row index)
      .ok (index, unique column))
    .ok { numFeatures := first.length, categories := categories }

/-- The encoding of a single value. If the value is unknown, all elements are zero, because of `handle_unknown='ignore'` (data.py:326). -/
def encodeValue (categories : List ℚ) (value : ℚ) : List ℚ := categories.map (fun category => if category = value then 1 else 0)

/-- `encoder.transform` for a single row. The columns that are not encoded follow the encoded ones (`remainder='passthrough'`). -/
def transformRow (encoder : Encoder) (row : List ℚ) : Except Err (List ℚ) :=
  if row.length = encoder.numFeatures then do
    let encoded ← encoder.categories.mapM (fun column => do
      let value ← get row column.1
      .ok (encodeValue column.2 value))
    let remainder ← ((List.range row.length).filter (fun index => index ∉ encoder.categories.map Prod.fst)).mapM (get row)
    .ok (encoded.flatten ++ remainder)
  else .error .value

/-- `one_hot_encode`, data.py:295-338. Returns the encoded matrix, the encoder and the types of the features, which are removed, if there
are nominal ones. -/
def oneHotEncode (x : Matrix) (features : List FeatureType) (encoder : Option Encoder) :
    Except Err (Matrix × Option Encoder × List FeatureType) :=
  let nominal := featureIndices features .nominal
  if nominal.length > 0 then
    match encoder with
    | some encoder => do
      let x ← x.mapM (transformRow encoder)
      .ok (x, some encoder, [])
    | none => do
      let encoder ← fit x nominal
      let x ← x.mapM (transformRow encoder)
      .ok (x, some encoder, [])
  else .ok (x, none, features)

/-- The loop in data_splitting.py:426-434. -/
def encodeFolds (features : List FeatureType) (encoder : Option Encoder) (folds : List Matrix) : Except Err (List Matrix) :=
  folds.mapM (fun x =>
    match encoder with
    | some encoder => do
      let result ← oneHotEncode x features (some encoder)
      .ok result.1
    | none => .ok x)

/-- The first part of `__predefined_cross_validation`, data_splitting.py:414-434, given the matrix of the first fold and those of the
remaining ones. Returns the matrices of all folds and the types of the features. The same applies to the training and test set in
`TrainTestSplitter`, data_splitting.py:328-343, if there are files for both. -/
def predefinedFolds (useEncoding : Bool) (features : List FeatureType) (first : Matrix) (rest : List Matrix) :
    Except Err (List Matrix × List FeatureType) :=
  if useEncoding then do
    let (x, encoder, encodedFeatures) ← oneHotEncode first features none
    let rest ← encodeFolds features encoder rest
    .ok (x :: rest, encodedFeatures)
  else do
    let rest ← encodeFolds features none rest
    .ok (first :: rest, features)

end MLRL.OneHotEncoding
