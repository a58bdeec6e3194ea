import Mathlib.Data.List.Basic

/-!
# Loading and saving data sets

Model of `python/subprojects/testbed/mlrl/testbed/data.py`. The textual representation of ARFF and XML files is not
modelled: The functions `dumps` and `load` of the library "liac-arff" are assumed to be inverse to each other, i.e., a
file is represented by its relation, its attributes and its rows. A file is given in the sparse format or in the dense
format. If `arff.load` is used for a file in the dense format with `return_type=COO`, `arff.BadLayout` is raised.
-/

namespace MLRL.DataSets

/-- The name of a feature or output. -/
abbrev Name := List Char

/-- `ValueError`, raised by `max` (if there are no entries), by `str.index` (if the relation does not specify the number
of outputs) and by `__create_meta_data` (for features of unsupported types), or `IndexError`. -/
inductive Err
  | value
  | index
deriving DecidableEq, Repr

/-- `FeatureType`, data.py:28-34. -/
inductive FeatureType
  | numerical
  | ordinal
  | nominal
deriving DecidableEq, Repr

/-- `Feature`, data.py:37-50. -/
structure Feature where
  name : Name
  type : FeatureType
  nominalValues : Option (List Name)
deriving DecidableEq, Repr

/-- The constructor of `Output`, data.py:53-59. -/
def output (name : Name) : Feature := ⟨name, .nominal, some [['0'], ['1']]⟩

/-- `MetaData`, data.py:62-75. -/
structure MetaData where
  features : List Feature
  outputs : List Feature
  outputsAtStart : Bool
deriving DecidableEq, Repr

/-- The types of attributes in an ARFF file. `numeric` is used when saving data sets. -/
inductive AttrType
  | nominal (values : List Name)
  | integer
  | real
  | numeric
  | string
deriving DecidableEq, Repr

/-- The rows of an ARFF file in the dense or sparse format. -/
inductive Rows (V : Type)
  | dense (rows : List (List V))
  | sparse (rows : List (List (Nat × V)))

/-- The content of an ARFF file. `relation` is the number that follows `-C ` in the relation, if any. -/
structure Arff (V : Type) where
  relation : Option Int
  attributes : List (Name × AttrType)
  rows : Rows V

/-- A matrix with a certain number of columns. The number of elements in each row is the number of columns. -/
structure Matrix (V : Type) where
  cols : Nat
  rows : List (List V)

/-! ## Names -/

/-- `name.startswith('\'') or name.startswith('\"')` and removal of the first character, data.py:492-493. -/
def dropQuote : Name → Name
  | [] => []
  | c :: cs => if c = '\'' || c = '"' then cs else c :: cs

/-- `name.replace('\\\'', '\'').replace('\\\"', '\"')`, data.py:496. Both replacements are done at once, which
makes no difference. -/
def unescape : Name → Name
  | [] => []
  | [c] => [c]
  | a :: b :: cs => if a = '\\' && (b = '\'' || b = '"') then b :: unescape cs else a :: unescape (b :: cs)

/-- `name.strip()`, data.py:491. -/
def strip (name : Name) : Name :=
  ((name.dropWhile Char.isWhitespace).reverse.dropWhile Char.isWhitespace).reverse

/-- `__parse_feature_or_output_name`, data.py:484-496. -/
def parseName (name : Name) : Name := unescape (dropQuote (dropQuote (strip name)).reverse).reverse

/-! ## Loading -/

section
variable {V : Type} [Zero V]

/-- The entries of a file in the sparse format, as returned by `arff.load` with `return_type=COO`. -/
def entries (rows : List (List (Nat × V))) : List (Nat × Nat × V) :=
  rows.zipIdx.flatMap fun p => p.1.map fun q => (p.2, q.1, q.2)

/-- The element of a matrix of type `coo_array` (duplicates do not occur). -/
def lookup (es : List (Nat × Nat × V)) (r c : Nat) : V :=
  match es with
  | [] => 0
  | (r', c', v) :: rest => if r' = r ∧ c' = c then v else lookup rest r c

/-- `max` of a list of indices. -/
def maxIndex : List Nat → Except Err Nat
  | [] => .error .value
  | i :: is => .ok (is.foldl max i)

/-- `__load_arff`, data.py:368-394. -/
def loadMatrix (rows : Rows V) (numAttributes : Nat) : Except Err (Matrix V) :=
  match rows with
  | .sparse rs =>
    let es := entries rs
    match maxIndex (es.map fun e => e.1), maxIndex (es.map fun e => e.2.1) with
    | .ok r, .ok c =>
      .ok ⟨c + 1, (List.range (r + 1)).map fun i => (List.range (c + 1)).map fun j => lookup es i j⟩
    | _, _ => .error .value
  | .dense rs => .ok ⟨numAttributes, rs⟩

/-- The conversion of an attribute into a feature, data.py:460-476. -/
def toFeature (a : Name × AttrType) : Except Err Feature :=
  match a.2 with
  | .nominal values => .ok ⟨parseName a.1, .nominal, some values⟩
  | .integer => .ok ⟨parseName a.1, .ordinal, none⟩
  | .real => .ok ⟨parseName a.1, .numerical, none⟩
  | .numeric => .ok ⟨parseName a.1, .numerical, none⟩
  | .string => .error .value

/-- The loop in `__create_meta_data`, data.py:456-478. -/
def metaLoop (outputNames : List Name) : List (Name × AttrType) → List Feature → Bool → Except Err (List Feature × Bool)
  | [], features, atStart => .ok (features, atStart)
  | a :: rest, features, atStart =>
    if parseName a.1 ∉ outputNames then
      match toFeature a with
      | .error e => .error e
      | .ok f => metaLoop outputNames rest (features ++ [f]) atStart
    else if features.length = 0 then metaLoop outputNames rest features true
    else metaLoop outputNames rest features atStart

/-- `__create_meta_data`, data.py:443-481. -/
def createMetaData (attributes : List (Name × AttrType)) (outputs : List Feature) : Except Err MetaData :=
  match metaLoop (outputs.map fun o => o.name) attributes [] false with
  | .error e => .error e
  | .ok (features, atStart) => .ok ⟨features, outputs, atStart⟩

/-- The index denoted by `-k` in a slice of a sequence of length `n` in Python, where `-0` is `0`. -/
def sliceIndex (n k : Nat) : Nat := if k = 0 then 0 else n - k

/-- `matrix[:, i:]`. -/
def Matrix.colsFrom (m : Matrix V) (i : Nat) : Matrix V := ⟨m.cols - i, m.rows.map fun r => r.drop i⟩

/-- `matrix[:, :i]`. -/
def Matrix.colsTo (m : Matrix V) (i : Nat) : Matrix V := ⟨min i m.cols, m.rows.map fun r => r.take i⟩

/-- `__create_feature_and_output_matrix`, data.py:341-365. The conversion of the output matrix to another data type is
not modelled. -/
def splitMatrix (m : Matrix V) (md : MetaData) : Matrix V × Matrix V :=
  let k := md.outputs.length
  if md.outputsAtStart then (m.colsFrom k, m.colsTo k)
  else (m.colsTo (sliceIndex m.cols k), m.colsFrom (sliceIndex m.cols k))

/-- `__parse_outputs_from_relation`, data.py:424-440. -/
def outputsFromRelation (a : Arff V) : Except Err (List Feature) :=
  match a.relation with
  | none => .error .value
  | some c =>
    if a.attributes.length < c.toNat then .error .index
    else .ok ((a.attributes.take c.toNat).map fun p => output (parseName p.1))

/-- The outputs of a data set, data.py:125-139: They are obtained from the XML file, if it exists, or from the relation of
the ARFF file, otherwise. `xml` is the list of outputs in the XML file (`__parse_outputs_from_xml_file`,
data.py:411-421). -/
def outputsOf (a : Arff V) (xml : Option (List Name)) : Except Err (List Feature) :=
  match xml with
  | some names => .ok (names.map fun n => output (parseName n))
  | none => outputsFromRelation a

/-- `load_data_set_and_meta_data`, data.py:106-144. `xml` is the list of outputs in the XML file, if it exists. -/
def load (a : Arff V) (xml : Option (List Name)) : Except Err (Matrix V × Matrix V × MetaData) :=
  match loadMatrix a.rows a.attributes.length with
  | .error e => .error e
  | .ok m =>
    match outputsOf a xml with
    | .error e => .error e
    | .ok outputs =>
      match createMetaData a.attributes outputs with
      | .error e => .error e
      | .ok md => let xy := splitMatrix m md; .ok (xy.1, xy.2, md)

/-- `load_data_set`, data.py:147-169. -/
def loadWithMetaData (a : Arff V) (md : MetaData) : Except Err (Matrix V × Matrix V) :=
  match loadMatrix a.rows a.attributes.length with
  | .error e => .error e
  | .ok m => .ok (splitMatrix m md)

/-! ## Saving -/

variable [DecidableEq V]

/-- `dok_array(x).items()` for a single row. -/
def items (row : List V) : List (Nat × V) :=
  (row.zipIdx.filter fun p => decide (p.1 ≠ 0)).map fun p => (p.2, p.1)

/-- The attributes that correspond to features or outputs, data.py:238-248. -/
def attributesOf (features : List Feature) (letter : Char) (n : Nat) (str : Nat → Name) : List (Name × AttrType) :=
  (List.range n).map fun i =>
    match features[i]? with
    | none => (letter :: str i, .numeric)
    | some f =>
      match f.nominalValues with
      | none => (f.name, .numeric)
      | some values => if f.type = .numerical then (f.name, .numeric) else (f.name, .nominal values)

/-- The assignments `data[keys[0]][prefix + keys[1]] = value` for a single row in the dense format, data.py:264-268. -/
def assign (data : List V) (pre : Nat) (its : List (Nat × V)) : List V :=
  its.foldl (fun d p => d.set (pre + p.1) p.2) data

/-- `save_arff_file`, data.py:216-278. `x` and `y` are assumed to have the same number of rows. `str` is the conversion
of an integer to a string. In the sparse format, the assignments create one entry per non-zero element. -/
def save (x y : Matrix V) (sparse : Bool) (md : MetaData) (str : Nat → Name) : Arff V :=
  let xAttributes := attributesOf md.features 'X' x.cols str
  let yAttributes := attributesOf md.outputs 'y' y.cols str
  let xPrefix := if md.outputsAtStart then y.cols else 0
  let yPrefix := if md.outputsAtStart then 0 else x.cols
  let sign : Int := if md.outputsAtStart then 1 else -1
  { relation := some ((y.cols : Int) * sign)
    attributes := if md.outputsAtStart then yAttributes ++ xAttributes else xAttributes ++ yAttributes
    rows :=
      if sparse then
        .sparse ((x.rows.zip y.rows).map fun p =>
          (items p.1).map (fun q => (xPrefix + q.1, q.2)) ++ (items p.2).map fun q => (yPrefix + q.1, q.2))
      else
        .dense ((x.rows.zip y.rows).map fun p =>
          assign (assign (List.replicate (x.cols + y.cols) 0) xPrefix (items p.1)) yPrefix (items p.2)) }

/-- `save_data_set`, data.py:192-213. -/
def saveDataSet (x y : Matrix V) (sparse : Bool) (str : Nat → Name) : Arff V × MetaData :=
  let md : MetaData :=
    ⟨(List.range x.cols).map fun i => ⟨'X' :: str i, .numerical, none⟩,
      (List.range y.cols).map fun i => output ('y' :: str i), false⟩
  (save x y sparse md str, md)

end

end MLRL.DataSets
