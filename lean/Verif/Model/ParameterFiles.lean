/-!
# Files that store parameters and results

Model of `python/subprojects/testbed/mlrl/testbed/parameters.py`, `python/subprojects/testbed/mlrl/testbed/io.py`, the class
`CsvSink` in `python/subprojects/testbed/mlrl/testbed/output_writer.py` and the functions in
`python/subprojects/testbed/mlrl/testbed/experiments.py` and `python/subprojects/common/mlrl/common/config.py` that make use of the
parameters that have been loaded.

A text is a list of characters. How the module `csv` of the Python standard library writes rows and how its reader processes
characters is modelled after the implementation in CPython (`Modules/_csv.c`, not part of the repository), except for the limit on
the size of a field.
-/

namespace MLRL.ParameterFiles

abbrev Str := List Char

/-- The exceptions that may be raised. -/
inductive Err where
  /-- `StopIteration`, raised by `next`, if there are no more rows -/
  | stopIteration
  /-- `csv.Error` -/
  | csv
  | valueError
  /-- The number of elements in a row differs from those in the header (see `dictRow`) -/
  | unequal
deriving DecidableEq, Repr

/-! ## Names of files -/

/-- `str(n)` for a natural number. -/
def str (n : Nat) : Str := Nat.toDigits 10 n

/-- `get_file_name`, io.py:35-43 -/
def fileName (name suffix : Str) : Str := name ++ '.' :: suffix

/-- `get_file_name_per_fold`, io.py:46-56 -/
def fileNamePerFold (name suffix : Str) (fold : Option Nat) : Str :=
  fileName
    (name ++ '_' :: (match fold with
      | none => "overall".toList
      | some fold => "fold-".toList ++ str (fold + 1)))
    suffix

/-! ## Writing CSV files -/

/-- Whether a character requires a field to be quoted, with the delimiter and quotation character in io.py:13-17, the option
`QUOTE_MINIMAL` (io.py:119) and the line terminator `\r\n`. -/
def isSpecial (c : Char) : Bool := c = ',' || c = '"' || c = '\r' || c = '\n'

/-- A quoted field, in which quotation marks are doubled. -/
def quote (field : Str) : Str := '"' :: (field.flatMap (fun c => if c = '"' then ['"', '"'] else [c]) ++ ['"'])

def writeField (field : Str) : Str := if field.any isSpecial then quote field else field

def joinFields : List Str → Str
  | [] => []
  | [field] => writeField field
  | field :: fields => writeField field ++ ',' :: joinFields fields

/-- `csv.writer.writerow`. A single empty field is quoted. -/
def writeRow (fields : List Str) : Str := (if fields = [[]] then quote [] else joinFields fields) ++ ['\r', '\n']

/-- Writing to a file in text mode, as opened by `open_writable_csv_file` (io.py:85-94), replaces line breaks by `os.linesep`, i.e.,
`\n` (Linux, macOS) or `\r\n` (Windows). -/
def translate (linesep : Str) (text : Str) : Str := text.flatMap (fun c => if c = '\n' then linesep else [c])

/-! ## Reading CSV files -/

/-- What is processed by the reader: The characters of a line and its end. -/
inductive Token where
  | char (c : Char)
  | eol
deriving DecidableEq

/-- The lines of a file that has been opened by `open_readable_csv_file` (io.py:75-82). As `newline` is the empty string, lines end at
`\n`, `\r` or `\r\n` and these characters are not removed. -/
def tokens : Str → List Token
  | [] => []
  | '\r' :: '\n' :: rest => .char '\r' :: .char '\n' :: .eol :: tokens rest
  | [c] => [.char c, .eol]
  | c :: rest => if c = '\n' ∨ c = '\r' then .char c :: .eol :: tokens rest else .char c :: tokens rest

/-- The states of the reader. -/
inductive State where
  | startRecord
  | startField
  | inField
  | inQuotedField
  | quoteInQuotedField
  | eatCrnl
deriving DecidableEq

/-- The state of the reader, including the current field, the fields of the current row and the rows that have been completed. -/
structure Reader where
  state : State
  field : Str
  fields : List Str
  rows : List (List Str)
deriving DecidableEq

/-- `parse_save_field` -/
def Reader.save (r : Reader) (state : State) : Reader := { r with state := state, field := [], fields := r.fields ++ [r.field] }

/-- `parse_add_char` -/
def Reader.add (r : Reader) (state : State) (c : Char) : Reader := { r with state := state, field := r.field ++ [c] }

/-- The state `START_FIELD` of `parse_process_char`. -/
def Reader.startField (r : Reader) (c : Char) : Reader :=
  if c = '\n' ∨ c = '\r' then r.save .eatCrnl
  else if c = '"' then { r with state := .inQuotedField }
  else if c = ',' then r.save .startField
  else r.add .inField c

/-- `parse_process_char` for characters -/
def Reader.char (r : Reader) (c : Char) : Except Err Reader :=
  match r.state with
  | .startRecord => if c = '\n' ∨ c = '\r' then .ok { r with state := .eatCrnl } else .ok (r.startField c)
  | .startField => .ok (r.startField c)
  | .inField =>
    if c = '\n' ∨ c = '\r' then .ok (r.save .eatCrnl)
    else if c = ',' then .ok (r.save .startField)
    else .ok (r.add .inField c)
  | .inQuotedField => if c = '"' then .ok { r with state := .quoteInQuotedField } else .ok (r.add .inQuotedField c)
  | .quoteInQuotedField =>
    if c = '"' then .ok (r.add .inQuotedField c)
    else if c = ',' then .ok (r.save .startField)
    else if c = '\n' ∨ c = '\r' then .ok (r.save .eatCrnl)
    else .ok (r.add .inField c)
  | .eatCrnl => if c = '\n' ∨ c = '\r' then .ok r else .error .csv

/-- `parse_process_char` for the end of a line -/
def Reader.eol (r : Reader) : Reader :=
  match r.state with
  | .startRecord => r
  | .startField | .inField | .quoteInQuotedField => r.save .startRecord
  | .inQuotedField => r
  | .eatCrnl => { r with state := .startRecord }

/-- A row is completed, if the state is `START_RECORD` at the end of a line. -/
def Reader.complete (r : Reader) : Reader :=
  if r.state = .startRecord then { state := .startRecord, field := [], fields := [], rows := r.rows ++ [r.fields] } else r

def Reader.step (r : Reader) : Token → Except Err Reader
  | .char c => r.char c
  | .eol => .ok r.eol.complete

/-- The end of the file. The field that has been started is completed, if necessary. -/
def Reader.finish (r : Reader) : List (List Str) :=
  if r.field ≠ [] ∨ r.state = .inQuotedField then r.rows ++ [r.fields ++ [r.field]] else r.rows

/-- All rows that are read from a file by `csv.reader`. Simplification: if an error occurs, the rows before are not returned. -/
def readRows (text : Str) : Except Err (List (List Str)) :=
  ((tokens text).foldlM Reader.step { state := .startRecord, field := [], fields := [], rows := [] }).map Reader.finish

/-! ## Dictionaries -/

/-- A dictionary in the order in which keys have been inserted. -/
abbrev Dict (V : Type) := List (Str × V)

/-- `dict[key] = value` -/
def Dict.assign {V : Type} (key : Str) (value : V) : Dict V → Dict V
  | [] => [(key, value)]
  | (k, v) :: dict => if k = key then (k, value) :: dict else (k, v) :: Dict.assign key value dict

/-- `dict.get(key)` -/
def Dict.get {V : Type} (key : Str) : Dict V → Option V
  | [] => none
  | (k, v) :: dict => if k = key then some v else Dict.get key dict

/-- `dict(zip(fieldnames, row))`, as computed by `csv.DictReader`. Simplification: rows with missing or additional elements are not
modelled. -/
def dictRow (header row : List Str) : Except Err (Dict Str) :=
  if header.length = row.length then .ok ((header.zip row).foldl (fun dict entry => dict.assign entry.1 entry.2) [])
  else .error .unequal

/-- The rows returned by `csv.DictReader`. The first one is the header. Empty rows are skipped (but not the header). -/
def dictRows (rows : List (List Str)) : Except Err (List (Dict Str)) :=
  match rows with
  | [] => .ok []
  | header :: rows => (rows.filter (fun row => row ≠ [])).mapM (dictRow header)

/-! ## Parameters -/

/-- Whether a string is smaller than or equal to another one. -/
def strLe : Str → Str → Bool
  | [], _ => true
  | _ :: _, [] => false
  | a :: as, b :: bs => if a = b then strLe as bs else decide (a.val < b.val)

def insertKey (key : Str) : List Str → List Str
  | [] => [key]
  | k :: keys => if strLe key k then key :: k :: keys else k :: insertKey key keys

/-- `sorted(keys)` -/
def sortKeys (keys : List Str) : List Str := keys.foldr insertKey []

/-- The parameters of a learner, as returned by `get_params`. A value may be `None`. -/
abbrev Params (V : Type) := Dict (Option V)

/-- `Parameters.tabularize`, parameters.py:98-109, where `toStr` is `str` (that is applied when a value is written). -/
def tabularize {V : Type} (toStr : V → Str) (params : Params V) : Dict Str :=
  params.filterMap (fun entry => entry.2.map (fun value => (entry.1, toStr value)))

/-- `csv_writer.writerow(row)`, where missing values are replaced with an empty string. Additional keys cause a `ValueError`. -/
def writeDict (header : List Str) (row : Dict Str) : Except Err Str :=
  if ∀ entry ∈ row, entry.1 ∈ header then .ok (writeRow (header.map (fun key => (row.get key).getD []))) else .error .valueError

/-- `CsvSink.write_output`, output_writer.py:159-181, given the content of the file, if it exists, and the rows to be written. The
header is written, if the file is not opened for appending (`create_csv_dict_writer`, io.py:107-125). Returns the content of the file. -/
def writeOutput (linesep : Str) (append : Bool) (file : Option Str) (rows : List (Dict Str)) : Except Err (Option Str) :=
  match rows with
  | [] => .ok file
  | first :: _ => do
    let header := sortKeys (first.map Prod.fst)
    let texts ← rows.mapM (writeDict header)
    match append, file with
    | true, some content => .ok (some (content ++ translate linesep texts.flatten))
    | _, _ => .ok (some (translate linesep (writeRow header ++ texts.flatten)))

/-- Writes the parameters of a learner to a file that replaces an existing one, as done by `ParameterWriter` (parameters.py:119-125). -/
def saveParameters {V : Type} (linesep : Str) (toStr : V → Str) (file : Option Str) (params : Params V) : Except Err (Option Str) :=
  writeOutput linesep false file [tabularize toStr params]

/-- `ParameterCsvInput.read_parameters`, parameters.py:50-62. The result is empty, if the file does not exist.
Simplification: the whole file is read, even though the function stops after the first row. -/
def readParameters (file : Option Str) : Except Err (Dict Str) :=
  match file with
  | none => .ok []
  | some text => do
    let rows ← readRows text
    let dicts ← dictRows rows
    match dicts with
    | [] => .error .stopIteration
    | dict :: _ => .ok dict

/-- `set_params` of a scikit-learn estimator (not part of the repository), where `ofStr` turns a string into a value. Simplification:
names that contain `__`, which refer to nested estimators, are treated like other names. -/
def setParams {V : Type} (ofStr : Str → V) (params : Params V) (dict : Dict Str) : Except Err (Params V) :=
  dict.foldlM
    (fun (params : Params V) entry =>
      if (params.get entry.1).isSome then .ok (params.assign entry.1 (some (ofStr entry.2))) else .error .valueError)
    params

/-- The lines 322-330 of experiments.py. -/
def applyParameters {V : Type} (ofStr : Str → V) (file : Option Str) (params : Params V) : Except Err (Params V) := do
  let dict ← readParameters file
  setParams ofStr params dict

/-! ## Values of parameters -/

/-- The value of a parameter. -/
inductive Value (F : Type) where
  | str (s : Str)
  | int (i : Int)
  | bool (b : Bool)
  | float (f : F)

/-- Built-in functions: the textual representation of numbers, `int` and `float` for strings (`none` corresponds to a `ValueError`), and
the conversions between numbers (`none` corresponds to an exception). -/
structure Builtins (F : Type) where
  intStr : Int → Str
  floatStr : F → Str
  parseInt : Str → Option Int
  parseFloat : Str → Option F
  floatToInt : F → Option Int
  intToFloat : Int → Option F

/-- `str(value)` -/
def Value.toStr {F : Type} (b : Builtins F) : Value F → Str
  | .str s => s
  | .int i => b.intStr i
  | .bool true => "True".toList
  | .bool false => "False".toList
  | .float f => b.floatStr f

/-- `int(value)` -/
def Value.toInt {F : Type} (b : Builtins F) : Value F → Option Int
  | .str s => b.parseInt s
  | .int i => some i
  | .bool x => some (if x then 1 else 0)
  | .float f => b.floatToInt f

/-- `float(value)` -/
def Value.toFloat {F : Type} (b : Builtins F) : Value F → Option F
  | .str s => b.parseFloat s
  | .int i => b.intToFloat i
  | .bool x => b.intToFloat (if x then 1 else 0)
  | .float f => some f

/-- The kinds of parameters, i.e., `NominalParameter`, `IntParameter` and `FloatParameter`. -/
inductive Kind where
  | nominal
  | int
  | float

/-- What is passed to `_configure`. -/
inductive Setting (F : Type) where
  | text (s : Str)
  | int (i : Int)
  | float (f : F)

/-- `NominalParameter.configure` (config.py:180-193, the parsing of the text is modelled in `PythonOptions.lean`) and
`NumericalParameter.configure` (config.py:249-251) of parameters that are supported. -/
def configure {F : Type} (b : Builtins F) (kind : Kind) (value : Value F) : Option (Setting F) :=
  match kind with
  | .nominal => some (.text (value.toStr b))
  | .int => (value.toInt b).map .int
  | .float => (value.toFloat b).map .float

/-- `configure_rule_learner`, config.py:807-822: Parameters that do not exist or are `None` are skipped. -/
def configureLearner {F : Type} (b : Builtins F) (parameters : List (Str × Kind)) (params : Params (Value F)) :
    List (Str × Option (Setting F)) :=
  parameters.filterMap (fun parameter => ((params.get parameter.1).join).map (fun value => (parameter.1, configure b parameter.2 value)))

/-! ## Incremental evaluation -/

/-- Several calls of `CsvSink.write_output` for models of increasing size, which append to the file. The output directory is cleared
before, unless a single fold of a cross validation is performed (runnables.py:355-370, 541-544). -/
def writeIncrementally (linesep : Str) (clear : Bool) (file : Option Str) (rows : List (List (Dict Str))) : Except Err (Option Str) :=
  rows.foldlM (fun file rows => writeOutput linesep true file rows) (if clear then none else file)

end MLRL.ParameterFiles
