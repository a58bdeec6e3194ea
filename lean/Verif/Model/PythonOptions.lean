import Verif.Base

/-!
# Model of how the values of parameters and their options are parsed

Source: `/repo/python/subprojects/common/mlrl/common/options.py`.

A string is a list of characters. The messages of errors are not modelled. Which characters `str.strip` removes, as well as the built-in functions `int` and
`float`, are parameters.
-/

namespace MLRL.PythonOptions

abbrev Str := List Char

/-- The errors that may be raised: a `ValueError` or an `AttributeError`, if an object does not have a certain attribute. -/
inductive PyError where
  | valueError
  | attributeError
  deriving DecidableEq

/-- `str.split(separator)` for a single character. -/
def split (c : Char) : Str → List Str
  | [] => [[]]
  | x :: xs =>
    if x = c then [] :: split c xs
    else
      match split c xs with
      | [] => [[x]]
      | part :: parts => (x :: part) :: parts

/-- `str.strip()`, where `space` are the characters to be removed. -/
def strip (space : Char → Bool) (s : Str) : Str := ((s.dropWhile space).reverse.dropWhile space).reverse

/-- A dictionary, i.e., the attribute `dict` of `Options`, in the order in which keys have been inserted. -/
abbrev Dict := List (Str × Str)

/-- `dict[key] = value`. -/
def assign : Dict → Str → Str → Dict
  | [], key, value => [(key, value)]
  | (k, v) :: rest, key, value => if k = key then (k, value) :: rest else (k, v) :: assign rest key value

/-- The body of the loop in `Options.create`, options.py:71-100. -/
def createElement (allowed : List Str) (dict : Dict) (option : Str) : Except PyError Dict :=
  if option.length > 0 then
    match split '=' option with
    | [key, value] =>
      if key.length = 0 then .error .valueError
      else if key ∉ allowed then .error .valueError
      else if value.length = 0 then .error .valueError
      else .ok (assign dict key value)
    | _ => .error .valueError
  else .ok dict

/-- `Options.create`, options.py:48-102. The case that the string is `None` does not occur, because it is only called in line 208. -/
def create (string : Str) (allowed : List Str) : Except PyError Dict :=
  if string.length > 0 then
    if ¬ ['{'].isPrefixOf string then .error .valueError
    else if ¬ ['}'].isSuffixOf string then .error .valueError
    else if ((string.drop 1).dropLast).length > 0 then (split ',' (string.drop 1).dropLast).foldlM (createElement allowed) []
    else .ok []
  else .ok []

/-- `Options.get_string`, options.py:104-115. -/
def getString (dict : Dict) (key : Str) (default : Str) : Except PyError Str :=
  match dict.lookup key with
  | some value => .ok value
  | none => .ok default

/-- `BooleanOption.parse`, options.py:12-33. -/
def parseBool (text : Str) : Except PyError Bool :=
  if text = "true".toList then .ok true
  else if text = "false".toList then .ok false
  else .error .valueError

/-- `Options.get_bool`, options.py:117-129. -/
def getBool (dict : Dict) (key : Str) (default : Bool) : Except PyError Bool :=
  match dict.lookup key with
  | some value => parseBool value
  | none => .ok default

/-- `Options.get_int`, options.py:131-150, and `Options.get_float`, options.py:152-171, where `convert` is the function `int` or `float`. -/
def getNumber {α : Type} (convert : Str → Option α) (dict : Dict) (key : Str) (default : α) : Except PyError α :=
  match dict.lookup key with
  | some value =>
    match convert value with
    | some x => .ok x
    | none => .error .valueError
  | none => .ok default

/-- `parse_param`, options.py:174-187. -/
def parseParam (value : Str) (allowed : List Str) : Except PyError Str := if value ∈ allowed then .ok value else .error .valueError

/-- `parse_param_and_options`, options.py:190-216. The items of the dictionary `allowed_values_and_options` are given in the order in which they have been
inserted. -/
def parseParamAndOptions (space : Char → Bool) (value : Str) : List (Str × List Str) → Except PyError (Str × Dict)
  | [] => .error .valueError
  | (allowedValue, allowedOptions) :: items =>
    if allowedValue.isPrefixOf value then
      if (strip space (value.drop allowedValue.length)).length > 0 then
        match create (strip space (value.drop allowedValue.length)) allowedOptions with
        | .ok options => .ok (allowedValue, options)
        | .error _ => .error .valueError
      else .ok (allowedValue, [])
    else parseParamAndOptions space value items

end MLRL.PythonOptions
