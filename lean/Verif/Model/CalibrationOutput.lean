import Verif.Model.Measures
import Verif.Model.ParameterFiles

/-!
# Textual representations of models for the calibration of probabilities

In the following, `prob` refers to `python/subprojects/testbed/mlrl/testbed/probability_calibration.py`.  The textual
representation of numbers (`format_float`) is a parameter.  The text that is written to the console is represented by the tables
it consists of.
-/

namespace MLRL.CalibrationOutput

open ParameterFiles (Str str)
open Measures (put)

variable {K Text : Type}

/-- A model: a threshold and a probability for each bin of each list. -/
abbrev Model (K : Type) := List (List (K × K))

/-- The attribute `bins`, prob:45: a dictionary that maps the indices of lists to their bins, in the order of insertion. -/
abbrev Bins (K : Type) := List (Nat × List (K × K))

/-- `visit_bin`, prob:53-58. -/
def visitBin (i : Nat) (threshold probability : K) : Bins K → Bins K
  | [] => [(i, [(threshold, probability)])]
  | (j, bins) :: rest =>
    if j = i then (j, bins ++ [(threshold, probability)]) :: rest else (j, bins) :: visitBin i threshold probability rest

/-- `IsotonicProbabilityCalibrationModel::visit`,
cpp/subprojects/common/src/mlrl/common/prediction/probability_calibration_isotonic.cpp:167-178, starting at the list with index
`i`. -/
def visitFrom : Nat → Model K → Bins K → Bins K
  | _, [], d => d
  | i, bins :: model, d => visitFrom (i + 1) model (bins.foldl (fun d bin => visitBin i bin.1 bin.2 d) d)

/-- `__format_threshold_column`, prob:47-48. -/
def thresholdColumn (title : Str) (i : Nat) : Str := title ++ ' ' :: str (i + 1) ++ " thresholds".toList

/-- `__format_probability_column`, prob:50-51. -/
def probabilityColumn (title : Str) (i : Nat) : Str := title ++ ' ' :: str (i + 1) ++ " probabilities".toList

/-- A table with two columns. -/
structure Table (Text : Type) where
  header : Str × Str
  rows : List (Text × Text)
  deriving DecidableEq

/-- `format`, prob:60-83, after the model has been visited. Instead of the keys, the elements of the dictionary are sorted by
their keys. -/
def formatBins (fmt : K → Text) (title : Str) (d : Bins K) : List (Table Text) :=
  (d.mergeSort (fun a b => decide (a.1 ≤ b.1))).map fun e =>
    { header := (thresholdColumn title e.1, probabilityColumn title e.1)
      rows := e.2.map fun bin => (fmt bin.1, fmt bin.2) }

/-- The body of the loop over the lists in the function `tabularize`, prob:101-111: the columns and the variable `end`. -/
def column (fmt : K → Text) (title : Str) (i : Nat) (s : List (Str × Option Text) × Bool) (e : Nat × List (K × K)) :
    List (Str × Option Text) × Bool :=
  match e.2[i]? with
  | some (probability, threshold) =>
    (put (put s.1 (probabilityColumn title e.1) (some (fmt probability))) (thresholdColumn title e.1) (some (fmt threshold)), false)
  | none => (put (put s.1 (probabilityColumn title e.1) none) (thresholdColumn title e.1) none, s.2)

/-- The loop over the lists in the function `tabularize`, prob:97-111. -/
def columns (fmt : K → Text) (title : Str) (i : Nat) (d : Bins K) : List (Str × Option Text) × Bool :=
  d.foldl (column fmt title i) ([], true)

theorem columns_end (fmt : K → Text) (title : Str) (i : Nat) (d : Bins K) :
    (columns fmt title i d).2 = true ↔ ∀ e ∈ d, e.2.length ≤ i := by
  unfold columns
  have h : ∀ (d : Bins K) (s : List (Str × Option Text) × Bool), (d.foldl (column fmt title i) s).2 = true ↔
      s.2 = true ∧ ∀ e ∈ d, e.2.length ≤ i := by
    intro d
    induction d with
    | nil => simp
    | cons e d ih =>
      intro s
      rw [List.foldl_cons, ih]
      unfold column
      cases he : e.2[i]? with
      | some b =>
        have := (List.getElem?_eq_some_iff.1 he).1
        simp only [List.forall_mem_cons]
        constructor
        · rintro ⟨h, -⟩
          cases h
        · rintro ⟨-, h, -⟩
          omega
      | none =>
        have := List.getElem?_eq_none_iff.1 he
        simp only [List.forall_mem_cons]
        exact ⟨fun ⟨h1, h2⟩ => ⟨h1, this, h2⟩, fun ⟨h1, _, h2⟩ => ⟨h1, h2⟩⟩
  rw [h]
  simp

/-- An upper bound on the lengths of lists, needed for termination only. -/
def bound (d : Bins K) : Nat := (d.map fun e => e.2.length).sum

theorem le_bound {d : Bins K} {e : Nat × List (K × K)} (h : e ∈ d) : e.2.length ≤ bound d := by
  unfold bound
  induction d with
  | nil => cases h
  | cons a d ih =>
    rw [List.map_cons, List.sum_cons]
    rcases List.mem_cons.1 h with rfl | h
    · omega
    · have := ih h
      omega

/-- The loop in the function `tabularize`, prob:92-118. -/
def tabularizeFrom (fmt : K → Text) (title : Str) (d : Bins K) (i : Nat) : List (List (Str × Option Text)) :=
  if (columns fmt title i d).2 = true then [] else (columns fmt title i d).1 :: tabularizeFrom fmt title d (i + 1)
termination_by bound d - i
decreasing_by
  rename_i h
  rw [columns_end] at h
  simp only [not_forall, Nat.not_le] at h
  obtain ⟨e, he, h⟩ := h
  have := le_bound he
  omega

/-- A sink and its option `decimals`, which is 4 by default if a model is written to the console and 0 in case of CSV files. -/
inductive Sink where
  | log (decimals : Int)
  | csv (decimals : Int)
  deriving DecidableEq, Repr

/-- What is written by a sink. -/
inductive Written (Text : Type) where
  | tables (tables : List (Table Text))
  | rows (rows : List (List (Str × Option Text)))
  deriving DecidableEq

/-- `format` and `tabularize`, prob:60-118, after the model has been visited. -/
def Sink.write (fmt : Int → K → Text) (title : Str) (d : Bins K) : Sink → Written Text
  | .log decimals => .tables (formatBins (fmt decimals) title d)
  | .csv decimals => .rows (tabularizeFrom (fmt decimals) title d 0)

/-- The functions `format` or `tabularize` are called by the sinks of the class `OutputWriter`, output_writer.py:102-120 and
159-181: the same object is passed to all sinks (lines 253-262), and visits the model each time. -/
def write (fmt : Int → K → Text) (title : Str) (model : Model K) : Bins K → List Sink → List (Written Text)
  | _, [] => []
  | d, sink :: sinks =>
    let d := visitFrom 0 model d
    sink.write fmt title d :: write fmt title model d sinks

/-- `IsotonicProbabilityCalibrationModelFormattable.__init__`, prob:38-45, and `OutputWriter.write_output`. -/
def writeOutput (fmt : Int → K → Text) (title : Str) (model : Model K) (sinks : List Sink) : List (Written Text) :=
  write fmt title model [] sinks

end MLRL.CalibrationOutput
