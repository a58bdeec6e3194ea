import Verif.Model.Sampling

/-!
# Model of equal-width and equal-frequency feature binning

Sources: `common/src/mlrl/common/input/feature_binning_equal_width.cpp`, `feature_binning_equal_frequency.cpp` and
`feature_vector_binned_allocated.hpp`.

Floating point values are rational numbers, i.e. there is no rounding. The comparison `isEqual` (types.hpp:38-41) is a parameter of equal-frequency binning,
such that it can be exact or approximate. The numerical feature vectors, which contain pairs of indices and values, are sorted by value
(feature_type_numerical_common.hpp:38). Missing values are passed on by the code and are left out here.
-/

namespace MLRL.FeatureBinning

/-- An element of `NumericalFeatureVector`. -/
structure Entry where
  index : Nat
  value : ℚ
  deriving DecidableEq

/-- `AllocatedBinnedFeatureVector`, feature_vector_binned.hpp:12-23; `none` stands for memory that has not been initialised. -/
structure BinnedVector where
  thresholds : List (Option ℚ)
  indices : List (Option Nat)
  indptr : List (Option Nat)
  numBins : Nat
  sparseBinIndex : Nat
  deriving DecidableEq

/-- `reallocateMemory`, memory.hpp:38-40: elements are dropped or uninitialised ones are added. -/
def realloc {α : Type} (l : List (Option α)) (n : Nat) : List (Option α) := l.take n ++ List.replicate (n - l.length) none

/-- Constructor, feature_vector_binned_allocated.hpp:21-26. The number of bins is positive in the code that is modelled here. -/
def BinnedVector.init (numBins numIndices sparseBinIndex : Nat) : Res BinnedVector := do
  let indptr ← writeAt (List.replicate (numBins + 1) none) 0 (some 0)
  let indptr ← writeAt indptr numBins (some numIndices)
  return ⟨List.replicate (numBins - 1) none, List.replicate numIndices none, indptr, numBins, sparseBinIndex⟩

/-- `resize`, feature_vector_binned_allocated.hpp:56-66. -/
def BinnedVector.resize (v : BinnedVector) (numBins numIndices : Nat) : Res BinnedVector := do
  let indptr ← writeAt (realloc v.indptr (numBins + 1)) numBins (some numIndices)
  return ⟨realloc v.thresholds (numBins - 1), realloc v.indices numIndices, indptr, numBins,
    if v.sparseBinIndex ≥ numBins then numBins - 1 else v.sparseBinIndex⟩

/-! ### Equal-frequency binning -/

/-- The local variables, feature_binning_equal_frequency.cpp:15-26. -/
structure FreqState where
  thresholds : List (Option ℚ)
  indices : List (Option Nat)
  indptr : List (Option Nat)
  previousValue : ℚ
  numElementsInCurrentBin : Nat
  binIndex : Nat
  numIndices : Nat

/-- `arithmeticMean`, math.hpp:35-37. -/
def arithmeticMean (small large : ℚ) : ℚ := small + (large - small) * (1 / 2)

/-- The end of the current bin, lines 41-44 and 96-99. -/
def closeBin (s : FreqState) (currentValue : ℚ) : Res FreqState := do
  let thresholds ← writeAt s.thresholds s.binIndex (some (arithmeticMean s.previousValue currentValue))
  let indptr ← writeAt s.indptr (s.binIndex + 1) (some s.numIndices)
  return { s with thresholds := thresholds, indptr := indptr, numElementsInCurrentBin := 0, binIndex := s.binIndex + 1 }

/-- Lines 38-48 and 93-103. -/
def nextValue (isEqual : ℚ → ℚ → Bool) (numElementsPerBin : Nat) (s : FreqState) (currentValue : ℚ) : Res FreqState :=
  if !isEqual currentValue s.previousValue then
    if s.numElementsInCurrentBin ≥ numElementsPerBin then
      match closeBin s currentValue with
      | .error e => .error e
      | .ok s => .ok { s with previousValue := currentValue }
    else .ok { s with previousValue := currentValue }
  else .ok s

/-- Lines 50-52 and 105-107. -/
def addEntry (s : FreqState) (entry : Entry) : Res FreqState := do
  let indices ← writeAt s.indices s.numIndices (some entry.index)
  return { s with indices := indices, numElementsInCurrentBin := s.numElementsInCurrentBin + 1, numIndices := s.numIndices + 1 }

/-- The body of the loops, lines 30-52 (without the condition in lines 33-35) and 89-107. -/
def freqStep (isEqual : ℚ → ℚ → Bool) (numElementsPerBin : Nat) (s : FreqState) (entry : Entry) : Res FreqState := do
  let s ← nextValue isEqual numElementsPerBin s entry.value
  addEntry s entry

/-- The loop in lines 29-53. Returns the elements that remain, i.e. those at positions `i, ..., numElements - 1`. -/
def lowerLoop (isEqual : ℚ → ℚ → Bool) (numElementsPerBin : Nat) (sparseValue : ℚ) : FreqState → List Entry → Res (FreqState × List Entry)
  | s, [] => .ok (s, [])
  | s, entry :: entries =>
    if entry.value < sparseValue then
      match freqStep isEqual numElementsPerBin s entry with
      | .error e => .error e
      | .ok s => lowerLoop isEqual numElementsPerBin sparseValue s entries
    else .ok (s, entry :: entries)

/-- The loop in lines 75-81. -/
def skipLoop (isEqual : ℚ → ℚ → Bool) : FreqState → List Entry → FreqState × List Entry
  | s, [] => (s, [])
  | s, entry :: entries =>
    if !isEqual entry.value s.previousValue then (s, entry :: entries)
    else skipLoop isEqual { s with numElementsInCurrentBin := s.numElementsInCurrentBin + 1 } entries

/-- Lines 57-72. -/
def sparseBin (numElementsPerBin numSparseValues : Nat) (sparseValue : ℚ) (s : FreqState) : Res FreqState :=
  if s.numElementsInCurrentBin ≥ numElementsPerBin then
    match closeBin s sparseValue with
    | .error e => .error e
    | .ok s => .ok { s with numElementsInCurrentBin := numSparseValues, previousValue := sparseValue }
  else .ok { s with numIndices := s.numIndices - s.numElementsInCurrentBin, numElementsInCurrentBin := s.numElementsInCurrentBin + numSparseValues, previousValue := sparseValue }

/-- Lines 56-82. -/
def middle (isEqual : ℚ → ℚ → Bool) (numElementsPerBin numSparseValues : Nat) (sparse : Bool) (sparseValue : ℚ) (s : FreqState) (entries : List Entry) :
    Res (FreqState × List Entry) :=
  if sparse then
    match sparseBin numElementsPerBin numSparseValues sparseValue s with
    | .error e => .error e
    | .ok s => .ok (skipLoop isEqual s entries)
  else .ok (s, entries)

/-- The loop in lines 88-108. -/
def upperLoop (isEqual : ℚ → ℚ → Bool) (numElementsPerBin : Nat) : FreqState → List Entry → Res FreqState
  | s, [] => .ok s
  | s, entry :: entries =>
    match freqStep isEqual numElementsPerBin s entry with
    | .error e => .error e
    | .ok s => upperLoop isEqual numElementsPerBin s entries

/-- Line 19, where the quotient is not rounded. -/
def numElementsPerBin (numElements numBins : Nat) : Nat := (⌈(numElements : ℚ) / (numBins : ℚ)⌉).toNat

/-- `createFeatureVectorInternally`, feature_binning_equal_frequency.cpp:8-118, given the number of bins (line 11). The result is `none` if an
`EqualFeatureVector` is returned. -/
def equalFrequency (isEqual : ℚ → ℚ → Bool) (numBins numExamples : Nat) (sparse : Bool) (sparseValue : ℚ) (entries : List Entry) :
    Res (Option BinnedVector) :=
  if numBins > 1 then do
    let v ← BinnedVector.init numBins entries.length 0
    let (s, rest) ← lowerLoop isEqual (numElementsPerBin entries.length numBins) sparseValue ⟨v.thresholds, v.indices, v.indptr, sparseValue, 0, 0, 0⟩ entries
    let (s', rest') ← middle isEqual (numElementsPerBin entries.length numBins) (numExamples - entries.length) sparse sparseValue s rest
    let r ← upperLoop isEqual (numElementsPerBin entries.length numBins) s' rest'
    if r.binIndex > 0 then do
      let w ← BinnedVector.resize ⟨r.thresholds, r.indices, r.indptr, numBins, s'.binIndex⟩ (r.binIndex + 1) r.numIndices
      return some w
    else return none
  else return none

/-! ### Equal-width binning -/

/-- The body of the loop in `getMinAndMaxFeatureValue`, feature_binning_equal_width.cpp:25-33. -/
def minMaxStep (m : ℚ × ℚ) (entry : Entry) : ℚ × ℚ :=
  if entry.value < m.1 then (entry.value, m.2) else if entry.value > m.2 then (m.1, entry.value) else m

/-- `getMinAndMaxFeatureValue`, lines 10-36. -/
def getMinAndMaxFeatureValue (sparse : Bool) (sparseValue : ℚ) (entries : List Entry) : Res (ℚ × ℚ) :=
  if sparse then .ok (entries.foldl minMaxStep (sparseValue, sparseValue))
  else match entries with
    | [] => .error .outOfBounds
    | entry :: entries => .ok (entries.foldl minMaxStep (entry.value, entry.value))

/-- `getBinIndex`, lines 38-41. The conversion of a negative or too large value, or the quotient `0 / 0` or `x / 0`, to an unsigned integer is undefined. -/
def getBinIndex (value min width : ℚ) (numBins : Nat) : Res Nat :=
  if width = 0 ∨ ⌊(value - min) / width⌋ < 0 ∨ ⌊(value - min) / width⌋ ≥ 2 ^ 32 then .error .badCast
  else .ok (if ⌊(value - min) / width⌋.toNat ≥ numBins then numBins - 1 else ⌊(value - min) / width⌋.toNat)

/-- The body of the loop in lines 63-70. -/
def countStep (min width : ℚ) (numWidths sparseBinIndex : Nat) (numExamplesPerBin : List Nat) (entry : Entry) : Res (List Nat) := do
  let binIndex ← getBinIndex entry.value min width numWidths
  match decide (binIndex = sparseBinIndex) with
  | true => return numExamplesPerBin
  | false => do
    let n ← readAt numExamplesPerBin binIndex
    writeAt numExamplesPerBin binIndex (n + 1)

/-- The local variables that are modified in lines 77-95. -/
structure WidthState where
  thresholds : List (Option ℚ)
  indptr : List (Option Nat)
  mapping : List (Option Nat)
  numIndices : Nat
  numBins : Nat
  sparseBinIndex : Nat

/-- The body of the loop in lines 77-95. -/
def mapStep (min width : ℚ) (sparseBinIndex : Nat) (numExamplesPerBin : List Nat) (i : Nat) (s : WidthState) : Res WidthState := do
  let n ← readAt numExamplesPerBin i
  match decide (i = sparseBinIndex ∨ n > 0) with
  | true => do
    let thresholds ← writeAt s.thresholds s.numBins (some (min + ((s.numBins : ℚ) + 1) * width))
    let indptr ← writeAt s.indptr s.numBins (some s.numIndices)
    let mapping ← writeAt s.mapping i (some s.numBins)
    return ⟨thresholds, indptr, mapping, if i ≠ sparseBinIndex then s.numIndices + n else s.numIndices, s.numBins + 1,
      if i ≠ sparseBinIndex then s.sparseBinIndex else s.numBins⟩
  | false => do
    let mapping ← writeAt s.mapping i (some sparseBinIndex)
    return ⟨s.thresholds, s.indptr, mapping, s.numIndices, s.numBins, s.sparseBinIndex⟩

/-- Lines 107-111: `numRemaining = numExamplesInCurrentBin - 1` is evaluated with 32 bits; it is used as a position in an array. -/
def storeIndex (indptr : List (Option Nat)) (originalBinIndex binIndex index : Nat) (s : List Nat × List (Option Nat)) : Res (List Nat × List (Option Nat)) := do
  let n ← readAt s.1 originalBinIndex
  let numExamplesPerBin ← writeAt s.1 originalBinIndex (if n = 0 then 2 ^ 32 - 1 else n - 1)
  let start ← readAt indptr binIndex
  let start ← useInit start
  let indices ← writeAt s.2 (start + if n = 0 then 2 ^ 32 - 1 else n - 1) (some index)
  return (numExamplesPerBin, indices)

/-- The body of the loop in lines 98-114. -/
def fillStep (min width : ℚ) (numWidths sparseBinIndex : Nat) (m : WidthState) (s : List Nat × List (Option Nat)) (entry : Entry) :
    Res (List Nat × List (Option Nat)) := do
  let originalBinIndex ← getBinIndex entry.value min width numWidths
  match decide (originalBinIndex = sparseBinIndex) with
  | true => return s
  | false => do
    let binIndex ← readAt m.mapping originalBinIndex
    let binIndex ← useInit binIndex
    match decide (binIndex = m.sparseBinIndex) with
    | true => return s
    | false => storeIndex m.indptr originalBinIndex binIndex entry.index s

/-- `createFeatureVectorInternally`, feature_binning_equal_width.cpp:43-124, given the number of widths (line 46). The result is `none` if an
`EqualFeatureVector` is returned. -/
def equalWidth (numWidths : Nat) (sparse : Bool) (sparseValue : ℚ) (entries : List Entry) : Res (Option BinnedVector) :=
  if numWidths > 0 then do
    let m ← getMinAndMaxFeatureValue sparse sparseValue entries
    let sparseBinIndex ← getBinIndex sparseValue m.1 ((m.2 - m.1) / numWidths) numWidths
    let v ← BinnedVector.init numWidths entries.length sparseBinIndex
    let counts ← entries.foldlM (countStep m.1 ((m.2 - m.1) / numWidths) numWidths sparseBinIndex) (List.replicate numWidths 0)
    let w ← loop numWidths (mapStep m.1 ((m.2 - m.1) / numWidths) sparseBinIndex counts)
      ⟨v.thresholds, v.indptr, List.replicate numWidths none, 0, 0, sparseBinIndex⟩
    let f ← entries.foldlM (fillStep m.1 ((m.2 - m.1) / numWidths) numWidths sparseBinIndex w) (counts, v.indices)
    if w.numBins > 1 then do
      let r ← BinnedVector.resize ⟨w.thresholds, f.2, w.indptr, numWidths, w.sparseBinIndex⟩ w.numBins w.numIndices
      return some r
    else return none
  else return none

/-! ### Creating feature vectors -/

/-- `createFeatureVector` for dense matrices, feature_binning_equal_width.cpp:151-169 and feature_binning_equal_frequency.cpp:145-163, where `create` is
`createFeatureVectorInternally` for a certain number of bins, values of sparse elements and a flag whether there are some. The value of sparse elements is `0`
by default (feature_vector_numerical_allocated.hpp:22). -/
def createDense (isEqual : ℚ → ℚ → Bool) (create : Nat → Bool → ℚ → List Entry → Res (Option BinnedVector)) (binRatio : ℚ) (minBins maxBins numRows : Nat)
    (entries : List Entry) : Res (Option BinnedVector) :=
  match entries.head?, entries.getLast? with
  | some first, some last =>
    if !isEqual first.value last.value then create (Sampling.calculateBoundedFraction numRows binRatio minBins maxBins) false 0 entries else .ok none
  | _, _ => .ok none

/-- `createFeatureVector` for CSC matrices, feature_binning_equal_width.cpp:171-193 and feature_binning_equal_frequency.cpp:165-187. -/
def createSparse (isEqual : ℚ → ℚ → Bool) (create : Nat → Bool → ℚ → List Entry → Res (Option BinnedVector)) (binRatio : ℚ) (minBins maxBins numRows : Nat)
    (sparseValue : ℚ) (entries : List Entry) : Res (Option BinnedVector) :=
  match entries.head?, entries.getLast? with
  | some first, some last =>
    if entries.length < numRows || !isEqual first.value last.value then
      create (Sampling.calculateBoundedFraction numRows binRatio minBins maxBins) (decide (entries.length < numRows)) sparseValue entries
    else .ok none
  | _, _ => .ok none

end MLRL.FeatureBinning
