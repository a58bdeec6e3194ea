import Verif.Model.FeatureBinning

/-!
# Specification of feature binning
-/

namespace MLRL.FeatureBinning.Spec

/-- The list of indices that is stored for a bin. -/
def Stored (v : BinnedVector) (b : Nat) (l : List Nat) : Prop :=
  ∃ first last, v.indptr[b]? = some (some first) ∧ v.indptr[b + 1]? = some (some last) ∧ last = first + l.length ∧
    (v.indices.drop first).take (last - first) = l.map some

/-- A value belongs to a bin according to the conditions `value <= threshold` that correspond to the thresholds: it satisfies those of this bin and of the
following ones, but not those of preceding bins. -/
def InBin (v : BinnedVector) (x : ℚ) (b : Nat) : Prop :=
  b < v.numBins ∧ ∀ (k : Nat) (t : ℚ), v.thresholds[k]? = some (some t) → (x ≤ t ↔ b ≤ k)

/-- The bins of a vector and its thresholds describe the same partition of the examples: there is a threshold between any two bins, each value belongs to a
bin, and for each bin, other than the one that is reserved for sparse values, exactly those examples are stored that belong to it according to their values.
Examples that are not stored belong to the bin for sparse values. If there are sparse values, they belong to this bin, too. -/
structure Separates (entries : List Entry) (sparse : Bool) (sparseValue : ℚ) (v : BinnedVector) : Prop where
  bins : 2 ≤ v.numBins
  sparseBin : v.sparseBinIndex < v.numBins
  lengths : v.thresholds.length + 1 = v.numBins
  initialised : ∀ (k : Nat), k + 1 < v.numBins → ∃ t, v.thresholds[k]? = some (some t)
  belong : ∀ e ∈ entries, ∃ b, InBin v e.value b
  stored : ∀ b, b < v.numBins → b ≠ v.sparseBinIndex →
    ∃ l, Stored v b l ∧ ∀ (P : Entry → Bool), (∀ e ∈ entries, P e = true ↔ InBin v e.value b) → List.Perm l ((entries.filter P).map (·.index))
  sparseStored : ∃ l, Stored v v.sparseBinIndex l ∧ ∀ i ∈ l, ∃ e ∈ entries, e.index = i ∧ InBin v e.value v.sparseBinIndex
  sparseValues : sparse = true → InBin v sparseValue v.sparseBinIndex

/-- The values are sorted in ascending order. -/
def Sorted (entries : List Entry) : Prop := entries.Pairwise (fun a b => a.value ≤ b.value)

/-- The values that are compared by equal-frequency binning. -/
def IsValue (sparseValue : ℚ) (entries : List Entry) (x : ℚ) : Prop := x = sparseValue ∨ ∃ e ∈ entries, e.value = x

/-- Values are considered equal only if they are. -/
def Exact (isEqual : ℚ → ℚ → Bool) (sparseValue : ℚ) (entries : List Entry) : Prop :=
  ∀ x y, IsValue sparseValue entries x → IsValue sparseValue entries y → (isEqual x y = true ↔ x = y)

/-- A value belongs to at most one bin. -/
theorem inBin_unique {v : BinnedVector} (hinit : ∀ (k : Nat), k + 1 < v.numBins → ∃ t, v.thresholds[k]? = some (some t)) {x : ℚ} {b c : Nat}
    (hb : InBin v x b) (hc : InBin v x c) : b = c := by
  rcases Nat.lt_trichotomy b c with h | h | h
  · obtain ⟨t, ht⟩ := hinit b (by have := hc.1; omega)
    have h1 := (hb.2 b t ht).mpr (Nat.le_refl _)
    have h2 := (hc.2 b t ht).mp h1
    omega
  · exact h
  · obtain ⟨t, ht⟩ := hinit c (by have := hb.1; omega)
    have h1 := (hc.2 c t ht).mpr (Nat.le_refl _)
    have h2 := (hb.2 c t ht).mp h1
    omega

end MLRL.FeatureBinning.Spec
