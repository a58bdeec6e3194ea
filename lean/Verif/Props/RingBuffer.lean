import Verif.Lemma.RingBuffer

/-!
# C01: a ring buffer keeps the most recent values
-/

namespace MLRL.RingBuffer

/-- The `min n c` most recent of the values `xs` (oldest first). -/
def mostRecent {α : Type _} (c : Nat) (xs : List α) : List α := xs.drop (xs.length - c)

/-- **C01.** Pushing any sequence `xs` into a new ring buffer of capacity `c ≥ 1` never accesses memory outside of the
buffer; afterwards

* the cells between `cbegin` and `cend` hold exactly (as a multiset) the `min n c` most recently pushed values, all of them
  initialised,
* the reported number of elements is `min n c` and the buffer reports to be full iff `n ≥ c`,
* the `i`-th push reported that it overwrites a value iff at least `c` values had been pushed before, and the value it
  reported is the one that has been pushed `c` pushes earlier. -/
theorem keeps_most_recent {α : Type _} {c : Nat} (hc : 1 ≤ c) (xs : List α) :
    ∃ b rs, (init c : RingBuffer α).pushAll xs = .ok (b, rs) ∧
      b.cells.Perm ((mostRecent c xs).map some) ∧
      b.numElements = min xs.length c ∧
      (b.isFull = true ↔ c ≤ xs.length) ∧
      rs.length = xs.length ∧
      ∀ i (hi : i < rs.length), (rs[i].1 = true ↔ c ≤ i) ∧ (c ≤ i → rs[i].2 = xs[i - c]?) := by
  obtain ⟨b, rs, h1, h2, h3, h4⟩ := Holds.pushAll xs (holds_init (α := α) hc)
  simp only [List.nil_append] at h2
  refine ⟨b, rs, h1, h2.cells_perm, h2.numElements, h2.full_iff, h3, ?_⟩
  intro i hi
  obtain ⟨h5, h6⟩ := h4 i hi
  exact ⟨by rw [h5]; simp, by simpa using h6⟩

/-- The hypothesis can be met and the statement is informative: capacity 3, five values. -/
example : ((init 3 : RingBuffer Nat).pushAll [10, 20, 30, 40, 50]).map (fun p => (p.1.cells, p.2.map Prod.fst)) =
    .ok ([some 40, some 50, some 30], [false, false, false, true, true]) := rfl

/-- A buffer of capacity zero is full and empty at the same time. -/
theorem zero_capacity {α : Type _} : (init 0 : RingBuffer α).isFull = true ∧ (init 0 : RingBuffer α).numElements = 0 ∧
    (init 0 : RingBuffer α).cells = [] := ⟨rfl, rfl, rfl⟩

/-- For a zero capacity, which the documentation excludes, the first push is out of bounds. -/
theorem push_zero_capacity {α : Type _} (x : α) : (init 0 : RingBuffer α).push x = .error .outOfBounds := rfl

end MLRL.RingBuffer
