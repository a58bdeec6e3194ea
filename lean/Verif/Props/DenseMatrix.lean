import Verif.Spec.DenseMatrix
import Verif.Lemma.FeatureType
import Mathlib.Data.Finset.Card
import Mathlib.Data.Finset.Prod

/-!
# C74: Dense matrices hold the elements that have been written
-/

namespace MLRL.DenseMatrix

open FeatureSpace (readRange)

variable {T : Type}

private theorem lines_mul (m : Dense T) (layout : Layout) : m.numLines layout * m.lineLength layout = m.numRows * m.numCols := by
  cases layout
  · rfl
  · exact Nat.mul_comm _ _

private theorem end_le {n l line : Nat} (h : line < n) : (line + 1) * l ≤ n * l := Nat.mul_le_mul_right _ h

private theorem pos_lt {n l line i : Nat} (h : line < n) (hi : i < l) : line * l + i < n * l := by
  have := end_le (l := l) h
  rw [Nat.add_mul, Nat.one_mul] at this
  omega

private theorem pos_inj {l line i line' i' : Nat} (hi : i < l) (hi' : i' < l) (h : line * l + i = line' * l + i') :
    line = line' ∧ i = i' := by
  have hl : 0 < l := by omega
  have h1 : (line * l + i) / l = line := by rw [Nat.mul_comm, Nat.mul_add_div hl, Nat.div_eq_of_lt hi, Nat.add_zero]
  have h2 : (line' * l + i') / l = line' := by rw [Nat.mul_comm, Nat.mul_add_div hl, Nat.div_eq_of_lt hi', Nat.add_zero]
  have e : line = line' := by rw [← h1, h, h2]
  subst e
  exact ⟨rfl, by omega⟩

private theorem begin_eq {m : Dense T} {layout : Layout} (hs : m.numRows * m.numCols < 2 ^ 32) {line : Nat}
    (hl : line < m.numLines layout) : m.valuesBegin layout line = line * m.lineLength layout := by
  unfold Dense.valuesBegin
  refine Nat.mod_eq_of_lt (Nat.lt_of_le_of_lt ?_ hs)
  rw [← lines_mul m layout]
  exact Nat.mul_le_mul_right _ (Nat.le_of_lt hl)

/-- **A newly allocated matrix** holds the content of the allocated memory (zeros, if it is initialised), if it has less than `2 ^ 32`
elements.

What is missing: larger matrices (`allocate_overflow`). -/
theorem allocate_holds_partial (content : Nat → T) (layout : Layout) {numRows numCols : Nat} (h : numRows * numCols < 2 ^ 32) :
    ∃ f, Holds (allocate content numRows numCols) layout f ∧ ((∃ x, ∀ p, content p = x) → ∀ r c, f r c = content 0) := by
  have hlen : (allocate content numRows numCols).array.length = numRows * numCols := by
    simp only [allocate, List.length_map, List.length_range]
    exact Nat.mod_eq_of_lt h
  refine ⟨fun r c => match layout with
    | .c => content (r * numCols + c)
    | .fortran => content (c * numRows + r), ⟨hlen, h, ?_⟩, ?_⟩
  · intro line i hl hi
    have hp := pos_lt hl hi
    rw [lines_mul] at hp
    have e : ∀ p < numRows * numCols, (allocate content numRows numCols).array[p]? = some (content p) := by
      intro p hp
      have : p < numRows * numCols % 2 ^ 32 := by rw [Nat.mod_eq_of_lt h]; exact hp
      simp only [allocate, List.getElem?_map, List.getElem?_range this, Option.map_some]
    rw [e _ hp]
    cases layout <;> rfl
  · rintro ⟨x, hx⟩ r c
    cases layout <;> simp [hx]

/-- **Reading an element** yields the element, whatever the layout. -/
theorem read_eq {m : Dense T} {layout : Layout} {f : Nat → Nat → T} (h : Holds m layout f) {line i : Nat}
    (hl : line < m.numLines layout) (hi : i < m.lineLength layout) :
    m.read layout line i = .ok (f (layout.row line i) (layout.col line i)) := by
  unfold Dense.read
  rw [begin_eq h.small hl, readAt_of_getElem? (h.elements line i hl hi)]

/-- **Writing an element** changes this element and leaves all others as they are. -/
theorem write_holds {m : Dense T} {layout : Layout} {f : Nat → Nat → T} (h : Holds m layout f) {line i : Nat}
    (hl : line < m.numLines layout) (hi : i < m.lineLength layout) (value : T) :
    ∃ m', m.write layout line i value = .ok m' ∧ m'.numRows = m.numRows ∧ m'.numCols = m.numCols ∧
      Holds m' layout (set f (layout.row line i) (layout.col line i) value) := by
  have hp := pos_lt hl hi
  rw [lines_mul, ← h.length] at hp
  unfold Dense.write
  rw [begin_eq h.small hl, writeAt_of_lt hp, ok_bind]
  refine ⟨_, rfl, rfl, rfl, ?_, h.small, ?_⟩
  · simp only [List.length_set]; exact h.length
  · intro line' i' hl' hi'
    have hl'' : line' < m.numLines layout := by cases layout <;> exact hl'
    have hi'' : i' < m.lineLength layout := by cases layout <;> exact hi'
    have el : Dense.lineLength ⟨m.array.set (line * m.lineLength layout + i) value, m.numRows, m.numCols⟩ layout = m.lineLength layout := by
      cases layout <;> rfl
    simp only [el]
    by_cases e : line = line' ∧ i = i'
    · obtain ⟨rfl, rfl⟩ := e
      rw [List.getElem?_set_self hp]
      simp [set]
    · rw [List.getElem?_set_ne (fun e' => e (pos_inj hi hi'' e')), h.elements line' i' hl'' hi'']
      congr 1
      unfold set
      rw [if_neg]
      rintro ⟨e1, e2⟩
      apply e
      cases layout
      · exact ⟨e1.symm, e2.symm⟩
      · exact ⟨e2.symm, e1.symm⟩

/-- **Iterating over a row or column** yields its elements from the first to the last one, and the end of a line is the beginning of the
next one. -/
theorem iterate_eq {m : Dense T} {layout : Layout} {f : Nat → Nat → T} (h : Holds m layout f) {line : Nat} (hl : line < m.numLines layout)
    (hn : m.numLines layout < 2 ^ 32) :
    m.iterate layout line = .ok ((List.range (m.lineLength layout)).map (fun i => f (layout.row line i) (layout.col line i))) ∧
      (line + 1 < m.numLines layout → m.valuesEnd layout line = m.valuesBegin layout (line + 1)) := by
  have he : m.valuesEnd layout line = (line + 1) * m.lineLength layout := by
    unfold Dense.valuesEnd
    rw [Nat.mod_eq_of_lt (a := line + 1) (by omega)]
    refine Nat.mod_eq_of_lt (Nat.lt_of_le_of_lt ?_ h.small)
    rw [← lines_mul m layout]
    exact end_le hl
  refine ⟨?_, fun hl' => by rw [he, begin_eq h.small hl']⟩
  unfold Dense.iterate
  rw [he, begin_eq h.small hl]
  unfold readRange
  have hle : (line + 1) * m.lineLength layout ≤ m.array.length := by
    rw [h.length, ← lines_mul m layout]
    exact end_le hl
  split
  · rename_i hlt
    congr 1
    refine List.ext_getElem? (fun i => ?_)
    have hd : (line + 1) * m.lineLength layout - line * m.lineLength layout = m.lineLength layout := by
      rw [Nat.add_mul, Nat.one_mul]; omega
    rw [hd]
    by_cases hi : i < m.lineLength layout
    · rw [List.getElem?_take_of_lt hi, List.getElem?_drop, h.elements line i hl hi]
      simp [hi]
    · rw [List.getElem?_eq_none (by simp; omega), List.getElem?_eq_none (by simp; omega)]
  · rename_i hlt
    have : m.lineLength layout = 0 := by
      rw [Nat.add_mul, Nat.one_mul] at hlt
      omega
    rw [this]
    rfl

/-- **Clearing a matrix** sets all elements to zero. -/
theorem clear_holds [Zero T] {m : Dense T} {layout : Layout} {f : Nat → Nat → T} (h : Holds m layout f) :
    ∃ m', m.clear = .ok m' ∧ m'.numRows = m.numRows ∧ m'.numCols = m.numCols ∧ Holds m' layout (fun _ _ => 0) := by
  unfold Dense.clear
  rw [Nat.mod_eq_of_lt h.small]
  have key : ∀ n ≤ m.array.length, ∃ a, (List.range n).foldlM (fun a i => writeAt a i (0 : T)) m.array = .ok a ∧
      a.length = m.array.length ∧ ∀ p < n, a[p]? = some 0 := by
    intro n
    induction n with
    | zero => intro _; exact ⟨m.array, rfl, rfl, by omega⟩
    | succ n ih =>
      intro hn
      obtain ⟨a, h1, h2, h3⟩ := ih (by omega)
      refine ⟨a.set n 0, ?_, by simp [h2], ?_⟩
      · rw [List.range_succ, List.foldlM_append, h1, ok_bind, List.foldlM_cons, writeAt_of_lt (by omega), ok_bind]
        rfl
      · intro p hp
        by_cases e : n = p
        · subst e; rw [List.getElem?_set_self (by omega)]
        · rw [List.getElem?_set_ne e, h3 p (by omega)]
  obtain ⟨a, h1, h2, h3⟩ := key (m.numRows * m.numCols) (by rw [h.length])
  rw [h1, ok_bind]
  refine ⟨_, rfl, rfl, rfl, by simp only [h2]; exact h.length, h.small, ?_⟩
  intro line i hl hi
  have hl' : line < m.numLines layout := by cases layout <;> exact hl
  have hi' : i < m.lineLength layout := by cases layout <;> exact hi
  have hp := pos_lt hl' hi'
  rw [lines_mul] at hp
  have el : Dense.lineLength ⟨a, m.numRows, m.numCols⟩ layout = m.lineLength layout := by cases layout <;> rfl
  simp only [el]
  exact h3 _ hp

/-- **A transposed view**: the same memory, taken as a matrix in the other layout with the numbers of rows and columns exchanged, holds the
transposed matrix. -/
theorem transposed {m : Dense T} {f : Nat → Nat → T} (h : Holds m .c f) :
    Holds ⟨m.array, m.numCols, m.numRows⟩ .fortran (fun r c => f c r) :=
  ⟨by simp only [h.length, Nat.mul_comm], by simp only [Nat.mul_comm m.numCols]; exact h.small, h.elements⟩

/-- The positions are sound if the matrix holds elements. -/
theorem holds_sound {m : Dense T} {layout : Layout} {f : Nat → Nat → T} (h : Holds m layout f) : Sound m layout := by
  refine ⟨fun line i hl hi => ?_, fun line i line' i' hl hi hl' hi' e => ?_⟩
  · rw [begin_eq h.small hl, h.length, ← lines_mul m layout]
    exact pos_lt hl hi
  · rw [begin_eq h.small hl, begin_eq h.small hl'] at e
    exact pos_inj hi hi' e

private theorem pigeonhole (m : Dense T) (layout : Layout) (N : Nat) (hN : N < m.numRows * m.numCols)
    (hb : ∀ line i, line < m.numLines layout → i < m.lineLength layout → m.valuesBegin layout line + i < N) :
    ∃ line i line' i', line < m.numLines layout ∧ i < m.lineLength layout ∧ line' < m.numLines layout ∧ i' < m.lineLength layout ∧
      (line, i) ≠ (line', i') ∧ m.valuesBegin layout line + i = m.valuesBegin layout line' + i' := by
  have hc : (Finset.range N).card < (Finset.range (m.numLines layout) ×ˢ Finset.range (m.lineLength layout)).card := by
    rw [Finset.card_product, Finset.card_range, Finset.card_range, Finset.card_range, lines_mul]
    exact hN
  obtain ⟨x, hx, y, hy, hne, e⟩ := Finset.exists_ne_map_eq_of_card_lt_of_maps_to (f := fun p : Nat × Nat => m.valuesBegin layout p.1 + p.2) hc (by
    intro p hp
    simp only [Finset.coe_product, Set.mem_prod, Finset.coe_range, Set.mem_Iio] at hp
    simp only [Finset.coe_range, Set.mem_Iio]
    exact hb p.1 p.2 hp.1 hp.2)
  simp only [Finset.mem_product, Finset.mem_range] at hx hy
  exact ⟨x.1, x.2, y.1, y.2, hx.1, hx.2, hy.1, hy.2, hne, e⟩

/-- **An allocated matrix with `2 ^ 32` or more elements is unusable**: an element lies outside of the allocated memory or two elements
share their memory. -/
theorem allocate_overflow (content : Nat → T) (layout : Layout) {numRows numCols : Nat} (h : 2 ^ 32 ≤ numRows * numCols) :
    ¬ Sound (allocate content numRows numCols) layout := by
  rintro ⟨h1, h2⟩
  have hN : (allocate content numRows numCols).array.length < numRows * numCols := by
    simp only [allocate, List.length_map, List.length_range]
    exact Nat.lt_of_lt_of_le (Nat.mod_lt _ (by decide)) h
  obtain ⟨line, i, line', i', a1, a2, a3, a4, hne, e⟩ := pigeonhole (allocate content numRows numCols) layout _ hN h1
  obtain ⟨rfl, rfl⟩ := h2 line i line' i' a1 a2 a3 a4 e
  exact hne rfl

/-- **A view of a larger array**, e.g., of an array provided by a user, is unusable even though all elements exist: two elements share
their memory. -/
theorem view_overflow (m : Dense T) (layout : Layout) (h : 2 ^ 32 + m.lineLength layout ≤ m.numRows * m.numCols) :
    ¬ Sound m layout := by
  rintro ⟨-, h2⟩
  have hpos : 0 < m.lineLength layout := by
    rcases Nat.eq_zero_or_pos (m.lineLength layout) with e | e
    · rw [← lines_mul m layout, e] at h
      simp at h
    · exact e
  obtain ⟨line, i, line', i', a1, a2, a3, a4, hne, e⟩ := pigeonhole m layout (2 ^ 32 + m.lineLength layout - 1) (by omega) (by
    intro line i hl hi
    have : m.valuesBegin layout line < 2 ^ 32 := Nat.mod_lt _ (by decide)
    omega)
  obtain ⟨rfl, rfl⟩ := h2 line i line' i' a1 a2 a3 a4 e
  exact hne rfl

/-! ### Concrete cases -/

/-- A matrix with two rows and three columns. -/
def exMatrix : Dense Nat := ⟨[1, 2, 3, 4, 5, 6], 2, 3⟩

example : Holds exMatrix .c (fun r c => 3 * r + c + 1) := by
  refine ⟨rfl, by decide, fun line i hl hi => ?_⟩
  have hl : line < 2 := hl
  have hi : i < 3 := hi
  match line, i with
  | 0, 0 => rfl
  | 0, 1 => rfl
  | 0, 2 => rfl
  | 1, 0 => rfl
  | 1, 1 => rfl
  | 1, 2 => rfl

example : exMatrix.iterate .c 1 = .ok [4, 5, 6] ∧ exMatrix.iterate .fortran 1 = .ok [3, 4] ∧
    exMatrix.write .c 1 0 9 = .ok ⟨[1, 2, 3, 9, 5, 6], 2, 3⟩ ∧ exMatrix.clear = .ok ⟨[0, 0, 0, 0, 0, 0], 2, 3⟩ := by decide +kernel

/-- 65537 rows and 65536 columns: the memory suffices for one row only. -/
example (content : Nat → Nat) : ¬ Sound (allocate content 65537 65536) .c := allocate_overflow content .c (by decide)

end MLRL.DenseMatrix
