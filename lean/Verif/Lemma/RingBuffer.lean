import Verif.Model.RingBuffer

namespace MLRL.RingBuffer

variable {α : Type _}

/-- Relation between a buffer of capacity `c` and the values pushed into it so far (oldest first). -/
structure Holds (c : Nat) (xs : List α) (b : RingBuffer α) : Prop where
  cpos : 0 < c
  len : b.array.length = c
  pos_lt : b.pos < c
  full_iff : b.full = true ↔ c ≤ xs.length
  notFull : b.full = false → b.pos = xs.length ∧ b.array.take b.pos = xs.map some
  isFull : b.full = true → b.array.drop b.pos ++ b.array.take b.pos = (xs.drop (xs.length - c)).map some

theorem holds_init {c : Nat} (hc : 0 < c) : Holds c ([] : List α) (init c) := by
  have hc' : (c == 0) = false := by simp; omega
  constructor <;> simp [init, hc, hc'] <;> omega

theorem Holds.push {c : Nat} {xs : List α} {b : RingBuffer α} (h : Holds c xs b) (v : α) :
    ∃ b' old, b.push v = .ok (b', (b.full, old)) ∧ Holds c (xs ++ [v]) b' ∧
      (b.full = true → old = xs[xs.length - c]?) := by
  have hlt : b.pos < b.array.length := by rw [h.len]; exact h.pos_lt
  have hset : (b.array.set b.pos (some v)).length = c := by simp [h.len]
  have hdrop : b.array.drop b.pos = b.array[b.pos] :: b.array.drop (b.pos + 1) := List.drop_eq_getElem_cons hlt
  have htake : (b.array.set b.pos (some v)).take (b.pos + 1) = b.array.take b.pos ++ [some v] := by
    rw [List.take_succ_eq_append_getElem (by simpa using hlt), List.take_set_of_le (Nat.le_refl _)]
    simp
  have hdrop' : (b.array.set b.pos (some v)).drop (b.pos + 1) = b.array.drop (b.pos + 1) := by
    rw [List.drop_set_of_lt (Nat.lt_succ_self _)]
  -- the value that is overwritten
  have hold : b.full = true → some b.array[b.pos] = ((xs.drop (xs.length - c)).map some)[0]? := by
    intro hf
    rw [← h.isFull hf, hdrop]; rfl
  have hold' : b.full = true → b.array[b.pos] = xs[xs.length - c]? := by
    intro hf
    have := hold hf
    rw [List.getElem?_map, List.getElem?_drop, Nat.add_zero] at this
    cases hx : xs[xs.length - c]? with
    | none => rw [hx] at this; simp at this
    | some y => rw [hx] at this; simpa using this
  unfold RingBuffer.push
  rw [readAt_of_lt hlt, ok_bind, writeAt_of_lt hlt, ok_bind]
  simp only [hset]
  by_cases hp : b.pos + 1 ≥ c
  · -- wrap around
    rw [if_pos hp]
    have hpc : b.pos + 1 = c := by have := h.pos_lt; omega
    refine ⟨_, _, rfl, ?_, hold'⟩
    have hd0 : b.array.drop (b.pos + 1) = [] := by
      apply List.drop_eq_nil_of_le; rw [h.len]; omega
    have ht0 : b.array.set b.pos (some v) = b.array.take b.pos ++ [some v] := by
      have := htake
      rwa [List.take_of_length_le (by rw [hset]; omega)] at this
    constructor
    · exact h.cpos
    · exact hset
    · exact h.cpos
    · simp only [List.length_append, List.length_singleton, true_iff]
      cases hf : b.full with
      | true => have := h.full_iff.1 hf; omega
      | false => have := (h.notFull hf).1; omega
    · simp
    · intro _
      simp only [List.drop_zero, List.take_zero, List.append_nil]
      rw [ht0]
      cases hf : b.full with
      | true =>
        have h1 := h.isFull hf
        have h2 := h.full_iff.1 hf
        rw [hdrop, hd0] at h1
        have h3 : (xs ++ [v]).length - c = (xs.length - c) + 1 := by simp; omega
        rw [h3, List.drop_append_of_le_length (by have := h.cpos; omega), List.map_append]
        have h4 : (xs.drop (xs.length - c + 1)).map some = b.array.take b.pos := by
          rw [← List.tail_drop, List.map_tail, ← h1]; rfl
        rw [h4]; rfl
      | false =>
        obtain ⟨h1, h2⟩ := h.notFull hf
        rw [h2]
        have h3 : (xs ++ [v]).length - c = 0 := by simp; omega
        rw [h3]; simp
  · rw [if_neg hp]
    refine ⟨_, _, rfl, ?_, hold'⟩
    constructor
    · exact h.cpos
    · exact hset
    · show b.pos + 1 < c; omega
    · simp only [List.length_append, List.length_singleton]
      rw [h.full_iff]
      constructor
      · omega
      · intro hh
        cases hf : b.full with
        | true => exact h.full_iff.1 hf
        | false => have := (h.notFull hf).1; omega
    · intro hf
      obtain ⟨h1, h2⟩ := h.notFull hf
      refine ⟨by simp [h1], ?_⟩
      show (b.array.set b.pos (some v)).take (b.pos + 1) = _
      rw [htake, h2]; simp
    · intro hf
      have h1 := h.isFull hf
      have h2 := h.full_iff.1 hf
      show (b.array.set b.pos (some v)).drop (b.pos + 1) ++ (b.array.set b.pos (some v)).take (b.pos + 1) = _
      rw [hdrop', htake]
      have h3 : (xs ++ [v]).length - c = (xs.length - c) + 1 := by simp; omega
      rw [h3, List.drop_append_of_le_length (by have := h.cpos; omega), List.map_append]
      have h4 : (xs.drop (xs.length - c + 1)).map some = b.array.drop (b.pos + 1) ++ b.array.take b.pos := by
        rw [← List.tail_drop, List.map_tail, ← h1, hdrop]; rfl
      rw [h4]
      simp

theorem Holds.numElements {c : Nat} {xs : List α} {b : RingBuffer α} (h : Holds c xs b) :
    b.numElements = min xs.length c := by
  unfold RingBuffer.numElements RingBuffer.capacity
  cases hf : b.full with
  | true => have := h.full_iff.1 hf; simp [h.len]; omega
  | false =>
    have h1 := (h.notFull hf).1
    have := h.pos_lt
    simp; omega

theorem Holds.cells_perm {c : Nat} {xs : List α} {b : RingBuffer α} (h : Holds c xs b) :
    b.cells.Perm ((xs.drop (xs.length - c)).map some) := by
  unfold RingBuffer.cells RingBuffer.capacity
  cases hf : b.full with
  | true =>
    rw [← h.isFull hf]
    simp only [if_true]
    rw [List.take_length]
    exact (List.perm_append_comm.trans (by rw [List.take_append_drop])).symm
  | false =>
    obtain ⟨h1, h2⟩ := h.notFull hf
    have h3 := h.pos_lt
    have h4 : xs.length - c = 0 := by omega
    rw [h4]
    simp [h2]

theorem Holds.pushAll {c : Nat} : ∀ (ys : List α) {xs : List α} {b : RingBuffer α}, Holds c xs b →
    ∃ b' rs, b.pushAll ys = .ok (b', rs) ∧ Holds c (xs ++ ys) b' ∧ rs.length = ys.length ∧
      ∀ i (hi : i < rs.length), rs[i].1 = decide (c ≤ xs.length + i) ∧
        (c ≤ xs.length + i → rs[i].2 = (xs ++ ys)[xs.length + i - c]?) := by
  intro ys
  induction ys with
  | nil => intro xs b h; exact ⟨b, [], rfl, by simpa using h, rfl, by simp⟩
  | cons y ys ih =>
    intro xs b h
    obtain ⟨b', old, h1, h2, h3⟩ := h.push y
    obtain ⟨b'', rs, h4, h5, h6, h7⟩ := ih h2
    refine ⟨b'', (b.full, old) :: rs, ?_, by simpa using h5, by simp [h6], ?_⟩
    · simp only [RingBuffer.pushAll, h1, ok_bind, h4]; rfl
    · intro i hi
      cases i with
      | zero =>
        simp only [List.getElem_cons_zero, Nat.add_zero]
        refine ⟨by rw [Bool.eq_iff_iff]; simp [h.full_iff], ?_⟩
        intro hc
        rw [h3 (h.full_iff.2 hc), List.getElem?_append_left (by have := h.cpos; omega)]
      | succ j =>
        simp only [List.length_cons] at hi
        have := h7 j (by omega)
        simp only [List.getElem_cons_succ]
        simp only [List.length_append, List.length_singleton, List.append_assoc, List.singleton_append] at this
        have e : xs.length + (j + 1) = xs.length + 1 + j := by omega
        rw [e]; exact this

end MLRL.RingBuffer
