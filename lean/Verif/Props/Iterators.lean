import Verif.Model.Iterators

/-!
# C20: iterators over sparse rows and over non-zero elements
-/

namespace MLRL.Iterators

namespace Spec

/-- The value a sparse row has at column `j`. -/
def valueAt {T : Type} (row : List (Nat × T)) (sparseValue : T) (j : Nat) : T :=
  match row.find? (fun e => decide (e.1 = j)) with
  | some e => e.2
  | none => sparseValue

/-- The columns of a dense row whose values are not zero, in increasing order. -/
def nonZeroColumns {T : Type} (isZero : T → Bool) (row : List T) : List Nat :=
  (List.range row.length).filter (fun j => match row[j]? with
    | some v => !isZero v
    | none => false)

end Spec

open Spec

/-- `n`-fold application. -/
def iterate {α : Type} (f : α → α) : Nat → α → α
  | 0, a => a
  | n + 1, a => f (iterate f n a)

theorem find?_append_lt {T : Type} (done rest : List (Nat × T)) (j : Nat) (h : ∀ e ∈ done, e.1 < j) :
    (done ++ rest).find? (fun e => decide (e.1 = j)) = rest.find? (fun e => decide (e.1 = j)) := by
  rw [List.find?_append]
  have : done.find? (fun e => decide (e.1 = j)) = none := by
    rw [List.find?_eq_none]
    intro e he
    have := h e he
    simp only [decide_eq_true_eq]
    omega
  rw [this]; rfl

/-- What holds for an iterator at column `j`. -/
structure SparseForward.Inv {T : Type} (row : List (Nat × T)) (sv : T) (j : Nat) (it : SparseForward T) : Prop where
  index : it.index = j
  sparse : it.sparseValue = sv
  split : ∃ done, row = done ++ it.rest ∧ ∀ e ∈ done, e.1 < j
  rest : ∀ e ∈ it.rest, j ≤ e.1
  head : ∀ e es, it.rest = e :: es → it.iteratorIndex = e.1

theorem SparseForward.Inv.next {T : Type} {row : List (Nat × T)} {sv : T} {j : Nat} {it : SparseForward T}
    (hs : row.Pairwise (fun a b => a.1 < b.1)) (h : SparseForward.Inv row sv j it) : SparseForward.Inv row sv (j + 1) it.next := by
  obtain ⟨h1, h2, ⟨done, h3, h4⟩, h5, h6⟩ := h
  obtain ⟨rest, index, iteratorIndex, sparseValue⟩ := it
  simp only at h1 h2 h3 h4 h5 h6
  subst h1 h2
  cases rest with
  | nil => exact ⟨rfl, rfl, ⟨done, h3, fun e he => Nat.lt_succ_of_lt (h4 e he)⟩, by simp [SparseForward.next], by
      simp [SparseForward.next]⟩
  | cons e es =>
    have hi : iteratorIndex = e.1 := h6 e es rfl
    subst hi
    have hej : index ≤ e.1 := h5 e (by simp)
    have hpw : ∀ e' ∈ es, e.1 < e'.1 := by
      rw [h3, List.pairwise_append] at hs
      exact (List.pairwise_cons.1 hs.2.1).1
    unfold SparseForward.next
    simp only
    by_cases hlt : e.1 < index + 1
    · rw [if_pos hlt]
      refine ⟨rfl, rfl, ⟨done ++ [e], by simp [h3], ?_⟩, ?_, ?_⟩
      · intro e' he'
        rcases List.mem_append.1 he' with he' | he'
        · exact Nat.lt_succ_of_lt (h4 e' he')
        · have : e' = e := by simpa using he'
          subst this; exact hlt
      · intro e' he'
        have := hpw e' he'
        simp only at he'
        omega
      · intro e' es' he'
        simp only at he'
        subst he'
        rfl
    · rw [if_neg hlt]
      refine ⟨rfl, rfl, ⟨done, h3, fun e he => Nat.lt_succ_of_lt (h4 e he)⟩, ?_, ?_⟩
      · intro e' he'
        simp only at he'
        rcases List.mem_cons.1 he' with rfl | he'
        · omega
        · have := hpw e' he'; omega
      · intro e' es' he'
        simp only [List.cons.injEq] at he'
        rw [he'.1]

/-- **C20.** Iterating over a sparse row whose indices are strictly increasing and not smaller than the start index yields, after
`j` steps, the value of the dense row at column `startIndex + j`. -/
theorem sparseForward_spec {T : Type} (row : List (Nat × T)) (sv : T) (start : Nat) (hs : row.Pairwise (fun a b => a.1 < b.1))
    (hstart : ∀ e ∈ row, start ≤ e.1) (j : Nat) :
    (iterate SparseForward.next j (SparseForward.create row start sv)).deref = valueAt row sv (start + j) := by
  have inv : ∀ j, SparseForward.Inv row sv (start + j) (iterate SparseForward.next j (SparseForward.create row start sv)) := by
    intro j
    induction j with
    | zero =>
      refine ⟨rfl, rfl, ⟨[], rfl, by simp⟩, hstart, ?_⟩
      intro e es he
      have he' : row = e :: es := he
      subst he'
      rfl
    | succ j ih => exact ih.next hs
  obtain ⟨h1, h2, ⟨done, h3, h4⟩, h5, h6⟩ := inv j
  generalize iterate SparseForward.next j (SparseForward.create row start sv) = it at *
  have hf := find?_append_lt done it.rest (start + j) h4
  rw [← h3] at hf
  unfold valueAt
  rw [hf]
  unfold SparseForward.deref
  cases hr : it.rest with
  | nil => simp [h2]
  | cons e es =>
    rw [h6 e es hr, h1, h2]
    by_cases he : e.1 = start + j
    · simp [he]
    · simp only [he, if_false, List.find?_cons, decide_false]
      have hpw : ∀ e' ∈ es, e.1 < e'.1 := by
        rw [h3, hr, List.pairwise_append] at hs
        exact (List.pairwise_cons.1 hs.2.1).1
      have : es.find? (fun e => decide (e.1 = start + j)) = none := by
        rw [List.find?_eq_none]
        intro e' he'
        have h7 := hpw e' he'
        have h8 := h5 e (by rw [hr]; simp)
        simp only [decide_eq_true_eq]
        omega
      rw [this]

example : (List.range 5).map (fun j => (iterate SparseForward.next j (SparseForward.create [(1, 7), (3, 9)] 0 0)).deref) =
    [0, 7, 0, 9, 0] := rfl

/-- The assumption that the indices are increasing is needed: otherwise, elements are missed. -/
theorem sparseForward_unsorted :
    (List.range 5).map (fun j => (iterate SparseForward.next j (SparseForward.create [(3, 9), (1, 7)] 0 0)).deref) ≠
      (List.range 5).map (valueAt [(3, 9), (1, 7)] 0) := by decide

/-- A binary iterator behaves like an iterator over a row whose dense values are true. -/
theorem binary_eq_sparse (row : List Nat) (start j : Nat) :
    let b := iterate BinarySparseForward.next j (BinarySparseForward.create row start)
    let s := iterate SparseForward.next j (SparseForward.create (row.map (fun i => (i, true))) start false)
    s.rest = b.rest.map (fun i => (i, true)) ∧ s.index = b.index ∧ s.iteratorIndex = b.iteratorIndex ∧
      s.sparseValue = false := by
  induction j with
  | zero => cases row <;> exact ⟨rfl, rfl, rfl, rfl⟩
  | succ j ih =>
    simp only [iterate] at ih ⊢
    generalize iterate BinarySparseForward.next j (BinarySparseForward.create row start) = b at *
    generalize iterate SparseForward.next j (SparseForward.create (row.map (fun i => (i, true))) start false) = s at *
    obtain ⟨sr, si, sii, sv⟩ := s
    obtain ⟨br, bi, bii⟩ := b
    simp only at ih
    obtain ⟨rfl, rfl, rfl, rfl⟩ := ih
    cases br with
    | nil => exact ⟨rfl, rfl, rfl, rfl⟩
    | cons i is =>
      unfold SparseForward.next BinarySparseForward.next
      simp only [List.map_cons]
      split
      · cases is <;> exact ⟨rfl, rfl, rfl, rfl⟩
      · exact ⟨rfl, rfl, rfl, rfl⟩

/-- **C20.** Iterating over a sparse binary row yields, after `j` steps, whether column `startIndex + j` belongs to the row. -/
theorem binarySparseForward_spec (row : List Nat) (start : Nat) (hs : row.Pairwise (· < ·))
    (hstart : ∀ i ∈ row, start ≤ i) (j : Nat) :
    (iterate BinarySparseForward.next j (BinarySparseForward.create row start)).deref = decide (start + j ∈ row) := by
  obtain ⟨h1, h2, h3, h4⟩ := binary_eq_sparse row start j
  have h := sparseForward_spec (row.map (fun i => (i, true))) false start (by rw [List.pairwise_map]; exact hs)
    (by intro e he; obtain ⟨i, hi, rfl⟩ := List.mem_map.1 he; exact hstart i hi) j
  have hd : (iterate BinarySparseForward.next j (BinarySparseForward.create row start)).deref =
      (iterate SparseForward.next j (SparseForward.create (row.map (fun i => (i, true))) start false)).deref := by
    unfold BinarySparseForward.deref SparseForward.deref
    rw [h1, h2, h3, h4]
    cases (iterate BinarySparseForward.next j (BinarySparseForward.create row start)).rest with
    | nil => rfl
    | cons i is => simp only [List.map_cons]; split <;> simp_all
  rw [hd, h]
  unfold valueAt
  by_cases hm : start + j ∈ row
  · have : ∃ e, (row.map (fun i => (i, true))).find? (fun e => decide (e.1 = start + j)) = some e := by
      rw [← Option.isSome_iff_exists, List.find?_isSome]
      exact ⟨(start + j, true), List.mem_map.2 ⟨_, hm, rfl⟩, by simp⟩
    obtain ⟨e, he⟩ := this
    rw [he]
    have := List.mem_of_find?_eq_some he
    obtain ⟨i, _, rfl⟩ := List.mem_map.1 this
    simp [hm]
  · have : (row.map (fun i => (i, true))).find? (fun e => decide (e.1 = start + j)) = none := by
      rw [List.find?_eq_none]
      intro e he
      obtain ⟨i, hi, rfl⟩ := List.mem_map.1 he
      simp only [decide_eq_true_eq]
      rintro rfl
      exact hm hi
    rw [this]
    simp [hm]

example : (List.range 4).map (fun j => (iterate BinarySparseForward.next j (BinarySparseForward.create [0, 2] 0)).deref) =
    [true, false, true, false] := rfl

/-- Non-zero columns, computed from the left. -/
def nonZeroFrom {T : Type} (isZero : T → Bool) : List T → Nat → List Nat
  | [], _ => []
  | v :: vs, i => if !isZero v then i :: nonZeroFrom isZero vs (i + 1) else nonZeroFrom isZero vs (i + 1)

theorem nonZeroFrom_eq {T : Type} (isZero : T → Bool) (row : List T) (i : Nat) :
    nonZeroFrom isZero row i = (nonZeroColumns isZero row).map (fun j => i + j) := by
  induction row generalizing i with
  | nil => rfl
  | cons v vs ih =>
    have : nonZeroColumns isZero (v :: vs) =
        (if !isZero v then [0] else []) ++ (nonZeroColumns isZero vs).map (fun j => j + 1) := by
      unfold nonZeroColumns
      rw [List.length_cons, List.range_succ_eq_map, List.filter_cons, List.filter_map]
      simp only [List.getElem?_cons_zero, Function.comp_def, Nat.succ_eq_add_one, List.getElem?_cons_succ]
      by_cases hz : (!isZero v) = true
      · rw [if_pos hz, if_pos hz]; rfl
      · rw [if_neg hz, if_neg hz]; rfl
    unfold nonZeroFrom
    rw [this, ih]
    cases isZero v <;> simp [Function.comp_def, Nat.add_assoc, Nat.add_comm 1]

theorem collect_skip {T : Type} (isZero : T → Bool) (row : List T) : ∀ (fuel index : Nat), row.length < fuel →
    NonZeroIndex.collect isZero fuel (NonZeroIndex.skip isZero row index) = some (.ok (nonZeroFrom isZero row index)) := by
  induction row with
  | nil =>
    intro fuel index h
    cases fuel with
    | zero => simp at h
    | succ fuel => rfl
  | cons v vs ih =>
    intro fuel index h
    rw [List.length_cons] at h
    unfold NonZeroIndex.skip nonZeroFrom
    cases hz : isZero v with
    | true => simp only [Bool.not_true, Bool.false_eq_true, if_false]; exact ih fuel (index + 1) (by omega)
    | false =>
      simp only [Bool.not_false, if_true]
      cases fuel with
      | zero => omega
      | succ fuel =>
        unfold NonZeroIndex.collect NonZeroIndex.next
        simp only
        rw [ih fuel (index + 1) (by omega)]
        rfl

/-- **C20.** Iterating over the indices of non-zero elements of a row terminates without undefined behaviour and yields exactly
the columns with non-zero values, in increasing order. -/
theorem nonZeroIndex_spec {T : Type} (isZero : T → Bool) (row : List T) (fuel : Nat) (hfuel : row.length < fuel) :
    NonZeroIndex.collect isZero fuel (NonZeroIndex.create isZero row) = some (.ok (nonZeroColumns isZero row)) := by
  unfold NonZeroIndex.create
  rw [collect_skip isZero row fuel 0 hfuel, nonZeroFrom_eq]
  simp

example : NonZeroIndex.collect (fun x => x == 0) 9 (NonZeroIndex.create (fun x => x == 0) [0, 3, 0, 0, 5]) =
    some (.ok [1, 4]) := rfl

/-- The postfix decrement operator of `IndexIterator` increments. -/
theorem indexIterator_decrement_wrong (it : IndexIterator) : it.prevPostfix.deref = it.deref + 1 := rfl

/-- Random access of an `IndexIterator` does not respect its position: after one step, `it[0]` is not `*it`. -/
theorem indexIterator_random_access_wrong : (IndexIterator.mk 0).next.get 0 ≠ (IndexIterator.mk 0).next.deref := by decide

end MLRL.Iterators
