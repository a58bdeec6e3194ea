import Verif.Lemma.SparseSet
import Mathlib.Algebra.Group.Basic

/-!
# C18: rows of sparse-set matrices behave like maps
-/

namespace MLRL.SparseSet

open Spec

variable {T : Type}

/-- **C18.** For every history of operations on existing columns of a new row with at most `2^32 - 1` columns, no undefined
behaviour occurs, looking up a column yields what the map contains after the same history, and iterating over the row visits
precisely the entries of the map, each of them once. -/
theorem sparseSet_refines_map (numCols : Nat) (hn : numCols ≤ 2 ^ 32 - 1) (ops : List (Op T))
    (hv : ∀ op ∈ ops, Valid numCols op) :
    ∃ s, ops.foldlM apply (init numCols) = .ok s ∧
      (∀ c < numCols, s.get c = .ok ((contents ops c).map (fun v => (c, v)))) ∧
      (s.values.map Prod.fst).Nodup ∧
      (∀ c v, (c, v) ∈ s.values ↔ c < numCols ∧ contents ops c = some v) := by
  have main : ∀ (ops : List (Op T)) (s : SparseSet T) (m : Nat → Option T), Rep numCols s m →
      (∀ op ∈ ops, Valid numCols op) → ∃ s', ops.foldlM apply s = .ok s' ∧ Rep numCols s' (ops.foldl Spec.apply m) := by
    intro ops
    induction ops with
    | nil => intro s m h _; exact ⟨s, rfl, h⟩
    | cons op ops ih =>
      intro s m h hv
      obtain ⟨s1, h1, h2⟩ := h.apply hn op (hv op (by simp))
      obtain ⟨s2, h3, h4⟩ := ih s1 _ h2 (fun op hop => hv op (List.mem_cons_of_mem _ hop))
      exact ⟨s2, by rw [List.foldlM_cons, h1, ok_bind, h3], h4⟩
  obtain ⟨s, h1, h2⟩ := main ops (init numCols) _ (rep_init numCols) hv
  refine ⟨s, h1, fun c hc => h2.get hn hc, h2.nodup, ?_⟩
  intro c v
  constructor
  · intro h
    obtain ⟨k, hk⟩ := List.mem_iff_getElem?.1 h
    exact ⟨(h2.cols k c v hk).1, (h2.cols k c v hk).2.2⟩
  · rintro ⟨hc, hm⟩
    obtain ⟨k, _, hk⟩ := h2.present c v hc hm
    exact List.mem_of_getElem? hk

/-- Instance with removal of an entry in the middle. -/
example : (do
    let s ← [.modify 2 0 (· + 5), .modify 0 0 (· + 7), .modify 1 0 (· - 1), .erase 2, .modify 0 0 (· + 1)].foldlM apply
      (init 3 : SparseSet Int)
    let a ← s.get 0
    let b ← s.get 1
    let c ← s.get 2
    return (a, b, c) : Res _) = .ok (some (0, 8), some (1, -1), none) := by decide +kernel

/-- The value of a column, where absent columns have the value zero. -/
def value [Zero T] (s : SparseSet T) (c : Nat) : Res T := do
  let e ← s.get c
  return match e with
    | some e => e.2
    | none => 0

/-- **C18**, for score matrices: adding the entries of a head to a row and removing them again leaves the value of each column
unchanged; after the first step, each column's value has been increased by what the head contains for it. -/
theorem addToRow_removeFromRow [AddCommGroup T] (numCols : Nat) (hn : numCols ≤ 2 ^ 32 - 1) (s : SparseSet T)
    (m : Nat → Option T) (h : Rep numCols s m) (entries : List (Nat × T)) (he : ∀ e ∈ entries, e.1 < numCols) :
    ∃ s1 s2, addToRow entries s = .ok s1 ∧ removeFromRow entries s1 = .ok s2 ∧
      (∃ m1, Rep numCols s1 m1) ∧ (∃ m2, Rep numCols s2 m2) ∧
      ∀ c < numCols, ∃ v, s.value c = .ok v ∧ s2.value c = .ok v ∧
        s1.value c = .ok (v + ((entries.filter (fun e => decide (e.1 = c))).map Prod.snd).sum) := by
  have hval : ∀ (s : SparseSet T) m, Rep numCols s m → ∀ c < numCols, s.value c = .ok ((m c).getD 0) := by
    intro s m h c hc
    unfold value
    rw [h.get hn hc, ok_bind]
    cases m c <;> rfl
  have hadd : ∀ (es : List (Nat × T)) (s : SparseSet T) m, Rep numCols s m → (∀ e ∈ es, e.1 < numCols) →
      ∃ s1 m1, addToRow es s = .ok s1 ∧ Rep numCols s1 m1 ∧
        ∀ c, (m1 c).getD 0 = (m c).getD 0 + ((es.filter (fun e => decide (e.1 = c))).map Prod.snd).sum := by
    intro es
    induction es with
    | nil => intro s m h _; exact ⟨s, m, rfl, h, by simp⟩
    | cons e es ih =>
      intro s m h he
      obtain ⟨i, v⟩ := e
      obtain ⟨s1, h1, h2⟩ := h.modify hn (he (i, v) (by simp)) 0 (fun x => x + v)
      obtain ⟨s2, m2, h3, h4, h5⟩ := ih s1 _ h2 (fun e he' => he e (List.mem_cons_of_mem _ he'))
      refine ⟨s2, m2, ?_, h4, ?_⟩
      · unfold addToRow
        rw [h1, ok_bind, h3]
      · intro c
        rw [h5 c]
        by_cases hc : i = c
        · subst hc; simp [add_assoc]
        · have hc' : ¬ c = i := fun e => hc e.symm
          simp [hc, hc']
  have hrem : ∀ (es : List (Nat × T)) (s : SparseSet T) m, Rep numCols s m → (∀ e ∈ es, e.1 < numCols) →
      ∃ s1 m1, removeFromRow es s = .ok s1 ∧ Rep numCols s1 m1 ∧
        ∀ c, (m1 c).getD 0 = (m c).getD 0 - ((es.filter (fun e => decide (e.1 = c))).map Prod.snd).sum := by
    intro es
    induction es with
    | nil => intro s m h _; exact ⟨s, m, rfl, h, by simp⟩
    | cons e es ih =>
      intro s m h he
      obtain ⟨i, v⟩ := e
      obtain ⟨s1, h1, h2⟩ := h.modify hn (he (i, v) (by simp)) 0 (fun x => x - v)
      obtain ⟨s2, m2, h3, h4, h5⟩ := ih s1 _ h2 (fun e he' => he e (List.mem_cons_of_mem _ he'))
      refine ⟨s2, m2, ?_, h4, ?_⟩
      · unfold removeFromRow
        rw [h1, ok_bind, h3]
      · intro c
        rw [h5 c]
        by_cases hc : i = c
        · subst hc; simp [sub_sub]
        · have hc' : ¬ c = i := fun e => hc e.symm
          simp [hc, hc']
  obtain ⟨s1, m1, h1, h2, h3⟩ := hadd entries s m h he
  obtain ⟨s2, m2, h4, h5, h6⟩ := hrem entries s1 m1 h2 he
  refine ⟨s1, s2, h1, h4, ⟨m1, h2⟩, ⟨m2, h5⟩, ?_⟩
  intro c hc
  refine ⟨(m c).getD 0, hval s m h c hc, ?_, ?_⟩
  · rw [hval s2 m2 h5 c hc, h6 c, h3 c, add_sub_cancel_right]
  · rw [hval s1 m1 h2 c hc, h3 c]

/-- An empty row meets the assumption. -/
example : ∃ m, Rep 3 (init 3 : SparseSet Int) m := ⟨_, rep_init 3⟩

example : (do
    let s ← addToRow [(1, 4), (0, 2), (1, 3)] (init 3 : SparseSet Int)
    let a ← s.value 1
    let s ← removeFromRow [(1, 4), (0, 2), (1, 3)] s
    let b ← s.value 1
    return (a, b) : Res _) = .ok (7, 0) := by decide +kernel

end MLRL.SparseSet
