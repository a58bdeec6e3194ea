import Verif.Model.BitVector

/-!
# C19: bit vectors
-/

namespace MLRL.BitVector

namespace Spec

/-- The effect of an operation on an array of bits. -/
def apply (b : Nat → Bool) : Op → (Nat → Bool)
  | .set pos value => fun p => if p = pos then value else b p
  | .clear => fun _ => false

/-- The operation refers to an existing position. -/
def Valid (n : Nat) : Op → Prop
  | .set pos _ => pos < n
  | .clear => True

end Spec

open Spec

/-- The words represent an array of bits. -/
def Rep (n : Nat) (v : BitVector) (b : Nat → Bool) : Prop :=
  v.numElements = n ∧ v.words.length = size n ∧ (∀ w ∈ v.words, ∃ x, w = some x ∧ x < 2 ^ 32) ∧
    ∀ p < n, ∃ w, v.words[index p]? = some (some w) ∧ w.testBit (p % 32) = b p

theorem index_lt {n p : Nat} (h : p < n) : index p < size n := by
  unfold index size wordSize
  split <;> omega

theorem and_mask (w p : Nat) : decide (w &&& mask p ≠ 0) = w.testBit (p % 32) := by
  unfold mask wordSize
  cases h : w.testBit (p % 32) with
  | true =>
    have : w &&& 2 ^ (p % 32) ≠ 0 := by
      intro e
      have h2 : (w &&& 2 ^ (p % 32)).testBit (p % 32) = false := by rw [e]; simp
      rw [Nat.testBit_and, h, Nat.testBit_two_pow_self] at h2
      simp at h2
    simp [this]
  | false =>
    have : w &&& 2 ^ (p % 32) = 0 := by
      apply Nat.eq_of_testBit_eq
      intro i
      rw [Nat.testBit_and, Nat.testBit_two_pow]
      by_cases e : p % 32 = i
      · subst e; simp [h]
      · simp [e]
    simp [this]

theorem testBit_set (w p i : Nat) (value : Bool) (hi : i < 32) :
    (if value then w ||| mask p else w &&& complement (mask p)).testBit i = if i = p % 32 then value else w.testBit i := by
  have hm : mask p < 2 ^ 32 := by
    unfold mask wordSize
    exact Nat.pow_lt_pow_right (by omega) (Nat.mod_lt _ (by omega))
  cases value with
  | true =>
    simp only [if_true]
    rw [Nat.testBit_or]
    unfold mask wordSize
    rw [Nat.testBit_two_pow]
    by_cases e : i = p % 32
    · subst e; simp
    · have : ¬ p % 32 = i := fun h => e h.symm
      simp [e, this]
  | false =>
    simp only [Bool.false_eq_true, if_false]
    rw [Nat.testBit_and]
    unfold complement
    rw [Nat.testBit_two_pow_sub_succ hm]
    unfold mask wordSize
    rw [Nat.testBit_two_pow]
    by_cases e : i = p % 32
    · subst e; simp
    · have : ¬ p % 32 = i := fun h => e h.symm
      simp [e, this, hi]

theorem set_lt (w p : Nat) (hw : w < 2 ^ 32) (value : Bool) :
    (if value then w ||| mask p else w &&& complement (mask p)) < 2 ^ 32 := by
  have hm : mask p < 2 ^ 32 := by
    unfold mask wordSize
    exact Nat.pow_lt_pow_right (by omega) (Nat.mod_lt _ (by omega))
  cases value with
  | true => simp only [if_true]; exact Nat.or_lt_two_pow hw hm
  | false => simp only [Bool.false_eq_true, if_false]; exact Nat.lt_of_le_of_lt Nat.and_le_left hw

theorem rep_create (n : Nat) : Rep n (create n true) (fun _ => false) := by
  refine ⟨rfl, by simp [create], ?_, ?_⟩
  · intro w hw
    have := List.eq_of_mem_replicate hw
    exact ⟨0, by simpa using this, by omega⟩
  · intro p hp
    exact ⟨0, by simp [create, index_lt hp], by simp⟩

theorem Rep.get {n : Nat} {v : BitVector} {b : Nat → Bool} (h : Rep n v b) {p : Nat} (hp : p < n) : v.get p = .ok (b p) := by
  obtain ⟨w, h1, h2⟩ := h.2.2.2 p hp
  unfold BitVector.get
  rw [readAt_of_getElem? h1, ok_bind]
  show (pure (decide (w &&& mask p ≠ 0)) : Res Bool) = _
  rw [and_mask, h2]; rfl

theorem Rep.apply {n : Nat} {v : BitVector} {b : Nat → Bool} (h : Rep n v b) (op : Op) (hv : Valid n op) :
    ∃ v', v.apply op = .ok v' ∧ Rep n v' (Spec.apply b op) := by
  obtain ⟨h1, h2, h3, h4⟩ := h
  cases op with
  | clear =>
    refine ⟨v.clear, rfl, h1, by simp [clear, h2], ?_, ?_⟩
    · intro w hw
      simp only [clear, List.mem_map] at hw
      obtain ⟨_, _, rfl⟩ := hw
      exact ⟨0, rfl, by omega⟩
    · intro p hp
      refine ⟨0, ?_, by simp [Spec.apply]⟩
      have : index p < v.words.length := by rw [h2]; exact index_lt hp
      simp [clear, this]
  | set pos value =>
    have hpos : pos < n := hv
    obtain ⟨w, g1, g2⟩ := h4 pos hpos
    have hlt : index pos < v.words.length := by rw [h2]; exact index_lt hpos
    have hw : w < 2 ^ 32 := by
      obtain ⟨x, e, hx⟩ := h3 _ (List.mem_of_getElem? g1)
      cases e; exact hx
    simp only [BitVector.apply, BitVector.set]
    rw [readAt_of_getElem? g1, ok_bind, useInit, ok_bind, writeAt_of_lt hlt, ok_bind]
    refine ⟨_, rfl, h1, by simp [h2], ?_, ?_⟩
    · intro x hx
      rcases List.mem_or_eq_of_mem_set hx with hx | rfl
      · exact h3 x hx
      · exact ⟨_, rfl, set_lt w pos hw value⟩
    · intro p hp
      simp only [Spec.apply]
      by_cases e : index pos = index p
      · refine ⟨_, by rw [← e]; exact List.getElem?_set_self hlt, ?_⟩
        rw [testBit_set w pos (p % 32) value (Nat.mod_lt _ (by omega))]
        unfold index wordSize at e
        by_cases e2 : p = pos
        · subst e2; simp
        · have : ¬ p % 32 = pos % 32 := by omega
          rw [if_neg this, if_neg e2]
          obtain ⟨w', g3, g4⟩ := h4 p hp
          have hi : index p = index pos := by unfold index wordSize; omega
          rw [hi, g1] at g3
          cases g3
          exact g4
      · obtain ⟨w', g3, g4⟩ := h4 p hp
        refine ⟨w', by rw [List.getElem?_set_ne e]; exact g3, ?_⟩
        have : p ≠ pos := by rintro rfl; exact e rfl
        rw [if_neg this, g4]

/-- **C19.** For every history of operations on valid positions of a zero-initialised bit vector, no access leaves the array,
and reading a valid position returns the value that has been set last at this position (false initially and after clearing),
i.e. setting a bit does not affect other bits. -/
theorem bitVector_refines_array (n : Nat) (ops : List Op) (hv : ∀ op ∈ ops, Valid n op) :
    ∃ v, ops.foldlM apply (create n true) = .ok v ∧
      ∀ p < n, v.get p = .ok (ops.foldl Spec.apply (fun _ => false) p) := by
  have main : ∀ (ops : List Op) (v : BitVector) (b : Nat → Bool), Rep n v b → (∀ op ∈ ops, Valid n op) →
      ∃ v', ops.foldlM apply v = .ok v' ∧ Rep n v' (ops.foldl Spec.apply b) := by
    intro ops
    induction ops with
    | nil => intro v b h _; exact ⟨v, rfl, h⟩
    | cons op ops ih =>
      intro v b h hv
      obtain ⟨v1, h1, h2⟩ := h.apply op (hv op (by simp))
      obtain ⟨v2, h3, h4⟩ := ih v1 _ h2 (fun op hop => hv op (List.mem_cons_of_mem _ hop))
      exact ⟨v2, by rw [List.foldlM_cons, h1, ok_bind, h3], h4⟩
  obtain ⟨v, h1, h2⟩ := main ops _ _ (rep_create n) hv
  exact ⟨v, h1, fun p hp => h2.get hp⟩

example : (do
    let v ← [.set 33 true, .set 1 true, .set 33 false, .set 32 true].foldlM apply (create 40 true)
    let a ← v.get 33
    let b ← v.get 1
    let c ← v.get 32
    return (a, b, c) : Res _) = .ok (false, true, true) := by decide +kernel

/-- Without initialisation, reading a bit is an access to uninitialised memory. -/
theorem uninitialised_bitVector (n p : Nat) (hp : p < n) : (create n false).get p = .error .uninitialised := by
  unfold BitVector.get
  have : (create n false).words[index p]? = some none := by simp [create, index_lt hp]
  rw [readAt_of_getElem? this]
  rfl

end MLRL.BitVector
