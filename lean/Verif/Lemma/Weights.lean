import Verif.Lemma.SamplingTermination
import Verif.Props.BitVector

/-!
# Lemmas about the sampling of weights
-/

namespace MLRL.Sampling

open BitVector

variable {S : Type} {rng : Rng S} {P : S → Prop}

theorem clear_rep {n : Nat} {v : BitVector} (h1 : v.numElements = n) (h2 : v.words.length = size n) :
    Rep n v.clear (fun p => decide (p ∈ ([] : List Nat))) := by
  refine ⟨h1, by simpa [clear] using h2, ?_, ?_⟩
  · intro w hw
    unfold clear at hw
    rw [List.mem_map] at hw
    obtain ⟨_, _, rfl⟩ := hw
    exact ⟨0, rfl, by omega⟩
  · intro p hp
    refine ⟨0, ?_, by simp⟩
    unfold clear
    simp only [List.getElem?_map]
    rw [List.getElem?_eq_getElem (by rw [h2]; exact index_lt hp)]
    rfl

theorem set_rep {n : Nat} {v : BitVector} {selected : List Nat} (h : Rep n v (fun p => decide (p ∈ selected))) {x : Nat}
    (hx : x < n) : ∃ v', v.set x true = .ok v' ∧ Rep n v' (fun p => decide (p ∈ x :: selected)) := by
  obtain ⟨v', h1, h2⟩ := h.apply (.set x true) hx
  refine ⟨v', h1, ?_⟩
  have : Spec.apply (fun p => decide (p ∈ selected)) (.set x true) = fun p => decide (p ∈ x :: selected) := by
    funext p
    simp only [Spec.apply, List.mem_cons]
    by_cases hp : p = x <;> simp [hp]
  rwa [this] at h2

theorem weightTrackingLoop_spec (hr : rng.InRange P) {n : Nat} {total : List Nat} (hlt : total.length < 2 ^ 32)
    (hn : ∀ x ∈ total, x < n) (fuel k : Nat) (selected : List Nat) (v : BitVector) (s : S) (hs : P s)
    (hv : Rep n v (fun p => decide (p ∈ selected))) (hnd : selected.Nodup) (hsub : ∀ x ∈ selected, x ∈ total)
    (hk : 0 < k → 0 < total.length) :
    weightTrackingLoop rng fuel total k selected v s = Run.unfinished ∨
      ∃ v' s' sel, weightTrackingLoop rng fuel total k selected v s = Run.done (v', s') ∧
        Spec.Drawn total (selected.length + k) sel ∧ Rep n v' (fun p => decide (p ∈ sel)) ∧ P s' := by
  induction k generalizing selected v s with
  | zero => exact Or.inr ⟨v, s, selected, rfl, ⟨rfl, hnd, hsub⟩, hv, hs⟩
  | succ k ih =>
    unfold weightTrackingLoop
    rcases drawNew_spec hr (selected := selected) (hk (by omega)) hlt fuel s hs with h | ⟨x, s', h, hx, hx', hs'⟩
    · rw [h]; exact Or.inl rfl
    · rw [h, Run.done_bind]
      simp only
      obtain ⟨v', h1, h2⟩ := set_rep hv (hn x hx)
      rw [h1, Run.lift_ok, Run.done_bind]
      rcases ih (x :: selected) v' s' hs' h2 (List.nodup_cons.mpr ⟨hx', hnd⟩)
        (by
          intro y hy
          rcases List.mem_cons.mp hy with rfl | hy
          · exact hx
          · exact hsub y hy)
        (fun _ => hk (by omega)) with h3 | ⟨v'', s'', sel, h3, h4, h5, h6⟩
      · exact Or.inl h3
      · refine Or.inr ⟨v'', s'', sel, h3, ?_, h5, h6⟩
        have : (x :: selected).length + k = selected.length + (k + 1) := by simp only [List.length_cons]; omega
        rwa [this] at h4

open XorShift in
theorem weightTrackingLoop_finishes {n : Nat} {total : List Nat} (hnd : total.Nodup) (hlt : total.length < 2 ^ 31)
    (hn : ∀ x ∈ total, x < n) (k : Nat) (selected : List Nat) (v : BitVector) (s : Nat) (hs : s < 2 ^ 32)
    (hv : Rep n v (fun p => decide (p ∈ selected))) (hk : selected.length + k ≤ total.length) :
    ∃ fuel v' s', ∀ m, fuel ≤ m → weightTrackingLoop XorShift.rng m total k selected v s = Run.done (v', s') := by
  induction k generalizing selected v s with
  | zero => exact ⟨0, v, s, fun _ _ => rfl⟩
  | succ k ih =>
    obtain ⟨x, hx, hx'⟩ := exists_new hnd (selected := selected) (by omega)
    obtain ⟨f1, y, s1, h1, h2, h3, h4⟩ := drawNew_finishes hlt hx hx' s hs
    obtain ⟨v', e1, e2⟩ := set_rep hv (hn y h1)
    obtain ⟨f2, l, s2, h5⟩ := ih (y :: selected) v' s1 h3 e2 (by simp only [List.length_cons]; omega)
    refine ⟨max f1 f2, l, s2, fun n hn => ?_⟩
    unfold weightTrackingLoop
    rw [h4 n (by omega), Run.done_bind]
    simp only
    rw [e1, Run.lift_ok, Run.done_bind]
    exact h5 n (by omega)

/-- Removing the element at a position from the first `m + 1` elements by overwriting it with the last one of them. -/
theorem take_set_last_perm {pool : List Nat} {m r : Nat} (hm : m < pool.length) (hrm : r ≤ m) :
    (pool[r] :: (pool.set r pool[m]).take m).Perm (pool.take (m + 1)) := by
  have h1 : (pool.set r pool[m]).take m ++ [pool[r]] = ((pool.set r pool[m]).set m pool[r]).take (m + 1) := by
    rw [List.take_succ_eq_append_getElem (by simpa using hm), List.getElem_set_self, List.take_set_of_le (Nat.le_refl m)]
  have h2 : ((pool.set r pool[m]).set m pool[r]).Perm pool := List.set_set_perm (by omega) hm
  have h3 : (((pool.set r pool[m]).set m pool[r]).take (m + 1) ++ pool.drop (m + 1)).Perm
      (pool.take (m + 1) ++ pool.drop (m + 1)) := by
    have e : pool.drop (m + 1) = ((pool.set r pool[m]).set m pool[r]).drop (m + 1) := by
      rw [List.drop_set_of_lt (by omega), List.drop_set_of_lt (by omega)]
    rw [List.take_append_drop]
    conv_lhs => rw [e]
    rw [List.take_append_drop]
    exact h2
  have h4 := (List.perm_append_right_iff _).mp h3
  rw [← h1] at h4
  exact (List.perm_append_singleton pool[r] _).symm.trans h4

theorem weightsViaPool_spec (hr : rng.InRange P) {n : Nat} {total : List Nat} (hnd : total.Nodup) (hlt : total.length < 2 ^ 32)
    (hn : ∀ x ∈ total, x < n) {w : BitWeights} (hw1 : w.vector.numElements = n) (hw2 : w.vector.words.length = size n) (k : Nat)
    (hk : k ≤ total.length) (s : S) (hs : P s) :
    ∃ w' s' sel, weightsViaPool rng w total k s = .ok (w', s') ∧ w'.numNonZeroWeights = k ∧
      Spec.Drawn total k sel ∧ Rep n w'.vector (fun p => decide (p ∈ sel)) ∧ P s' := by
  unfold weightsViaPool
  obtain ⟨⟨pool, v, s'⟩, h1, h2⟩ := loop_rule (body := poolStep rng total.length)
    (fun i t => ∃ sel, sel.length = i ∧ t.1.length = total.length ∧ (sel ++ t.1.take (total.length - i)).Perm total ∧
      Rep n t.2.1 (fun p => decide (p ∈ sel)) ∧ P t.2.2) k (total, w.vector.clear, s)
    ⟨[], rfl, rfl, by simp, clear_rep hw1 hw2, hs⟩ (by
      rintro i ⟨pool, v, s⟩ hi ⟨sel, h1, h2, h3, h4, h5⟩
      simp only at h2 h3 h4 h5
      obtain ⟨r, s', e1, -, e3, e4⟩ := hr 0 (total.length - i) s h5 (by omega) (by omega)
      unfold poolStep
      simp only
      have hrl : r < pool.length := by omega
      have hml : total.length - i - 1 < pool.length := by omega
      rw [e1, ok_bind]
      simp only
      rw [readAt_of_lt hrl, ok_bind]
      have hperm := take_set_last_perm (pool := pool) (m := total.length - i - 1) (r := r) hml (by omega)
      have hm1 : total.length - i - 1 + 1 = total.length - i := by omega
      rw [hm1] at hperm
      have hmem : pool[r] ∈ total := by
        apply h3.subset
        apply List.mem_append_right
        exact hperm.subset List.mem_cons_self
      obtain ⟨v', e5, e6⟩ := set_rep h4 (hn _ hmem)
      rw [e5, ok_bind, readAt_of_lt hml, ok_bind, writeAt_of_lt hrl, ok_bind]
      refine ⟨_, rfl, pool[r] :: sel, by simp [h1], by simpa using h2, ?_, e6, e4⟩
      show (pool[r] :: sel ++ (pool.set r pool[total.length - i - 1]).take (total.length - (i + 1))).Perm total
      have hm2 : total.length - (i + 1) = total.length - i - 1 := by omega
      rw [hm2]
      refine List.Perm.trans ?_ h3
      refine List.Perm.trans List.perm_middle.symm ?_
      exact List.Perm.append_left sel hperm)
  obtain ⟨sel, e1, e2, e3, e4, e5⟩ := h2
  rw [h1, ok_bind]
  refine ⟨_, s', sel, rfl, rfl, ⟨e1, ?_, ?_⟩, e4, e5⟩
  · exact (e3.nodup_iff.mpr hnd).sublist (List.sublist_append_left _ _)
  · intro x hx
    exact e3.subset (List.mem_append_left _ hx)

theorem sum_set_succ {l : List Nat} {i : Nat} (h : i < l.length) : (l.set i (l[i] + 1)).sum = l.sum + 1 := by
  induction l generalizing i with
  | nil => exact absurd h (by simp)
  | cons a l ih =>
    cases i with
    | zero => simp; omega
    | succ i =>
      have := ih (i := i) (by simpa using h)
      simp only [List.set_cons_succ, List.getElem_cons_succ, List.sum_cons, this]
      omega

theorem countP_set_succ {l : List Nat} {i : Nat} (h : i < l.length) :
    (l.set i (l[i] + 1)).countP (fun w => decide (w ≠ 0)) =
      if l[i] = 0 then l.countP (fun w => decide (w ≠ 0)) + 1 else l.countP (fun w => decide (w ≠ 0)) := by
  induction l generalizing i with
  | nil => exact absurd h (by simp)
  | cons a l ih =>
    cases i with
    | zero =>
      simp only [List.set_cons_zero, List.getElem_cons_zero, List.countP_cons]
      by_cases ha : a = 0 <;> simp [ha]
    | succ i =>
      have := ih (i := i) (by simpa using h)
      simp only [List.set_cons_succ, List.getElem_cons_succ, List.countP_cons, this]
      split <;> omega

end MLRL.Sampling
