import Verif.Lemma.Sampling
import Verif.Props.Random
import Mathlib.Data.List.Perm.Subperm

/-!
# Termination of the sampling loops with the generator that is used by the library
-/

namespace MLRL.Sampling

variable {S : Type}

/-- More fuel does not change the outcome of a finished loop. -/
theorem drawNew_mono {rng : Rng S} {total selected : List Nat} {fuel : Nat} {s : S} {a : Nat × S}
    (h : drawNew rng total selected fuel s = Run.done a) (n : Nat) (hn : fuel ≤ n) :
    drawNew rng total selected n s = Run.done a := by
  induction fuel generalizing s n with
  | zero => exact absurd h.symm Run.done_ne_unfinished
  | succ fuel ih =>
    obtain ⟨m, rfl⟩ : ∃ m, n = m + 1 := ⟨n - 1, by omega⟩
    unfold drawNew at h ⊢
    cases h1 : rng.randomInt 0 total.length s with
    | error e => rw [h1] at h; cases h
    | ok p =>
      obtain ⟨r, s'⟩ := p
      rw [h1, Run.lift_ok, Run.done_bind] at h
      rw [Run.lift_ok, Run.done_bind]
      simp only at h ⊢
      cases h2 : readAt total r with
      | error e => rw [h2] at h; cases h
      | ok x =>
        rw [h2, Run.lift_ok, Run.done_bind] at h
        rw [Run.lift_ok, Run.done_bind]
        by_cases hx : x ∈ selected
        · rw [if_pos hx] at h ⊢
          exact ih h m (by omega)
        · rw [if_neg hx] at h ⊢
          exact h

open XorShift in
theorem drawNew_finishes_of_draw {total selected : List Nat} (hlt : total.length < 2 ^ 31) {t x : Nat} (ht : total[t]? = some x)
    (hx : x ∉ selected) (k : Nat) :
    ∀ s, s < 2 ^ 32 → randomInt 0 total.length (stateAfter k s) = .ok (t, stateAfter (k + 1) s) →
      ∃ a, drawNew rng total selected (k + 1) s = Run.done a := by
  have hne : 0 < total.length := by
    have := (List.getElem?_eq_some_iff.mp ht).1
    omega
  induction k with
  | zero =>
    intro s hs h
    unfold drawNew
    have h' : rng.randomInt 0 total.length s = .ok (t, stateAfter 1 s) := h
    rw [h', Run.lift_ok, Run.done_bind]
    simp only
    rw [readAt_of_getElem? ht, Run.lift_ok, Run.done_bind, if_neg hx]
    exact ⟨_, rfl⟩
  | succ k ih =>
    intro s hs h
    obtain ⟨r, h1, -, h3⟩ := randomInt_range (min := 0) (max := total.length) hs hne (by omega)
    unfold drawNew
    have h1' : rng.randomInt 0 total.length s = .ok (r, next s) := h1
    rw [h1', Run.lift_ok, Run.done_bind]
    simp only
    rw [readAt_of_lt h3, Run.lift_ok, Run.done_bind]
    split
    · apply ih (next s) (next_lt hs)
      have e1 : stateAfter k (next s) = stateAfter (k + 1) s := by
        unfold stateAfter
        rw [Function.iterate_succ_apply]
      have e2 : stateAfter (k + 1) (next s) = stateAfter (k + 1 + 1) s := by
        unfold stateAfter
        rw [Function.iterate_succ_apply next (k + 1) s]
      rw [e1, e2]
      exact h
    · exact ⟨_, rfl⟩

open XorShift in
/-- The loop that searches for a new index is eventually left if there is a new index. -/
theorem drawNew_finishes {total selected : List Nat} (hlt : total.length < 2 ^ 31) {x : Nat} (hx : x ∈ total) (hx' : x ∉ selected)
    (s : Nat) (hs : s < 2 ^ 32) :
    ∃ fuel y s', y ∈ total ∧ y ∉ selected ∧ s' < 2 ^ 32 ∧ ∀ n, fuel ≤ n → drawNew rng total selected n s = Run.done (y, s') := by
  obtain ⟨t, ht⟩ := List.mem_iff_getElem?.mp hx
  have htl : t < total.length := (List.getElem?_eq_some_iff.mp ht).1
  obtain ⟨k, hk⟩ := every_number_drawn hs htl hlt
  obtain ⟨⟨y, s'⟩, ha⟩ := drawNew_finishes_of_draw hlt ht hx' k s hs hk
  rcases drawNew_spec rng_inRange (total := total) (selected := selected) (by omega) (by omega) (k + 1) s hs with h | ⟨y', s'', h, h1, h2, h3⟩
  · rw [ha] at h; exact absurd h Run.done_ne_unfinished
  · have e := Run.done_inj (ha.symm.trans h)
    simp only [Prod.mk.injEq] at e
    obtain ⟨rfl, rfl⟩ := e
    exact ⟨k + 1, y, s', h1, h2, h3, fun n hn => drawNew_mono ha n hn⟩

theorem exists_new {total selected : List Nat} (hnd : total.Nodup) (h : selected.length < total.length) :
    ∃ x, x ∈ total ∧ x ∉ selected := by
  apply Classical.byContradiction
  intro hc
  have hsub : total ⊆ selected := by
    intro x hx
    apply Classical.byContradiction
    intro hx'
    exact hc ⟨x, hx, hx'⟩
  have := (List.subperm_of_subset hnd hsub).length_le
  omega

open XorShift in
theorem trackingLoop_finishes {total : List Nat} (hnd : total.Nodup) (hlt : total.length < 2 ^ 31) (k : Nat)
    (selected sample : List Nat) (s : Nat) (hs : s < 2 ^ 32) (hk : selected.length + k ≤ total.length) :
    ∃ fuel l s', ∀ n, fuel ≤ n → trackingLoop rng n total k selected sample s = Run.done (l, s') := by
  induction k generalizing selected sample s with
  | zero => exact ⟨0, sample, s, fun _ _ => rfl⟩
  | succ k ih =>
    obtain ⟨x, hx, hx'⟩ := exists_new hnd (selected := selected) (by omega)
    obtain ⟨f1, y, s1, h1, h2, h3, h4⟩ := drawNew_finishes hlt hx hx' s hs
    obtain ⟨f2, l, s2, h5⟩ := ih (y :: selected) (sample ++ [y]) s1 h3 (by simp only [List.length_cons]; omega)
    refine ⟨max f1 f2, l, s2, fun n hn => ?_⟩
    unfold trackingLoop
    rw [h4 n (by omega), Run.done_bind]
    simp only
    exact h5 n (by omega)

end MLRL.Sampling
