import Verif.Lemma.XorShiftPeriod
import Verif.Spec.Sampling

/-!
# C15: random numbers
-/

namespace MLRL

namespace XorShift

/-- **C15.** The internal state stays non-zero (and a `uint32`), so that the generator never gets stuck. -/
theorem next_ne_zero {s : Nat} (h : s < 2 ^ 32) : next s ≠ 0 := by
  have h0 : fixZero s ≠ 0 ∧ fixZero s < 2 ^ 32 := by
    unfold fixZero
    split <;> omega
  unfold next
  apply xorShiftLeft_ne_zero (by omega)
  apply xorShiftRight_ne_zero (by omega) (xorShiftLeft_lt h0.2)
  exact xorShiftLeft_ne_zero (by omega) h0.1

/-- **C15.** `randomInt(min, max)` returns a number in `[min, max)` for all `min < max` and all states. -/
theorem randomInt_range {min max s : Nat} (hs : s < 2 ^ 32) (h : min < max) (hmax : max < 2 ^ 32) :
    ∃ r, randomInt min max s = .ok (r, next s) ∧ min ≤ r ∧ r < max := by
  have hd : (max + 2 ^ 32 - min) % 2 ^ 32 = max - min := by
    rw [show max + 2 ^ 32 - min = (max - min) + 2 ^ 32 by omega, Nat.add_mod_right, Nat.mod_eq_of_lt (by omega)]
  unfold randomInt
  simp only []
  rw [hd, modAt_of_pos (by omega), ok_bind]
  have hr : next s % (maxRandom + 1) % (max - min) < max - min := Nat.mod_lt _ (by omega)
  refine ⟨_, rfl, ?_, ?_⟩
  · rw [Nat.mod_eq_of_lt (by omega)]; omega
  · rw [Nat.mod_eq_of_lt (by omega)]; omega

/-- An empty range is undefined behaviour. -/
theorem randomInt_empty_range (x s : Nat) (hx : x < 2 ^ 32) : randomInt x x s = .error .divByZero := by
  unfold randomInt
  have : (x + 2 ^ 32 - x) % 2 ^ 32 = 0 := by
    rw [show x + 2 ^ 32 - x = 2 ^ 32 by omega, Nat.mod_self]
  rw [this]
  rfl

/-- **C15.** The generator fulfils what the sampling methods rely on, whatever seed is used. -/
theorem rng_inRange : rng.InRange (fun s => s < 2 ^ 32) := by
  intro min max s hs h hmax
  obtain ⟨r, h1, h2, h3⟩ := randomInt_range hs h hmax
  exact ⟨r, next s, h1, h2, h3, next_lt hs⟩

/-- A sequence of random numbers in given ranges. -/
def draws : List (Nat × Nat) → Nat → Res (List Nat)
  | [], _ => .ok []
  | (min, max) :: rs, s => do
    let (r, s) ← randomInt min max s
    let l ← draws rs s
    return r :: l

/-- **C15.** For each seed and all sequences of non-empty ranges, all numbers that are drawn are in range. Equal seeds give
equal sequences because the sequence is a function of the seed. -/
theorem draws_spec (rs : List (Nat × Nat)) (seed : Nat) (hs : seed < 2 ^ 32) (hr : ∀ p ∈ rs, p.1 < p.2 ∧ p.2 < 2 ^ 32) :
    ∃ l, draws rs seed = .ok l ∧ l.length = rs.length ∧
      ∀ (i : Nat) (p : Nat × Nat) (r : Nat), rs[i]? = some p → l[i]? = some r → p.1 ≤ r ∧ r < p.2 := by
  induction rs generalizing seed with
  | nil => exact ⟨[], rfl, rfl, by simp⟩
  | cons p rs ih =>
    obtain ⟨min, max⟩ := p
    obtain ⟨hp1, hp2⟩ := hr (min, max) (by simp)
    obtain ⟨r, h1, h2, h3⟩ := randomInt_range hs hp1 hp2
    obtain ⟨l, h4, h5, h6⟩ := ih (next seed) (next_lt hs) (fun p hp => hr p (List.mem_cons_of_mem _ hp))
    refine ⟨r :: l, ?_, by simp [h5], ?_⟩
    · unfold draws
      rw [h1, ok_bind]
      simp only
      rw [h4, ok_bind]; rfl
    · intro i p r' hp hr'
      cases i with
      | zero =>
        simp only [List.getElem?_cons_zero, Option.some.injEq] at hp hr'
        subst hp hr'
        exact ⟨h2, h3⟩
      | succ i => exact h6 i p r' (by simpa using hp) (by simpa using hr')

/-- The state after `n` further numbers have been drawn. -/
def stateAfter (n s : Nat) : Nat := next^[n] s

/-- **C15.** The generator runs through all `2^32 - 1` non-zero states before it repeats itself, whatever the seed. -/
theorem full_period {s v : Nat} (hs : 0 < s) (hs' : s < 2 ^ 32) (hv : 0 < v) (hv' : v < 2 ^ 32) :
    ∃ n, n < 2 ^ 32 - 1 ∧ stateAfter n s = v := by
  obtain ⟨n, hn, h⟩ := step_reaches hs hs' hv hv'
  exact ⟨n, hn, by rw [← h]; exact next_iterate hs hs' n⟩

/-- **C15.** The states that follow a non-zero seed do not repeat within the period. -/
theorem no_repetition {s i j : Nat} (hs : 0 < s) (hs' : s < 2 ^ 32) (hi : i < 2 ^ 32 - 1) (hj : j < 2 ^ 32 - 1)
    (h : stateAfter i s = stateAfter j s) : i = j := by
  unfold stateAfter at h
  rw [next_iterate hs hs', next_iterate hs hs'] at h
  exact step_inj hs hs' hi hj h

/-- **C15.** Every number of a range `[0, n)` is drawn eventually, whatever the state of the generator. -/
theorem every_number_drawn {s n t : Nat} (hs : s < 2 ^ 32) (ht : t < n) (hn : n < 2 ^ 31) :
    ∃ k, randomInt 0 n (stateAfter k s) = .ok (t, stateAfter (k + 1) s) := by
  have hs1 : 0 < next s := Nat.pos_of_ne_zero (next_ne_zero hs)
  obtain ⟨k, -, hk⟩ := full_period (v := if t = 0 then n else t) hs1 (next_lt hs) (by split <;> omega) (by split <;> omega)
  have hk' : stateAfter (k + 1) s = if t = 0 then n else t := by
    rw [← hk]
    unfold stateAfter
    rw [Function.iterate_succ_apply]
  refine ⟨k, ?_⟩
  have hnext : next (stateAfter k s) = stateAfter (k + 1) s := by
    unfold stateAfter
    rw [Function.iterate_succ_apply']
  unfold randomInt
  simp only []
  rw [hnext, show (n + 2 ^ 32 - 0) % 2 ^ 32 = n by
    rw [Nat.sub_zero, Nat.add_mod_right, Nat.mod_eq_of_lt (by omega)], modAt_of_pos (by omega), ok_bind, hk']
  have h31 : maxRandom + 1 = 2 ^ 31 := by decide
  have : (0 + (if t = 0 then n else t) % (maxRandom + 1) % n) % 2 ^ 32 = t := by
    rw [h31]
    split
    · next h0 => rw [Nat.mod_eq_of_lt hn, Nat.mod_self, h0, Nat.add_zero, Nat.zero_mod]
    · rw [Nat.mod_eq_of_lt (show t < 2 ^ 31 by omega), Nat.mod_eq_of_lt ht, Nat.zero_add, Nat.mod_eq_of_lt (by omega)]
  rw [this]
  rfl

example : draws [(0, 10), (5, 6), (3, 100)] 1 = .ok [9, 5, 42] := by decide +kernel

end XorShift

end MLRL
