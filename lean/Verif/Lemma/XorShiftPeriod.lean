import Verif.Lemma.XorShiftCert
import Mathlib.Tactic.NormNum.Prime
import Mathlib.Data.Finset.Card
import Mathlib.Order.Interval.Finset.Nat

/-!
# The period of the random number generator
-/

namespace MLRL.XorShift

open Cert

theorem step_ne_zero {s : Nat} (hs : s < 2 ^ 32) (h : s ≠ 0) : step s ≠ 0 := by
  unfold step
  apply xorShiftLeft_ne_zero (by omega)
  apply xorShiftRight_ne_zero (by omega) (xorShiftLeft_lt hs)
  exact xorShiftLeft_ne_zero (by omega) h

theorem iterate_pos {s : Nat} (hs : 0 < s) (hs' : s < 2 ^ 32) (n : Nat) : 0 < step^[n] s := by
  induction n with
  | zero => exact hs
  | succ n ih =>
    rw [Function.iterate_succ_apply']
    exact Nat.pos_of_ne_zero (step_ne_zero (iterate_lt hs' n) (by omega))

theorem next_iterate {s : Nat} (hs : 0 < s) (hs' : s < 2 ^ 32) (n : Nat) : next^[n] s = step^[n] s := by
  induction n with
  | zero => rfl
  | succ n ih =>
    rw [Function.iterate_succ_apply', Function.iterate_succ_apply', ih, next_eq_step]
    exact Nat.ne_of_gt (iterate_pos hs hs' n)

theorem isPeriodic {s : Nat} (hs' : s < 2 ^ 32) : Function.IsPeriodicPt step 4294967295 s := by
  have h1 : step^[4294967296] s = step s := by
    rw [← pow_p32 s hs', pow_p0 s hs']
    rfl
  have h2 : step (step^[4294967295] s ^^^ s) = 0 := by
    rw [step_lin, ← Function.iterate_succ_apply' step 4294967295 s, h1, Nat.xor_self]
  have h3 : step^[4294967295] s ^^^ s = 0 := by
    by_contra hne
    exact step_ne_zero (Nat.xor_lt_two_pow (iterate_lt hs' _) hs') hne h2
  exact eq_of_xor_eq_zero h3

theorem prime_factor {q : Nat} (hq : q.Prime) (h : q ∣ 4294967295) :
    q = 3 ∨ q = 5 ∨ q = 17 ∨ q = 257 ∨ q = 65537 := by
  have h' : q ∣ 3 * 5 * 17 * 257 * 65537 := by
    rw [show 3 * 5 * 17 * 257 * 65537 = 4294967295 by norm_num]; exact h
  rw [hq.dvd_mul, hq.dvd_mul, hq.dvd_mul, hq.dvd_mul, Nat.prime_dvd_prime_iff_eq hq (by norm_num),
    Nat.prime_dvd_prime_iff_eq hq (by norm_num), Nat.prime_dvd_prime_iff_eq hq (by norm_num),
    Nat.prime_dvd_prime_iff_eq hq (by norm_num), Nat.prime_dvd_prime_iff_eq hq (by norm_num)] at h'
  tauto

theorem minimalPeriod_eq {s : Nat} (hs : 0 < s) (hs' : s < 2 ^ 32) : Function.minimalPeriod step s = 4294967295 := by
  have hd : Function.minimalPeriod step s ∣ 4294967295 := (isPeriodic hs').minimalPeriod_dvd
  by_contra hne
  obtain ⟨m, hm⟩ := hd
  have hm1 : m ≠ 1 := by
    rintro rfl
    rw [Nat.mul_one] at hm
    exact hne hm.symm
  have hq := Nat.minFac_prime hm1
  obtain ⟨m', hm'⟩ := Nat.minFac_dvd m
  have hqd : m.minFac ∣ 4294967295 := (Nat.minFac_dvd m).trans ⟨_, by rw [Nat.mul_comm]; exact hm⟩
  have hfix : ∀ d, 4294967295 = m.minFac * d → NoFix d → False := by
    intro d hd hno
    have : d = Function.minimalPeriod step s * m' := by
      have h1 : m.minFac * d = m.minFac * (Function.minimalPeriod step s * m') := by
        rw [← hd, hm, hm']
        conv_lhs => rw [hm', hm', ← hm']
        rw [← Nat.mul_assoc, ← Nat.mul_assoc, Nat.mul_comm (Function.minimalPeriod step s)]
      exact Nat.eq_of_mul_eq_mul_left hq.pos h1
    have hper : Function.IsPeriodicPt step d s :=
      Function.isPeriodicPt_iff_minimalPeriod_dvd.mpr ⟨m', this⟩
    have := hno s hs' hper
    omega
  rcases prime_factor hq hqd with h | h | h | h | h
  · exact hfix 1431655765 (by rw [h]) noFix_3
  · exact hfix 858993459 (by rw [h]) noFix_5
  · exact hfix 252645135 (by rw [h]) noFix_17
  · exact hfix 16711935 (by rw [h]) noFix_257
  · exact hfix 65535 (by rw [h]) noFix_65537

theorem step_inj {s i j : Nat} (hs : 0 < s) (hs' : s < 2 ^ 32) (hi : i < 2 ^ 32 - 1) (hj : j < 2 ^ 32 - 1)
    (h : step^[i] s = step^[j] s) : i = j := by
  have := Function.iterate_injOn_Iio_minimalPeriod (f := step) (x := s)
  rw [minimalPeriod_eq hs hs'] at this
  exact this (show i < 4294967295 by omega) (show j < 4294967295 by omega) h

theorem surj_of_inj {N : Nat} {f : Nat → Nat} (hf : ∀ i, i < N → 0 < f i ∧ f i ≤ N)
    (hinj : ∀ i j, i < N → j < N → f i = f j → i = j) {v : Nat} (hv : 0 < v) (hv' : v ≤ N) : ∃ i, i < N ∧ f i = v := by
  have hsub : (Finset.range N).image f ⊆ Finset.Icc 1 N := by
    intro x hx
    obtain ⟨i, hi, rfl⟩ := Finset.mem_image.mp hx
    have := hf i (Finset.mem_range.mp hi)
    exact Finset.mem_Icc.mpr ⟨this.1, this.2⟩
  have hcard : ((Finset.range N).image f).card = N := by
    rw [Finset.card_image_of_injOn, Finset.card_range]
    intro i hi j hj h
    exact hinj i j (by simpa using hi) (by simpa using hj) h
  have heq := Finset.eq_of_subset_of_card_le hsub (by rw [hcard, Nat.card_Icc]; omega)
  have : v ∈ (Finset.range N).image f := by
    rw [heq]; exact Finset.mem_Icc.mpr ⟨hv, hv'⟩
  obtain ⟨i, hi, h⟩ := Finset.mem_image.mp this
  exact ⟨i, Finset.mem_range.mp hi, h⟩

theorem step_reaches {s v : Nat} (hs : 0 < s) (hs' : s < 2 ^ 32) (hv : 0 < v) (hv' : v < 2 ^ 32) :
    ∃ n, n < 2 ^ 32 - 1 ∧ step^[n] s = v := by
  apply surj_of_inj (f := fun n => step^[n] s) _ _ hv (by omega)
  · intro i _
    have := iterate_lt hs' i
    exact ⟨iterate_pos hs hs' i, by omega⟩
  · intro i j hi hj h
    exact step_inj hs hs' hi hj h

end MLRL.XorShift
