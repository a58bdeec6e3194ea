import Verif.Lemma.FloatingPoint

/-!
# C93, C94: rounding of thresholds and of numbers of samples
-/

namespace MLRL.FloatingPoint

/-- There is a rounding as it is required by the following theorems, which is the one of IEEE 754. -/
theorem roundings_exist : Nearest IsFloat32 (roundEven 24 (-149)) ∧ Nearest IsFloat64 (roundEven 53 (-1074)) :=
  ⟨roundEven_nearest (by norm_num) _, roundEven_nearest (by norm_num) _⟩

/-! ## C93 -/

/-- The threshold between two feature values separates them despite rounding, if there is any number between them and if their difference is finite. -/
theorem threshold_separates_partial {rnd32 rnd64 : ℚ → ℚ} (h32 : Nearest IsFloat32 rnd32) (h64 : Nearest IsFloat64 rnd64) {small large z : ℚ}
    (hs : IsFloat32 small) (hl : IsFloat32 large) (hsmax : |small| ≤ maxFloat32) (hlmax : |large| ≤ maxFloat32)
    (hz : IsFloat32 z) (hsz : small < z) (hzl : z < large) (hmax : large - small ≤ maxFloat32) :
    ∃ t, arithmeticMean rnd32 rnd64 small large = some t ∧ IsFloat32 t ∧ small ≤ t ∧ t < large := by
  have hd0 : 0 ≤ rnd32 (large - small) := h32.ge (isFloat_zero _ _) (by linarith)
  have hd1 : rnd32 (large - small) ≤ maxFloat32 := h32.le isFloat32_max hmax
  have hlt := mean_bound h32 h64 hs hl hz hsz hzl
  have hge : small ≤ rnd32 (rnd64 (small + rnd64 (rnd32 (large - small) * (1 / 2)))) := by
    refine h32.ge hs (h64.ge hs.to64 ?_)
    have : 0 ≤ rnd64 (rnd32 (large - small) * (1 / 2)) := h64.ge (isFloat_zero _ _) (by linarith)
    linarith
  refine ⟨_, ?_, h32.mem _, hge, hlt⟩
  have h1 := abs_le.mp hsmax
  have h2 := abs_le.mp hlmax
  have h3 : finite32 (rnd32 (large - small)) = some (rnd32 (large - small)) := if_pos (abs_le.mpr ⟨by linarith, hd1⟩)
  unfold arithmeticMean
  rw [h3]
  exact if_pos (abs_le.mpr ⟨by linarith, by linarith⟩)

/-- There is a number between values that are not considered equal by the code. -/
theorem between_of_not_isEqual {rnd32 : ℚ → ℚ} (h32 : Nearest IsFloat32 rnd32) {small large : ℚ} (hl : IsFloat32 large) (hlt : small < large)
    (hne : isEqual rnd32 small large = false ∨ isEqual rnd32 large small = false) : ∃ z, IsFloat32 z ∧ small < z ∧ z < large := by
  obtain ⟨e, he, hy, habs, hlow, hpred⟩ := hl.pred
  have hv := two_zpow_pos e
  refine ⟨_, hy, ?_, by linarith⟩
  by_contra hcon
  push Not at hcon
  have hvf : IsFloat32 (2 ^ e) := ⟨1, e, by norm_num, he, by simp⟩
  have hM : (2 : ℚ) ^ e ≤ 1 / 2 ^ 23 * max 1 (max |small| |large|) := by
    rcases hlow with rfl | hlow
    · have : (1 : ℚ) ≤ max 1 (max |small| |large|) := le_max_left _ _
      have h2 : (2 : ℚ) ^ (-149 : ℤ) ≤ 1 / 2 ^ 23 := by norm_num
      linarith
    · have : |large| ≤ max 1 (max |small| |large|) := (le_max_right _ _).trans (le_max_right _ _)
      linarith
  rcases hne with hne | hne <;> simp only [isEqual, decide_eq_false_iff_not, not_le] at hne
  · have h1 : rnd32 (small - large) ≤ 0 := h32.le (isFloat_zero _ _) (by linarith)
    have h2 : -2 ^ e ≤ rnd32 (small - large) := h32.ge hvf.neg (by linarith)
    rw [abs_of_nonpos h1] at hne
    linarith
  · have h1 : 0 ≤ rnd32 (large - small) := h32.ge (isFloat_zero _ _) (by linarith)
    have h2 : rnd32 (large - small) ≤ 2 ^ e := h32.le hvf (by linarith)
    rw [abs_of_nonneg h1, max_comm |large|] at hne
    linarith

/-- Conditions that separate two feature values that are not considered equal, as it is checked for all thresholds other than those next to the sparse value, are satisfied by
exactly those values that are not greater than the smaller one. The only remaining assumption is that the difference is finite. -/
theorem condition_separates_partial {rnd32 rnd64 : ℚ → ℚ} (h32 : Nearest IsFloat32 rnd32) (h64 : Nearest IsFloat64 rnd64) {small large : ℚ}
    (hs : IsFloat32 small) (hl : IsFloat32 large) (hsmax : |small| ≤ maxFloat32) (hlmax : |large| ≤ maxFloat32) (hlt : small < large)
    (hne : isEqual rnd32 small large = false ∨ isEqual rnd32 large small = false) (hmax : large - small ≤ maxFloat32)
    (values : List ℚ) (hconsecutive : ∀ v ∈ values, v ≤ small ∨ large ≤ v) :
    ∃ t, arithmeticMean rnd32 rnd64 small large = some t ∧ ∀ v ∈ values, v ≤ t ↔ v ≤ small := by
  obtain ⟨z, hz, hsz, hzl⟩ := between_of_not_isEqual h32 hl hlt hne
  obtain ⟨t, ht, _, h1, h2⟩ := threshold_separates_partial h32 h64 hs hl hsmax hlmax hz hsz hzl hmax
  refine ⟨t, ht, fun v hv => ⟨fun h => ?_, fun h => h.trans h1⟩⟩
  rcases hconsecutive v hv with h3 | h3
  · exact h3
  · linarith

example : isEqual (roundEven 24 (-149)) (1 + 1 / 2 ^ 23) (1 + 3 / 2 ^ 23) = false ∧
    arithmeticMean (roundEven 24 (-149)) (roundEven 53 (-1074)) (1 + 1 / 2 ^ 23) (1 + 3 / 2 ^ 23) = some (1 + 2 / 2 ^ 23) := by decide +kernel

/-- An example where the exact mean `1 + 2.5 * 2^-23` is not a number of type `float32`. -/
example : isEqual (roundEven 24 (-149)) (1 + 1 / 2 ^ 23) (1 + 4 / 2 ^ 23) = false ∧
    arithmeticMean (roundEven 24 (-149)) (roundEven 53 (-1074)) (1 + 1 / 2 ^ 23) (1 + 4 / 2 ^ 23) = some (1 + 2 / 2 ^ 23) := by decide +kernel

/-- Without a number in between, the threshold may be the larger value: `-2^-149` and zero, which are not compared by `isEqual` if zero is the sparse value or if they are the last
value less than zero and the first one that is not. The condition `f <= 0` is then satisfied by examples that the refinement does not cover. -/
theorem threshold_adjacent : arithmeticMean (roundEven 24 (-149)) (roundEven 53 (-1074)) (-1 / 2 ^ 149) 0 = some 0 := by decide +kernel

/-- The same happens for a sparse value other than zero and numbers that are not subnormal. -/
theorem threshold_adjacent_normal :
    arithmeticMean (roundEven 24 (-149)) (roundEven 53 (-1074)) (1 + 1 / 2 ^ 23) (1 + 2 / 2 ^ 23) = some (1 + 2 / 2 ^ 23) := by decide +kernel

/-- Although the documentation claims that overflows are prevented, the threshold is infinite if the difference of the values is too large, for any rounding. All examples satisfy
`f <= infinity`. -/
theorem threshold_overflow {rnd32 rnd64 : ℚ → ℚ} (h32 : Nearest IsFloat32 rnd32) {small large : ℚ} (h : 2 ^ 128 ≤ large - small) :
    arithmeticMean rnd32 rnd64 small large = none := by
  have h1 : (2 : ℚ) ^ 128 ≤ rnd32 (large - small) := h32.ge ⟨1, 128, by norm_num, by norm_num, by norm_num⟩ h
  have h2 : maxFloat32 < rnd32 (large - small) := lt_of_lt_of_le (by unfold maxFloat32; norm_num) h1
  unfold arithmeticMean finite32
  rw [if_neg (by rw [not_le]; exact h2.trans_le (le_abs_self _))]
  rfl

example : (2 : ℚ) ^ 128 ≤ maxFloat32 - -maxFloat32 := by unfold maxFloat32; norm_num

/-! ## C94 -/

/-- A fraction of a number is rounded to less than the number. -/
theorem fraction_lt {rnd32 : ℚ → ℚ} (h32 : Nearest IsFloat32 rnd32) {fraction : ℚ} {n : Nat} (hf : IsFloat32 fraction) (h0 : 0 ≤ fraction) (h1 : fraction < 1)
    (hn : 1 ≤ n) : rnd32 (fraction * rnd32 n) < n := by
  have hone : IsFloat32 1 := ⟨1, 0, by norm_num, by norm_num, by norm_num⟩
  have hX1 : 1 ≤ rnd32 n := h32.ge hone (by exact_mod_cast hn)
  have hXf := h32.mem n
  -- the fraction is at most the number before one
  have hfl : fraction ≤ 1 - 1 / 2 ^ 24 := by
    by_contra hcon
    push Not at hcon
    obtain ⟨m, hm⟩ := hf.multiple (e := -24) (Or.inr (by rw [abs_of_nonneg h0]; norm_num at hcon ⊢; linarith))
    rw [hm] at hcon h1
    norm_num at hcon h1
    have h2 : (m : ℚ) < 2 ^ 24 := by linarith
    have h3 : (2 : ℚ) ^ 24 - 1 < m := by linarith
    have h2' : m < 2 ^ 24 := by exact_mod_cast h2
    have h3' : (2 : ℤ) ^ 24 - 1 < m := by exact_mod_cast h3
    omega
  obtain ⟨e, he, hy, habs, hlow, hpred⟩ := hXf.pred
  have hv := two_zpow_pos e
  have hlt : rnd32 (fraction * rnd32 n) < rnd32 n := by
    have hne : e ≠ -149 := by
      rintro rfl
      rw [abs_of_nonneg (by linarith)] at habs
      norm_num at habs
      linarith
    have hlow : 2 ^ 23 * 2 ^ e ≤ rnd32 n := by
      rcases hlow with h | h
      · exact absurd h hne
      · rwa [abs_of_nonneg (by linarith)] at h
    have hprod : fraction * rnd32 n ≤ rnd32 n - rnd32 n / 2 ^ 24 := by nlinarith
    rcases hlow.eq_or_lt with heq | hgt
    · -- a power of two
      have hhalf := half_digit e
      have h3 := two_zpow_pos (e - 1)
      have hp : IsFloat32 (rnd32 n - 2 ^ (e - 1)) := ⟨2 ^ 24 - 1, e - 1, by norm_num, by omega, by rw [← heq, hhalf]; push_cast; ring⟩
      have := h32.le hp (x := fraction * rnd32 n) (by linarith)
      linarith
    · exact h32.lt hy hXf (by linarith) (by linarith)
  -- no number less than the rounded one is greater than or equal to the exact one
  have hle : rnd32 (fraction * rnd32 n) ≤ n := by
    by_contra hcon
    push Not at hcon
    exact absurd (h32.le (h32.mem (fraction * rnd32 n)) hcon.le) (not_le.mpr hlt)
  refine lt_of_le_of_ne hle fun heq => ?_
  have : IsFloat32 (n : ℚ) := heq ▸ h32.mem _
  rw [h32.eq this] at hlt heq
  linarith

theorem fraction_nonneg {rnd32 : ℚ → ℚ} (h32 : Nearest IsFloat32 rnd32) {fraction : ℚ} {n : Nat} (h0 : 0 ≤ fraction) : 0 ≤ rnd32 (fraction * rnd32 n) :=
  h32.ge (isFloat_zero _ _) (mul_nonneg h0 (h32.ge (isFloat_zero _ _) (by positivity)))

/-- At least one and at most all elements are sampled despite rounding, even if `n` is not a number of type `float32`. -/
theorem ceilFraction_bounds {rnd32 : ℚ → ℚ} (h32 : Nearest IsFloat32 rnd32) {fraction : ℚ} {n : Nat} (hf : IsFloat32 fraction) (h0 : 0 < fraction)
    (h1 : fraction < 1) (hn : 1 ≤ n) : 1 ≤ ceilFraction rnd32 fraction n ∧ ceilFraction rnd32 fraction n ≤ n := by
  refine ⟨Nat.ceil_pos.mpr ?_, Nat.ceil_le.mpr (fraction_lt h32 hf h0.le h1 hn).le⟩
  have hX : (1 : ℚ) ≤ rnd32 n := h32.ge ⟨1, 0, by norm_num, by norm_num, by norm_num⟩ (by exact_mod_cast hn)
  exact h0.trans_le (h32.ge hf (by nlinarith))

/-- The number of training examples that remain if a fraction of them is put into a holdout set does not wrap around and is not zero. -/
theorem truncFraction_lt {rnd32 : ℚ → ℚ} (h32 : Nearest IsFloat32 rnd32) {fraction : ℚ} {n : Nat} (hf : IsFloat32 fraction) (h0 : 0 < fraction)
    (h1 : fraction < 1) (hn : 1 ≤ n) : truncFraction rnd32 fraction n < n :=
  (Nat.floor_lt (fraction_nonneg h32 h0.le)).mpr (fraction_lt h32 hf h0.le h1 hn)

/-- The number of samples never exceeds the number of elements to be sampled from and respects the bounds. -/
theorem calculateBoundedFraction_bounds {rnd32 : ℚ → ℚ} (h32 : Nearest IsFloat32 rnd32) {fraction : ℚ} {n minimum maximum : Nat} (hf : IsFloat32 fraction)
    (h0 : 0 < fraction) (h1 : fraction < 1) (hn : 1 ≤ n) : calculateBoundedFraction rnd32 n fraction minimum maximum ≤ n ∧
    (minimum ≤ n → minimum ≤ calculateBoundedFraction rnd32 n fraction minimum maximum) ∧
    (minimum ≤ maximum → calculateBoundedFraction rnd32 n fraction minimum maximum ≤ maximum) ∧
    (1 ≤ maximum ∨ maximum < minimum → 1 ≤ calculateBoundedFraction rnd32 n fraction minimum maximum) := by
  have hb := ceilFraction_bounds h32 hf h0 h1 hn
  unfold calculateBoundedFraction
  generalize ceilFraction rnd32 fraction n = r at hb
  dsimp only
  split_ifs <;> omega

/-- The product of `1 - 2^-24` and `2^25 + 7` is rounded twice. -/
example : ceilFraction (roundEven 24 (-149)) (1 - 1 / 2 ^ 24) (2 ^ 25 + 7) = 2 ^ 25 + 4 := by decide +kernel

/-- The number of elements itself may be rounded up. -/
example : roundEven 24 (-149) ((2 ^ 25 + 7 : Nat) : ℚ) = 2 ^ 25 + 8 := by decide +kernel

/-- If the fraction may be one, more elements than available might be sampled. -/
theorem ceilFraction_one : ceilFraction (roundEven 24 (-149)) 1 (2 ^ 25 + 7) = 2 ^ 25 + 8 := by decide +kernel

/-- In addition, the result may not be a number of type `uint32`, which is undefined behaviour. A fraction of one is permitted for sampling with replacement. -/
theorem ceilFraction_one_badCast : ceilFraction (roundEven 24 (-149)) 1 (2 ^ 32 - 1) = 2 ^ 32 := by decide +kernel

/-- Because of rounding, the number differs from the one that is calculated exactly: a tenth, as a number of type `float32`, of ten elements is one element instead of two. -/
theorem ceilFraction_differs : ceilFraction (roundEven 24 (-149)) (roundEven 24 (-149) (1 / 10)) 10 = 1 ∧ ⌈roundEven 24 (-149) (1 / 10) * 10⌉₊ = 2 := by decide +kernel

end MLRL.FloatingPoint
