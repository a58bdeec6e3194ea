import Verif.Lemma.FloatingPoint
import Verif.Model.FloatBinning

/-!
# C95: equal-width bins are in range and monotone despite rounding
-/

namespace MLRL.FloatingPoint

/-- Rounding to nearest is monotone, regardless of how ties are broken. -/
theorem Nearest.mono {isFloat : ℚ → Prop} {rnd : ℚ → ℚ} (h : Nearest isFloat rnd) {x y : ℚ} (hxy : x ≤ y) : rnd x ≤ rnd y := by
  by_contra hcon
  push Not at hcon
  rcases hxy.eq_or_lt with rfl | hlt
  · exact lt_irrefl _ hcon
  · have h1 := h.nearest x (rnd y) (h.mem y)
    have h2 := h.nearest y (rnd x) (h.mem x)
    rcases abs_cases (x - rnd x) with ⟨a1, _⟩ | ⟨a1, _⟩ <;> rcases abs_cases (x - rnd y) with ⟨a2, _⟩ | ⟨a2, _⟩ <;>
      rcases abs_cases (y - rnd x) with ⟨a3, _⟩ | ⟨a3, _⟩ <;> rcases abs_cases (y - rnd y) with ⟨a4, _⟩ | ⟨a4, _⟩ <;> linarith

section
variable {p : ℕ} {emin : ℤ} {rnd : ℚ → ℚ} {maxFinite min max : ℚ} {numBins : Nat}

/-- Formats of which the following theorems hold: at least two digits, and powers of two up to `2^31` are finite numbers. -/
def Usable (p : ℕ) (emin : ℤ) : Prop := 2 ≤ p ∧ emin ≤ 0

theorem usable32 : Usable 24 (-149) := by unfold Usable; omega

theorem usable64 : Usable 53 (-1074) := by unfold Usable; omega

theorem isFloat_pow (hu : Usable p emin) (k : Nat) : IsFloat p emin (2 ^ k) :=
  ⟨1, k, by rw [abs_one]; exact one_le_pow₀ (by norm_num), by have := hu.2; omega, by push_cast; rw [zpow_natCast]; ring⟩

/-- A positive number is rounded to at least half of itself, unless it is rounded to zero. -/
theorem le_two_mul (h : Nearest (IsFloat p emin) rnd) (hu : Usable p emin) {x : ℚ} (hx : 0 ≤ x) (hpos : 0 < rnd x) : x ≤ 2 * rnd x := by
  have herr := h.error x
  rw [abs_of_nonneg hx] at herr
  obtain ⟨m, hm⟩ := (h.mem x).multiple (e := emin) (Or.inl le_rfl)
  have hw := two_zpow_pos emin
  have hm1 : (1 : ℚ) ≤ m := by
    rw [hm] at hpos
    have : 0 < m := by
      by_contra hc
      have : (m : ℚ) ≤ 0 := by exact_mod_cast not_lt.mp hc
      nlinarith
    exact_mod_cast this
  have hge : (2 : ℚ) ^ emin ≤ rnd x := by rw [hm]; nlinarith
  have h4 : x / 2 ^ p ≤ x / 4 := by
    have : (4 : ℚ) ≤ 2 ^ p := by
      calc (4 : ℚ) = 2 ^ 2 := by norm_num
        _ ≤ 2 ^ p := pow_le_pow_right₀ (by norm_num) hu.1
    exact div_le_div_of_nonneg_left hx (by norm_num) this
  have := (abs_le.mp herr).2
  linarith

/-- The quotient that is converted into an integer. -/
theorem quotient_bounds (h : Nearest (IsFloat p emin) rnd) (hu : Usable p emin) {value width : ℚ} (hn : 1 ≤ numBins) (hn30 : numBins ≤ 2 ^ 30)
    (hmin : min ≤ value) (hmax : value ≤ max) (hw : width = rnd (rnd (max - min) / rnd numBins)) (hpos : 0 < width) :
    0 ≤ rnd (rnd (value - min) / width) ∧ rnd (rnd (value - min) / width) ≤ 2 ^ 31 := by
  have h0 := isFloat_zero p emin
  have hd : 0 ≤ rnd (value - min) := h.ge h0 (by linarith)
  have hR : rnd (value - min) ≤ rnd (max - min) := h.mono (by linarith)
  have hN1 : 1 ≤ rnd numBins := by simpa using h.ge (isFloat_pow hu 0) (x := numBins) (by simpa using hn)
  have hN2 : rnd numBins ≤ 2 ^ 30 := h.le (isFloat_pow hu 30) (by exact_mod_cast hn30)
  refine ⟨h.ge h0 (div_nonneg hd hpos.le), h.le (isFloat_pow hu 31) ?_⟩
  have h1 : rnd (max - min) / rnd numBins ≤ 2 * width := by
    rw [hw] at hpos ⊢
    exact le_two_mul h hu (div_nonneg (by linarith) (by linarith)) hpos
  rw [div_le_iff₀ (by linarith)] at h1
  rw [div_le_iff₀ hpos]
  nlinarith

/-- Bins exist, i.e. the conversion into an integer is defined and the index is less than the number of bins, for all values between the minimum and the maximum, unless the width
is rounded to zero or infinite. -/
theorem getBinIndex_lt_partial (h : Nearest (IsFloat p emin) rnd) (hu : Usable p emin) (hM : IsFloat p emin maxFinite) {value width : ℚ} (hn : 1 ≤ numBins)
    (hn30 : numBins ≤ 2 ^ 30) (hmin : min ≤ value) (hmax : value ≤ max) (hspan : max - min ≤ maxFinite)
    (hw : binWidth rnd maxFinite min max numBins = some width) (hpos : 0 < width) :
    ∃ i, getBinIndex rnd maxFinite value min (some width) numBins = .ok i ∧ i < numBins ∧
      i = Nat.min ⌊rnd (rnd (value - min) / width)⌋.toNat (numBins - 1) := by
  have h0 := isFloat_zero p emin
  have hfin : ∀ x, 0 ≤ x → x ≤ max - min → finite maxFinite (rnd x) = some (rnd x) := by
    intro x hx0 hx
    have h1 : 0 ≤ rnd x := h.ge h0 hx0
    have h2 : rnd x ≤ maxFinite := h.le hM (by linarith)
    exact if_pos (abs_le.mpr ⟨by linarith, h2⟩)
  have hw' : width = rnd (rnd (max - min) / rnd numBins) := by
    simp only [binWidth, hfin _ (by linarith) le_rfl, Option.map_some, Option.some.injEq] at hw
    exact hw.symm
  obtain ⟨hq0, hq1⟩ := quotient_bounds h hu hn hn30 hmin hmax hw' hpos
  have hf0 : 0 ≤ ⌊rnd (rnd (value - min) / width)⌋ := Int.floor_nonneg.mpr hq0
  have hf1 : ⌊rnd (rnd (value - min) / width)⌋ < 2 ^ 32 := by
    rw [Int.floor_lt]; push_cast; linarith
  simp only [getBinIndex, hfin _ (sub_nonneg.mpr hmin) (by linarith : value - min ≤ max - min), if_neg hpos.ne', if_pos (And.intro hf0 hf1)]
  refine ⟨_, rfl, ?_, ?_⟩
  · split_ifs <;> omega
  · simp only [Nat.min_def]; split_ifs <;> omega

/-- Greater values are not assigned to preceding bins. -/
theorem getBinIndex_mono (h : Nearest (IsFloat p emin) rnd) (hu : Usable p emin) (hM : IsFloat p emin maxFinite) {value value' width : ℚ} (hn : 1 ≤ numBins)
    (hn30 : numBins ≤ 2 ^ 30) (hmin : min ≤ value) (hle : value ≤ value') (hmax : value' ≤ max) (hspan : max - min ≤ maxFinite)
    (hw : binWidth rnd maxFinite min max numBins = some width) (hpos : 0 < width) {i i' : Nat}
    (hi : getBinIndex rnd maxFinite value min (some width) numBins = .ok i) (hi' : getBinIndex rnd maxFinite value' min (some width) numBins = .ok i') : i ≤ i' := by
  obtain ⟨j, hj, _, rfl⟩ := getBinIndex_lt_partial h hu hM hn hn30 hmin (hle.trans hmax) hspan hw hpos
  obtain ⟨j', hj', _, rfl⟩ := getBinIndex_lt_partial h hu hM hn hn30 (hmin.trans hle) hmax hspan hw hpos
  rw [hj] at hi
  rw [hj'] at hi'
  injection hi with hi
  injection hi' with hi'
  subst hi hi'
  have h1 : rnd (value - min) ≤ rnd (value' - min) := h.mono (by linarith)
  have h2 : rnd (rnd (value - min) / width) ≤ rnd (rnd (value' - min) / width) := h.mono (div_le_div_of_nonneg_right h1 hpos.le)
  have h3 := Int.toNat_le_toNat (Int.floor_le_floor h2)
  simp only [Nat.min_def]; split_ifs <;> omega

/-- The smallest value is assigned to the first bin. -/
theorem getBinIndex_min (h : Nearest (IsFloat p emin) rnd) (hu : Usable p emin) (hM : IsFloat p emin maxFinite) {width : ℚ} (hn : 1 ≤ numBins)
    (hn30 : numBins ≤ 2 ^ 30) (hmax : min ≤ max) (hspan : max - min ≤ maxFinite)
    (hw : binWidth rnd maxFinite min max numBins = some width) (hpos : 0 < width) : getBinIndex rnd maxFinite min min (some width) numBins = .ok 0 := by
  obtain ⟨j, hj, _, rfl⟩ := getBinIndex_lt_partial h hu hM hn hn30 le_rfl hmax hspan hw hpos
  rw [hj, sub_self, h.eq (isFloat_zero p emin), zero_div, h.eq (isFloat_zero p emin)]
  simp

/-- The width is positive, unless the difference between the maximum and the minimum is extremely small. -/
theorem binWidth_pos (h : Nearest (IsFloat p emin) rnd) (hu : Usable p emin) (hM : IsFloat p emin maxFinite) (hn : 1 ≤ numBins) (hnp : numBins ≤ 2 ^ p)
    (hspan : max - min ≤ maxFinite) (hdiff : numBins * 2 ^ emin ≤ max - min) : ∃ width, binWidth rnd maxFinite min max numBins = some width ∧ 0 < width := by
  have hw := two_zpow_pos emin
  have hn' : (1 : ℚ) ≤ numBins := by exact_mod_cast hn
  have hnf : IsFloat p emin numBins := ⟨numBins, 0, by rw [abs_of_nonneg (by positivity)]; exact_mod_cast hnp, hu.2, by simp⟩
  have hnf' : IsFloat p emin (numBins * 2 ^ emin) := ⟨numBins, emin, by rw [abs_of_nonneg (by positivity)]; exact_mod_cast hnp, le_rfl, by push_cast; rfl⟩
  have hR : numBins * 2 ^ emin ≤ rnd (max - min) := h.ge hnf' hdiff
  have hR' : rnd (max - min) ≤ maxFinite := h.le hM hspan
  have hR0 : 0 ≤ rnd (max - min) := le_trans (by positivity) hR
  refine ⟨rnd (rnd (max - min) / rnd numBins), ?_, ?_⟩
  · simp only [binWidth, finite, if_pos (abs_le.mpr ⟨by linarith, hR'⟩), Option.map_some]
  · rw [h.eq hnf]
    refine lt_of_lt_of_le hw (h.ge ⟨1, emin, by rw [abs_one]; exact one_le_pow₀ (by norm_num), le_rfl, by simp⟩ ?_)
    rw [le_div_iff₀ (by linarith)]
    linarith

end

/-- The greatest finite number of type `float64`. -/
def maxFloat64 : ℚ := (2 ^ 53 - 1) * 2 ^ 971

theorem isFloat64_max : IsFloat64 maxFloat64 := ⟨2 ^ 53 - 1, 971, by norm_num, by norm_num, by unfold maxFloat64; push_cast; norm_num⟩

/-- An instance: the values 0, 1/3 (rounded) and 1 and three bins. -/
example : binWidth (roundEven 24 (-149)) maxFloat32 0 1 3 = some (11184811 / 2 ^ 25) ∧
    getBinIndex (roundEven 24 (-149)) maxFloat32 0 0 (some (11184811 / 2 ^ 25)) 3 = .ok 0 ∧
    getBinIndex (roundEven 24 (-149)) maxFloat32 1 0 (some (11184811 / 2 ^ 25)) 3 = .ok 2 := by decide +kernel

/-- The value closest to 1/3 is assigned to the second bin, although it satisfies the condition of the first one. It is not on the boundary of a bin if calculated exactly. -/
theorem getBinIndex_threshold : getBinIndex (roundEven 24 (-149)) maxFloat32 (11184811 / 2 ^ 25) 0 (some (11184811 / 2 ^ 25)) 3 = .ok 1 ∧
    11184811 / 2 ^ 25 ≤ binThreshold (roundEven 24 (-149)) 0 (11184811 / 2 ^ 25) 0 ∧ (11184811 / 2 ^ 25 : ℚ) ≠ 1 / 3 := by decide +kernel

/-- Two criteria may be different, but so close to each other that the width of a bin is rounded to zero, in which case the index of a bin is undefined. -/
theorem getBinIndex_zero_width : binWidth (roundEven 53 (-1074)) maxFloat64 (1 / 2 ^ 1074) (2 / 2 ^ 1074) 2 = some 0 ∧
    getBinIndex (roundEven 53 (-1074)) maxFloat64 (1 / 2 ^ 1074) (1 / 2 ^ 1074) (some 0) 2 = .error .badCast := by decide +kernel

/-- The width is infinite if the difference of the maximum and the minimum overflows. The index is then undefined for the maximum, and all values that are less than a certain value
are assigned to the first bin. -/
theorem getBinIndex_infinite : binWidth (roundEven 24 (-149)) maxFloat32 (-maxFloat32) maxFloat32 2 = none ∧
    getBinIndex (roundEven 24 (-149)) maxFloat32 maxFloat32 (-maxFloat32) none 2 = .error .badCast := by decide +kernel

end MLRL.FloatingPoint
