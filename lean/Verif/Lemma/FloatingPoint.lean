import Verif.Spec.FloatingPoint
import Verif.Model.FloatingPoint
import Mathlib.Tactic.Linarith
import Mathlib.Tactic.Ring
import Mathlib.Tactic.NormNum
import Mathlib.Tactic.FieldSimp
import Mathlib.Tactic.Positivity

namespace MLRL.FloatingPoint

theorem two_zpow_pos (e : ℤ) : (0 : ℚ) < 2 ^ e := zpow_pos (by norm_num) e

theorem two_zpow_le {a b : ℤ} (h : a ≤ b) : (2 : ℚ) ^ a ≤ 2 ^ b := zpow_le_zpow_right₀ (by norm_num) h

theorem two_zpow_split {a b : ℤ} (h : a ≤ b) : ∃ k : ℤ, 0 < k ∧ (2 : ℚ) ^ b = k * 2 ^ a := by
  obtain ⟨n, rfl⟩ := Int.le.dest h
  refine ⟨2 ^ n, by positivity, ?_⟩
  rw [zpow_add₀ (by norm_num), zpow_natCast]; push_cast; ring

theorem isFloat_zero (p : ℕ) (emin : ℤ) : IsFloat p emin 0 := ⟨0, emin, by simp, le_rfl, by simp⟩

theorem IsFloat.neg {p : ℕ} {emin : ℤ} {x : ℚ} (h : IsFloat p emin x) : IsFloat p emin (-x) := by
  obtain ⟨m, e, hm, he, rfl⟩ := h
  exact ⟨-m, e, by rwa [abs_neg], he, by push_cast; ring⟩

/-- Sufficiently large numbers are multiples of a power of two. -/
theorem IsFloat.multiple {p : ℕ} {emin e : ℤ} {x : ℚ} (h : IsFloat p emin x) (hx : e ≤ emin ∨ (2 : ℚ) ^ p * 2 ^ (e - 1) < |x|) :
    ∃ m : ℤ, x = m * 2 ^ e := by
  obtain ⟨m, e', hm, he, rfl⟩ := h
  have key : e ≤ e' := by
    rcases hx with hx | hx
    · omega
    · by_contra hlt
      have h1 : (2 : ℚ) ^ e' ≤ 2 ^ (e - 1) := two_zpow_le (by omega)
      have h2 : |(m : ℚ)| ≤ 2 ^ p := by exact_mod_cast hm
      rw [abs_mul, abs_of_pos (two_zpow_pos e')] at hx
      have := mul_le_mul h2 h1 (two_zpow_pos e').le (by positivity)
      linarith
  obtain ⟨k, _, hk⟩ := two_zpow_split key
  exact ⟨m * k, by rw [hk]; push_cast; ring⟩

theorem exponent_ge (p : ℕ) (emin : ℤ) (x : ℚ) : emin ≤ exponent p emin x := le_max_right _ _

theorem abs_lt_exponent (p : ℕ) (emin : ℤ) (x : ℚ) : |x| < 2 ^ p * 2 ^ exponent p emin x := by
  have h1 := Int.lt_zpow_succ_log_self (b := 2) (by norm_num) |x|
  have h2 : (2 : ℚ) ^ (Int.log 2 |x| + 1) ≤ 2 ^ ((p : ℤ) + exponent p emin x) := two_zpow_le (by unfold exponent; omega)
  rw [zpow_add₀ (a := (2 : ℚ)) (by norm_num) (p : ℤ), zpow_natCast] at h2
  push_cast at h1
  linarith

theorem exponent_le_abs {p : ℕ} {emin : ℤ} {x : ℚ} (hx : x ≠ 0) (he : emin < exponent p emin x) :
    (2 : ℚ) ^ p * 2 ^ (exponent p emin x - 1) ≤ |x| := by
  have h1 := Int.zpow_log_le_self (b := 2) (by norm_num) (abs_pos.mpr hx)
  have h2 : exponent p emin x = Int.log 2 |x| + 1 - p := by unfold exponent at *; omega
  rw [← zpow_natCast, ← zpow_add₀ (by norm_num), h2]
  push_cast at h1
  have h3 : (p : ℤ) + (Int.log 2 |x| + 1 - p - 1) = Int.log 2 |x| := by ring
  rwa [h3]

theorem roundInt_near (q : ℚ) : |q - roundInt q| ≤ 1 / 2 := by
  have h1 := Int.floor_le q
  have h2 := Int.lt_floor_add_one q
  unfold roundInt
  split_ifs <;> rw [abs_le] <;> push_cast <;> constructor <;> linarith

theorem roundInt_le (q : ℚ) (z : ℤ) : |q - roundInt q| ≤ |q - z| := by
  by_cases hz : roundInt q = z
  · rw [hz]
  · have h1 := roundInt_near q
    have h2 : (1 : ℚ) ≤ |((roundInt q - z : ℤ) : ℚ)| := by
      rw [← Int.cast_abs]; exact_mod_cast Int.one_le_abs (sub_ne_zero.mpr hz)
    have h3 : |((roundInt q - z : ℤ) : ℚ)| ≤ |q - roundInt q| + |q - z| := by
      have : ((roundInt q - z : ℤ) : ℚ) = (q - z) - (q - roundInt q) := by push_cast; ring
      rw [this]; have := abs_sub (q - (z : ℚ)) (q - roundInt q); linarith
    linarith

theorem roundEven_mem (p : ℕ) (emin : ℤ) (x : ℚ) : IsFloat p emin (roundEven p emin x) := by
  refine ⟨_, _, ?_, exponent_ge p emin x, rfl⟩
  set u : ℚ := 2 ^ exponent p emin x with hu
  have hpos : 0 < u := two_zpow_pos _
  have h1 : |x / u| < 2 ^ p := by rw [abs_div, abs_of_pos hpos, div_lt_iff₀ hpos]; exact abs_lt_exponent p emin x
  have h2 := roundInt_near (x / u)
  have h3 : |(roundInt (x / u) : ℚ)| < 2 ^ p + 1 := by
    have h4 : (roundInt (x / u) : ℚ) = x / u - (x / u - roundInt (x / u)) := by ring
    have h5 := abs_sub (x / u) (x / u - roundInt (x / u))
    rw [← h4] at h5
    linarith
  have h4 : |roundInt (x / u)| < 2 ^ p + 1 := by exact_mod_cast h3
  omega

theorem roundEven_error (p : ℕ) (emin : ℤ) (x : ℚ) : |x - roundEven p emin x| ≤ 2 ^ exponent p emin x / 2 := by
  have hpos := two_zpow_pos (exponent p emin x)
  have h := roundInt_near (x / 2 ^ exponent p emin x)
  have h1 : x - roundEven p emin x = (x / 2 ^ exponent p emin x - roundInt (x / 2 ^ exponent p emin x)) * 2 ^ exponent p emin x := by
    unfold roundEven; field_simp
  rw [h1, abs_mul, abs_of_pos hpos]
  nlinarith

/-- Rounding to even rounds to a nearest number. -/
theorem roundEven_nearest {p : ℕ} (hp : 0 < p) (emin : ℤ) : Nearest (IsFloat p emin) (roundEven p emin) := by
  refine ⟨roundEven_mem p emin, fun x y hy => ?_⟩
  by_cases hx : x = 0
  · subst hx; simp [roundEven, roundInt]
  have hpos := two_zpow_pos (exponent p emin x)
  have key : ∀ z : ℤ, |x - roundEven p emin x| ≤ |x - z * 2 ^ exponent p emin x| := by
    intro z
    have h := roundInt_le (x / 2 ^ exponent p emin x) z
    have h1 : x - roundEven p emin x = (x / 2 ^ exponent p emin x - roundInt (x / 2 ^ exponent p emin x)) * 2 ^ exponent p emin x := by
      unfold roundEven; field_simp
    have h2 : x - z * 2 ^ exponent p emin x = (x / 2 ^ exponent p emin x - z) * 2 ^ exponent p emin x := by field_simp
    rw [h1, h2, abs_mul, abs_mul, abs_of_pos hpos]
    exact mul_le_mul_of_nonneg_right h hpos.le
  by_cases hm : ∃ m : ℤ, y = m * 2 ^ exponent p emin x
  · obtain ⟨m, rfl⟩ := hm; exact key m
  · have h1 : ¬ (exponent p emin x ≤ emin ∨ (2 : ℚ) ^ p * 2 ^ (exponent p emin x - 1) < |y|) := fun h => hm (hy.multiple h)
    push Not at h1
    have h2 := exponent_le_abs hx h1.1
    obtain ⟨k, _, hk⟩ := two_zpow_split (a := exponent p emin x) (b := p + (exponent p emin x - 1)) (by omega)
    rw [zpow_add₀ (by norm_num), zpow_natCast] at hk
    rw [hk] at h1 h2
    have hy2 := abs_le.mp h1.2
    rcases le_or_gt 0 x with h0 | h0
    · rw [abs_of_nonneg h0] at h2
      refine (key k).trans ?_
      rw [abs_of_nonneg (by linarith), abs_of_nonneg (by linarith [hy2.2])]; linarith [hy2.2]
    · rw [abs_of_neg h0] at h2
      refine (key (-k)).trans ?_
      push_cast
      rw [abs_of_nonpos (by linarith), abs_of_nonpos (by linarith [hy2.1])]; linarith [hy2.1]

section
variable {isFloat : ℚ → Prop} {rnd : ℚ → ℚ}

theorem Nearest.le (h : Nearest isFloat rnd) {x y : ℚ} (hy : isFloat y) (hxy : x ≤ y) : rnd x ≤ y := by
  have h1 := h.nearest x y hy
  rw [abs_of_nonpos (by linarith : x - y ≤ 0)] at h1
  have := (abs_le.mp h1).1
  linarith

theorem Nearest.ge (h : Nearest isFloat rnd) {x y : ℚ} (hy : isFloat y) (hxy : y ≤ x) : y ≤ rnd x := by
  have h1 := h.nearest x y hy
  rw [abs_of_nonneg (by linarith : 0 ≤ x - y)] at h1
  have := (abs_le.mp h1).2
  linarith

theorem Nearest.eq (h : Nearest isFloat rnd) {x : ℚ} (hx : isFloat x) : rnd x = x :=
  le_antisymm (h.le hx le_rfl) (h.ge hx le_rfl)

/-- A number that is closer to `y` than to `z` is not rounded to `z`. -/
theorem Nearest.lt (h : Nearest isFloat rnd) {x y z : ℚ} (hy : isFloat y) (hz : isFloat z) (hyz : y < z) (hx : x < (y + z) / 2) :
    rnd x < z := by
  have h1 : rnd x ≤ z := h.le hz (by linarith)
  refine lt_of_le_of_ne h1 fun heq => ?_
  have h2 := h.nearest x y hy
  rw [heq, abs_of_nonpos (by linarith : x - z ≤ 0)] at h2
  have h3 : |x - y| < z - x := abs_lt.mpr ⟨by linarith, by linarith⟩
  linarith

end

theorem Nearest.error {p : ℕ} {emin : ℤ} {rnd : ℚ → ℚ} (h : Nearest (IsFloat p emin) rnd) (x : ℚ) :
    |x - rnd x| ≤ |x| / 2 ^ p + 2 ^ emin / 2 := by
  have h1 := (h.nearest x _ (roundEven_mem p emin x)).trans (roundEven_error p emin x)
  have hp : (0 : ℚ) < 2 ^ p := by positivity
  have h0 := two_zpow_pos emin
  have h3 : 0 ≤ |x| / 2 ^ p := by positivity
  by_cases hx : x = 0
  · subst hx
    rw [h.eq (isFloat_zero p emin)]; simp; linarith
  rcases (exponent_ge p emin x).eq_or_lt with he | he
  · rw [← he] at h1; linarith
  · have h2 := exponent_le_abs hx he
    have h4 : (2 : ℚ) ^ exponent p emin x = 2 ^ (exponent p emin x - 1) * 2 := by
      rw [← zpow_add_one₀ (by norm_num)]; congr 1; ring
    have h5 : (2 : ℚ) ^ (exponent p emin x - 1) ≤ |x| / 2 ^ p := by rw [le_div_iff₀ hp]; linarith
    rw [h4] at h1; linarith

theorem IsFloat32.to64 {x : ℚ} (h : IsFloat32 x) : IsFloat64 x := by
  obtain ⟨m, e, hm, he, rfl⟩ := h
  exact ⟨m, e, hm.trans (by norm_num), by omega, rfl⟩

theorem IsFloat32.half64 {x : ℚ} (h : IsFloat32 x) : IsFloat64 (x * (1 / 2)) := by
  obtain ⟨m, e, hm, he, rfl⟩ := h
  exact ⟨m, e - 1, hm.trans (by norm_num), by omega, by rw [zpow_sub_one₀ (by norm_num)]; ring⟩

theorem isFloat32_max : IsFloat32 maxFloat32 := ⟨2 ^ 24 - 1, 104, by norm_num, by norm_num, by unfold maxFloat32; norm_num⟩

/-- The number before a number. -/
theorem IsFloat32.pred {x : ℚ} (h : IsFloat32 x) : ∃ e : ℤ, -149 ≤ e ∧ IsFloat32 (x - 2 ^ e) ∧ |x| ≤ 2 ^ 24 * 2 ^ e ∧
    (e = -149 ∨ 2 ^ 23 * 2 ^ e ≤ |x|) ∧ ∀ z, IsFloat32 z → z < x → z ≤ x - 2 ^ e := by
  -- multiples of the last digit
  have grid : ∀ (e : ℤ) (y z : ℚ), (∃ m : ℤ, y = m * 2 ^ e) → (∃ m : ℤ, z = m * 2 ^ e) → z < y → z ≤ y - 2 ^ e := by
    rintro e y z ⟨m, rfl⟩ ⟨n, rfl⟩ hlt
    have h1 := two_zpow_pos e
    have h2 : n < m := by
      have := lt_of_mul_lt_mul_right hlt h1.le
      exact_mod_cast this
    have h3 : (n : ℚ) ≤ m - 1 := by exact_mod_cast Int.le_sub_one_of_lt h2
    nlinarith
  by_cases hx0 : x = 0
  · subst hx0
    have h1 := two_zpow_pos (-149)
    refine ⟨-149, le_rfl, ⟨-1, -149, by norm_num, le_rfl, by push_cast; ring⟩, by rw [abs_zero]; positivity, Or.inl rfl, fun z hz hlt => ?_⟩
    exact grid (-149) 0 z ⟨0, by simp⟩ (hz.multiple (Or.inl le_rfl)) hlt
  set E := exponent 24 (-149) x with hE
  have hge : -149 ≤ E := exponent_ge 24 (-149) x
  have hlt : |x| < 2 ^ 24 * 2 ^ E := abs_lt_exponent 24 (-149) x
  have hpos := two_zpow_pos E
  have hhalf : (2 : ℚ) ^ E = 2 ^ (E - 1) * 2 := by rw [← zpow_add_one₀ (by norm_num)]; congr 1; ring
  have hlow : -149 < E → (2 : ℚ) ^ 23 * 2 ^ E ≤ |x| := by
    intro he
    have := exponent_le_abs hx0 he
    rw [← hE] at this
    rw [hhalf]; linarith
  have hmul : ∃ m : ℤ, x = m * 2 ^ E := by
    rcases hge.eq_or_lt with he | he
    · exact h.multiple (Or.inl he.ge)
    · rcases (hlow he).eq_or_lt with heq | hlt'
      · rcases abs_cases x with ⟨ha, _⟩ | ⟨ha, _⟩
        · exact ⟨2 ^ 23, by push_cast; linarith⟩
        · exact ⟨-2 ^ 23, by push_cast; linarith⟩
      · exact h.multiple (Or.inr (by rw [hhalf] at hlt'; linarith))
  by_cases hpow : -149 < E ∧ x = 2 ^ 23 * 2 ^ E
  · obtain ⟨he, hx⟩ := hpow
    have hxpos : 0 < x := by rw [hx]; positivity
    have hx2 : x = 2 ^ 24 * 2 ^ (E - 1) := by rw [hx, hhalf]; ring
    have h1 := two_zpow_pos (E - 1)
    refine ⟨E - 1, by omega, ⟨2 ^ 24 - 1, E - 1, by norm_num, by omega, by push_cast; linarith⟩, ?_, Or.inr ?_, ?_⟩
    · rw [abs_of_pos hxpos]; linarith
    · rw [abs_of_pos hxpos]; linarith
    · intro z hz hzx
      by_contra hcon
      push Not at hcon
      have hz2 : 0 < z := by linarith
      have hzm := hz.multiple (e := E - 1) (Or.inr (by
        rw [abs_of_pos hz2]
        have : (2 : ℚ) ^ (E - 1) = 2 ^ (E - 1 - 1) * 2 := by rw [← zpow_add_one₀ (by norm_num)]; congr 1; ring
        have h3 := two_zpow_pos (E - 1 - 1)
        linarith))
      have := grid (E - 1) x z ⟨2 ^ 24, by push_cast; linarith⟩ hzm hzx
      linarith
  · obtain ⟨m, hm⟩ := hmul
    have hmlt : |m| < 2 ^ 24 := by
      rw [hm, abs_mul, abs_of_pos hpos] at hlt
      have := lt_of_mul_lt_mul_right hlt hpos.le
      exact_mod_cast this
    refine ⟨E, hge, ⟨m - 1, E, ?_, hge, by rw [hm]; push_cast; ring⟩, hlt.le, ?_, ?_⟩
    · rw [abs_lt] at hmlt; rw [abs_le]; omega
    · rcases hge.eq_or_lt with he | he
      · exact Or.inl he.symm
      · exact Or.inr (hlow he)
    · intro z hz hzx
      by_contra hcon
      push Not at hcon
      have hzm : ∃ n : ℤ, z = n * 2 ^ E := by
        rcases hge.eq_or_lt with he | he
        · exact hz.multiple (Or.inl he.ge)
        · refine hz.multiple (Or.inr ?_)
          have h2 := hlow he
          have h3 : (2 : ℚ) ^ 24 * 2 ^ (E - 1) = 2 ^ 23 * 2 ^ E := by rw [hhalf]; ring
          rw [h3]
          rcases abs_cases x with ⟨ha, hb⟩ | ⟨ha, hb⟩
          · have hne : x ≠ 2 ^ 23 * 2 ^ E := fun hh => hpow ⟨he, hh⟩
            have h4 : 2 ^ 23 * 2 ^ E < x := lt_of_le_of_ne (by linarith) (Ne.symm hne)
            have h5 := grid E x (2 ^ 23 * 2 ^ E) ⟨m, hm⟩ ⟨2 ^ 23, by push_cast; ring⟩ h4
            have : z ≤ |z| := le_abs_self z
            linarith
          · have : -z ≤ |z| := neg_le_abs z
            linarith
      have := grid E x z ⟨m, hm⟩ hzm hzx
      linarith

theorem half_digit (e : ℤ) : (2 : ℚ) ^ e = 2 ^ (e - 1) * 2 := by rw [← zpow_add_one₀ (by norm_num)]; congr 1; ring

/-- The exact sum is sufficiently smaller than the larger value, unless there is no number between both values. -/
theorem mean_bound {rnd32 rnd64 : ℚ → ℚ} (h32 : Nearest IsFloat32 rnd32) (h64 : Nearest IsFloat64 rnd64) {small large z : ℚ}
    (hs : IsFloat32 small) (hl : IsFloat32 large) (hz : IsFloat32 z) (hsz : small < z) (hzl : z < large) :
    rnd32 (rnd64 (small + rnd64 (rnd32 (large - small) * (1 / 2)))) < large := by
  obtain ⟨e, he, hy, habs, hlow, hpred⟩ := hl.pred
  have hsy : small < large - 2 ^ e := lt_of_lt_of_le hsz (hpred z hz hzl)
  have hv := two_zpow_pos e
  have hmin : (2 : ℚ) ^ (-149 : ℤ) ≤ 2 ^ e := two_zpow_le he
  rw [h64.eq (h32.mem _).half64]
  refine h32.lt hy hl (by linarith) ?_
  have herr := h64.error (small + rnd32 (large - small) * (1 / 2))
  have hmin2 : (2 : ℚ) ^ (-1074 : ℤ) ≤ 2 ^ e / 2 ^ 30 := by
    have h1 : (2 : ℚ) ^ (-1074 : ℤ) ≤ 2 ^ (e - 30) := two_zpow_le (by omega)
    rw [zpow_sub₀ (by norm_num)] at h1
    exact h1.trans_eq (by norm_num)
  generalize hc1 : (2 : ℚ) ^ (-1074 : ℤ) = c1 at herr hmin2
  set v : ℚ := 2 ^ e
  set D := large - small with hD
  set d := rnd32 D with hd
  have hd0 : 0 ≤ d := h32.ge (isFloat_zero _ _) (by linarith)
  have hderr := h32.error D
  rw [← hd, abs_of_pos (by linarith : 0 < D)] at hderr
  generalize hc2 : (2 : ℚ) ^ (-149 : ℤ) = c2 at hderr hmin
  have hd1 := abs_le.mp hderr
  have key : D - d * (1 / 2) ≥ D / 3 + v / 32 ∧ D ≥ 3 / 2 * v ∧ d ≤ 2 * D := by
    by_cases hbig : 2 * v ≤ D
    · refine ⟨?_, ?_, ?_⟩ <;> linarith [hd1.1]
    · push Not at hbig
      -- the difference is a small multiple of half a digit, and exact
      have hex : ∃ k : ℤ, D = k * 2 ^ (e - 1) ∧ IsFloat32 D ∧ 3 ≤ k := by
        rcases hlow with rfl | hlow
        · obtain ⟨a, ha⟩ := hl.multiple (e := -149) (Or.inl le_rfl)
          obtain ⟨b, hb⟩ := hs.multiple (e := -149) (Or.inl le_rfl)
          exfalso
          have h1 : D = ((a - b : ℤ) : ℚ) * v := by rw [hD, ha, hb]; push_cast; ring
          have h2 : (1 : ℚ) < ((a - b : ℤ) : ℚ) := by
            by_contra hc; push Not at hc; nlinarith
          have h3 : ((a - b : ℤ) : ℚ) < 2 := by
            by_contra hc; push Not at hc; nlinarith
          have h2' : 1 < a - b := by exact_mod_cast h2
          have h3' : a - b < 2 := by exact_mod_cast h3
          omega
        · rcases he.eq_or_lt with he' | he'
          · obtain ⟨a, ha⟩ := hl.multiple (e := e) (Or.inl he'.ge)
            obtain ⟨b, hb⟩ := hs.multiple (e := e) (Or.inl he'.ge)
            exfalso
            have h1 : D = ((a - b : ℤ) : ℚ) * v := by rw [hD, ha, hb]; push_cast; ring
            have h2 : (1 : ℚ) < ((a - b : ℤ) : ℚ) := by
              by_contra hc; push Not at hc; nlinarith
            have h3 : ((a - b : ℤ) : ℚ) < 2 := by
              by_contra hc; push Not at hc; nlinarith
            have h2' : 1 < a - b := by exact_mod_cast h2
            have h3' : a - b < 2 := by exact_mod_cast h3
            omega
          · have hv2 : v = 2 ^ (e - 1) * 2 := half_digit e
            have hv3 : (2 : ℚ) ^ (e - 1) = 2 ^ (e - 1 - 1) * 2 := half_digit (e - 1)
            have hpos1 := two_zpow_pos (e - 1)
            have hsabs : |large| - D ≤ |small| := by
              have h1 := abs_sub_abs_le_abs_sub large small
              rw [← hD, abs_of_pos (by linarith : 0 < D)] at h1
              linarith
            obtain ⟨b, hb⟩ := hs.multiple (e := e - 1) (Or.inr (by
              have h3 := two_zpow_pos (e - 1 - 1)
              linarith))
            obtain ⟨a, ha⟩ := hl.multiple (e := e - 1) (Or.inr (by
              have h3 := two_zpow_pos (e - 1 - 1)
              linarith))
            have h1 : D = ((a - b : ℤ) : ℚ) * 2 ^ (e - 1) := by rw [hD, ha, hb]; push_cast; ring
            have h2 : (2 : ℚ) < ((a - b : ℤ) : ℚ) := by
              by_contra hc; push Not at hc; nlinarith
            have h3 : ((a - b : ℤ) : ℚ) < 4 := by
              by_contra hc; push Not at hc; nlinarith
            have h2' : 2 < a - b := by exact_mod_cast h2
            have h3' : a - b < 4 := by exact_mod_cast h3
            exact ⟨a - b, h1, ⟨a - b, e - 1, by rw [abs_le]; omega, by omega, by exact_mod_cast h1⟩, by omega⟩
      obtain ⟨k, hk, hDf, hk3⟩ := hex
      have hdD : d = D := h32.eq hDf
      have hv2 : v = 2 ^ (e - 1) * 2 := half_digit e
      have hpos1 := two_zpow_pos (e - 1)
      have hk3' : (3 : ℚ) ≤ k := by exact_mod_cast hk3
      have h1 : 3 * 2 ^ (e - 1) ≤ D := by rw [hk]; nlinarith
      refine ⟨?_, ?_, ?_⟩ <;> linarith
  obtain ⟨hk1, hk2, hk3⟩ := key
  have hx : |small + d * (1 / 2)| ≤ 2 ^ 24 * v + 2 * D := by
    have h1 := abs_le.mp habs
    rw [abs_le]; constructor <;> linarith
  have h1 := (abs_le.mp (herr)).1
  have hp : |small + d * (1 / 2)| / 2 ^ 53 ≤ v / 2 ^ 29 + D / 2 ^ 52 := by
    rw [div_le_iff₀ (by positivity)]
    linarith
  linarith

end MLRL.FloatingPoint
