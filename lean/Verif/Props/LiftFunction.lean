import Verif.Model.LiftFunction
import Mathlib.Tactic.Linarith
import Mathlib.Tactic.Positivity
import Mathlib.Tactic.FieldSimp
import Mathlib.Tactic.NormNum

/-!
# C48: lift functions
-/

namespace MLRL.Seco

/-- What is expected from a lift function for problems with `total` labels: the lift is at least 1, and the maximum lift that is reported for a head
with `n` labels is an upper bound of the lift of every head that is at least as large (lift_function.hpp). -/
structure AdmissibleLift (total : Nat) (lift maxLift : Nat → ℝ) : Prop where
  one_le : ∀ n, 1 ≤ n → n ≤ total → 1 ≤ lift n
  le_max : ∀ n m, 1 ≤ n → n ≤ m → m ≤ total → lift m ≤ maxLift n

/-- **C48** for the lift function that does not reward any heads. -/
theorem noLift_admissible (total : Nat) : AdmissibleLift total noLift noMaxLift := ⟨fun _ _ _ => le_refl _, fun _ _ _ _ _ => le_refl _⟩

/-- The lift of the KLN lift function increases with the number of labels. -/
theorem klnLift_mono {k : ℝ} (hk : 0 < k) {n m : Nat} (hn : 1 ≤ n) (hnm : n ≤ m) : klnLift k n ≤ klnLift k m := by
  unfold klnLift
  have h1 : (0 : ℝ) < (n : ℝ) := by exact_mod_cast hn
  have h2 : (n : ℝ) ≤ (m : ℝ) := by exact_mod_cast hnm
  have := mul_le_mul_of_nonneg_left (Real.log_le_log h1 h2) hk.le
  linarith

/-- **C48** for the KLN lift function with any parameter the configuration accepts (lift_function_kln.cpp:73). -/
theorem klnLift_admissible {k : ℝ} (hk : 0 < k) (total : Nat) : AdmissibleLift total (klnLift k) (klnMaxLift k total) := by
  refine ⟨fun n hn _ => ?_, fun n m hn hnm hm => klnLift_mono hk (hn.trans hnm) hm⟩
  unfold klnLift
  have h1 : (1 : ℝ) ≤ (n : ℝ) := by exact_mod_cast hn
  have := mul_nonneg hk.le (Real.log_nonneg h1)
  linarith

/-! ### The peak lift function -/

theorem cPow_abs_le_one {b e v : ℝ} (hb : |b| ≤ 1) (he : 0 < e) (h : cPow b e = some v) : v ≤ 1 := by
  unfold cPow at h
  split at h
  · next h0 =>
    cases h
    exact Real.rpow_le_one h0 (le_of_abs_le hb) he.le
  · split at h
    · next h0 hz =>
      cases h
      have hz0 : 0 < ⌊e⌋ := by
        have : (0 : ℝ) < ((⌊e⌋ : ℤ) : ℝ) := by rw [hz]; exact he
        exact_mod_cast this
      obtain ⟨n, hn⟩ := Int.eq_ofNat_of_zero_le hz0.le
      rw [hn]
      have : b ^ ((n : ℕ) : ℤ) = b ^ n := zpow_natCast b n
      rw [this]
      refine (le_abs_self _).trans ?_
      rw [abs_pow]
      exact pow_le_one₀ (abs_nonneg _) hb
    · exact absurd h (by simp)

theorem normalization_abs (n total peak : Nat) (hn : 1 ≤ n) (hnt : n ≤ total) (hp : peak ≤ total) (hne : n ≠ peak) :
    |normalization n total peak| ≤ 1 := by
  unfold normalization
  have h1 : (1 : ℝ) ≤ (n : ℝ) := by exact_mod_cast hn
  split
  · next h =>
    have h2 : (n : ℝ) + 1 ≤ (peak : ℝ) := by exact_mod_cast h
    rw [abs_le]
    have hd : 0 < (peak : ℝ) - 1 := by linarith
    constructor
    · have := div_nonneg (show 0 ≤ (n : ℝ) - 1 by linarith) hd.le
      linarith
    · exact (div_le_one hd).2 (by linarith)
  · next h =>
    have h2 : (peak : ℝ) + 1 ≤ (n : ℝ) := by
      have : peak + 1 ≤ n := by omega
      exact_mod_cast this
    have h3 : (n : ℝ) ≤ (total : ℝ) := by exact_mod_cast hnt
    have hd : 0 < (total : ℝ) - (peak : ℝ) := by linarith
    rw [abs_le]
    constructor
    · rw [le_div_iff₀ hd]
      linarith
    · exact (div_le_one hd).2 (by linarith)

/-- Part of **C48**: up to the peak, the lift is a number between 1 and the maximum lift, and it reaches the maximum lift at the peak. -/
theorem peakLift_before_partial (f : Peak) (hm : 1 ≤ f.maxLift) (hc : 0 < f.curvature) (n : Nat) (hn : 1 ≤ n) (hnp : n ≤ f.peak) :
    ∃ v, f.lift n = some v ∧ 1 ≤ v ∧ v ≤ f.maxLift ∧ (n = f.peak → v = f.maxLift) := by
  unfold Peak.lift peakLiftInternally
  split
  · exact ⟨_, rfl, hm, le_refl _, fun _ => rfl⟩
  · next hne =>
    have hlt : n < f.peak := by omega
    have h1 : (1 : ℝ) ≤ (n : ℝ) := by exact_mod_cast hn
    have h2 : (n : ℝ) + 1 ≤ (f.peak : ℝ) := by exact_mod_cast hlt
    have hd : 0 < (f.peak : ℝ) - 1 := by linarith
    unfold normalization
    rw [if_pos hlt]
    have h0 : 0 ≤ ((n : ℝ) - 1) / ((f.peak : ℝ) - 1) := div_nonneg (by linarith) hd.le
    have h3 : ((n : ℝ) - 1) / ((f.peak : ℝ) - 1) ≤ 1 := (div_le_one hd).2 (by linarith)
    unfold cPow
    rw [if_pos h0]
    have he : 0 ≤ 1 / f.curvature := by positivity
    have hp0 := Real.rpow_nonneg h0 (1 / f.curvature)
    have hp1 := Real.rpow_le_one h0 h3 he
    refine ⟨_, rfl, ?_, ?_, fun h => absurd h hne⟩
    · have := mul_nonneg hp0 (sub_nonneg.2 hm)
      linarith
    · have := mul_le_mul_of_nonneg_right hp1 (sub_nonneg.2 hm)
      linarith

/-- The lift does not decrease up to the peak. -/
theorem peakLift_mono (f : Peak) (hm : 1 ≤ f.maxLift) (hc : 0 < f.curvature) {n m : Nat} (hn : 1 ≤ n) (hnm : n ≤ m) (hmp : m ≤ f.peak) :
    ∃ v w, f.lift n = some v ∧ f.lift m = some w ∧ v ≤ w := by
  obtain ⟨v, hv, hv1, hv2, hv3⟩ := peakLift_before_partial f hm hc n hn (hnm.trans hmp)
  obtain ⟨w, hw, hw1, hw2, hw3⟩ := peakLift_before_partial f hm hc m (hn.trans hnm) hmp
  refine ⟨v, w, hv, hw, ?_⟩
  by_cases hme : m = f.peak
  · rw [hw3 hme]
    exact hv2
  · have hlm : m < f.peak := by omega
    have hln : n < f.peak := by omega
    unfold Peak.lift peakLiftInternally at hv hw
    rw [if_neg (by omega)] at hv hw
    unfold normalization at hv hw
    rw [if_pos hln] at hv
    rw [if_pos hlm] at hw
    have h1 : (1 : ℝ) ≤ (n : ℝ) := by exact_mod_cast hn
    have h2 : (n : ℝ) ≤ (m : ℝ) := by exact_mod_cast hnm
    have h3 : (m : ℝ) + 1 ≤ (f.peak : ℝ) := by exact_mod_cast hlm
    have hd : 0 < (f.peak : ℝ) - 1 := by linarith
    have hn0 : 0 ≤ ((n : ℝ) - 1) / ((f.peak : ℝ) - 1) := div_nonneg (by linarith) hd.le
    have hm0 : 0 ≤ ((m : ℝ) - 1) / ((f.peak : ℝ) - 1) := div_nonneg (by linarith) hd.le
    have hle : ((n : ℝ) - 1) / ((f.peak : ℝ) - 1) ≤ ((m : ℝ) - 1) / ((f.peak : ℝ) - 1) := div_le_div_of_nonneg_right (by linarith) hd.le
    unfold cPow at hv hw
    rw [if_pos hn0] at hv
    rw [if_pos hm0] at hw
    cases hv
    cases hw
    have he : 0 ≤ 1 / f.curvature := by positivity
    have := mul_le_mul_of_nonneg_right (Real.rpow_le_rpow hn0 hle he) (sub_nonneg.2 hm)
    linarith

/-- Part of **C48**: before the peak, the maximum lift that is reported is an upper bound of the lift of every head, provided that the latter is a
number. -/
theorem peakLift_max_partial (f : Peak) (hm : 1 ≤ f.maxLift) (hc : 0 < f.curvature) (hp : f.peak ≤ f.total) (n : Nat) (hn : n < f.peak) :
    f.getMaxLift n = .ok (some f.maxLift) ∧ ∀ m, 1 ≤ m → m ≤ f.total → ∀ v, f.lift m = some v → v ≤ f.maxLift := by
  refine ⟨if_pos hn, fun m hm1 hmt v hv => ?_⟩
  unfold Peak.lift peakLiftInternally at hv
  split at hv
  · cases hv
    exact le_refl _
  · next hne =>
    cases hq : cPow (normalization m f.total f.peak) (1 / f.curvature) with
    | none => rw [hq] at hv; exact absurd hv (by simp)
    | some q =>
      rw [hq] at hv
      cases hv
      have hq1 := cPow_abs_le_one (normalization_abs m f.total f.peak hm1 hmt hp hne) (by positivity) hq
      have := mul_le_mul_of_nonneg_right hq1 (sub_nonneg.2 hm)
      show 1 + q * (f.maxLift - 1) ≤ f.maxLift
      linarith

/-- The lift function that is used by default for a problem with 5 labels (lift_function_peak.cpp:116). -/
noncomputable def defaultPeak : Peak := Peak.create 5 2 (108 / 100) 1 0

theorem defaultPeak_peak : defaultPeak.peak = 2 := by simp [defaultPeak, Peak.create]

/-- The lift after the peak. -/
theorem peakLift_after {n total peak : Nat} (h1 : peak < n) (h2 : n < total) (maxLift exponent : ℝ) :
    peakLiftInternally n total peak maxLift exponent =
      if ((⌊exponent⌋ : ℤ) : ℝ) = exponent then
        some (1 + (((n : ℝ) - (total : ℝ)) / ((total : ℝ) - (peak : ℝ))) ^ (⌊exponent⌋ : ℤ) * (maxLift - 1))
      else none := by
  unfold peakLiftInternally normalization cPow
  rw [if_neg (by omega), if_neg (show ¬n < peak by omega)]
  have h3 : (n : ℝ) + 1 ≤ (total : ℝ) := by exact_mod_cast h2
  have h4 : (peak : ℝ) + 1 ≤ (n : ℝ) := by exact_mod_cast h1
  have h5 : ((n : ℝ) - (total : ℝ)) / ((total : ℝ) - (peak : ℝ)) < 0 := div_neg_of_neg_of_pos (by linarith) (by linarith)
  rw [if_neg (not_le.2 h5)]
  split <;> rfl

theorem create_eq (total peak : Nat) (h : 0 < peak) (h' : peak ≤ total) (maxLift curvature : ℝ) (c : Nat) :
    Peak.create total peak maxLift curvature c = ⟨total, peak, maxLift, curvature⟩ := by
  unfold Peak.create
  rw [if_pos h, Nat.min_eq_right h']

/-- **The peak that is used is in `[1, numLabels]`**, as it is demanded by the constructor of the lift function.  It is the one that has been
configured, restricted to the number of labels, or the label cardinality, if there is at least one relevant label on average. -/
theorem peakLift_create {total peak c : Nat} (maxLift curvature : ℝ) (ht : 1 ≤ total) (hc : c ≤ total) :
    (1 ≤ (Peak.create total peak maxLift curvature c).peak ∧ (Peak.create total peak maxLift curvature c).peak ≤ total) ∧
    (1 ≤ peak → peak ≤ total → (Peak.create total peak maxLift curvature c).peak = peak) ∧
    (total < peak → (Peak.create total peak maxLift curvature c).peak = total) ∧
    (peak = 0 → 1 ≤ c → (Peak.create total peak maxLift curvature c).peak = c) ∧
    (Peak.create total peak maxLift curvature c).total = total ∧ (Peak.create total peak maxLift curvature c).maxLift = maxLift ∧
    (Peak.create total peak maxLift curvature c).curvature = curvature := by
  have hp : (Peak.create total peak maxLift curvature c).peak = if peak > 0 then min total peak else max c 1 := rfl
  rw [hp]
  refine ⟨⟨?_, ?_⟩, fun _ _ => ?_, fun _ => ?_, fun _ _ => ?_, rfl, rfl, rfl⟩ <;> split <;> omega

example : (Peak.create 5 0 (108 / 100) 1 3).peak = 3 :=
  (peakLift_create (108 / 100) 1 (by omega) (by omega)).2.2.2.1 rfl (by omega)

theorem defaultPeak_lift (n : Nat) (hn : 2 < n) (hn' : n < 5) : defaultPeak.lift n = some (1 + ((n : ℝ) - 5) / 3 * (8 / 100)) := by
  unfold defaultPeak
  rw [create_eq _ _ (by omega) (by omega)]
  unfold Peak.lift
  rw [peakLift_after hn hn']
  norm_num

/-- Negation of **C48**: after the peak, the lift is less than 1 (with the default parameters and 5 labels, the lift of heads with 3 or 4 labels). -/
theorem peakLift_below_one : ∃ v, defaultPeak.lift 3 = some v ∧ v < 1 := ⟨_, defaultPeak_lift 3 (by omega) (by omega), by norm_num⟩

/-- Negation of **C48**: the maximum lift that is reported for heads with 3 labels is less than the lift of heads with 4 or 5 labels. -/
theorem peakLift_max_wrong : ∃ v w, defaultPeak.getMaxLift 3 = .ok (some v) ∧ defaultPeak.lift 4 = some w ∧ v < w := by
  refine ⟨1 + ((3 : ℝ) - 5) / 3 * (8 / 100), _, ?_, defaultPeak_lift 4 (by omega) (by omega), by norm_num⟩
  have h := defaultPeak_lift 3 (by omega) (by omega)
  unfold Peak.lift at h
  unfold Peak.getMaxLift
  rw [defaultPeak_peak, if_neg (by omega)]
  unfold readAt Peak.maxLiftsAfterPeak
  rw [show defaultPeak.total - defaultPeak.peak = 3 by rw [defaultPeak_peak]; rfl]
  have hc : defaultPeak.curvature = 1 / defaultPeak.curvature := by simp [defaultPeak, Peak.create]
  rw [← hc] at h
  simp only [List.range_succ, List.range_zero, List.map_append, List.map_nil, List.map_cons, List.nil_append, List.cons_append]
  simp only [defaultPeak_peak] at h ⊢
  simp [h]

/-- Negation of **C48**: after the peak, the lift is not a number if the curvature is 2. -/
theorem peakLift_nan : (Peak.create 5 2 (108 / 100) 2 0).lift 3 = none := by
  rw [create_eq _ _ (by omega) (by omega)]
  unfold Peak.lift
  rw [peakLift_after (by norm_num) (by norm_num), if_neg]
  intro h
  have h2 : ((⌊(1 : ℝ) / 2⌋ : ℤ) : ℝ) * 2 = 1 := by rw [h]; norm_num
  have h3 : ⌊(1 : ℝ) / 2⌋ * 2 = 1 := by exact_mod_cast h2
  omega

/-- Negation of **C48**: the maximum lift of a head that predicts for all labels is read outside of the array whenever the peak does not lie beyond
that number of labels. -/
theorem peakLift_max_fault (f : Peak) (hp : f.peak ≤ f.total) : f.getMaxLift f.total = .error .outOfBounds := by
  unfold Peak.getMaxLift
  rw [if_neg (by omega)]
  exact readAt_of_le (by simp [Peak.maxLiftsAfterPeak])

/-- The functions of this module for concrete parameters. -/
example : ∃ v, (Peak.create 5 3 (108 / 100) 1 0).lift 2 = some v ∧ v = 104 / 100 := by
  refine ⟨1 + (1 / 2) * (108 / 100 - 1), ?_, by norm_num⟩
  rw [create_eq _ _ (by omega) (by omega)]
  unfold Peak.lift peakLiftInternally normalization cPow
  norm_num

example : (Peak.create 5 3 (108 / 100) 1 0).peak = 3 ∧ (1 : ℝ) ≤ 108 / 100 ∧ (0 : ℝ) < 1 := by
  refine ⟨by simp [Peak.create], by norm_num, by norm_num⟩

example : klnLift (1 / 5) 1 = 1 ∧ 1 < klnLift (1 / 5) 2 := by
  constructor
  · simp [klnLift]
  · have := Real.log_pos (show (1 : ℝ) < 2 by norm_num)
    simp only [klnLift]
    norm_num
    exact this

end MLRL.Seco
