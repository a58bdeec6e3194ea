import Verif.Model.PythonScalars
import Verif.Props.PythonRuleInduction
import Verif.Props.FloatingPoint

/-!
# C122: Setters for individual numbers accept exactly the documented values
-/

namespace MLRL.PythonScalars

open PythonSetters (PyFloat Failure assertGreater assertGreaterOrEqual assertLess isFloat32_one)
open PythonPrePruning (bind_ok positive_ok Positive)
open PythonRuleInduction (Maximum optionalAtLeast_ok)
open FloatingPoint (Nearest IsFloat32 maxFloat32 isFloat_zero two_zpow_pos)

/-! ### Specification -/

/-- The documented ranges of the values. -/
def Documented : FloatSetter → ℚ → Prop
  | .regularizationWeight, x => 0 < x
  | .shrinkage, x => 0 < x ∧ x < 1
  | .maxLift, x => 1 ≤ x
  | .curvature, x => 0 < x
  | .k, x => 0 < x
  | .beta, x => 0 ≤ x
  | .m, x => 0 ≤ x
  | .coverageThreshold, x => 0 ≤ x
  | .holdoutSetSize, x => 0 < x ∧ x < 1
  | .headThreshold, x => 0 < x ∧ x < 1
  | .exponent, x => 1 ≤ x

/-- The setters with values of type `float64`. -/
def Double (s : FloatSetter) : Prop := s ≠ .holdoutSetSize ∧ s ≠ .headThreshold ∧ s ≠ .exponent

/-- The setters with a lower bound that is included, which are those for which values that are not numbers are accepted. -/
def Closed (s : FloatSetter) : Prop := s = .maxLift ∨ s = .beta ∨ s = .m ∨ s = .coverageThreshold ∨ s = .exponent

/-- The setters without an upper bound. -/
def Unbounded (s : FloatSetter) : Prop := s ≠ .shrinkage ∧ s ≠ .holdoutSetSize ∧ s ≠ .headThreshold

/-! ### Auxiliary statements -/

theorem ite_ok {b : Bool} {u : Unit} : (if b = true then (.error .valueError : Except Failure Unit) else .ok ()) = .ok u ↔ b = false := by
  cases b
  · exact ⟨fun _ => rfl, fun _ => rfl⟩
  · exact ⟨fun h => (by cases h), fun h => (by cases h)⟩

theorem pythonCheck_fin (s : FloatSetter) (x : ℚ) (u : Unit) : s.pythonCheck (.fin x) = .ok u ↔ Documented s x := by
  cases s <;> simp [FloatSetter.pythonCheck, Documented, bind_ok, assertGreater, assertGreaterOrEqual, assertLess, PyFloat.le, PyFloat.lt, PyFloat.ge]

theorem cppCheck_fin (s : FloatSetter) (x : ℚ) (u : Unit) : s.cppCheck (.fin x) = .ok u ↔ Documented s x := by
  cases s <;> simp [FloatSetter.cppCheck, Documented, bind_ok, cppGreater, cppGreaterOrEqual, cppLess, PyFloat.lt, PythonPrePruning.gt]

theorem set_ok (rnd32 : ℚ → ℚ) (s : FloatSetter) (v w : PyFloat) :
    s.set rnd32 v = .ok w ↔ s.pythonCheck v = .ok () ∧ s.cppCheck (s.convert rnd32 v) = .ok () ∧ w = s.convert rnd32 v := by
  unfold FloatSetter.set
  rw [bind_ok]
  constructor
  · rintro ⟨_, h1, h⟩
    rw [bind_ok] at h
    obtain ⟨_, h2, h⟩ := h
    cases h
    exact ⟨h1, h2, rfl⟩
  · rintro ⟨h1, h2, rfl⟩
    exact ⟨(), h1, (bind_ok _ _ _).2 ⟨(), h2, rfl⟩⟩

theorem convert_double (rnd32 : ℚ → ℚ) {s : FloatSetter} (hs : Double s) (v : PyFloat) : s.convert rnd32 v = v := by
  obtain ⟨h1, h2, h3⟩ := hs
  cases s <;> first | rfl | exact absurd rfl h1 | exact absurd rfl h2 | exact absurd rfl h3

/-! ### Values of type `float64` -/

/-- **C122**: a number is accepted by a setter with a value of type `float64` if and only if it is in the documented range, and it is stored as it is. -/
theorem set_double_partial (rnd32 : ℚ → ℚ) {s : FloatSetter} (hs : Double s) (x : ℚ) (w : PyFloat) :
    s.set rnd32 (.fin x) = .ok w ↔ Documented s x ∧ w = .fin x := by
  rw [set_ok, convert_double rnd32 hs, pythonCheck_fin, cppCheck_fin]
  exact ⟨fun h => ⟨h.1, h.2.2⟩, fun h => ⟨h.1, h.1, h.2⟩⟩

/-! ### Values of type `float32` -/

section
variable {rnd32 : ℚ → ℚ} (h32 : Nearest IsFloat32 rnd32)
include h32

theorem convert32_ratio {x : ℚ} (h0 : 0 ≤ x) (h1 : x ≤ 1) : convert32 rnd32 (.fin x) = .fin (rnd32 x) := by
  unfold convert32
  dsimp only
  rw [if_pos]
  rw [abs_of_nonneg (h32.ge (isFloat_zero _ _) h0)]
  exact (h32.le isFloat32_one h1).trans (by unfold maxFloat32; norm_num)

/-- **C122**: a number is accepted as the size of a holdout set, or as the threshold of dynamic partial heads, if and only if it is in the documented range and is not rounded to zero or one. The
rounded number is stored. -/
theorem set_ratio_partial {s : FloatSetter} (hs : s = .holdoutSetSize ∨ s = .headThreshold) (x : ℚ) (w : PyFloat) :
    s.set rnd32 (.fin x) = .ok w ↔ Documented s x ∧ Documented s (rnd32 x) ∧ w = .fin (rnd32 x) := by
  rw [set_ok, pythonCheck_fin]
  refine and_congr_right fun h => ?_
  have hx : 0 < x ∧ x < 1 := by rcases hs with rfl | rfl <;> exact h
  have hc : s.convert rnd32 (.fin x) = .fin (rnd32 x) := by
    rcases hs with rfl | rfl <;> exact convert32_ratio h32 hx.1.le hx.2.le
  rw [hc, cppCheck_fin]

/-- **C122**: a number is accepted as the exponent of dynamic partial heads if and only if it is at least one. The rounded number, or infinity if it is too large, is stored. -/
theorem set_exponent_partial (x : ℚ) (w : PyFloat) :
    FloatSetter.exponent.set rnd32 (.fin x) = .ok w ↔ Documented .exponent x ∧ w = if rnd32 x ≤ maxFloat32 then .fin (rnd32 x) else .posInf := by
  rw [set_ok, pythonCheck_fin]
  refine and_congr_right fun h => ?_
  have hx : 1 ≤ x := h
  have hr : 1 ≤ rnd32 x := h32.ge isFloat32_one hx
  have hc : FloatSetter.exponent.convert rnd32 (.fin x) = if rnd32 x ≤ maxFloat32 then .fin (rnd32 x) else .posInf := by
    change convert32 rnd32 (.fin x) = _
    unfold convert32
    dsimp only
    rw [abs_of_nonneg (by linarith), if_neg (by linarith : ¬x < 0)]
  rw [hc]
  refine and_iff_right ?_
  split
  · exact (cppCheck_fin .exponent _ _).2 hr
  · rfl

end

/-- **C122** (the claim is false if numbers are rounded): fractions in the documented range that are close to one are rejected. -/
theorem set_ratio_large {rnd32 : ℚ → ℚ} (h32 : Nearest IsFloat32 rnd32) {s : FloatSetter} (hs : s = .holdoutSetSize ∨ s = .headThreshold) {x : ℚ}
    (h0 : 1 - 1 / 2 ^ 25 < x) (h1 : x < 1) : Documented s x ∧ s.set rnd32 (.fin x) = .error .valueError := by
  have hr : rnd32 x = 1 := by
    have h2 := h32.nearest x 1 isFloat32_one
    rw [abs_of_nonpos (by linarith : x - 1 ≤ 0)] at h2
    have h3 := (abs_le.1 h2).2
    have h4 : 1 - 1 / 2 ^ 24 < rnd32 x := by
      norm_num at h0 h3 ⊢
      linarith
    obtain ⟨m, hm⟩ := (h32.mem x).multiple (e := -24) (.inr (by
      rw [abs_of_pos (by norm_num at h4 ⊢; linarith)]
      norm_num at h4 ⊢
      linarith))
    have h5 := h32.le isFloat32_one h1.le
    rw [hm] at h4 h5 ⊢
    have h6 : (2 ^ 24 - 1 : ℚ) < m := by norm_num at h4 ⊢; linarith
    have h7 : (m : ℚ) ≤ 2 ^ 24 := by norm_num at h5 ⊢; linarith
    have h8 : (2 ^ 24 - 1 : ℤ) < m := by exact_mod_cast h6
    have h9 : m ≤ (2 ^ 24 : ℤ) := by exact_mod_cast h7
    have : m = 2 ^ 24 := by omega
    rw [this]; norm_num
  have hx0 : 0 < x := by norm_num at h0; linarith
  have hd : Documented s x := by rcases hs with rfl | rfl <;> exact ⟨hx0, h1⟩
  refine ⟨hd, ?_⟩
  have hp := (pythonCheck_fin s x ()).2 hd
  have hc : s.convert rnd32 (.fin x) = .fin 1 := by
    rw [← hr]
    rcases hs with rfl | rfl <;> exact convert32_ratio h32 hx0.le h1.le
  unfold FloatSetter.set
  rw [hp, hc]
  rcases hs with rfl | rfl <;> rfl

/-! ### Values that are not finite -/

/-- **C122** (the claim is false for values that are not numbers): setters with a lower bound that is included accept such a value, others reject it. -/
theorem set_nan (rnd32 : ℚ → ℚ) (s : FloatSetter) :
    (Closed s → s.set rnd32 .nan = .ok .nan) ∧ (¬Closed s → s.set rnd32 .nan = .error .valueError) := by
  cases s <;> first | exact ⟨fun _ => rfl, fun h => absurd (by unfold Closed; decide) h⟩ | exact ⟨fun h => absurd h (by unfold Closed; decide), fun _ => rfl⟩

/-- **C122**: positive infinity is accepted by setters without an upper bound and rejected by others, negative infinity is always rejected. -/
theorem set_infinite (rnd32 : ℚ → ℚ) (s : FloatSetter) : (Unbounded s → s.set rnd32 .posInf = .ok .posInf) ∧
    (¬Unbounded s → s.set rnd32 .posInf = .error .valueError) ∧ s.set rnd32 .negInf = .error .valueError := by
  cases s <;> first
    | exact ⟨fun _ => rfl, fun h => absurd (by unfold Unbounded; decide) h, rfl⟩
    | exact ⟨fun h => absurd h (by unfold Unbounded; decide), fun _ => rfl, rfl⟩

/-! ### Integers -/

/-- **C122**: an integer is accepted if and only if it is positive and can be represented by 32 bits. Zero is also accepted as the number of threads and as the peak label. It is stored as it is. -/
theorem set_int (s : IntSetter) (value : Int) (n : Nat) : s.set value = .ok n ↔
    (Positive value ∨ value = 0 ∧ (s = .numPreferredThreads ∨ s = .peakLabel)) ∧ (n : Int) = value := by
  have hpos : setPositive value = .ok n ↔ Positive value ∧ (n : Int) = value := by
    unfold setPositive
    rw [positive_ok]
    refine and_congr_right fun h => ?_
    unfold Positive at h
    unfold cppAtLeastOne
    rw [PythonPrePruning.cppAtLeast (by omega)]
    constructor
    · intro hh
      cases hh
      exact Int.toNat_of_nonneg (by omega)
    · intro hh
      have : n = value.toNat := by omega
      rw [this]
      rfl
  have hopt : PythonRuleInduction.optionalAtLeast 1 value = .ok n ↔ (Positive value ∨ value = 0) ∧ (n : Int) = value := by
    rw [optionalAtLeast_ok (le_refl 1)]
    unfold Maximum Positive
    omega
  cases s
  case numPreferredThreads | peakLabel => simpa [IntSetter.set] using hopt
  all_goals simpa [IntSetter.set] using hpos

/-- **C122**: integers that are not accepted are reported; a `ValueError` is raised if they are too small and an `OverflowError` if they are too large. -/
theorem set_int_error (s : IntSetter) (value : Int) :
    (value < 0 ∨ value = 0 ∧ ¬(s = .numPreferredThreads ∨ s = .peakLabel) → s.set value = .error .valueError) ∧ (2 ^ 32 ≤ value → s.set value = .error .overflowError) := by
  have hu (h : 2 ^ 32 ≤ value) : PythonPrePruning.uint32 value = .error .overflowError := by
    unfold PythonPrePruning.uint32 PythonSetters.toUint32
    rw [if_neg (by decide), if_neg (by omega)]
  have a1 (h : value < 1) : PythonSetters.assertAtLeast value 1 = .error .valueError := by
    unfold PythonSetters.assertAtLeast
    rw [if_pos (by omega)]
  have a2 (h : 2 ^ 32 ≤ value) : PythonSetters.assertAtLeast value 1 = .ok () := by
    unfold PythonSetters.assertAtLeast
    rw [if_neg (by omega)]
  have p1 (h : value < 1) : setPositive value = .error .valueError := by
    unfold setPositive
    rw [a1 h]
    rfl
  have p2 (h : 2 ^ 32 ≤ value) : setPositive value = .error .overflowError := by
    unfold setPositive
    rw [a2 h, hu h]
    rfl
  have o1 (h : value < 0) : PythonRuleInduction.optionalAtLeast 1 value = .error .valueError := by
    unfold PythonRuleInduction.optionalAtLeast PythonRuleInduction.assertOptional
    rw [if_pos (by omega), Nat.cast_one, a1 (by omega)]
    rfl
  have o2 (h : 2 ^ 32 ≤ value) : PythonRuleInduction.optionalAtLeast 1 value = .error .overflowError := by
    unfold PythonRuleInduction.optionalAtLeast PythonRuleInduction.assertOptional
    rw [if_pos (by omega), Nat.cast_one, a2 h, hu h]
    rfl
  cases s
  case numPreferredThreads | peakLabel => exact ⟨fun h => o1 (h.elim id fun h => absurd (by decide) h.2), o2⟩
  all_goals exact ⟨fun h => p1 (by omega), p2⟩

/-! ### Examples -/

example : FloatSetter.shrinkage.set id (.fin (3 / 10)) = .ok (.fin (3 / 10)) :=
  (set_double_partial id ⟨by decide, by decide, by decide⟩ _ _).2 ⟨⟨by norm_num, by norm_num⟩, rfl⟩

example (w : PyFloat) : FloatSetter.shrinkage.set id (.fin 1) ≠ .ok w := fun h =>
  absurd ((set_double_partial id ⟨by decide, by decide, by decide⟩ _ _).1 h).1.2 (by norm_num)

example {rnd32 : ℚ → ℚ} (h32 : Nearest IsFloat32 rnd32) : FloatSetter.holdoutSetSize.set rnd32 (.fin (1 / 2)) = .ok (.fin (1 / 2)) := by
  have h : rnd32 (1 / 2) = 1 / 2 := h32.eq ⟨1, -1, by norm_num, by norm_num, by norm_num⟩
  have := (set_ratio_partial h32 (.inl rfl) (1 / 2) (.fin (rnd32 (1 / 2)))).2
    ⟨⟨by norm_num, by norm_num⟩, ⟨by rw [h]; norm_num, by rw [h]; norm_num⟩, rfl⟩
  rwa [h] at this

example : FloatSetter.holdoutSetSize.set (FloatingPoint.roundEven 24 (-149)) (.fin (1 - 1 / 2 ^ 30)) = .error .valueError :=
  (set_ratio_large FloatingPoint.roundings_exist.1 (.inl rfl) (by norm_num) (by norm_num)).2

example : FloatSetter.beta.set id .nan = .ok .nan := (set_nan id .beta).1 (by unfold Closed; decide)

example : IntSetter.randomState.set 42 = .ok 42 := (set_int _ _ _).2 ⟨.inl ⟨by norm_num, by norm_num⟩, rfl⟩

example : IntSetter.peakLabel.set 0 = .ok 0 := (set_int _ _ _).2 ⟨.inr ⟨rfl, .inr rfl⟩, rfl⟩

example (n : Nat) : IntSetter.randomState.set 0 ≠ .ok n := fun h => by
  rcases ((set_int _ _ _).1 h).1 with h | h
  · exact absurd h.1 (by norm_num)
  · exact absurd h.2 (by decide)

end MLRL.PythonScalars
