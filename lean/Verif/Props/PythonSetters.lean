import Verif.Model.PythonSetters
import Verif.Props.FloatBinning
import Verif.Props.FloatingPoint
import Mathlib.Tactic.NormNum
import Mathlib.Tactic.Positivity
import Mathlib.Tactic.Linarith

/-!
# C104: setters of the Python API behave as documented
-/

namespace MLRL.PythonSetters

open Config FloatingPoint

/-! ### Specification -/

/-- The ratios that are documented to be valid. -/
def Ratio : RatioCheck → ℚ → Prop
  | .open, x => 0 < x ∧ x < 1
  | .zero, x => 0 ≤ x ∧ x < 1
  | .optional, x => x = 0 ∨ (0 < x ∧ x < 1)

open Classical in
/-- A call sets a property to the given value (or the number of type `float32` that is closest to it), if it is valid, and has no effect otherwise. -/
noncomputable def intended (rnd32 : ℚ → ℚ) (check : RatioCheck) (lowest : Int) (s : BoundedConfig) : PyCall → BoundedConfig
  | .setRatio (.fin x) => if Ratio check x ∧ Ratio check (rnd32 x) then { s with ratio := some (rnd32 x) } else s
  | .setRatio _ => s
  | .setMinimum n => if lowest ≤ n ∧ n < 2 ^ 32 then { s with minimum := n.toNat } else s
  | .setMaximum n => if n = 0 ∨ (s.minimum ≤ n ∧ n < 2 ^ 32) then { s with maximum := n.toNat } else s

/-- The classes that translate exceptions. -/
def Translated (c : PyClass) : Prop := c = featureSampling ∨ c = featureBinning ∨ c = labelBinning ∨ ∃ ε : ℚ, 0 ≤ ε ∧ ε < 1 ∧ c = fixedPartialHead ε

/-- The classes that do not translate exceptions. -/
def Sampler (c : PyClass) : Prop := c = instanceSampling ∨ c = instanceSamplingWithReplacement ∨ c = outputSampling

/-! ### Auxiliary lemmas -/

theorem check_cases (k : RatioCheck) (v : PyFloat) : k.run v = .ok () ∧ (v = .nan ∨ ∃ x, v = .fin x ∧ Ratio k x) ∨
    k.run v = .error .valueError ∧ ¬ (v = .nan ∨ ∃ x, v = .fin x ∧ Ratio k x) := by
  cases v with
  | nan => left; cases k <;> exact ⟨rfl, .inl rfl⟩
  | negInf => right; cases k <;> exact ⟨rfl, by simp⟩
  | posInf => right; cases k <;> exact ⟨rfl, by simp⟩
  | fin x =>
    cases k with
    | «open» =>
      by_cases h0 : x ≤ 0
      · right; exact ⟨by simp [RatioCheck.run, assertGreater, PyFloat.le, h0, bind, Except.bind], by simp [Ratio]; intro h; linarith⟩
      · by_cases h1 : 1 ≤ x
        · right; exact ⟨by simp [RatioCheck.run, assertGreater, assertLess, PyFloat.le, PyFloat.ge, h0, h1, bind, Except.bind], by simp [Ratio]; intro h; linarith⟩
        · left; exact ⟨by simp [RatioCheck.run, assertGreater, assertLess, PyFloat.le, PyFloat.ge, h0, h1, bind, Except.bind], .inr ⟨x, rfl, not_le.1 h0, not_le.1 h1⟩⟩
    | zero =>
      by_cases h0 : x < 0
      · right; exact ⟨by simp [RatioCheck.run, assertGreaterOrEqual, PyFloat.lt, h0, bind, Except.bind], by simp [Ratio]; intro h; linarith⟩
      · by_cases h1 : 1 ≤ x
        · right; exact ⟨by simp [RatioCheck.run, assertGreaterOrEqual, assertLess, PyFloat.lt, PyFloat.ge, h0, h1, bind, Except.bind], by simp [Ratio]; intro h; linarith⟩
        · left; exact ⟨by simp [RatioCheck.run, assertGreaterOrEqual, assertLess, PyFloat.lt, PyFloat.ge, h0, h1, bind, Except.bind], .inr ⟨x, rfl, not_lt.1 h0, not_le.1 h1⟩⟩
    | optional =>
      by_cases hz : x = 0
      · left; exact ⟨by simp [RatioCheck.run, PyFloat.nonZero, hz], .inr ⟨x, rfl, .inl hz⟩⟩
      · by_cases h0 : x ≤ 0
        · right; exact ⟨by simp [RatioCheck.run, PyFloat.nonZero, hz, assertGreater, PyFloat.le, h0, bind, Except.bind], by simp [Ratio, hz]; intro h; linarith⟩
        · by_cases h1 : 1 ≤ x
          · right; exact ⟨by simp [RatioCheck.run, PyFloat.nonZero, hz, assertGreater, assertLess, PyFloat.le, PyFloat.ge, h0, h1, bind, Except.bind],
              by simp [Ratio, hz]; intro h; linarith⟩
          · left; exact ⟨by simp [RatioCheck.run, PyFloat.nonZero, hz, assertGreater, assertLess, PyFloat.le, PyFloat.ge, h0, h1, bind, Except.bind],
              .inr ⟨x, rfl, .inr ⟨not_le.1 h0, not_le.1 h1⟩⟩⟩

theorem isFloat32_one : IsFloat32 1 := ⟨1, 0, by norm_num, by norm_num, by norm_num⟩

theorem isFloat32_nat {n : Nat} (h : n ≤ 2 ^ 24) : IsFloat32 n :=
  ⟨n, 0, by rw [abs_of_nonneg (by omega)]; exact_mod_cast h, by norm_num, by norm_num⟩

theorem isFloat64_nat {n : Nat} (h : n ≤ 2 ^ 53) : IsFloat64 n :=
  ⟨n, 0, by rw [abs_of_nonneg (by omega)]; exact_mod_cast h, by norm_num, by norm_num⟩

theorem Ratio.bounds {k : RatioCheck} {x : ℚ} (h : Ratio k x) : 0 ≤ x ∧ x < 1 := by
  cases k with
  | «open» => exact ⟨h.1.le, h.2⟩
  | zero => exact h
  | optional =>
    rcases h with rfl | h
    · norm_num
    · exact ⟨h.1.le, h.2⟩

theorem Ratio.rnd {rnd32 : ℚ → ℚ} (h32 : Nearest IsFloat32 rnd32) {k : RatioCheck} {x : ℚ} (h : Ratio k x) : 0 ≤ rnd32 x ∧ rnd32 x ≤ 1 :=
  ⟨h32.ge (isFloat_zero _ _) h.bounds.1, h32.le isFloat32_one h.bounds.2.le⟩

theorem toFloat32_ratio {rnd32 : ℚ → ℚ} (h32 : Nearest IsFloat32 rnd32) {k : RatioCheck} {x : ℚ} (h : Ratio k x) :
    toFloat32 rnd32 (.fin x) = .ok (some (rnd32 x)) := by
  obtain ⟨h0, h1⟩ := h.rnd h32
  rw [toFloat32, if_pos]
  rw [abs_of_nonneg h0]
  exact h1.trans (by unfold maxFloat32; norm_num)

/-- The setter of a ratio, depending on how the C++ API checks it. -/
theorem setRatio_eq {rnd32 : ℚ → ℚ} (rnd64 : ℚ → ℚ) (h32 : Nearest IsFloat32 rnd32) (c : PyClass) (s : BoundedConfig) (v : PyFloat) :
    (v = .nan ∧ PyCall.apply rnd32 rnd64 c s (.setRatio v) = callCpp c s (.setRatio none)) ∨
    (∃ x, v = .fin x ∧ Ratio c.check x ∧ PyCall.apply rnd32 rnd64 c s (.setRatio v) = callCpp c s (.setRatio (some (rnd32 x)))) ∨
    ((v ≠ .nan ∧ ∀ x, v = .fin x → ¬ Ratio c.check x) ∧ PyCall.apply rnd32 rnd64 c s (.setRatio v) = .error .valueError) := by
  rcases check_cases c.check v with ⟨h, rfl | ⟨x, rfl, hx⟩⟩ | ⟨h, hv⟩
  · left
    refine ⟨rfl, ?_⟩
    simp only [PyCall.apply, h]
    rfl
  · right; left
    refine ⟨x, rfl, hx, ?_⟩
    simp only [PyCall.apply, h, toFloat32_ratio h32 hx]
    rfl
  · right; right
    refine ⟨⟨fun hn => hv (.inl hn), fun x hx hr => hv (.inr ⟨x, hx, hr⟩)⟩, ?_⟩
    simp only [PyCall.apply, h]
    rfl

theorem callCpp_ratio (c : PyClass) (s : BoundedConfig) (r : Option ℚ) : callCpp c s (.setRatio r) =
    match c.cpp.checkRatio r with
    | .ok _ => .ok { s with ratio := r }
    | .error _ => .error (if c.translated then .valueError else .terminated) := by
  simp only [callCpp, BoundedCall.apply]
  cases c.cpp.checkRatio r <;> rfl

theorem checkOpen_none : checkOpen none = .error .exception := rfl

theorem checkOpen_some (y : ℚ) : checkOpen (some y) = if 0 < y ∧ y < 1 then .ok () else .error .exception := by
  unfold checkOpen Config.assertGreater Config.assertLess isLess
  by_cases h0 : 0 < y
  · by_cases h1 : y < 1 <;> simp [h0, h1, bind, Except.bind]
  · simp [h0, bind, Except.bind]

/-- The C++ API accepts the same ratios, if exceptions are translated. -/
theorem translated_check {c : PyClass} (hc : Translated c) : c.cpp.checkRatio none = .error .exception ∧
    ∀ y, 0 ≤ y → y ≤ 1 → c.cpp.checkRatio (some y) = .ok () ∧ Ratio c.check y ∨ c.cpp.checkRatio (some y) = .error .exception ∧ ¬ Ratio c.check y := by
  have key : ∀ y : ℚ, checkOpen (some y) = .ok () ∧ Ratio .open y ∨ checkOpen (some y) = .error .exception ∧ ¬ Ratio .open y := by
    intro y
    rw [checkOpen_some]
    by_cases h : 0 < y ∧ y < 1
    · left; exact ⟨if_pos h, h⟩
    · right; exact ⟨if_neg h, h⟩
  rcases hc with rfl | rfl | rfl | ⟨ε, he0, he1, rfl⟩
  · refine ⟨rfl, fun y h0 _ => ?_⟩
    show (do let _ ← Config.assertGreaterOrEqual (some y) (some 0); Config.assertLess (some y) (some 1)) = _ ∧ _ ∨
      (do let _ ← Config.assertGreaterOrEqual (some y) (some 0); Config.assertLess (some y) (some 1)) = _ ∧ _
    have hn : ¬ y < 0 := not_lt.2 h0
    by_cases h1 : y < 1
    · left; exact ⟨by simp [Config.assertGreaterOrEqual, Config.assertLess, isLess, hn, h1, bind, Except.bind], h0, h1⟩
    · right; exact ⟨by simp [Config.assertGreaterOrEqual, Config.assertLess, isLess, hn, h1, bind, Except.bind], fun h => h1 h.2⟩
  · exact ⟨rfl, fun y _ _ => key y⟩
  · exact ⟨rfl, fun y _ _ => key y⟩
  · refine ⟨rfl, fun y h0 h1 => ?_⟩
    show (if !(isEqualToZero ε (some y)) then checkOpen (some y) else .ok ()) = _ ∧ _ ∨ (if !(isEqualToZero ε (some y)) then checkOpen (some y) else .ok ()) = _ ∧ _
    by_cases hz : isEqualToZero ε (some y) = true
    · left
      rw [hz]
      refine ⟨rfl, ?_⟩
      have hz' : |y| ≤ ε * max 1 |y| := of_decide_eq_true hz
      rw [abs_of_nonneg h0, max_eq_left h1] at hz'
      rcases h0.eq_or_lt with h | h
      · exact .inl h.symm
      · exact .inr ⟨h, by linarith⟩
    · rw [Bool.not_eq_true] at hz
      rw [hz]
      have hy : y ≠ 0 := by
        rintro rfl
        have : isEqualToZero ε (some 0) = true := by simp [isEqualToZero, he0]
        rw [hz] at this; cases this
      rcases key y with ⟨h, hr⟩ | ⟨h, hr⟩
      · left; exact ⟨h, .inr hr⟩
      · right; exact ⟨h, fun h' => h'.elim hy hr⟩

/-- The C++ API accepts all valid ratios, even if exceptions are not translated. -/
theorem sampler_check {c : PyClass} (hc : Sampler c) : c.check = .open ∧ c.cpp.checkRatio none = .error .exception ∧ ∀ y, Ratio .open y → c.cpp.checkRatio (some y) = .ok () := by
  rcases hc with rfl | rfl | rfl
  · exact ⟨rfl, rfl, fun y h => by show checkOpen (some y) = _; rw [checkOpen_some, if_pos (show 0 < y ∧ y < 1 from h)]⟩
  · refine ⟨rfl, rfl, fun y h => ?_⟩
    show (do let _ ← Config.assertGreater (some y) (some 0); Config.assertLessOrEqual (some y) (some 1)) = _
    simp [Config.assertGreater, Config.assertLessOrEqual, isLess, h.1, not_lt.2 h.2.le, bind, Except.bind]
  · exact ⟨rfl, rfl, fun y h => by show checkOpen (some y) = _; rw [checkOpen_some, if_pos (show 0 < y ∧ y < 1 from h)]⟩

theorem callCpp_minimum (c : PyClass) (s : BoundedConfig) {n : Nat} (h : c.cpp.lowest ≤ n) : callCpp c s (.setMinimum n) = .ok { s with minimum := n } := by
  simp [callCpp, BoundedCall.apply, Config.assertAtLeast, not_lt.2 h, bind, Except.bind, pure, Except.pure]

theorem callCpp_maximum (c : PyClass) (s : BoundedConfig) {n : Nat} (h : n = 0 ∨ s.minimum ≤ n) : callCpp c s (.setMaximum n) = .ok { s with maximum := n } := by
  rcases h with rfl | h
  · rfl
  · by_cases h0 : n = 0
    · subst h0; rfl
    · simp [callCpp, BoundedCall.apply, Config.assertAtLeast, h0, not_lt.2 h, bind, Except.bind, pure, Except.pure]

/-! ### Classes that translate exceptions -/

theorem translated_fields {c : PyClass} (hc : Translated c) : c.translated = true ∧ c.countsAreFloats = false ∧ c.lowest = c.cpp.lowest := by
  rcases hc with rfl | rfl | rfl | ⟨ε, _, _, rfl⟩ <;> exact ⟨rfl, rfl, rfl⟩

/-- **C104**: if exceptions are translated, a call sets a property if the given value is valid and raises an error otherwise. -/
theorem apply_translated {rnd32 : ℚ → ℚ} (rnd64 : ℚ → ℚ) (h32 : Nearest IsFloat32 rnd32) {c : PyClass} (hc : Translated c) (s : BoundedConfig) (call : PyCall) :
    call.apply rnd32 rnd64 c s = .ok (intended rnd32 c.check c.lowest s call) ∨
    ((call.apply rnd32 rnd64 c s = .error .valueError ∨ call.apply rnd32 rnd64 c s = .error .overflowError) ∧ intended rnd32 c.check c.lowest s call = s) := by
  obtain ⟨htr, hcf, hlow⟩ := translated_fields hc
  obtain ⟨hnone, hsome⟩ := translated_check hc
  cases call with
  | setRatio v =>
    rcases setRatio_eq rnd64 h32 c s v with ⟨rfl, h⟩ | ⟨x, rfl, hx, h⟩ | ⟨hv, h⟩
    · right
      rw [h, callCpp_ratio, hnone, htr]
      exact ⟨.inl rfl, rfl⟩
    · rw [h, callCpp_ratio]
      obtain ⟨h0, h1⟩ := hx.rnd h32
      rcases hsome _ h0 h1 with ⟨hk, hr⟩ | ⟨hk, hr⟩
      · left; rw [hk, intended, if_pos (c := Ratio c.check x ∧ Ratio c.check (rnd32 x)) ⟨hx, hr⟩]
      · right; rw [hk, htr, intended, if_neg (c := Ratio c.check x ∧ Ratio c.check (rnd32 x)) fun h => hr h.2]
        exact ⟨.inl rfl, rfl⟩
    · right
      refine ⟨.inl h, ?_⟩
      cases v with
      | fin x => rw [intended, if_neg fun h => hv.2 x rfl h.1]
      | _ => rfl
  | setMinimum n =>
    by_cases hn : n < c.lowest
    · right
      refine ⟨.inl (by simp [PyCall.apply, assertAtLeast, hn, bind, Except.bind]), ?_⟩
      rw [intended, if_neg (by omega)]
    · by_cases hb : n < 2 ^ 32
      · left
        have h0 : 0 ≤ n := by omega
        have : toUint32 rnd32 rnd64 c.countsAreFloats n = .ok n.toNat := by rw [toUint32, hcf, if_neg (by simp), if_pos ⟨h0, hb⟩]
        rw [intended, if_pos ⟨by omega, hb⟩, ← callCpp_minimum c s (by omega)]
        simp [PyCall.apply, assertAtLeast, hn, this, bind, Except.bind]
      · right
        have : toUint32 rnd32 rnd64 c.countsAreFloats n = .error .overflowError := by rw [toUint32, hcf, if_neg (by simp), if_neg (by omega)]
        refine ⟨.inr (by simp [PyCall.apply, assertAtLeast, hn, this, bind, Except.bind]), ?_⟩
        rw [intended, if_neg (by omega)]
  | setMaximum n =>
    by_cases hz : n = 0
    · left
      subst hz
      have : toUint32 rnd32 rnd64 c.countsAreFloats 0 = .ok 0 := by rw [toUint32, hcf, if_neg (by simp), if_pos (by norm_num)]; rfl
      rw [intended, if_pos (.inl rfl)]
      show _ = Except.ok { s with maximum := 0 }
      rw [← callCpp_maximum c s (.inl rfl)]
      simp [PyCall.apply, this, bind, Except.bind]
    · by_cases hn : n < s.minimum
      · right
        refine ⟨.inl (by simp [PyCall.apply, hz, assertAtLeast, hn, bind, Except.bind]), ?_⟩
        rw [intended, if_neg (by omega)]
      · by_cases hb : n < 2 ^ 32
        · left
          have : toUint32 rnd32 rnd64 c.countsAreFloats n = .ok n.toNat := by rw [toUint32, hcf, if_neg (by simp), if_pos ⟨by omega, hb⟩]
          rw [intended, if_pos (.inr ⟨by omega, hb⟩), ← callCpp_maximum c s (.inr (by omega))]
          simp [PyCall.apply, hz, assertAtLeast, hn, this, bind, Except.bind]
        · right
          have : toUint32 rnd32 rnd64 c.countsAreFloats n = .error .overflowError := by rw [toUint32, hcf, if_neg (by simp), if_neg (by omega)]
          refine ⟨.inr (by simp [PyCall.apply, hz, assertAtLeast, hn, this, bind, Except.bind]), ?_⟩
          rw [intended, if_neg (by omega)]

/-- **C104**: the configuration after any sequence of calls, if exceptions are translated. The program is never terminated and there is no undefined behaviour. -/
theorem run_translated {rnd32 : ℚ → ℚ} (rnd64 : ℚ → ℚ) (h32 : Nearest IsFloat32 rnd32) {c : PyClass} (hc : Translated c) : ∀ (calls : List PyCall) (s : BoundedConfig),
    run rnd32 rnd64 c calls s = .ok (calls.foldl (intended rnd32 c.check c.lowest) s)
  | [], s => rfl
  | call :: calls, s => by
    rw [run, List.foldl_cons]
    rcases apply_translated rnd64 h32 hc s call with h | ⟨h | h, hi⟩
    · rw [h]; exact run_translated rnd64 h32 hc calls _
    · rw [h, hi]; exact run_translated rnd64 h32 hc calls _
    · rw [h, hi]; exact run_translated rnd64 h32 hc calls _

/-! ### Classes that do not translate exceptions -/

theorem sampler_fields {c : PyClass} (hc : Sampler c) : c.translated = false ∧ c.countsAreFloats = true ∧ c.lowest = 1 ∧ c.cpp.lowest = 1 := by
  rcases hc with rfl | rfl | rfl <;> exact ⟨rfl, rfl, rfl, rfl⟩

/-- Integers below `2^32 - 128` are rounded to a number that is in the range of the type `uint32`. -/
theorem rnd32_lt {rnd32 : ℚ → ℚ} (h32 : Nearest IsFloat32 rnd32) {x : ℚ} (h : x < 2 ^ 32 - 128) : rnd32 x < 2 ^ 32 :=
  h32.lt (y := 2 ^ 32 - 256) ⟨2 ^ 24 - 1, 8, by norm_num, by norm_num, by norm_num⟩ ⟨1, 32, by norm_num, by norm_num, by norm_num⟩ (by norm_num)
    (by linarith)

/-- Integers above `2^32 - 128` are not. -/
theorem rnd32_ge {rnd32 : ℚ → ℚ} (h32 : Nearest IsFloat32 rnd32) {x : ℚ} (h : 2 ^ 32 - 128 < x) : 2 ^ 32 ≤ rnd32 x := by
  have hf : IsFloat32 (2 ^ 32) := ⟨1, 32, by norm_num, by norm_num, by norm_num⟩
  by_cases hx : 2 ^ 32 ≤ x
  · exact h32.ge hf hx
  · have h1 := h32.nearest x _ hf
    rw [abs_of_nonpos (by linarith : x - 2 ^ 32 ≤ 0)] at h1
    have h2 := (abs_le.1 h1).2
    have h3 : (2 : ℚ) ^ 32 - 256 < rnd32 x := by linarith
    obtain ⟨m, hm⟩ := (h32.mem x).multiple (e := 8) (.inr (by
      rw [abs_of_pos (by linarith)]
      norm_num at h3 ⊢
      linarith))
    rw [hm] at h3 ⊢
    have h4 : (2 ^ 24 - 1 : ℚ) < m := by
      norm_num at h3 ⊢
      linarith
    have h5 : (2 ^ 24 - 1 : ℤ) < m := by exact_mod_cast h4
    have h6 : (2 ^ 24 : ℤ) ≤ m := by omega
    have h7 : (2 ^ 24 : ℚ) ≤ m := by exact_mod_cast h6
    norm_num at h7 ⊢
    linarith

/-- The conversion of integers via the type `float32` is exact up to `2^24`. Below `2^32 - 128`, the relative error is at most `2^-24` (plus a negligible constant); whatever
number of type `float32` is not exceeded by an integer is not exceeded by the result. -/
theorem toUint32_float {rnd32 rnd64 : ℚ → ℚ} (h32 : Nearest IsFloat32 rnd32) (h64 : Nearest IsFloat64 rnd64) {n : Nat} (hn : n < 2 ^ 32 - 128) :
    ∃ m : Nat, toUint32 rnd32 rnd64 true n = .ok m ∧ (n ≤ 2 ^ 24 → m = n) ∧ |(n : ℚ) - m| ≤ n / 2 ^ 24 + 1 / 2 ^ 150 ∧ IsFloat32 m ∧
      ∀ k : Nat, IsFloat32 k → k ≤ n → k ≤ m := by
  have hnq : (n : ℚ) < 2 ^ 32 - 128 := by
    have : (n : ℚ) < ((2 ^ 32 - 128 : ℕ) : ℚ) := by exact_mod_cast hn
    norm_num at this ⊢
    exact this
  have hr64 : rnd64 n = n := h64.eq (isFloat64_nat (by omega))
  have hlt := rnd32_lt h32 hnq
  have h0 : 0 ≤ rnd32 n := h32.ge (isFloat_zero _ _) (by positivity)
  have hint : ∃ z : ℤ, rnd32 n = z := by
    by_cases hs : n ≤ 2 ^ 24
    · exact ⟨n, by rw [h32.eq (isFloat32_nat hs)]; norm_num⟩
    · have h1 : (2 ^ 24 : ℚ) ≤ rnd32 n := h32.ge ⟨1, 24, by norm_num, by norm_num, by norm_num⟩ (by exact_mod_cast (by omega : 2 ^ 24 ≤ n))
      obtain ⟨m, hm⟩ := (h32.mem n).multiple (e := 0) (.inr (by
        rw [abs_of_nonneg h0]
        norm_num at h1 ⊢
        linarith))
      exact ⟨m, by rw [hm]; norm_num⟩
  obtain ⟨z, hz⟩ := hint
  have hz0 : 0 ≤ z := by rw [hz] at h0; exact_mod_cast h0
  obtain ⟨m, rfl⟩ := Int.eq_ofNat_of_zero_le hz0
  have hm : rnd32 n = (m : ℚ) := by rw [hz]; norm_num
  refine ⟨m, ?_, ?_, ?_, hm ▸ h32.mem n, ?_⟩
  · rw [toUint32, if_pos rfl]
    have : ((n : ℤ) : ℚ) = (n : ℚ) := by norm_num
    rw [this, hr64, if_pos]
    · dsimp only
      rw [if_pos ⟨by linarith, hlt⟩, hm, Nat.floor_natCast]
    · rw [abs_of_nonneg (by positivity)]
      have h1 : (1 : ℚ) ≤ 2 ^ 971 := one_le_pow₀ (by norm_num)
      have h2 : (2 ^ 53 - 1 : ℚ) * 1 ≤ maxFloat64 := mul_le_mul_of_nonneg_left h1 (by norm_num)
      norm_num at h2
      linarith
  · intro hs
    have := h32.eq (isFloat32_nat hs)
    rw [hm] at this
    exact_mod_cast this
  · have := h32.error (n : ℚ)
    rw [hm, abs_of_nonneg (by positivity : (0 : ℚ) ≤ n)] at this
    refine this.trans (le_of_eq ?_)
    norm_num
  · intro k hk hkn
    have := h32.ge hk (by exact_mod_cast hkn : (k : ℚ) ≤ n)
    rw [hm] at this
    exact_mod_cast this

/-- Calls that do not cause the program to be terminated: a ratio is a number and remains valid when being rounded, integers are not greater than `limit`. -/
def Harmless (rnd32 : ℚ → ℚ) (limit : Int) : PyCall → Prop
  | .setRatio .nan => False
  | .setRatio (.fin x) => 0 < x → x < 1 → 0 < rnd32 x ∧ rnd32 x < 1
  | .setRatio _ => True
  | .setMinimum n => n ≤ limit
  | .setMaximum n => n ≤ limit

theorem setRatio_sampler {rnd32 : ℚ → ℚ} (rnd64 : ℚ → ℚ) (h32 : Nearest IsFloat32 rnd32) {c : PyClass} (hc : Sampler c) (s : BoundedConfig) {v : PyFloat} {limit : Int}
    (hv : Harmless rnd32 limit (.setRatio v)) :
    PyCall.apply rnd32 rnd64 c s (.setRatio v) = .ok (intended rnd32 c.check c.lowest s (.setRatio v)) ∨
    (PyCall.apply rnd32 rnd64 c s (.setRatio v) = .error .valueError ∧ intended rnd32 c.check c.lowest s (.setRatio v) = s) := by
  obtain ⟨hk, hnone, hsome⟩ := sampler_check hc
  rcases setRatio_eq rnd64 h32 c s v with ⟨rfl, _⟩ | ⟨x, rfl, hx, h⟩ | ⟨hv', h⟩
  · exact hv.elim
  · left
    have hx' : Ratio .open x := hk ▸ hx
    have hr : Ratio .open (rnd32 x) := hv hx'.1 hx'.2
    rw [h, callCpp_ratio, hsome _ hr, intended, if_pos (c := Ratio c.check x ∧ Ratio c.check (rnd32 x)) ⟨hx, hk ▸ hr⟩]
  · right
    refine ⟨h, ?_⟩
    cases v with
    | fin x => rw [intended, if_neg fun h => hv'.2 x rfl h.1]
    | _ => rfl

/-- **C104** (partial): if exceptions are not translated, the configuration after a sequence of calls is as intended, provided that ratios are numbers that remain valid when being
rounded, and integers are at most `2^24`. -/
theorem run_sampler_partial {rnd32 rnd64 : ℚ → ℚ} (h32 : Nearest IsFloat32 rnd32) (h64 : Nearest IsFloat64 rnd64) {c : PyClass} (hc : Sampler c) :
    ∀ (calls : List PyCall) (s : BoundedConfig), (∀ call ∈ calls, Harmless rnd32 (2 ^ 24) call) →
    run rnd32 rnd64 c calls s = .ok (calls.foldl (intended rnd32 c.check c.lowest) s)
  | [], s, _ => rfl
  | call :: calls, s, hh => by
    obtain ⟨htr, hcf, hlow, hlow'⟩ := sampler_fields hc
    have ih := fun s => run_sampler_partial h32 h64 hc calls s fun call' h => hh call' (List.mem_cons_of_mem _ h)
    have h := hh call List.mem_cons_self
    have conv : ∀ n : Nat, n ≤ 2 ^ 24 → toUint32 rnd32 rnd64 c.countsAreFloats n = .ok n := by
      intro n hn
      obtain ⟨m, h1, h2, _⟩ := toUint32_float h32 h64 (n := n) (by omega)
      rw [hcf, h1, h2 hn]
    rw [run, List.foldl_cons]
    cases call with
    | setRatio v =>
      rcases setRatio_sampler rnd64 h32 hc s h with h | ⟨h, hi⟩
      · rw [h]; exact ih _
      · rw [h, hi]; exact ih _
    | setMinimum n =>
      have h' : n ≤ 2 ^ 24 := h
      by_cases hn : n < 1
      · have : PyCall.apply rnd32 rnd64 c s (.setMinimum n) = .error .valueError := by simp [PyCall.apply, assertAtLeast, hlow, hn, bind, Except.bind]
        rw [this, intended, if_neg (by omega)]
        exact ih _
      · obtain ⟨k, rfl⟩ := Int.eq_ofNat_of_zero_le (by omega : 0 ≤ n)
        have : PyCall.apply rnd32 rnd64 c s (.setMinimum k) = .ok { s with minimum := k } := by
          rw [← callCpp_minimum c s (by omega)]
          simp [PyCall.apply, assertAtLeast, hlow, hn, conv k (by omega), bind, Except.bind]
        rw [this, intended, if_pos (by omega)]
        exact ih _
    | setMaximum n =>
      have h' : n ≤ 2 ^ 24 := h
      by_cases hz : n = 0
      · subst hz
        have : PyCall.apply rnd32 rnd64 c s (.setMaximum 0) = .ok { s with maximum := 0 } := by
          rw [← callCpp_maximum c s (.inl rfl)]
          have := conv 0 (by omega)
          simp only [Nat.cast_zero] at this
          simp [PyCall.apply, this, bind, Except.bind]
        rw [this, intended, if_pos (.inl rfl)]
        exact ih _
      · by_cases hn : n < s.minimum
        · have : PyCall.apply rnd32 rnd64 c s (.setMaximum n) = .error .valueError := by simp [PyCall.apply, hz, assertAtLeast, hn, bind, Except.bind]
          rw [this, intended, if_neg (by omega)]
          exact ih _
        · obtain ⟨k, rfl⟩ := Int.eq_ofNat_of_zero_le (by omega : 0 ≤ n)
          have : PyCall.apply rnd32 rnd64 c s (.setMaximum k) = .ok { s with maximum := k } := by
            rw [← callCpp_maximum c s (.inr (by omega))]
            have hz' : k ≠ 0 := by omega
            have hn' : ¬ k < s.minimum := by omega
            simp [PyCall.apply, hz', assertAtLeast, hn', conv k (by omega), bind, Except.bind]
          rw [this, intended, if_pos (.inr ⟨by omega, by omega⟩)]
          exact ih _

/-- **C104** (partial): if exceptions are not translated, the program is not terminated and there is no undefined behaviour, provided that ratios are numbers that remain valid when
being rounded, and integers are less than `2^32 - 128`. -/
theorem run_sampler_safe_partial {rnd32 rnd64 : ℚ → ℚ} (h32 : Nearest IsFloat32 rnd32) (h64 : Nearest IsFloat64 rnd64) {c : PyClass} (hc : Sampler c) :
    ∀ (calls : List PyCall) (s : BoundedConfig), IsFloat32 s.minimum → (∀ call ∈ calls, Harmless rnd32 (2 ^ 32 - 129) call) →
    ∃ s', run rnd32 rnd64 c calls s = .ok s'
  | [], s, _, _ => ⟨s, rfl⟩
  | call :: calls, s, hs, hh => by
    obtain ⟨htr, hcf, hlow, hlow'⟩ := sampler_fields hc
    have ih := fun s hs => run_sampler_safe_partial h32 h64 hc calls s hs fun call' h => hh call' (List.mem_cons_of_mem _ h)
    have h := hh call List.mem_cons_self
    rw [run]
    cases call with
    | setRatio v =>
      rcases setRatio_sampler rnd64 h32 hc s h with h | ⟨h, hi⟩
      · rw [h]
        refine ih _ ?_
        cases v with
        | fin x => rw [intended]; split <;> exact hs
        | _ => exact hs
      · rw [h]; exact ih _ hs
    | setMinimum n =>
      have h' : n ≤ 2 ^ 32 - 129 := h
      by_cases hn : n < 1
      · have : PyCall.apply rnd32 rnd64 c s (.setMinimum n) = .error .valueError := by simp [PyCall.apply, assertAtLeast, hlow, hn, bind, Except.bind]
        rw [this]
        exact ih _ hs
      · obtain ⟨k, rfl⟩ := Int.eq_ofNat_of_zero_le (by omega : 0 ≤ n)
        obtain ⟨m, h1, _, _, h4, h5⟩ := toUint32_float h32 h64 (n := k) (by omega)
        have hm := h5 1 (by exact_mod_cast isFloat32_one) (by omega)
        have : PyCall.apply rnd32 rnd64 c s (.setMinimum k) = .ok { s with minimum := m } := by
          rw [← callCpp_minimum c s (by omega)]
          simp [PyCall.apply, assertAtLeast, hlow, hn, hcf, h1, bind, Except.bind]
        rw [this]
        exact ih _ h4
    | setMaximum n =>
      have h' : n ≤ 2 ^ 32 - 129 := h
      by_cases hn : n ≠ 0 ∧ n < s.minimum
      · have : PyCall.apply rnd32 rnd64 c s (.setMaximum n) = .error .valueError := by simp [PyCall.apply, hn.1, assertAtLeast, hn.2, bind, Except.bind]
        rw [this]
        exact ih _ hs
      · obtain ⟨k, rfl⟩ := Int.eq_ofNat_of_zero_le (by omega : 0 ≤ n)
        obtain ⟨m, h1, h2, _, h4, h5⟩ := toUint32_float h32 h64 (n := k) (by omega)
        have hm : m = 0 ∨ s.minimum ≤ m := by
          by_cases hk : k = 0
          · left; rw [h2 (by omega), hk]
          · right; exact h5 _ hs (by omega)
        have : PyCall.apply rnd32 rnd64 c s (.setMaximum k) = .ok { s with maximum := m } := by
          rw [← callCpp_maximum c s hm]
          by_cases hk : k = 0
          · subst hk
            simp only [Nat.cast_zero] at h1
            simp [PyCall.apply, hcf, h1, bind, Except.bind]
          · have hn' : ¬ k < s.minimum := by omega
            simp [PyCall.apply, hk, assertAtLeast, hn', hcf, h1, bind, Except.bind]
        rw [this]
        exact ih _ hs

/-- **C104** (the claim is false if exceptions are not translated): the program is terminated if the ratio is not a number. -/
theorem sampler_nan (rnd32 rnd64 : ℚ → ℚ) {c : PyClass} (hc : Sampler c) (s : BoundedConfig) :
    PyCall.apply rnd32 rnd64 c s (.setRatio .nan) = .error .terminated := by
  rcases hc with rfl | rfl | rfl <;> rfl

/-- **C104** (the claim is false if exceptions are not translated): the program is terminated if the ratio is positive, but so small that it is rounded to zero. -/
theorem sampler_small {rnd32 : ℚ → ℚ} (rnd64 : ℚ → ℚ) (h32 : Nearest IsFloat32 rnd32) {c : PyClass} (hc : Sampler c) (s : BoundedConfig) {x : ℚ} (h0 : 0 < x)
    (h1 : x < 1 / 2 ^ 150) : PyCall.apply rnd32 rnd64 c s (.setRatio (.fin x)) = .error .terminated := by
  have hr : rnd32 x = 0 := by
    have hlt : rnd32 x < 2 ^ (-149 : ℤ) := h32.lt (isFloat_zero _ _) ⟨1, -149, by norm_num, by norm_num, by norm_num⟩ (two_zpow_pos _) (by
      have : (2 : ℚ) ^ (-149 : ℤ) = 1 / 2 ^ 149 := by norm_num
      rw [this]
      norm_num at h1 ⊢
      linarith)
    obtain ⟨m, hm⟩ := (h32.mem x).multiple (e := -149) (.inl le_rfl)
    have h3 := h32.ge (isFloat_zero _ _) h0.le
    rw [hm] at hlt h3 ⊢
    have hp := two_zpow_pos (-149)
    have h4 : (m : ℚ) < 1 := by
      by_contra hge
      have := mul_le_mul_of_nonneg_right (not_lt.1 hge) hp.le
      linarith
    have h5 : (0 : ℚ) ≤ m := by
      by_contra hge
      have := mul_neg_of_neg_of_pos (not_le.1 hge) hp
      linarith
    have : m = 0 := by
      have h6 : m < 1 := by exact_mod_cast h4
      have h7 : 0 ≤ m := by exact_mod_cast h5
      omega
    rw [this]; simp
  have hx1 : x < 1 := h1.trans (by norm_num)
  rcases setRatio_eq rnd64 h32 c s (.fin x) with ⟨h, _⟩ | ⟨y, hy, hy', h⟩ | ⟨hv, h⟩
  · cases h
  · cases hy
    rw [h, hr, callCpp_ratio]
    rcases hc with rfl | rfl | rfl
    · rfl
    · rfl
    · rfl
  · exact (hv.2 x rfl (by rw [(sampler_check hc).1]; exact ⟨h0, hx1⟩)).elim

/-- **C104** (the claim is false if exceptions are not translated): the program is terminated if the ratio is less than one, but so large that it is rounded to one, unless the C++ API accepts
the latter. -/
theorem sampler_large {rnd32 : ℚ → ℚ} (rnd64 : ℚ → ℚ) (h32 : Nearest IsFloat32 rnd32) {c : PyClass} (hc : c = instanceSampling ∨ c = outputSampling) (s : BoundedConfig) {x : ℚ}
    (h0 : 1 - 1 / 2 ^ 25 < x) (h1 : x < 1) : PyCall.apply rnd32 rnd64 c s (.setRatio (.fin x)) = .error .terminated := by
  have hr : rnd32 x = 1 := by
    have h2 := h32.nearest x 1 isFloat32_one
    rw [abs_of_nonpos (by linarith : x - 1 ≤ 0)] at h2
    have h3 := (abs_le.1 h2).2
    have h4 : 1 - 1 / 2 ^ 24 < rnd32 x := by
      norm_num at h0 h3 ⊢
      linarith
    obtain ⟨m, hm⟩ := (h32.mem x).multiple (e := -24) (.inr (by
      rw [abs_of_pos (by norm_num at h4 ⊢; linarith)]
      norm_num at h4 ⊢
      linarith))
    have h5 := h32.le isFloat32_one h1.le
    rw [hm] at h4 h5 ⊢
    have h6 : (2 ^ 24 - 1 : ℚ) < m := by norm_num at h4 ⊢; linarith
    have h7 : (m : ℚ) ≤ 2 ^ 24 := by norm_num at h5 ⊢; linarith
    have h8 : (2 ^ 24 - 1 : ℤ) < m := by exact_mod_cast h6
    have h9 : m ≤ (2 ^ 24 : ℤ) := by exact_mod_cast h7
    have : m = 2 ^ 24 := by omega
    rw [this]; norm_num
  have hx0 : 0 < x := by norm_num at h0; linarith
  rcases setRatio_eq rnd64 h32 c s (.fin x) with ⟨h, _⟩ | ⟨y, hy, hy', h⟩ | ⟨hv, h⟩
  · cases h
  · cases hy
    rw [h, hr, callCpp_ratio]
    rcases hc with rfl | rfl
    · rfl
    · rfl
  · exact (hv.2 x rfl (by rw [(sampler_check (hc.elim .inl (.inr ∘ .inr))).1]; exact ⟨hx0, h1⟩)).elim

/-- **C104** (the claim is false if exceptions are not translated): the behaviour is undefined if an integer is greater than `2^32 - 128`, even if it is in the range of the type
`uint32`. -/
theorem sampler_undefined {rnd32 rnd64 : ℚ → ℚ} (h32 : Nearest IsFloat32 rnd32) (h64 : Nearest IsFloat64 rnd64) {c : PyClass} (hc : Sampler c) (s : BoundedConfig) {n : Int}
    (h0 : 2 ^ 32 - 128 < n) (h1 : (n : ℚ) ≤ maxFloat64) : PyCall.apply rnd32 rnd64 c s (.setMinimum n) = .error .undefined := by
  obtain ⟨_, hcf, hlow, _⟩ := sampler_fields hc
  have hq : (2 ^ 32 - 127 : ℚ) ≤ n := by exact_mod_cast (by omega : (2 ^ 32 - 127 : ℤ) ≤ n)
  have hge : (2 ^ 32 - 127 : ℚ) ≤ rnd64 n := h64.ge ⟨2 ^ 32 - 127, 0, by norm_num, by norm_num, by norm_num⟩ hq
  have hle : rnd64 n ≤ maxFloat64 := h64.le isFloat64_max h1
  have h32' := rnd32_ge h32 (x := rnd64 n) (by linarith)
  have : toUint32 rnd32 rnd64 c.countsAreFloats n = .error .undefined := by
    rw [toUint32, hcf, if_pos rfl, if_pos (by rw [abs_of_nonneg (by linarith)]; exact hle)]
    dsimp only
    rw [if_neg fun h => by linarith [h.2]]
  have hn : ¬ n < 1 := by omega
  simp [PyCall.apply, assertAtLeast, hlow, hn, this, bind, Except.bind]

/-- **C104** (the claim is false for the sampling of outputs): a minimum that is greater than one is rejected, unless a maximum is given, too, because the maximum is one by default. -/
theorem outputSampling_minimum {rnd32 rnd64 : ℚ → ℚ} (h32 : Nearest IsFloat32 rnd32) (h64 : Nearest IsFloat64 rnd64) {n : Nat} (h2 : 2 ≤ n) (hn : n ≤ 2 ^ 24) :
    configure rnd32 rnd64 outputSampling none (some n) none Config.outputSampling.initial = .error .valueError := by
  have hc : Sampler outputSampling := .inr (.inr rfl)
  have hr : 0 < rnd32 (33 / 100) ∧ rnd32 (33 / 100) < 1 := by
    have h1 : (1 / 4 : ℚ) ≤ rnd32 (33 / 100) := h32.ge ⟨1, -2, by norm_num, by norm_num, by norm_num⟩ (by norm_num)
    have h2 : rnd32 (33 / 100) ≤ (1 / 2 : ℚ) := h32.le ⟨1, -1, by norm_num, by norm_num, by norm_num⟩ (by norm_num)
    exact ⟨by linarith, by linarith⟩
  have a1 : PyCall.apply rnd32 rnd64 outputSampling Config.outputSampling.initial (.setRatio (.fin (33 / 100))) =
      .ok { Config.outputSampling.initial with ratio := some (rnd32 (33 / 100)) } := by
    rcases setRatio_sampler rnd64 h32 hc Config.outputSampling.initial (v := .fin (33 / 100)) (limit := 0) (fun _ _ => hr) with h | ⟨_, h⟩
    · rw [h, intended, if_pos ⟨⟨by norm_num, by norm_num⟩, hr⟩]
    · rw [intended, if_pos ⟨⟨by norm_num, by norm_num⟩, hr⟩] at h
      rcases setRatio_eq rnd64 h32 outputSampling Config.outputSampling.initial (.fin (33 / 100)) with ⟨h', _⟩ | ⟨x, hx, _, h'⟩ | ⟨hv, _⟩
      · cases h'
      · cases hx
        rw [h', callCpp_ratio, (sampler_check hc).2.2 _ hr]
      · exact (hv.2 _ rfl ⟨by norm_num, by norm_num⟩).elim
  have a2 : ∀ s, PyCall.apply rnd32 rnd64 outputSampling s (.setMinimum n) = .ok { s with minimum := n } := by
    intro s
    obtain ⟨m, h1, h2', _⟩ := toUint32_float h32 h64 (n := n) (by omega)
    rw [h2' hn] at h1
    rw [← callCpp_minimum outputSampling s (by show 1 ≤ n; omega)]
    have hl : ¬ (n : ℤ) < outputSampling.lowest := by show ¬ (n : ℤ) < 1; omega
    have hcf : outputSampling.countsAreFloats = true := rfl
    simp [PyCall.apply, assertAtLeast, hl, hcf, h1, bind, Except.bind]
  show (PyCall.apply rnd32 rnd64 outputSampling Config.outputSampling.initial (.setRatio (.fin (33 / 100))) >>= _) = _
  rw [a1]
  show (PyCall.apply rnd32 rnd64 outputSampling _ (.setMinimum n) >>= _) = _
  rw [a2]
  show PyCall.apply rnd32 rnd64 outputSampling _ (.setMaximum 1) = _
  have : (1 : ℤ) < n := by omega
  simp [PyCall.apply, assertAtLeast, this, bind, Except.bind]

/-! ### Examples -/

/-- Rounding of IEEE 754. -/
example : Nearest IsFloat32 (roundEven 24 (-149)) ∧ Nearest IsFloat64 (roundEven 53 (-1074)) := roundings_exist

/-- The failure of a call or the resulting minimum and maximum. -/
def observe : Except Failure BoundedConfig → Except Failure (Nat × Nat)
  | .ok s => .ok (s.minimum, s.maximum)
  | .error e => .error e

example : observe (run (roundEven 24 (-149)) (roundEven 53 (-1074)) featureBinning [.setRatio (.fin (1 / 2)), .setMinimum 1, .setMinimum 16777217, .setMaximum 16777216,
    .setMaximum (2 ^ 32), .setRatio .nan, .setMaximum 16777218] Config.featureBinning.initial) = .ok (16777217, 16777218) := by decide +kernel

example : observe (run (roundEven 24 (-149)) (roundEven 53 (-1074)) instanceSampling [.setRatio (.fin (1 / 2)), .setMinimum 0, .setMinimum 5, .setMaximum 4, .setMaximum 7]
    Config.instanceSampling.initial) = .ok (5, 7) := by decide +kernel

/-- An integer is not stored exactly. -/
example : observe (run (roundEven 24 (-149)) (roundEven 53 (-1074)) instanceSampling [.setMinimum 16777217] Config.instanceSampling.initial) = .ok (16777216, 0) := by
  decide +kernel

example : observe (run (roundEven 24 (-149)) (roundEven 53 (-1074)) instanceSampling [.setMaximum (2 ^ 32 - 1)] Config.instanceSampling.initial) = .error .undefined := by
  decide +kernel

example : observe (run (roundEven 24 (-149)) (roundEven 53 (-1074)) outputSampling [.setRatio (.fin (99999999999 / 100000000000))] Config.outputSampling.initial) =
    .error .terminated := by decide +kernel

example : observe (run (roundEven 24 (-149)) (roundEven 53 (-1074)) instanceSamplingWithReplacement [.setRatio (.fin (99999999999 / 100000000000))]
    Config.instanceSamplingWithReplacement.initial) = .ok (1, 0) := by decide +kernel

example : Harmless (roundEven 24 (-149)) (2 ^ 24) (.setRatio (.fin (2 / 3))) := fun _ _ => by decide +kernel

example : Translated (fixedPartialHead (1 / 2 ^ 23)) := .inr (.inr (.inr ⟨_, by norm_num, by norm_num, rfl⟩))

end MLRL.PythonSetters
