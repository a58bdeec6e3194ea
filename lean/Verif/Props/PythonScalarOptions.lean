import Verif.Model.PythonScalarOptions
import Verif.Props.PythonScalars

/-!
# C123: Numerical parameters and options are configured as specified
-/

namespace MLRL.PythonScalarOptions

open PythonOptions (Str Dict getNumber getBool)
open PythonSetters (PyFloat Failure isFloat32_one)
open PythonPrePruning (lift bind_ok getNumber_ok getBool_ok Given Positive boolValue)
open PythonScalars (FloatSetter IntSetter Documented Double Closed Unbounded set_ok set_double_partial set_ratio_partial set_exponent_partial set_nan set_infinite set_int)
open FloatingPoint (Nearest IsFloat32 IsFloat64 maxFloat32)

/-! ### Specification -/

/-- What is stored if a number is given: the number itself or, if the type is `float32`, the rounded number. The latter must be in the documented range, too. -/
def StoredNumber (rnd32 : ℚ → ℚ) (s : FloatSetter) (x : ℚ) (w : PyFloat) : Prop :=
  (Double s ∧ w = .fin x) ∨
  ((s = .holdoutSetSize ∨ s = .headThreshold) ∧ Documented s (rnd32 x) ∧ w = .fin (rnd32 x)) ∨
  (s = .exponent ∧ w = if rnd32 x ≤ maxFloat32 then .fin (rnd32 x) else .posInf)

/-- The values that are accepted by a setter and what is stored. Besides the documented values, infinity is accepted in the absence of an upper bound, and values that are not numbers are
accepted if a lower bound is included, see C122. -/
def Stored (rnd32 : ℚ → ℚ) (s : FloatSetter) (v w : PyFloat) : Prop :=
  (∃ x, v = .fin x ∧ Documented s x ∧ StoredNumber rnd32 s x w) ∨ (v = .posInf ∧ Unbounded s ∧ w = .posInf) ∨ (v = .nan ∧ Closed s ∧ w = .nan)

/-- A number is given by an option, or it is the default value, and has been stored. -/
def FloatGiven (rnd32 : ℚ → ℚ) (s : FloatSetter) (float : Str → Option PyFloat) (options : Dict) (key : String) (default : ℚ) (w : PyFloat) : Prop :=
  ∃ v, Given float options key (.fin default) v ∧ Stored rnd32 s v w

/-- An integer is given by an option, or it is the default value. -/
def IntegerGiven (zero : Prop) (int : Str → Option Int) (options : Dict) (key : String) (default : Nat) (n : Nat) : Prop :=
  Given int options key default n ∧ (Positive n ∨ zero ∧ n = 0)

/-! ### Auxiliary statements -/

theorem set_iff {rnd32 : ℚ → ℚ} (h32 : Nearest IsFloat32 rnd32) (s : FloatSetter) (v w : PyFloat) : s.set rnd32 v = .ok w ↔ Stored rnd32 s v w := by
  unfold Stored
  cases v with
  | nan =>
    by_cases hc : Closed s
    · rw [(set_nan rnd32 s).1 hc]
      exact ⟨fun h => (by cases h; exact .inr (.inr ⟨rfl, hc, rfl⟩)), fun h => by
        rcases h with ⟨x, h, _⟩ | ⟨h, _⟩ | ⟨_, _, rfl⟩
        · cases h
        · cases h
        · rfl⟩
    · rw [(set_nan rnd32 s).2 hc]
      exact ⟨fun h => (by cases h), fun h => by
        rcases h with ⟨x, h, _⟩ | ⟨h, _⟩ | ⟨_, h, _⟩
        · cases h
        · cases h
        · exact absurd h hc⟩
  | negInf =>
    rw [(set_infinite rnd32 s).2.2]
    exact ⟨fun h => (by cases h), fun h => by
      rcases h with ⟨x, h, _⟩ | ⟨h, _⟩ | ⟨h, _⟩ <;> cases h⟩
  | posInf =>
    by_cases hc : Unbounded s
    · rw [(set_infinite rnd32 s).1 hc]
      exact ⟨fun h => (by cases h; exact .inr (.inl ⟨rfl, hc, rfl⟩)), fun h => by
        rcases h with ⟨x, h, _⟩ | ⟨_, _, rfl⟩ | ⟨h, _⟩
        · cases h
        · rfl
        · cases h⟩
    · rw [(set_infinite rnd32 s).2.1 hc]
      exact ⟨fun h => (by cases h), fun h => by
        rcases h with ⟨x, h, _⟩ | ⟨_, h, _⟩ | ⟨h, _⟩
        · cases h
        · exact absurd h hc
        · cases h⟩
  | fin x =>
    have key : s.set rnd32 (.fin x) = .ok w ↔ Documented s x ∧ StoredNumber rnd32 s x w := by
      unfold StoredNumber
      by_cases h1 : s = .holdoutSetSize ∨ s = .headThreshold
      · have hd : ¬Double s := fun h => h1.elim h.1 h.2.1
        have he : s ≠ .exponent := by rintro rfl; rcases h1 with h | h <;> cases h
        rw [set_ratio_partial h32 h1]
        simp only [hd, h1, he, false_and, or_false, false_or, true_and]
      · by_cases h2 : s = .exponent
        · have hd : ¬Double s := fun h => h.2.2 h2
          simp only [hd, h1, false_and, false_or]
          subst h2
          rw [set_exponent_partial h32]
          simp only [true_and]
        · have hd : Double s := ⟨fun h => h1 (.inl h), fun h => h1 (.inr h), h2⟩
          rw [set_double_partial rnd32 hd]
          simp only [hd, h1, h2, false_and, or_false, true_and]
    rw [key]
    constructor
    · exact fun h => .inl ⟨x, rfl, h⟩
    · rintro (⟨y, h, h'⟩ | ⟨h, _⟩ | ⟨h, _⟩)
      · cases h
        exact h'
      · cases h
      · cases h

theorem floatOption_ok {rnd32 : ℚ → ℚ} (h32 : Nearest IsFloat32 rnd32) (s : FloatSetter) (float : Str → Option PyFloat) (options : Dict) (key : String) (default : ℚ)
    (w : PyFloat) : floatOption rnd32 s float options key.toList default = .ok w ↔ FloatGiven rnd32 s float options key default w := by
  unfold floatOption FloatGiven
  rw [bind_ok]
  simp only [getNumber_ok, set_iff h32]

theorem intOption_ok (s : IntSetter) (int : Str → Option Int) (options : Dict) (key : String) (default : Nat) (n : Nat) :
    intOption s int options key.toList default = .ok n ↔ IntegerGiven (s = .numPreferredThreads ∨ s = .peakLabel) int options key default n := by
  unfold intOption IntegerGiven
  rw [bind_ok]
  simp only [getNumber_ok, set_int]
  constructor
  · rintro ⟨a, hg, hp, rfl⟩
    exact ⟨hg, hp.imp_right fun h => ⟨h.2, by exact_mod_cast h.1⟩⟩
  · rintro ⟨hg, hp⟩
    exact ⟨n, hg, hp.imp_right fun h => ⟨by exact_mod_cast h.2, h.1⟩, rfl⟩

theorem parse_bind {α β : Type} (convert : Str → Option α) (text : Str) (f : α → Except Failure β) (b : β) :
    (parse convert text >>= f) = .ok b ↔ ∃ value, convert text = some value ∧ f value = .ok b := by
  rw [bind_ok]
  unfold parse
  cases convert text with
  | none => exact ⟨fun ⟨_, h, _⟩ => (by cases h), fun ⟨_, h, _⟩ => (by cases h)⟩
  | some v => exact ⟨fun ⟨_, h, h'⟩ => (by cases h; exact ⟨v, rfl, h'⟩), fun ⟨_, h, h'⟩ => (by cases h; exact ⟨v, rfl, h'⟩)⟩

theorem configureLimit_ok {s : IntSetter} (hs : s = .maxRules ∨ s = .timeLimit) (supportsNone : Bool) (value : Int) (r : Option Nat) :
    configureLimit supportsNone s value = .ok r ↔ (value = 0 ∧ supportsNone = true ∧ r = none) ∨ ∃ n : Nat, Positive value ∧ (n : Int) = value ∧ r = some n := by
  have hns : ¬(s = .numPreferredThreads ∨ s = .peakLabel) := by rcases hs with rfl | rfl <;> decide
  unfold configureLimit
  split
  · rename_i h
    constructor
    · intro hh
      cases hh
      exact .inl ⟨h.1, h.2, rfl⟩
    · rintro (⟨_, _, rfl⟩ | ⟨n, hp, _, _⟩)
      · rfl
      · unfold Positive at hp
        omega
  · rename_i h
    rw [bind_ok]
    constructor
    · rintro ⟨n, hn, hh⟩
      cases hh
      rw [set_int] at hn
      exact .inr ⟨n, hn.1.elim id fun hz => absurd hz.2 hns, hn.2, rfl⟩
    · rintro (⟨h0, h1, _⟩ | ⟨n, hp, hn, rfl⟩)
      · exact absurd ⟨h0, h1⟩ h
      · exact ⟨n, (set_int _ _ _).2 ⟨.inl hp, hn⟩, rfl⟩

theorem configureWeight_ok {rnd32 : ℚ → ℚ} (h32 : Nearest IsFloat32 rnd32) (s : FloatSetter) {neutral : ℚ} (hn : ¬Documented s neutral) (supportsNone : Bool)
    (value : PyFloat) (r : Option PyFloat) : configureWeight rnd32 supportsNone s neutral value = .ok r ↔
      (value = .fin neutral ∧ supportsNone = true ∧ r = none) ∨ ∃ w, Stored rnd32 s value w ∧ r = some w := by
  have hnum : isNumber value neutral = true ↔ value = .fin neutral := by
    cases value <;> simp [isNumber]
  unfold configureWeight
  split
  · rename_i h
    rw [hnum] at h
    constructor
    · intro hh
      cases hh
      exact .inl ⟨h.1, h.2, rfl⟩
    · rintro (⟨_, _, rfl⟩ | ⟨w, hw, _⟩)
      · rfl
      · rw [h.1] at hw
        rcases hw with ⟨x, hx, hd, _⟩ | ⟨hx, _⟩ | ⟨hx, _⟩
        · cases hx
          exact absurd hd hn
        · cases hx
        · cases hx
  · rename_i h
    rw [hnum] at h
    rw [bind_ok]
    constructor
    · rintro ⟨w, hw, hh⟩
      cases hh
      exact .inr ⟨w, (set_iff h32 _ _ _).1 hw, rfl⟩
    · rintro (⟨h0, h1, _⟩ | ⟨w, hw, rfl⟩)
      · exact absurd ⟨h0, h1⟩ h
      · exact ⟨w, (set_iff h32 _ _ _).2 hw, rfl⟩

/-! ### Numerical parameters -/

/-- **C123**: the maximum number of rules, or the time limit, is accepted if and only if it is a positive integer with 32 bits, or zero, in which case no stopping criterion is used. -/
theorem configureLimits_ok (supportsNone : Bool) (int : Str → Option Int) (text : Str) (r : Option Nat) :
    (configureMaxRules supportsNone int text = .ok r ↔ ∃ value, int text = some value ∧
      ((value = 0 ∧ supportsNone = true ∧ r = none) ∨ ∃ n : Nat, Positive value ∧ (n : Int) = value ∧ r = some n)) ∧
    (configureTimeLimit supportsNone int text = .ok r ↔ ∃ value, int text = some value ∧
      ((value = 0 ∧ supportsNone = true ∧ r = none) ∨ ∃ n : Nat, Positive value ∧ (n : Int) = value ∧ r = some n)) := by
  constructor
  · unfold configureMaxRules
    rw [parse_bind]
    simp only [configureLimit_ok (.inl rfl)]
  · unfold configureTimeLimit
    rw [parse_bind]
    simp only [configureLimit_ok (.inr rfl)]

/-- **C123**: the shrinkage is accepted if and only if it is in `(0, 1]`, where no post-processor is used if it is one. -/
theorem configureShrinkage_ok {rnd32 : ℚ → ℚ} (h32 : Nearest IsFloat32 rnd32) (supportsNone : Bool) (float : Str → Option PyFloat) (text : Str) (r : Option PyFloat) :
    configureShrinkage rnd32 supportsNone float text = .ok r ↔ ∃ x, float text = some (.fin x) ∧
      ((x = 1 ∧ supportsNone = true ∧ r = none) ∨ (0 < x ∧ x < 1 ∧ r = some (.fin x))) := by
  unfold configureShrinkage
  rw [parse_bind]
  have hn : ¬Documented .shrinkage 1 := fun h => absurd h.2 (lt_irrefl _)
  simp only [configureWeight_ok h32 _ hn]
  constructor
  · rintro ⟨v, hv, ⟨rfl, hs, rfl⟩ | ⟨w, hw, rfl⟩⟩
    · exact ⟨1, hv, .inl ⟨rfl, hs, rfl⟩⟩
    · rcases hw with ⟨x, rfl, hd, h | ⟨h, _⟩ | ⟨h, _⟩⟩ | ⟨_, h, _⟩ | ⟨_, h, _⟩
      · exact ⟨x, hv, .inr ⟨hd.1, hd.2, by rw [h.2]⟩⟩
      · rcases h with h | h <;> cases h
      · cases h
      · exact absurd rfl h.1
      · exact absurd h (by unfold Closed; decide)
  · rintro ⟨x, hx, ⟨rfl, hs, rfl⟩ | ⟨h0, h1, rfl⟩⟩
    · exact ⟨_, hx, .inl ⟨rfl, hs, rfl⟩⟩
    · exact ⟨_, hx, .inr ⟨_, .inl ⟨x, rfl, ⟨h0, h1⟩, .inl ⟨⟨by decide, by decide, by decide⟩, rfl⟩⟩, rfl⟩⟩

/-- **C123**: the weight of a regularization term is accepted if and only if it is zero, in which case no regularization is used, or positive, including infinity. -/
theorem configureRegularization_ok {rnd32 : ℚ → ℚ} (h32 : Nearest IsFloat32 rnd32) (supportsNone : Bool) (float : Str → Option PyFloat) (text : Str) (r : Option PyFloat) :
    configureRegularization rnd32 supportsNone float text = .ok r ↔ (float text = some .posInf ∧ r = some .posInf) ∨ ∃ x, float text = some (.fin x) ∧
      ((x = 0 ∧ supportsNone = true ∧ r = none) ∨ (0 < x ∧ r = some (.fin x))) := by
  unfold configureRegularization
  rw [parse_bind]
  have hn : ¬Documented .regularizationWeight 0 := fun h => absurd h (lt_irrefl _)
  simp only [configureWeight_ok h32 _ hn]
  constructor
  · rintro ⟨v, hv, ⟨rfl, hs, rfl⟩ | ⟨w, hw, rfl⟩⟩
    · exact .inr ⟨0, hv, .inl ⟨rfl, hs, rfl⟩⟩
    · rcases hw with ⟨x, rfl, hd, h | ⟨h, _⟩ | ⟨h, _⟩⟩ | ⟨rfl, _, rfl⟩ | ⟨_, h, _⟩
      · exact .inr ⟨x, hv, .inr ⟨hd, by rw [h.2]⟩⟩
      · rcases h with h | h <;> cases h
      · cases h
      · exact .inl ⟨hv, rfl⟩
      · exact absurd h (by unfold Closed; decide)
  · rintro (⟨hv, rfl⟩ | ⟨x, hx, ⟨rfl, hs, rfl⟩ | ⟨h0, rfl⟩⟩)
    · exact ⟨_, hv, .inr ⟨_, .inr (.inl ⟨rfl, by unfold Unbounded; decide, rfl⟩), rfl⟩⟩
    · exact ⟨_, hx, .inl ⟨rfl, hs, rfl⟩⟩
    · exact ⟨_, hx, .inr ⟨_, .inl ⟨x, rfl, h0, .inl ⟨⟨by decide, by decide, by decide⟩, rfl⟩⟩, rfl⟩⟩

/-! ### Options -/

section
variable {rnd32 : ℚ → ℚ} (h32 : Nearest IsFloat32 rnd32) (rnd64 : ℚ → ℚ) (int : Str → Option Int) (float : Str → Option PyFloat) (options : Dict)

include h32 in
/-- **C123**: the options of lift functions are accepted if and only if the values are, and all of them are stored. -/
theorem configureLift_ok (s : PeakState) (w : PyFloat) :
    (configurePeak rnd32 rnd64 int float options = .ok s ↔ IntegerGiven True int options "peak_label" 2 s.peakLabel ∧
      FloatGiven rnd32 .maxLift float options "max_lift" (rnd64 (108 / 100)) s.maxLift ∧ FloatGiven rnd32 .curvature float options "curvature" 1 s.curvature) ∧
    (configureKln rnd32 rnd64 float options = .ok w ↔ FloatGiven rnd32 .k float options "k" (rnd64 (2 / 10)) w) := by
  refine ⟨?_, floatOption_ok h32 ..⟩
  unfold configurePeak
  simp only [bind_ok, intOption_ok, floatOption_ok h32, reduceCtorEq, false_or]
  constructor
  · rintro ⟨a, ha, b, hb, c, hc, h⟩
    cases h
    exact ⟨ha, hb, hc⟩
  · rintro ⟨ha, hb, hc⟩
    exact ⟨_, ha, _, hb, _, hc, rfl⟩

include h32 in
/-- **C123**: the option of the F-measure or m-estimate is accepted if and only if the value is, which is stored. -/
theorem configureHeuristic_ok (w : PyFloat) :
    (configureFMeasure rnd32 float options = .ok w ↔ FloatGiven rnd32 .beta float options "beta" (1 / 4) w) ∧
    (configureMEstimate rnd32 rnd64 float options = .ok w ↔ FloatGiven rnd32 .m float options "m" (rnd64 (22466 / 1000)) w) :=
  ⟨floatOption_ok h32 .., floatOption_ok h32 ..⟩

include h32 in
/-- **C123**: the options of dynamic heads, or the size of a holdout set, are accepted if and only if the values are, and all of them are stored. -/
theorem configureHeads_ok (s : DynamicHeadState) (w : PyFloat) :
    (configureDynamicHeads rnd32 float options = .ok s ↔ FloatGiven rnd32 .headThreshold float options "threshold" (rnd32 (2 / 100)) s.threshold ∧
      FloatGiven rnd32 .exponent float options "exponent" 2 s.exponent) ∧
    (configureHoldout rnd32 float options = .ok w ↔ FloatGiven rnd32 .holdoutSetSize float options "holdout_set_size" (rnd32 (33 / 100)) w) := by
  refine ⟨?_, floatOption_ok h32 ..⟩
  unfold configureDynamicHeads
  simp only [bind_ok, floatOption_ok h32]
  constructor
  · rintro ⟨a, ha, b, hb, h⟩
    cases h
    exact ⟨ha, hb⟩
  · rintro ⟨ha, hb⟩
    exact ⟨_, ha, _, hb, rfl⟩

/-- **C123**: the options of the sequential post-optimization are accepted if and only if the number of iterations is positive and the other values are boolean, and all of them are stored. -/
theorem configurePostOptimization_ok (s : PostOptimizationState) : configurePostOptimization int options = .ok s ↔
    IntegerGiven False int options "num_iterations" 2 s.numIterations ∧ Given boolValue options "refine_heads" false s.refineHeads ∧
      Given boolValue options "resample_features" true s.resampleFeatures := by
  unfold configurePostOptimization
  simp only [bind_ok, intOption_ok, getBool_ok, reduceCtorEq, or_false]
  constructor
  · rintro ⟨a, ha, b, hb, c, hc, h⟩
    cases h
    exact ⟨ha, hb, hc⟩
  · rintro ⟨ha, hb, hc⟩
    exact ⟨_, ha, _, hb, _, hc, rfl⟩

/-- **C123**: the number of threads is accepted if and only if it is not negative and can be represented by 32 bits. If support for multi-threading is enabled, a warning is logged if and only if there
are less cores. Otherwise, a warning is logged if and only if more than one thread should be used, given that there is a core. -/
theorem configureThreads_ok (supported : Bool) {numCores : Nat} (hc : 1 ≤ numCores) (n : Nat) (warning : Option Warning) :
    configureThreads supported numCores int options = .ok (n, warning) ↔ IntegerGiven True int options "num_preferred_threads" 0 n ∧
      (warning = some .notSupported ↔ supported = false ∧ 1 < n) ∧ (warning = some .tooManyThreads ↔ supported = true ∧ numCores < n) := by
  have hw : threadWarning supported numCores n = warning ↔
      (warning = some .notSupported ↔ supported = false ∧ 1 < n) ∧ (warning = some .tooManyThreads ↔ supported = true ∧ numCores < n) := by
    unfold threadWarning
    cases supported
    · by_cases h1 : 1 < n
      · rw [if_pos ⟨h1, rfl⟩]
        rcases warning with _ | _ | _ <;> simp [h1]
      · rw [if_neg (fun h => h1 h.1), if_neg (by omega)]
        rcases warning with _ | _ | _ <;> simp [h1]
    · rw [if_neg (by simp)]
      by_cases h1 : numCores < n
      · rw [if_pos h1]
        rcases warning with _ | _ | _ <;> simp [h1]
      · rw [if_neg h1]
        rcases warning with _ | _ | _ <;> simp [h1]
  rw [← hw]
  unfold configureThreads
  simp only [bind_ok, intOption_ok, reduceCtorEq, or_false]
  constructor
  · rintro ⟨a, ha, h⟩
    cases h
    exact ⟨ha, rfl⟩
  · rintro ⟨ha, rfl⟩
    exact ⟨n, ha, rfl⟩

end

/-! ### Default values -/

theorem given_default {α : Type} (meaning : Str → Option α) (key : String) (default : α) : Given meaning [] key default default := .inl ⟨rfl, rfl⟩

/-- **C123**: the default values are accepted and retained if no options are given. In particular, default values of type `float32`, which are converted into values of type `float64` and back, do not
change. -/
theorem configure_default {rnd32 rnd64 : ℚ → ℚ} (h32 : Nearest IsFloat32 rnd32) (h64 : Nearest IsFloat64 rnd64) (int : Str → Option Int) (float : Str → Option PyFloat) :
    configurePeak rnd32 rnd64 int float [] = .ok ⟨2, .fin (rnd64 (108 / 100)), .fin 1⟩ ∧ configureKln rnd32 rnd64 float [] = .ok (.fin (rnd64 (2 / 10))) ∧
    configureFMeasure rnd32 float [] = .ok (.fin (1 / 4)) ∧ configureMEstimate rnd32 rnd64 float [] = .ok (.fin (rnd64 (22466 / 1000))) ∧
    configureDynamicHeads rnd32 float [] = .ok ⟨.fin (rnd32 (2 / 100)), .fin 2⟩ ∧ configureHoldout rnd32 float [] = .ok (.fin (rnd32 (33 / 100))) ∧
    configurePostOptimization int [] = .ok ⟨2, false, true⟩ := by
  have dbl {s : FloatSetter} (hs : Double s) {key : String} {x : ℚ} (hx : Documented s x) : FloatGiven rnd32 s float [] key x (.fin x) :=
    ⟨_, given_default _ _ _, .inl ⟨x, rfl, hx, .inl ⟨hs, rfl⟩⟩⟩
  have sgl {s : FloatSetter} (hs : s = .holdoutSetSize ∨ s = .headThreshold) {key : String} {x : ℚ} (h0 : 1 / 64 ≤ x) (h1 : x ≤ 1 / 2) :
      FloatGiven rnd32 s float [] key (rnd32 x) (.fin (rnd32 x)) := by
    have e : rnd32 (rnd32 x) = rnd32 x := h32.eq (h32.mem x)
    have l : 1 / 64 ≤ rnd32 x := h32.ge ⟨1, -6, by norm_num, by norm_num, by norm_num⟩ h0
    have u : rnd32 x ≤ 1 / 2 := h32.le ⟨1, -1, by norm_num, by norm_num, by norm_num⟩ h1
    have d : Documented s (rnd32 x) := by
      rcases hs with rfl | rfl <;> exact ⟨by linarith, by linarith⟩
    exact ⟨_, given_default _ _ _, .inl ⟨_, rfl, d, .inr (.inl ⟨hs, by rw [e]; exact d, by rw [e]⟩)⟩⟩
  have two : rnd32 2 = 2 := h32.eq ⟨1, 1, by norm_num, by norm_num, by norm_num⟩
  refine ⟨?_, ?_, ?_, ?_, ?_, ?_, ?_⟩
  · exact ((configureLift_ok h32 rnd64 int float [] _ .nan).1).2 ⟨⟨given_default _ _ _, .inl ⟨by norm_num, by norm_num⟩⟩,
      dbl ⟨by decide, by decide, by decide⟩ (h64.ge ⟨1, 0, by norm_num, by norm_num, by norm_num⟩ (by norm_num) : (1 : ℚ) ≤ _),
      dbl ⟨by decide, by decide, by decide⟩ (by norm_num : (0 : ℚ) < 1)⟩
  · exact ((configureLift_ok h32 rnd64 int float [] ⟨0, .nan, .nan⟩ _).2).2 (dbl ⟨by decide, by decide, by decide⟩
      (lt_of_lt_of_le (by norm_num) (h64.ge (y := 1 / 8) ⟨1, -3, by norm_num, by norm_num, by norm_num⟩ (by norm_num)) : (0 : ℚ) < _))
  · exact ((configureHeuristic_ok h32 rnd64 float [] _).1).2 (dbl ⟨by decide, by decide, by decide⟩ (by norm_num : (0 : ℚ) ≤ 1 / 4))
  · exact ((configureHeuristic_ok h32 rnd64 float [] _).2).2 (dbl ⟨by decide, by decide, by decide⟩
      (h64.ge (y := 0) ⟨0, 0, by norm_num, by norm_num, by norm_num⟩ (by norm_num) : (0 : ℚ) ≤ _))
  · refine ((configureHeads_ok h32 float [] _ .nan).1).2 ⟨sgl (.inr rfl) (by norm_num) (by norm_num), _, given_default _ _ _,
      .inl ⟨2, rfl, (by norm_num : (1 : ℚ) ≤ 2), .inr (.inr ⟨rfl, ?_⟩)⟩⟩
    rw [two, if_pos (by unfold maxFloat32; norm_num)]
  · exact ((configureHeads_ok h32 float [] ⟨.nan, .nan⟩ _).2).2 (sgl (.inl rfl) (by norm_num) (by norm_num))
  · exact (configurePostOptimization_ok int [] _).2 ⟨⟨given_default _ _ _, .inl ⟨by norm_num, by norm_num⟩⟩, given_default _ _ _, given_default _ _ _⟩

/-! ### Examples -/

/-- A function that understands a few texts. -/
def exampleFloat (text : Str) : Option PyFloat :=
  if text = "0.5".toList then some (.fin (1 / 2)) else if text = "1".toList then some (.fin 1) else if text = "nan".toList then some .nan else none

example {rnd32 : ℚ → ℚ} (h32 : Nearest IsFloat32 rnd32) : configureShrinkage rnd32 true exampleFloat "0.5".toList = .ok (some (.fin (1 / 2))) :=
  (configureShrinkage_ok h32 ..).2 ⟨1 / 2, rfl, .inr ⟨by norm_num, by norm_num, rfl⟩⟩

example {rnd32 : ℚ → ℚ} (h32 : Nearest IsFloat32 rnd32) : configureShrinkage rnd32 true exampleFloat "1".toList = .ok none :=
  (configureShrinkage_ok h32 ..).2 ⟨1, rfl, .inl ⟨rfl, rfl, rfl⟩⟩

example : configureMaxRules true (fun _ => some 1000) "1000".toList = .ok (some 1000) :=
  ((configureLimits_ok true _ _ _).1).2 ⟨1000, rfl, .inr ⟨1000, ⟨by norm_num, by norm_num⟩, rfl, rfl⟩⟩

example : configureThreads true 4 (fun _ => some 8) [("num_preferred_threads".toList, "8".toList)] = .ok (8, some .tooManyThreads) :=
  (configureThreads_ok _ _ true (by norm_num) 8 _).2 ⟨⟨.inr ⟨_, rfl, rfl⟩, .inl ⟨by norm_num, by norm_num⟩⟩, by simp, by simp⟩

example : configurePostOptimization (fun _ => some 3) [("num_iterations".toList, "3".toList)] = .ok ⟨3, false, true⟩ :=
  (configurePostOptimization_ok _ _ _).2 ⟨⟨.inr ⟨_, rfl, rfl⟩, .inl ⟨by norm_num, by norm_num⟩⟩, .inl ⟨rfl, rfl⟩, .inl ⟨rfl, rfl⟩⟩

end MLRL.PythonScalarOptions
