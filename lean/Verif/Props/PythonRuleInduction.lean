import Verif.Model.PythonRuleInduction
import Verif.Props.PythonPrePruning
import Verif.Props.PythonSetters

/-!
# C121: The induction of individual rules is configured as specified
-/

namespace MLRL.PythonRuleInduction

open PythonOptions (Str Dict getNumber getBool)
open PythonSetters (PyFloat Failure assertAtLeast toFloat32)
open PythonPrePruning (lift uint32 ofFloat64 Given Positive boolValue bind_ok getNumber_ok getBool_ok positive_ok uint32_ok assertAtLeast_ok cppAtLeast)
open Config (CoverageConfig CoverageCall)
open FloatingPoint (Nearest IsFloat32)

/-! ### Specification -/

/-- What is needed about the rounding to the format binary32: it does not leave the interval `[0, 1]`, and zero is not rounded. -/
structure Rounding (rnd32 : ℚ → ℚ) : Prop where
  zero : rnd32 0 = 0
  nonneg : ∀ x, 0 ≤ x → x ≤ 1 → 0 ≤ rnd32 x
  le_one : ∀ x, 0 ≤ x → x ≤ 1 → rnd32 x ≤ 1

/-- A maximum that is at least a certain value, or zero, if there is no restriction. -/
def Maximum (lowest : Nat) (n : Int) : Prop := n = 0 ∨ ((lowest : Int) ≤ n ∧ n < 2 ^ 32)

/-- The properties of a configuration are set to valid values that are given by options. A fraction that would become one when rounded is not valid. -/
structure Configured (rnd32 : ℚ → ℚ) (lowestConditions : Nat) (int : Str → Option Int) (float : Str → Option PyFloat) (options : Dict) (s : InductionState) : Prop where
  minCoverage : Given int options "min_coverage" 1 s.coverage.minCoverage ∧ Positive s.coverage.minCoverage
  minSupport : ∃ x, Given float options "min_support" (.fin 0) (.fin x) ∧ 0 ≤ x ∧ x < 1 ∧ rnd32 x < 1 ∧ s.coverage.minSupport = some (rnd32 x)
  maxConditions : Given int options "max_conditions" 0 s.maxConditions ∧ Maximum lowestConditions s.maxConditions
  maxHeadRefinements : Given int options "max_head_refinements" 1 s.maxHeadRefinements ∧ Maximum 1 s.maxHeadRefinements
  recalculatePredictions : Given boolValue options "recalculate_predictions" true s.recalculatePredictions

/-! ### Auxiliary statements -/

variable {rnd32 : ℚ → ℚ} {ε : ℚ}

theorem setMinCoverage_ok (s s' : CoverageConfig) (value : Int) :
    setMinCoverage ε s value = .ok s' ↔ Positive value ∧ s' = { s with minCoverage := value.toNat } := by
  unfold setMinCoverage
  rw [positive_ok]
  refine and_congr_right fun h => ?_
  unfold callCpp CoverageCall.apply
  dsimp only
  rw [cppAtLeast (by unfold Positive at h; omega)]
  exact ⟨fun hh => (by cases hh; rfl), fun hh => (by rw [hh]; rfl)⟩

theorem check_ok (value : PyFloat) (u : Unit) :
    PythonSetters.RatioCheck.optional.run value = .ok u ↔ value = .nan ∨ ∃ x, value = .fin x ∧ 0 ≤ x ∧ x < 1 := by
  cases value with
  | nan => exact ⟨fun _ => Or.inl rfl, fun _ => rfl⟩
  | negInf => exact ⟨fun h => (by cases h), fun h => (by rcases h with h | ⟨x, h, _⟩ <;> cases h)⟩
  | posInf => exact ⟨fun h => (by cases h), fun h => (by rcases h with h | ⟨x, h, _⟩ <;> cases h)⟩
  | fin x =>
    unfold PythonSetters.RatioCheck.run PyFloat.nonZero
    dsimp only
    by_cases h0 : x = 0
    · subst h0
      refine ⟨fun _ => Or.inr ⟨0, rfl, le_refl _, by norm_num⟩, fun _ => ?_⟩
      rw [if_neg (by decide)]
    · rw [if_pos (by simpa using h0)]
      have e1 : PythonSetters.assertGreater (.fin x) 0 = if x ≤ 0 then .error .valueError else .ok () := by
        simp only [PythonSetters.assertGreater, PyFloat.le, decide_eq_true_eq]
      have e2 : PythonSetters.assertLess (.fin x) 1 = if 1 ≤ x then .error .valueError else .ok () := by
        simp only [PythonSetters.assertLess, PyFloat.ge, decide_eq_true_eq]
      rw [e1, e2]
      by_cases h1 : x ≤ 0
      · rw [if_pos h1]
        refine ⟨fun h => (by cases h), ?_⟩
        rintro (h | ⟨y, h, hy, _⟩)
        · cases h
        · cases h
          exact absurd (le_antisymm h1 hy) h0
      · rw [if_neg h1]
        by_cases h2 : 1 ≤ x
        · rw [if_pos h2]
          refine ⟨fun h => (by cases h), ?_⟩
          rintro (h | ⟨y, h, _, hy⟩)
          · cases h
          · cases h
            linarith
        · rw [if_neg h2]
          exact ⟨fun _ => Or.inr ⟨x, rfl, by linarith, by linarith⟩, fun _ => rfl⟩

/-- The setter of the C++ API for numbers that result from rounding. -/
theorem callCpp_minSupport (hε : 0 ≤ ε) (hε1 : ε < 1) (s s' : CoverageConfig) {r : ℚ} (h0 : 0 ≤ r) (h1 : r ≤ 1) :
    callCpp ε s (.setMinSupport (some r)) = .ok s' ↔ r < 1 ∧ s' = { s with minSupport := some r } := by
  unfold callCpp CoverageCall.apply
  dsimp only
  have habs : |r| = r := abs_of_nonneg h0
  have hmax : max 1 |r| = 1 := by rw [habs]; exact max_eq_left h1
  by_cases hz : r ≤ ε
  · have he : Config.isEqualToZero ε (some r) = true := by
      unfold Config.isEqualToZero
      dsimp only
      rw [hmax, habs, mul_one]
      exact decide_eq_true hz
    rw [he]
    have hlt : r < 1 := lt_of_le_of_lt hz hε1
    exact ⟨fun hh => (by cases hh; exact ⟨hlt, rfl⟩), fun hh => (by rw [hh.2]; rfl)⟩
  · have he : Config.isEqualToZero ε (some r) = false := by
      unfold Config.isEqualToZero
      dsimp only
      rw [hmax, habs, mul_one]
      exact decide_eq_false hz
    rw [he]
    have hpos : 0 < r := by linarith
    have e1 : Config.assertGreater (some r) (some 0) = .ok () := by
      unfold Config.assertGreater Config.isLess
      simp only [hpos, decide_true]
      rfl
    by_cases hlt : r < 1
    · have e2 : Config.assertLess (some r) (some 1) = .ok () := by
        unfold Config.assertLess Config.isLess
        simp only [hlt, decide_true]
        rfl
      have e3 : Config.checkOpen (some r) = .ok () := by
        unfold Config.checkOpen
        rw [e1, e2]
        rfl
      rw [e3]
      exact ⟨fun hh => (by cases hh; exact ⟨hlt, rfl⟩), fun hh => (by rw [hh.2]; rfl)⟩
    · have e2 : Config.assertLess (some r) (some 1) = .error .exception := by
        unfold Config.assertLess Config.isLess
        simp only [hlt, decide_false]
        rfl
      have e3 : Config.checkOpen (some r) = .error .exception := by
        unfold Config.checkOpen
        rw [e1, e2]
        rfl
      rw [e3]
      exact ⟨fun hh => (by cases hh), fun hh => absurd hh.1 hlt⟩

theorem setMinSupport_ok (hr : Rounding rnd32) (hε : 0 ≤ ε) (hε1 : ε < 1) (s s' : CoverageConfig) (value : PyFloat) :
    setMinSupport rnd32 ε s value = .ok s' ↔
      ∃ x, value = .fin x ∧ 0 ≤ x ∧ x < 1 ∧ rnd32 x < 1 ∧ s' = { s with minSupport := some (rnd32 x) } := by
  have hto : ∀ x, 0 ≤ x → x < 1 → toFloat32 rnd32 (.fin x) = .ok (some (rnd32 x)) := by
    intro x h0 h1
    unfold toFloat32
    have : (1 : ℚ) ≤ FloatingPoint.maxFloat32 := by norm_num [FloatingPoint.maxFloat32]
    have hle := hr.le_one x h0 h1.le
    dsimp only
    rw [if_pos (by rw [abs_of_nonneg (hr.nonneg x h0 h1.le)]; linarith)]
  unfold setMinSupport
  rw [bind_ok]
  constructor
  · rintro ⟨u, hu, h⟩
    rcases (check_ok value u).1 hu with rfl | ⟨x, rfl, h0, h1⟩
    · cases h
    · rw [hto x h0 h1] at h
      obtain ⟨h2, h3⟩ := (callCpp_minSupport hε hε1 s s' (hr.nonneg x h0 h1.le) (hr.le_one x h0 h1.le)).1 h
      exact ⟨x, rfl, h0, h1, h2, h3⟩
  · rintro ⟨x, rfl, h0, h1, h2, h3⟩
    refine ⟨(), (check_ok _ _).2 (Or.inr ⟨x, rfl, h0, h1⟩), ?_⟩
    rw [hto x h0 h1]
    exact (callCpp_minSupport hε hε1 s s' (hr.nonneg x h0 h1.le) (hr.le_one x h0 h1.le)).2 ⟨h2, h3⟩

theorem optionalAtLeast_ok {lowest : Nat} (hl : 1 ≤ lowest) (value : Int) (n : Nat) : optionalAtLeast lowest value = .ok n ↔ Maximum lowest value ∧ n = value.toNat := by
  unfold optionalAtLeast
  rw [bind_ok]
  constructor
  · rintro ⟨u, hu, h⟩
    rw [bind_ok] at h
    obtain ⟨m, hm, h⟩ := h
    rw [uint32_ok] at hm
    obtain ⟨h1, h2, rfl⟩ := hm
    have hn : n = value.toNat := by
      split at h
      · cases h
        rfl
      · cases h
    refine ⟨?_, hn⟩
    by_cases h0 : value = 0
    · exact Or.inl h0
    · rw [assertOptional, if_pos h0, assertAtLeast_ok] at hu
      exact Or.inr ⟨hu, h2⟩
  · rintro ⟨hm, rfl⟩
    rcases hm with rfl | ⟨h1, h2⟩
    · exact ⟨(), rfl, rfl⟩
    · refine ⟨(), ?_, ?_⟩
      · rw [assertOptional, if_pos (by omega), assertAtLeast_ok]
        exact h1
      · rw [bind_ok]
        refine ⟨value.toNat, (uint32_ok _ _).2 ⟨by omega, h2, rfl⟩, ?_⟩
        have : Config.assertAtLeast value.toNat lowest = .ok () := by
          unfold Config.assertAtLeast
          rw [if_neg (by omega)]
        rw [if_pos (by omega), this]

theorem beamWidthOf_ok (value : Int) (n : Nat) : beamWidthOf value = .ok n ↔ 2 ≤ value ∧ value < 2 ^ 32 ∧ n = value.toNat := by
  unfold beamWidthOf
  rw [bind_ok]
  constructor
  · rintro ⟨u, hu, h⟩
    rw [assertAtLeast_ok] at hu
    rw [bind_ok] at h
    obtain ⟨m, hm, h⟩ := h
    rw [uint32_ok] at hm
    obtain ⟨h1, h2, rfl⟩ := hm
    split at h
    · cases h
      exact ⟨hu, h2, rfl⟩
    · cases h
  · rintro ⟨h1, h2, rfl⟩
    refine ⟨(), (assertAtLeast_ok _ _ _).2 h1, ?_⟩
    rw [bind_ok]
    refine ⟨value.toNat, (uint32_ok _ _).2 ⟨by omega, h2, rfl⟩, ?_⟩
    have : Config.assertAtLeast value.toNat 2 = .ok () := by
      unfold Config.assertAtLeast
      rw [if_neg (by omega)]
    rw [this]

/-- A configuration is created if and only if all given values are valid. -/
theorem configureInduction_ok (hr : Rounding rnd32) (hε : 0 ≤ ε) (hε1 : ε < 1) {lowestConditions : Nat} (hl : 1 ≤ lowestConditions) (int : Str → Option Int)
    (float : Str → Option PyFloat) (options : Dict) (s : InductionState) :
    configureInduction rnd32 ε lowestConditions int float options = .ok s ↔ Configured rnd32 lowestConditions int float options s := by
  unfold configureInduction
  simp only [bind_ok, getBool_ok, getNumber_ok, setMinCoverage_ok, setMinSupport_ok hr hε hε1, optionalAtLeast_ok hl, optionalAtLeast_ok (le_refl 1)]
  constructor
  · rintro ⟨a1, g1, c1, ⟨p1, rfl⟩, a2, g2, c2, ⟨x, rfl, h0, h1, h2, rfl⟩, a3, g3, n3, ⟨p3, rfl⟩, a4, g4, n4, ⟨p4, rfl⟩, a5, g5, h⟩
    cases h
    have e1 : (a1.toNat : Int) = a1 := Int.toNat_of_nonneg (by unfold Positive at p1; omega)
    have e3 : (a3.toNat : Int) = a3 := Int.toNat_of_nonneg (by unfold Maximum at p3; omega)
    have e4 : (a4.toNat : Int) = a4 := Int.toNat_of_nonneg (by unfold Maximum at p4; omega)
    refine ⟨?_, ⟨x, g2, h0, h1, h2, rfl⟩, ?_, ?_, g5⟩
    · dsimp only
      rw [e1]
      exact ⟨g1, p1⟩
    · dsimp only
      rw [e3]
      exact ⟨g3, p3⟩
    · dsimp only
      rw [e4]
      exact ⟨g4, p4⟩
  · rintro ⟨⟨g1, p1⟩, ⟨x, g2, h0, h1, h2, hx⟩, ⟨g3, p3⟩, ⟨g4, p4⟩, g5⟩
    refine ⟨_, g1, _, ⟨p1, rfl⟩, .fin x, g2, _, ⟨x, rfl, h0, h1, h2, rfl⟩, _, g3, _, ⟨p3, rfl⟩, _, g4, _, ⟨p4, rfl⟩, _, g5, ?_⟩
    obtain ⟨⟨s1, s2⟩, s3, s4, s5⟩ := s
    simp only at hx
    subst hx
    rfl

/-- Rounding to nearest meets the requirements. -/
theorem rounding (h32 : Nearest IsFloat32 rnd32) : Rounding rnd32 :=
  ⟨h32.eq (FloatingPoint.isFloat_zero _ _), fun _ h _ => h32.ge (FloatingPoint.isFloat_zero _ _) h, fun _ _ h => h32.le PythonSetters.isFloat32_one h⟩

/-! ### Theorems -/

/-- **A greedy search is configured as specified**: the options are accepted if and only if the given values are valid, and all properties are set to them. -/
theorem configureGreedy_ok (h32 : Nearest IsFloat32 rnd32) (hε : 0 ≤ ε) (hε1 : ε < 1) (int : Str → Option Int) (float : Str → Option PyFloat) (options : Dict) (s : InductionState) :
    configureGreedy rnd32 ε int float options = .ok s ↔ Configured rnd32 1 int float options s :=
  configureInduction_ok (rounding h32) hε hε1 (le_refl 1) int float options s

/-- **A beam search is configured as specified.** -/
theorem configureBeamSearch_ok (h32 : Nearest IsFloat32 rnd32) (hε : 0 ≤ ε) (hε1 : ε < 1) (int : Str → Option Int) (float : Str → Option PyFloat) (options : Dict)
    (s : BeamSearchState) :
    configureBeamSearch rnd32 ε int float options = .ok s ↔ Configured rnd32 2 int float options s.induction ∧
      (Given int options "beam_width" 4 s.beamWidth ∧ 2 ≤ s.beamWidth ∧ s.beamWidth < 2 ^ 32) ∧
      Given boolValue options "resample_features" false s.resampleFeatures := by
  unfold configureBeamSearch
  simp only [bind_ok, getBool_ok, getNumber_ok, configureInduction_ok (rounding h32) hε hε1 (show 1 ≤ 2 by omega), beamWidthOf_ok]
  constructor
  · rintro ⟨i, hi, a, ga, n, ⟨h2, h3, rfl⟩, b, gb, h⟩
    cases h
    have e : (a.toNat : Int) = a := Int.toNat_of_nonneg (by omega)
    dsimp only
    rw [e]
    exact ⟨hi, ⟨ga, by omega, by omega⟩, gb⟩
  · rintro ⟨hi, ⟨ga, h2, h3⟩, gb⟩
    exact ⟨_, hi, _, ga, _, ⟨by omega, by omega, rfl⟩, _, gb, rfl⟩

/-- With the default values, rules must cover at least one example, and neither the number of conditions nor the support of rules is restricted. -/
theorem configureGreedy_default (h32 : Nearest IsFloat32 rnd32) (hε : 0 ≤ ε) (hε1 : ε < 1) (int : Str → Option Int) (float : Str → Option PyFloat) {s : InductionState}
    (h : configureGreedy rnd32 ε int float [] = .ok s) {numExamples : Nat} (hn : 1 ≤ numExamples) :
    Config.minCoverageOf s.coverage numExamples = 1 ∧ s.maxConditions = 0 := by
  obtain ⟨⟨g1, _⟩, ⟨x, g2, _, _, _, hx⟩, ⟨g3, _⟩, _, _⟩ := (configureGreedy_ok h32 hε hε1 int float [] s).1 h
  rcases g1 with ⟨_, g1⟩ | ⟨_, g1, _⟩
  · rcases g2 with ⟨_, g2⟩ | ⟨_, g2, _⟩
    · rcases g3 with ⟨_, g3⟩ | ⟨_, g3, _⟩
      · cases g2
        refine ⟨?_, by omega⟩
        unfold Config.minCoverageOf
        rw [hx, (rounding h32).zero]
        dsimp only
        rw [if_neg (lt_irrefl _)]
        omega
      · cases g3
    · cases g2
  · cases g1

/-! ### Examples -/

/-- There are rounding functions that meet the requirements. -/
example : Nearest IsFloat32 (FloatingPoint.roundEven 24 (-149)) := FloatingPoint.roundings_exist.1

/-- Parses some numbers. -/
def exampleInt (text : Str) : Option Int := if text = "1".toList then some 1 else if text = "3".toList then some 3 else none

/-- Parses a number. -/
def exampleFloat (text : Str) : Option PyFloat := if text = "0.25".toList then some (.fin (1 / 4)) else if text = "nan".toList then some .nan else none

example : (configureGreedy id (1 / 2 ^ 23) exampleInt exampleFloat [("min_support".toList, "0.25".toList), ("max_conditions".toList, "1".toList)]).map
    (fun s => (s.coverage, s.maxConditions, s.maxHeadRefinements)) = .ok (⟨1, some (1 / 4)⟩, 1, 1) := by decide +kernel

/-- A value that is not a number is rejected. -/
example : (configureGreedy id (1 / 2 ^ 23) exampleInt exampleFloat [("min_support".toList, "nan".toList)]).map (fun s => s.coverage) = .error .valueError := by
  decide +kernel

/-- A single condition is not enough for a beam search. -/
example : (configureBeamSearch id (1 / 2 ^ 23) exampleInt exampleFloat [("max_conditions".toList, "1".toList)]).map (fun s => s.beamWidth) = .error .valueError := by
  decide +kernel

example : (configureBeamSearch id (1 / 2 ^ 23) exampleInt exampleFloat [("max_conditions".toList, "3".toList), ("beam_width".toList, "3".toList)]).map
    (fun s => (s.induction.maxConditions, s.beamWidth, s.resampleFeatures)) = .ok (3, 3, false) := by decide +kernel

end MLRL.PythonRuleInduction
