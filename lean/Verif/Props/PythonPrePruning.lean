import Verif.Model.PythonPrePruning
import Mathlib.Tactic.NormNum
import Mathlib.Tactic.Linarith

/-!
# C120: Pre-pruning and post-pruning are configured as specified
-/

namespace MLRL.PythonPrePruning

open PythonOptions (Str Dict PyError getNumber getBool parseParam parseBool)
open PythonSetters (PyFloat Failure assertAtLeast toUint32)
open Config (PrePruningConfig PrePruningCall)
open Stopping (Aggregation)

/-! ### Specification -/

/-- The value of an option is either given by a text, or it is a default value. -/
def Given {α : Type} (meaning : Str → Option α) (options : Dict) (key : String) (default value : α) : Prop :=
  (options.lookup key.toList = none ∧ value = default) ∨ ∃ text, options.lookup key.toList = some text ∧ meaning text = some value

/-- The meaning of texts that specify boolean values. -/
def boolValue (text : Str) : Option Bool :=
  if text = "true".toList then some true else if text = "false".toList then some false else none

/-- The meaning of texts that specify aggregation functions. -/
def aggregationValue (text : Str) : Option Aggregation :=
  if text = "min".toList then some .min else if text = "max".toList then some .max else if text = "avg".toList then some .mean else none

/-- The values that may be specified for pre-pruning. -/
structure PreValues where
  useHoldoutSet : Bool
  removeUnusedRules : Bool
  aggregation : Aggregation
  minRules : Int
  updateInterval : Int
  stopInterval : Int
  numPast : Int
  numRecent : Int
  minImprovement : PyFloat

/-- The values that are specified by options. -/
structure PreValues.GivenBy (int : Str → Option Int) (float : Str → Option PyFloat) (options : Dict) (v : PreValues) : Prop where
  useHoldoutSet : Given boolValue options "use_holdout_set" true v.useHoldoutSet
  removeUnusedRules : Given boolValue options "remove_unused_rules" true v.removeUnusedRules
  aggregation : Given aggregationValue options "aggregation" .mean v.aggregation
  minRules : Given int options "min_rules" 100 v.minRules
  updateInterval : Given int options "update_interval" 1 v.updateInterval
  stopInterval : Given int options "stop_interval" 1 v.stopInterval
  numPast : Given int options "num_past" 50 v.numPast
  numRecent : Given int options "num_recent" 50 v.numRecent
  minImprovement : Given float options "min_improvement" (.fin (1 / 200)) v.minImprovement

/-- A positive integer with 32 bits. -/
def Positive (n : Int) : Prop := 1 ≤ n ∧ n < 2 ^ 32

/-- The values that are accepted. The interval must be positive according to the specification of pre-pruning, but zero is accepted, and so is an improvement that is
not a number, see `stop_interval_zero` and `min_improvement_nan`. -/
structure PreValues.Accepted (v : PreValues) : Prop where
  minRules : Positive v.minRules
  updateInterval : Positive v.updateInterval
  stopInterval : (Positive v.stopInterval ∧ v.updateInterval ∣ v.stopInterval) ∨ v.stopInterval = 0
  numPast : Positive v.numPast
  numRecent : Positive v.numRecent
  minImprovement : (∃ x, v.minImprovement = .fin x ∧ 0 ≤ x ∧ x ≤ 1) ∨ v.minImprovement = .nan

/-- A configuration has the given values. -/
structure PreValues.ConfiguredBy (v : PreValues) (s : PrePruningState) : Prop where
  useHoldoutSet : s.useHoldoutSet = v.useHoldoutSet
  removeUnusedRules : s.removeUnusedRules = v.removeUnusedRules
  aggregation : s.aggregation = v.aggregation
  minRules : (s.checked.minRules : Int) = v.minRules
  updateInterval : (s.checked.updateInterval : Int) = v.updateInterval
  stopInterval : (s.checked.stopInterval : Int) = v.stopInterval
  numPast : (s.checked.numPast : Int) = v.numPast
  numRecent : (s.checked.numCurrent : Int) = v.numRecent
  minImprovement : ofFloat64 s.checked.minImprovement = v.minImprovement

/-! ### Auxiliary statements -/

theorem bind_ok {α β : Type} (r : Except Failure α) (f : α → Except Failure β) (b : β) : (r >>= f) = .ok b ↔ ∃ a, r = .ok a ∧ f a = .ok b := by
  cases r with
  | error e => exact ⟨fun h => (by cases h), fun ⟨_, h, _⟩ => (by cases h)⟩
  | ok a => exact ⟨fun h => ⟨a, rfl, h⟩, fun ⟨_, h, h'⟩ => (by cases h; exact h')⟩

theorem lift_ok {α : Type} (r : Except PyError α) (a : α) : lift r = .ok a ↔ r = .ok a := by
  cases r with
  | error e => exact ⟨fun h => (by cases h), fun h => (by cases h)⟩
  | ok b => exact ⟨fun h => (by cases h; rfl), fun h => (by cases h; rfl)⟩

theorem getNumber_ok {α : Type} (convert : Str → Option α) (options : Dict) (key : String) (default value : α) :
    lift (getNumber convert options key.toList default) = .ok value ↔ Given convert options key default value := by
  rw [lift_ok]
  unfold getNumber Given
  cases h : options.lookup key.toList with
  | none =>
    simp only [true_and, reduceCtorEq, false_and, exists_false, or_false, Except.ok.injEq]
    exact eq_comm
  | some text =>
    simp only [reduceCtorEq, false_and, false_or, Option.some.injEq, exists_eq_left']
    cases convert text <;> simp

theorem getBool_ok (options : Dict) (key : String) (default value : Bool) :
    lift (getBool options key.toList default) = .ok value ↔ Given boolValue options key default value := by
  rw [lift_ok]
  unfold getBool Given
  cases h : options.lookup key.toList with
  | none =>
    simp only [true_and, reduceCtorEq, false_and, exists_false, or_false, Except.ok.injEq]
    exact eq_comm
  | some text =>
    simp only [reduceCtorEq, false_and, false_or, Option.some.injEq, exists_eq_left']
    unfold parseBool boolValue
    split
    · simp
    · split <;> simp

theorem getAggregation_ok (options : Dict) (default value : Aggregation) :
    lift (getAggregation options default) = .ok value ↔ Given aggregationValue options "aggregation" default value := by
  rw [lift_ok]
  unfold getAggregation Given
  cases h : options.lookup "aggregation".toList with
  | none =>
    simp only [true_and, reduceCtorEq, false_and, exists_false, or_false, Except.ok.injEq]
    exact eq_comm
  | some text =>
    simp only [reduceCtorEq, false_and, false_or, Option.some.injEq, exists_eq_left']
    unfold createAggregationFunction aggregationValue parseParam
    by_cases h1 : text = "min".toList
    · subst h1
      rw [if_pos (by decide), if_pos rfl]
      change (Except.ok Aggregation.min : Except PyError Aggregation) = _ ↔ _
      simp
    · by_cases h2 : text = "max".toList
      · subst h2
        rw [if_pos (by decide), if_neg h1, if_pos rfl]
        change (Except.ok Aggregation.max : Except PyError Aggregation) = _ ↔ _
        simp
      · by_cases h3 : text = "avg".toList
        · subst h3
          rw [if_pos (by decide), if_neg h1, if_neg h2, if_pos rfl]
          change (Except.ok Aggregation.mean : Except PyError Aggregation) = _ ↔ _
          simp
        · have hn : text ∉ ["min".toList, "max".toList, "avg".toList] := by
            rw [List.mem_cons, List.mem_cons, List.mem_cons]
            rintro (h | h | h | h)
            · exact h1 h
            · exact h2 h
            · exact h3 h
            · cases h
          rw [if_neg hn, if_neg h1, if_neg h2, if_neg h3]
          exact ⟨fun h => (by cases h), fun h => (by cases h)⟩

theorem uint32_ok (value : Int) (n : Nat) : uint32 value = .ok n ↔ 0 ≤ value ∧ value < 2 ^ 32 ∧ n = value.toNat := by
  unfold uint32 toUint32
  rw [if_neg (by decide)]
  split
  · rename_i h
    exact ⟨fun hh => (by cases hh; exact ⟨h.1, h.2, rfl⟩), fun hh => (by rw [hh.2.2])⟩
  · rename_i h
    exact ⟨fun hh => (by cases hh), fun hh => absurd ⟨hh.1, hh.2.1⟩ h⟩

theorem assertAtLeast_ok (value threshold : Int) (u : Unit) : assertAtLeast value threshold = .ok u ↔ threshold ≤ value := by
  unfold assertAtLeast
  split
  · rename_i h
    exact ⟨fun hh => (by cases hh), fun hh => (by omega)⟩
  · rename_i h
    exact ⟨fun _ => (by omega), fun _ => rfl⟩

theorem cppAtLeast {n : Nat} (h : 1 ≤ n) : Config.assertAtLeast n 1 = .ok () := by
  unfold Config.assertAtLeast
  rw [if_neg (by omega)]

/-- The checks and conversions that all setters for positive integers have in common. -/
theorem positive_ok {β : Type} (value : Int) (f : Nat → Except Failure β) (b : β) :
    (assertAtLeast value 1 >>= fun _ => uint32 value >>= f) = .ok b ↔ Positive value ∧ f value.toNat = .ok b := by
  rw [bind_ok]
  constructor
  · rintro ⟨u, hu, h⟩
    rw [assertAtLeast_ok] at hu
    rw [bind_ok] at h
    obtain ⟨n, hn, h⟩ := h
    rw [uint32_ok] at hn
    obtain ⟨_, h2, rfl⟩ := hn
    exact ⟨⟨hu, h2⟩, h⟩
  · rintro ⟨⟨h1, h2⟩, h⟩
    refine ⟨(), (assertAtLeast_ok _ _ _).2 h1, ?_⟩
    rw [bind_ok]
    exact ⟨value.toNat, (uint32_ok _ _).2 ⟨by omega, h2, rfl⟩, h⟩

theorem setMinRules_ok (s s' : PrePruningConfig) (value : Int) :
    setMinRules s value = .ok s' ↔ Positive value ∧ s' = { s with minRules := value.toNat } := by
  unfold setMinRules
  rw [positive_ok]
  refine and_congr_right fun h => ?_
  unfold callCpp PrePruningCall.apply
  dsimp only
  rw [cppAtLeast (by unfold Positive at h; omega)]
  exact ⟨fun hh => (by cases hh; rfl), fun hh => (by rw [hh]; rfl)⟩

theorem setUpdateInterval_ok (s s' : PrePruningConfig) (value : Int) :
    setUpdateInterval s value = .ok s' ↔ Positive value ∧ s' = { s with updateInterval := value.toNat } := by
  unfold setUpdateInterval
  rw [positive_ok]
  refine and_congr_right fun h => ?_
  unfold callCpp PrePruningCall.apply
  dsimp only
  rw [cppAtLeast (by unfold Positive at h; omega)]
  exact ⟨fun hh => (by cases hh; rfl), fun hh => (by rw [hh]; rfl)⟩

theorem setNumPast_ok (s s' : PrePruningConfig) (value : Int) :
    setNumPast s value = .ok s' ↔ Positive value ∧ s' = { s with numPast := value.toNat } := by
  unfold setNumPast
  rw [positive_ok]
  refine and_congr_right fun h => ?_
  unfold callCpp PrePruningCall.apply
  dsimp only
  rw [cppAtLeast (by unfold Positive at h; omega)]
  exact ⟨fun hh => (by cases hh; rfl), fun hh => (by rw [hh]; rfl)⟩

theorem setNumCurrent_ok (s s' : PrePruningConfig) (value : Int) :
    setNumCurrent s value = .ok s' ↔ Positive value ∧ s' = { s with numCurrent := value.toNat } := by
  unfold setNumCurrent
  rw [positive_ok]
  refine and_congr_right fun h => ?_
  unfold callCpp PrePruningCall.apply
  dsimp only
  rw [cppAtLeast (by unfold Positive at h; omega)]
  exact ⟨fun hh => (by cases hh; rfl), fun hh => (by rw [hh]; rfl)⟩

theorem setStopInterval_ok (s s' : PrePruningConfig) (value : Int) (hs : 1 ≤ s.updateInterval) :
    setStopInterval s value = .ok s' ↔
      ((Positive value ∧ (s.updateInterval : Int) ∣ value) ∨ value = 0) ∧ s' = { s with stopInterval := value.toNat } := by
  unfold setStopInterval
  rw [bind_ok]
  constructor
  · rintro ⟨u, hu, h⟩
    unfold assertMultiple at hu
    rw [if_neg (by omega)] at hu
    split at hu
    · cases hu
    · rename_i hdvd
      rw [not_not] at hdvd
      rw [bind_ok] at h
      obtain ⟨n, hn, h⟩ := h
      rw [uint32_ok] at hn
      obtain ⟨h1, h2, rfl⟩ := hn
      refine ⟨?_, ?_⟩
      · by_cases h0 : value = 0
        · exact Or.inr h0
        · exact Or.inl ⟨⟨by omega, h2⟩, Int.dvd_of_emod_eq_zero hdvd⟩
      · unfold callCpp PrePruningCall.apply at h
        have hc : Config.assertMultiple value.toNat s.updateInterval = .ok () := by
          unfold Config.assertMultiple
          rw [modAt_of_pos hs]
          have : value.toNat % s.updateInterval = 0 := by
            zify
            rw [Int.toNat_of_nonneg h1]
            exact hdvd
          change (if value.toNat % s.updateInterval ≠ 0 then _ else _) = _
          rw [this]
          rfl
        simp only [hc] at h
        cases h
        rfl
  · rintro ⟨hv, rfl⟩
    have hdvd : value % s.updateInterval = 0 := by
      rcases hv with ⟨_, h⟩ | rfl
      · exact Int.emod_eq_zero_of_dvd h
      · rfl
    have h1 : 0 ≤ value ∧ value < 2 ^ 32 := by
      rcases hv with ⟨⟨h, h'⟩, _⟩ | rfl
      · omega
      · omega
    refine ⟨(), ?_, ?_⟩
    · unfold assertMultiple
      rw [if_neg (by omega), if_neg (by rw [not_not]; exact hdvd)]
    · rw [bind_ok]
      refine ⟨value.toNat, (uint32_ok _ _).2 ⟨h1.1, h1.2, rfl⟩, ?_⟩
      unfold callCpp PrePruningCall.apply
      have hc : Config.assertMultiple value.toNat s.updateInterval = .ok () := by
        unfold Config.assertMultiple
        rw [modAt_of_pos hs]
        have : value.toNat % s.updateInterval = 0 := by
          zify
          rw [Int.toNat_of_nonneg h1.1]
          exact hdvd
        change (if value.toNat % s.updateInterval ≠ 0 then _ else _) = _
        rw [this]
        rfl
      simp only [hc]
      rfl

theorem setMinImprovement_ok (s s' : PrePruningConfig) (value : PyFloat) :
    setMinImprovement s value = .ok s' ↔ ((∃ x, value = .fin x ∧ 0 ≤ x ∧ x ≤ 1) ∨ value = .nan) ∧
      ∃ x, ofFloat64 x = value ∧ s' = { s with minImprovement := x } := by
  cases value with
  | nan =>
    constructor
    · intro h
      cases h
      exact ⟨Or.inr rfl, none, rfl, rfl⟩
    · rintro ⟨_, x, hx, rfl⟩
      cases x with
      | none => rfl
      | some x => cases hx
  | negInf =>
    constructor
    · intro h
      cases h
    · rintro ⟨⟨x, hx, _⟩ | hx, _⟩ <;> cases hx
  | posInf =>
    constructor
    · intro h
      cases h
    · rintro ⟨⟨x, hx, _⟩ | hx, _⟩ <;> cases hx
  | fin x =>
    by_cases h0 : x < 0
    · constructor
      · intro h
        unfold setMinImprovement PythonSetters.assertGreaterOrEqual PyFloat.lt at h
        simp only [h0, decide_true, if_true] at h
        cases h
      · rintro ⟨⟨y, hy, h, _⟩ | hy, _⟩
        · cases hy
          linarith
        · cases hy
    · by_cases h1 : 1 < x
      · constructor
        · intro h
          unfold setMinImprovement PythonSetters.assertGreaterOrEqual PyFloat.lt assertLessOrEqual gt at h
          simp only [h0, h1, decide_true, decide_false, if_true] at h
          cases h
        · rintro ⟨⟨y, hy, _, h⟩ | hy, _⟩
          · cases hy
            linarith
          · cases hy
      · have hr : setMinImprovement s (.fin x) = .ok { s with minImprovement := some x } := by
          have e1 : PythonSetters.assertGreaterOrEqual (.fin x) 0 = .ok () := by
            unfold PythonSetters.assertGreaterOrEqual PyFloat.lt
            simp only [h0, decide_false]
            rfl
          have e2 : assertLessOrEqual (.fin x) 1 = .ok () := by
            unfold assertLessOrEqual gt
            simp only [h1, decide_false]
            rfl
          have e3 : Config.assertGreaterOrEqual (some x) (some 0) = .ok () := by
            unfold Config.assertGreaterOrEqual Config.isLess
            simp only [h0, decide_false]
            rfl
          have e4 : Config.assertLessOrEqual (some x) (some 1) = .ok () := by
            unfold Config.assertLessOrEqual Config.isLess
            simp only [h1, decide_false]
            rfl
          have e5 : callCpp s (.setMinImprovement (some x)) = .ok { s with minImprovement := some x } := by
            unfold callCpp PrePruningCall.apply
            dsimp only
            rw [e3, e4]
            rfl
          unfold setMinImprovement
          rw [e1, e2]
          exact e5
        rw [hr]
        constructor
        · intro h
          cases h
          exact ⟨Or.inl ⟨x, rfl, by linarith, by linarith⟩, some x, rfl, rfl⟩
        · rintro ⟨_, y, hy, rfl⟩
          cases y with
          | none => cases hy
          | some y => cases hy; rfl

/-! ### Theorems -/

/-- **Pre-pruning is configured as specified**: the options are accepted if and only if the given values, or default values, are, and all properties are set to them. -/
theorem configurePrePruning_ok (int : Str → Option Int) (float : Str → Option PyFloat) (options : Dict) (s : PrePruningState) :
    configurePrePruning int float options = .ok s ↔ ∃ v : PreValues, v.GivenBy int float options ∧ v.Accepted ∧ v.ConfiguredBy s := by
  unfold configurePrePruning
  simp only [bind_ok, getBool_ok, getNumber_ok, getAggregation_ok, setMinRules_ok, setUpdateInterval_ok, setNumPast_ok, setNumCurrent_ok, setMinImprovement_ok]
  constructor
  · rintro ⟨a1, g1, a2, g2, a3, g3, c1, ⟨p3, rfl⟩, a4, g4, a5, g5, c2, ⟨p5, rfl⟩, a6, g6, c3, h6, a7, g7, c4, ⟨p7, rfl⟩, a8, g8, c5, ⟨p8, rfl⟩, a9, g9, c6, ⟨p9, x, hx, rfl⟩, h⟩
    cases h
    have hu : 1 ≤ a5.toNat := by unfold Positive at p5; omega
    rw [setStopInterval_ok _ _ _ hu] at h6
    obtain ⟨p6, rfl⟩ := h6
    have hcast : (a5.toNat : Int) = a5 := Int.toNat_of_nonneg (by unfold Positive at p5; omega)
    simp only [hcast] at p6
    have e : (5 / 1000 : ℚ) = 1 / 200 := by norm_num
    refine ⟨⟨a1, a2, a4, a3, a5, a6, a7, a8, a9⟩, ⟨g1, g2, g4, g3, g5, g6, g7, g8, ?_⟩, ⟨p3, p5, p6, p7, p8, p9⟩, ?_⟩
    · rw [← e]
      exact g9
    · refine ⟨rfl, rfl, rfl, ?_, ?_, ?_, ?_, ?_, hx⟩
      · exact Int.toNat_of_nonneg (by unfold Positive at p3; omega)
      · exact hcast
      · exact Int.toNat_of_nonneg (by unfold Positive at p6; omega)
      · exact Int.toNat_of_nonneg (by unfold Positive at p7; omega)
      · exact Int.toNat_of_nonneg (by unfold Positive at p8; omega)
  · rintro ⟨v, g, p, c⟩
    have e : (5 / 1000 : ℚ) = 1 / 200 := by norm_num
    have hu : 1 ≤ v.updateInterval.toNat := by have := p.updateInterval; unfold Positive at this; omega
    have hcast : (v.updateInterval.toNat : Int) = v.updateInterval :=
      Int.toNat_of_nonneg (by have := p.updateInterval; unfold Positive at this; omega)
    refine ⟨v.useHoldoutSet, g.useHoldoutSet, v.removeUnusedRules, g.removeUnusedRules, v.minRules, g.minRules, _, ⟨p.minRules, rfl⟩, v.aggregation, g.aggregation,
      v.updateInterval, g.updateInterval, _, ⟨p.updateInterval, rfl⟩, v.stopInterval, g.stopInterval, _,
      (setStopInterval_ok _ _ _ hu).2 ⟨by simp only [hcast]; exact p.stopInterval, rfl⟩, v.numPast, g.numPast, _, ⟨p.numPast, rfl⟩,
      v.numRecent, g.numRecent, _, ⟨p.numRecent, rfl⟩, v.minImprovement, ?_, _, ⟨p.minImprovement, s.checked.minImprovement, c.minImprovement, rfl⟩, ?_⟩
    · have := g.minImprovement
      rw [← e] at this
      exact this
    · obtain ⟨c1, c2, c3, c4, c5, c6, c7, c8, c9⟩ := c
      obtain ⟨s1, s2, s3, ⟨s4, s5, s6, s7, s8, s9⟩⟩ := s
      simp only at c1 c2 c3 c4 c5 c6 c7 c8
      subst c1 c2 c3
      simp only [← c4, ← c5, ← c6, ← c7, ← c8, Int.toNat_natCast]
      rfl

/-- The interval at which it is decided whether to stop is a multiple of the update interval. In contrast to the C++ API (C53), this is always the case. -/
theorem stop_interval_multiple {int : Str → Option Int} {float : Str → Option PyFloat} {options : Dict} {s : PrePruningState}
    (h : configurePrePruning int float options = .ok s) : s.checked.updateInterval ∣ s.checked.stopInterval := by
  obtain ⟨v, _, p, c⟩ := (configurePrePruning_ok int float options s).1 h
  have : (s.checked.updateInterval : Int) ∣ s.checked.stopInterval := by
    rw [c.updateInterval, c.stopInterval]
    rcases p.stopInterval with ⟨_, h⟩ | h
    · exact h
    · rw [h]
      exact Int.dvd_zero _
  exact Int.natCast_dvd_natCast.1 this

/-- **An update interval greater than one is rejected, unless a stop interval is given as well**, because the default value of the latter is not a multiple of it. -/
theorem update_interval_alone {int : Str → Option Int} (float : Str → Option PyFloat) {options : Dict} {text : Str} {updateInterval : Int}
    (h : options.lookup "update_interval".toList = some text) (ht : int text = some updateInterval) (hu : updateInterval ≠ 1)
    (hs : options.lookup "stop_interval".toList = none) (s : PrePruningState) : configurePrePruning int float options ≠ .ok s := by
  intro hok
  obtain ⟨v, g, p, _⟩ := (configurePrePruning_ok int float options s).1 hok
  have h1 : v.updateInterval = updateInterval := by
    rcases g.updateInterval with ⟨hn, _⟩ | ⟨text', ht', hv⟩
    · rw [h] at hn
      cases hn
    · rw [h] at ht'
      cases ht'
      rw [ht] at hv
      cases hv
      rfl
  have h2 : v.stopInterval = 1 := by
    rcases g.stopInterval with ⟨_, hv⟩ | ⟨text', ht', _⟩
    · exact hv
    · rw [hs] at ht'
      cases ht'
  have hp := p.updateInterval
  unfold Positive at hp
  rcases p.stopInterval with ⟨_, hd⟩ | h0
  · rw [h1, h2] at hd
    have := Int.le_of_dvd (by omega) hd
    omega
  · omega

/-- **A stop interval of zero is accepted**, regardless of the update interval ... -/
theorem stop_interval_zero {int : Str → Option Int} (float : Str → Option PyFloat) {text : Str} (ht : int text = some 0) :
    ∃ s, configurePrePruning int float [("stop_interval".toList, text)] = .ok s ∧ s.checked.stopInterval = 0 := by
  refine ⟨⟨true, true, .mean, ⟨100, 1, 0, 50, 50, some (1 / 200)⟩⟩, ?_, rfl⟩
  rw [configurePrePruning_ok]
  refine ⟨⟨true, true, .mean, 100, 1, 0, 50, 50, .fin (1 / 200)⟩, ⟨Or.inl ⟨rfl, rfl⟩, Or.inl ⟨rfl, rfl⟩, Or.inl ⟨rfl, rfl⟩, Or.inl ⟨rfl, rfl⟩,
    Or.inl ⟨rfl, rfl⟩, Or.inr ⟨text, rfl, ht⟩, Or.inl ⟨rfl, rfl⟩, Or.inl ⟨rfl, rfl⟩, Or.inl ⟨rfl, rfl⟩⟩, ⟨?_, ?_, Or.inr rfl, ?_, ?_,
    Or.inl ⟨_, rfl, by norm_num, by norm_num⟩⟩, ⟨rfl, rfl, rfl, rfl, rfl, rfl, rfl, rfl, rfl⟩⟩ <;> (unfold Positive; dsimp only; omega)

/-- ... although an integer is divided by it as soon as the buffer is full. -/
theorem stop_interval_zero_fault {K : Type} [Field K] [LinearOrder K] {p : Stopping.PrePruning K} (h : p.stopInterval = 0) (numRules : Nat) :
    p.decide numRules = .error .divByZero := by
  unfold Stopping.PrePruning.decide modAt
  rw [if_pos h]
  rfl

/-- **A minimum improvement that is not a number is accepted.** -/
theorem min_improvement_nan (int : Str → Option Int) {float : Str → Option PyFloat} {text : Str} (ht : float text = some .nan) :
    ∃ s, configurePrePruning int float [("min_improvement".toList, text)] = .ok s ∧ s.checked.minImprovement = none := by
  refine ⟨⟨true, true, .mean, ⟨100, 1, 1, 50, 50, none⟩⟩, ?_, rfl⟩
  rw [configurePrePruning_ok]
  refine ⟨⟨true, true, .mean, 100, 1, 1, 50, 50, .nan⟩, ⟨Or.inl ⟨rfl, rfl⟩, Or.inl ⟨rfl, rfl⟩, Or.inl ⟨rfl, rfl⟩, Or.inl ⟨rfl, rfl⟩,
    Or.inl ⟨rfl, rfl⟩, Or.inl ⟨rfl, rfl⟩, Or.inl ⟨rfl, rfl⟩, Or.inl ⟨rfl, rfl⟩, Or.inr ⟨text, rfl, ht⟩⟩, ⟨?_, ?_, Or.inl ⟨?_, Int.one_dvd _⟩, ?_, ?_,
    Or.inr rfl⟩, ⟨rfl, rfl, rfl, rfl, rfl, rfl, rfl, rfl, rfl⟩⟩ <;> (unfold Positive; dsimp only; omega)

theorem atLeastOne_ok (value : Int) (n : Nat) : atLeastOne value = .ok n ↔ Positive value ∧ n = value.toNat := by
  unfold atLeastOne
  rw [positive_ok]
  refine and_congr_right fun h => ?_
  rw [cppAtLeast (by unfold Positive at h; omega)]
  exact ⟨fun hh => (by cases hh; rfl), fun hh => (by rw [hh])⟩

/-- **Post-pruning is configured as specified.** -/
theorem configurePostPruning_ok (int : Str → Option Int) (options : Dict) (s : PostPruningState) :
    configurePostPruning int options = .ok s ↔
      Given boolValue options "use_holdout_set" true s.useHoldoutSet ∧ Given boolValue options "remove_unused_rules" true s.removeUnusedRules ∧
        (Given int options "min_rules" 100 s.minRules ∧ Positive s.minRules) ∧ Given int options "interval" 1 s.interval ∧ Positive s.interval := by
  unfold configurePostPruning
  simp only [bind_ok, getBool_ok, getNumber_ok, atLeastOne_ok]
  constructor
  · rintro ⟨a1, g1, a2, g2, a3, g3, n3, ⟨p3, rfl⟩, a4, g4, n4, ⟨p4, rfl⟩, h⟩
    cases h
    have h3 : (a3.toNat : Int) = a3 := Int.toNat_of_nonneg (by unfold Positive at p3; omega)
    have h4 : (a4.toNat : Int) = a4 := Int.toNat_of_nonneg (by unfold Positive at p4; omega)
    simp only [h3, h4]
    exact ⟨g1, g2, ⟨g3, p3⟩, g4, p4⟩
  · rintro ⟨g1, g2, ⟨g3, p3⟩, g4, p4⟩
    exact ⟨_, g1, _, g2, _, g3, _, ⟨p3, rfl⟩, _, g4, _, ⟨p4, rfl⟩, rfl⟩

/-! ### Examples -/

/-- Parses some numbers. -/
def exampleInt (text : Str) : Option Int := if text = "5".toList then some 5 else if text = "10".toList then some 10 else if text = "0".toList then some 0 else none

/-- The update interval is five and the stop interval is ten. -/
example : (configurePrePruning exampleInt (fun _ => none) [("update_interval".toList, "5".toList), ("stop_interval".toList, "10".toList)]).map
    (fun s => (s.checked.updateInterval, s.checked.stopInterval, s.checked.numPast)) = .ok (5, 10, 50) := by decide +kernel

/-- The stop interval is not a multiple of the update interval. -/
example : (configurePrePruning exampleInt (fun _ => none) [("update_interval".toList, "10".toList), ("stop_interval".toList, "5".toList)]).map
    (fun s => s.checked.stopInterval) = .error .valueError := by decide +kernel

/-- The hypotheses of `update_interval_alone`. -/
example : (configurePrePruning exampleInt (fun _ => none) [("update_interval".toList, "5".toList)]).map (fun s => s.checked.stopInterval) = .error .valueError := by
  decide +kernel

example : (configurePostPruning exampleInt [("interval".toList, "10".toList), ("use_holdout_set".toList, "false".toList)]).map
    (fun s => (s.useHoldoutSet, s.minRules, s.interval)) = .ok (false, 100, 10) := by decide +kernel

end MLRL.PythonPrePruning
