import Verif.Model.Config
import Verif.Props.Sampling
import Verif.Props.Stopping

/-!
# C53: configurations that result from sequences of setter calls
-/

namespace MLRL.Config

open MLRL.Stopping Stopping.Spec

/-! ### Assertions -/

theorem assertGreater_ok {v : Option ℚ} {t : ℚ} : assertGreater v (some t) = .ok () ↔ ∃ x, v = some x ∧ t < x := by
  cases v with
  | none => simp [assertGreater, isLess]
  | some x => by_cases h : t < x <;> simp [assertGreater, isLess, h]

theorem assertLess_ok {v : Option ℚ} {t : ℚ} : assertLess v (some t) = .ok () ↔ ∃ x, v = some x ∧ x < t := by
  cases v with
  | none => simp [assertLess, isLess]
  | some x => by_cases h : x < t <;> simp [assertLess, isLess, h]

theorem assertGreaterOrEqual_ok {v : Option ℚ} {t : ℚ} : assertGreaterOrEqual v (some t) = .ok () ↔ ∀ x, v = some x → t ≤ x := by
  cases v with
  | none => simp [assertGreaterOrEqual, isLess]
  | some x => by_cases h : x < t <;> simp [assertGreaterOrEqual, isLess, h] <;> linarith

theorem assertLessOrEqual_ok {v : Option ℚ} {t : ℚ} : assertLessOrEqual v (some t) = .ok () ↔ ∀ x, v = some x → x ≤ t := by
  cases v with
  | none => simp [assertLessOrEqual, isLess]
  | some x => by_cases h : t < x <;> simp [assertLessOrEqual, isLess, h] <;> linarith

theorem assertAtLeast_ok {v t : Nat} : assertAtLeast v t = .ok () ↔ t ≤ v := by
  by_cases h : v < t <;> simp [assertAtLeast, h] <;> omega

theorem bind_unit_ok {α : Type} {a : Res Unit} {f : Unit → Res α} {x : α} : (a >>= f) = .ok x ↔ a = .ok () ∧ f () = .ok x := by
  cases a with
  | error e => simp [error_bind]
  | ok u => simp [ok_bind]

theorem checkOpen_ok {v : Option ℚ} : checkOpen v = .ok () ↔ ∃ x, v = some x ∧ 0 < x ∧ x < 1 := by
  unfold checkOpen
  rw [bind_unit_ok, assertGreater_ok, assertLess_ok]
  constructor
  · rintro ⟨⟨x, rfl, h1⟩, y, h2, h3⟩
    cases h2
    exact ⟨x, rfl, h1, h3⟩
  · rintro ⟨x, rfl, h1, h2⟩
    exact ⟨⟨x, rfl, h1⟩, x, rfl, h2⟩

/-! ### Ratio, minimum and maximum -/

/-- The smallest number, and the ratios, a class documents as valid. -/
def Documented (c : BoundedClass) (lowest : Nat) (valid : ℚ → Prop) : Prop :=
  (∀ r, c.checkRatio r = .ok () → ∃ x, r = some x ∧ valid x) ∧ (∃ x, c.initial.ratio = some x ∧ valid x) ∧ c.lowest ≤ c.initial.minimum ∧ c.lowest = lowest ∧
    (c.initial.maximum = 0 ∨ c.initial.minimum ≤ c.initial.maximum)

theorem documented_classes (ε : ℚ) (hε : 0 < ε) (hε1 : ε < 1) :
    Documented instanceSampling 1 (fun r => 0 < r ∧ r < 1) ∧ Documented instanceSamplingWithReplacement 1 (fun r => 0 < r ∧ r ≤ 1) ∧
    Documented outputSampling 1 (fun r => 0 < r ∧ r < 1) ∧ Documented featureSampling 1 (fun r => 0 ≤ r ∧ r < 1) ∧
    Documented featureBinning 2 (fun r => 0 < r ∧ r < 1) ∧ Documented labelBinning 1 (fun r => 0 < r ∧ r < 1) ∧
    Documented (fixedPartialHead ε) 2 (fun r => |r| ≤ ε ∨ 0 < r ∧ r < 1) := by
  have hopen : ∀ r, checkOpen r = .ok () → ∃ x, r = some x ∧ 0 < x ∧ x < 1 := fun r h => checkOpen_ok.mp h
  refine ⟨⟨hopen, ⟨_, rfl, by norm_num⟩, by decide, by decide, by decide⟩, ⟨?_, ⟨_, rfl, by norm_num⟩, by decide, by decide, by decide⟩,
    ⟨hopen, ⟨_, rfl, by norm_num⟩, by decide, by decide, by decide⟩, ⟨?_, ⟨_, rfl, by norm_num⟩, by decide, by decide, by decide⟩,
    ⟨hopen, ⟨_, rfl, by norm_num⟩, by decide, by decide, by decide⟩, ⟨hopen, ⟨_, rfl, by norm_num⟩, by decide, by decide, by decide⟩,
    ⟨?_, ⟨0, rfl, by simp [le_of_lt hε]⟩, Nat.le_refl _, rfl, Or.inl rfl⟩⟩
  · intro r h
    simp only [instanceSamplingWithReplacement] at h
    rw [bind_unit_ok, assertGreater_ok, assertLessOrEqual_ok] at h
    obtain ⟨⟨x, rfl, h1⟩, h2⟩ := h
    exact ⟨x, rfl, h1, h2 x rfl⟩
  · intro r h
    simp only [featureSampling] at h
    rw [bind_unit_ok, assertGreaterOrEqual_ok, assertLess_ok] at h
    obtain ⟨h1, x, rfl, h2⟩ := h
    exact ⟨x, rfl, h1 x rfl, h2⟩
  · intro r h
    simp only [fixedPartialHead] at h
    cases hz : isEqualToZero ε r with
    | false =>
      rw [hz] at h
      simp only [Bool.not_false, if_true] at h
      obtain ⟨x, hx, h1⟩ := hopen r h
      exact ⟨x, hx, Or.inr h1⟩
    | true =>
      unfold isEqualToZero at hz
      cases r with
      | none => simp at hz
      | some x =>
        refine ⟨x, rfl, Or.inl ?_⟩
        simp only [decide_eq_true_eq] at hz
        rcases le_total 1 |x| with h1 | h1
        · rw [max_eq_right h1] at hz
          nlinarith
        · rw [max_eq_left h1] at hz
          linarith

theorem boundedCall_spec {c : BoundedClass} {lowest : Nat} {valid : ℚ → Prop} (hc : Documented c lowest valid) {s s' : BoundedConfig} {call : BoundedCall}
    (h : call.apply c s = .ok s') (hr : ∃ x, s.ratio = some x ∧ valid x) (hm : c.lowest ≤ s.minimum) (hx : s.maximum = 0 ∨ c.lowest ≤ s.maximum) :
    (∃ x, s'.ratio = some x ∧ valid x) ∧ c.lowest ≤ s'.minimum ∧ (s'.maximum = 0 ∨ c.lowest ≤ s'.maximum) := by
  cases call with
  | setRatio ratio =>
    simp only [BoundedCall.apply] at h
    rw [bind_unit_ok] at h
    obtain ⟨h1, h2⟩ := h
    cases h2
    exact ⟨hc.1 ratio h1, hm, hx⟩
  | setMinimum minimum =>
    simp only [BoundedCall.apply] at h
    rw [bind_unit_ok, assertAtLeast_ok] at h
    obtain ⟨h1, h2⟩ := h
    cases h2
    exact ⟨hr, h1, hx⟩
  | setMaximum maximum =>
    simp only [BoundedCall.apply] at h
    by_cases h0 : maximum = 0
    · rw [if_neg (by simpa using h0)] at h
      cases h
      exact ⟨hr, hm, Or.inl h0⟩
    · rw [if_pos h0, bind_unit_ok, assertAtLeast_ok] at h
      obtain ⟨h1, h2⟩ := h
      cases h2
      exact ⟨hr, hm, Or.inr (Nat.le_trans hm h1)⟩

theorem runBounded_spec {c : BoundedClass} {lowest : Nat} {valid : ℚ → Prop} (hc : Documented c lowest valid) (calls : List BoundedCall) : ∀ (s : BoundedConfig),
    (∃ x, s.ratio = some x ∧ valid x) → c.lowest ≤ s.minimum → (s.maximum = 0 ∨ c.lowest ≤ s.maximum) →
    (∃ x, (runBounded c calls s).ratio = some x ∧ valid x) ∧ c.lowest ≤ (runBounded c calls s).minimum ∧
      ((runBounded c calls s).maximum = 0 ∨ c.lowest ≤ (runBounded c calls s).maximum) := by
  induction calls with
  | nil => intro s h1 h2 h3; exact ⟨h1, h2, h3⟩
  | cons call calls ih =>
    intro s h1 h2 h3
    simp only [runBounded]
    split
    · rename_i s' hs'
      obtain ⟨g1, g2, g3⟩ := boundedCall_spec hc hs' h1 h2 h3
      exact ih s' g1 g2 g3
    · exact ih s h1 h2 h3

/-- **C53.** After an arbitrary sequence of (accepted or rejected) calls, the ratio is a number in the documented range, the minimum is not smaller than
documented, and the same holds for the maximum (if there is one). The documented ranges are given by `documented_classes`. -/
theorem bounded_ranges {c : BoundedClass} {lowest : Nat} {valid : ℚ → Prop} (hc : Documented c lowest valid) (calls : List BoundedCall) :
    (∃ x, (runBounded c calls c.initial).ratio = some x ∧ valid x) ∧ lowest ≤ (runBounded c calls c.initial).minimum ∧
      ((runBounded c calls c.initial).maximum = 0 ∨ lowest ≤ (runBounded c calls c.initial).maximum) := by
  have h := runBounded_spec hc calls c.initial hc.2.1 hc.2.2.1 (by
    rcases hc.2.2.2.2 with h | h
    · exact Or.inl h
    · exact Or.inr (Nat.le_trans hc.2.2.1 h))
  rw [hc.2.2.2.1] at h
  exact h

theorem runBounded_append (c : BoundedClass) (calls calls' : List BoundedCall) : ∀ (s : BoundedConfig),
    runBounded c (calls ++ calls') s = runBounded c calls' (runBounded c calls s) := by
  induction calls with
  | nil => intro s; rfl
  | cons call calls ih =>
    intro s
    simp only [List.cons_append, runBounded]
    split <;> exact ih _

/-- A call does not affect the minimum. -/
def BoundedCall.KeepsMinimum : BoundedCall → Prop
  | .setMinimum _ => False
  | _ => True

/-- **C53 (partial).** If the minimum is not set anymore after a call of the setter of the maximum has been accepted, the minimum does not exceed the
maximum (or there is no maximum). In general, this is not the case (`maximum_violated`). -/
theorem bounded_order_partial (c : BoundedClass) (before after : List BoundedCall) (maximum : Nat) (s : BoundedConfig)
    (hacc : maximum = 0 ∨ (runBounded c before s).minimum ≤ maximum) (hafter : ∀ call ∈ after, call.KeepsMinimum) :
    (runBounded c (before ++ .setMaximum maximum :: after) s).maximum = 0 ∨
      (runBounded c (before ++ .setMaximum maximum :: after) s).minimum ≤ (runBounded c (before ++ .setMaximum maximum :: after) s).maximum := by
  rw [runBounded_append]
  generalize runBounded c before s = t at *
  have happly : BoundedCall.apply c t (.setMaximum maximum) = .ok { t with maximum := maximum } := by
    simp only [BoundedCall.apply]
    by_cases h0 : maximum = 0
    · rw [if_neg (by simpa using h0)]
      rfl
    · rw [if_pos h0, bind_unit_ok, assertAtLeast_ok]
      exact ⟨by tauto, rfl⟩
  simp only [runBounded, happly]
  have hinv : ∀ (calls : List BoundedCall) (u : BoundedConfig), (∀ call ∈ calls, call.KeepsMinimum) → (u.maximum = 0 ∨ u.minimum ≤ u.maximum) →
      ((runBounded c calls u).maximum = 0 ∨ (runBounded c calls u).minimum ≤ (runBounded c calls u).maximum) := by
    intro calls
    induction calls with
    | nil => intro u _ h; exact h
    | cons call calls ih =>
      intro u hk hu
      simp only [runBounded]
      split
      · rename_i u' hu'
        refine ih u' (fun x hx => hk x (by simp [hx])) ?_
        cases call with
        | setRatio r =>
          simp only [BoundedCall.apply] at hu'
          rw [bind_unit_ok] at hu'
          cases hu'.2
          exact hu
        | setMinimum m => exact False.elim (hk _ (List.mem_cons_self ..))
        | setMaximum m =>
          simp only [BoundedCall.apply] at hu'
          by_cases h0 : m = 0
          · rw [if_neg (by simpa using h0)] at hu'
            cases hu'
            exact Or.inl h0
          · rw [if_pos h0, bind_unit_ok, assertAtLeast_ok] at hu'
            cases hu'.2
            exact Or.inr hu'.1
      · exact ih u (fun x hx => hk x (by simp [hx])) hu
  exact hinv after _ hafter (by rcases hacc with h | h <;> simp [h])

example : runBounded instanceSampling [.setMinimum 5, .setMaximum 3, .setMaximum 7, .setRatio (some (1 / 2)), .setRatio (some 1)]
    instanceSampling.initial = ⟨some (1 / 2), 5, 7⟩ := by decide +kernel

/-- **C53 (negation).** For each of the classes, there are sequences of accepted calls, such that the minimum exceeds the maximum. -/
theorem maximum_violated (ε : ℚ) (c : BoundedClass)
    (hc : c ∈ [instanceSampling, instanceSamplingWithReplacement, outputSampling, featureSampling, featureBinning, labelBinning, fixedPartialHead ε]) :
    runBounded c [.setMaximum 10, .setMinimum 20] c.initial = ⟨c.initial.ratio, 20, 10⟩ := by
  simp only [List.mem_cons, List.not_mem_nil, or_false] at hc
  rcases hc with rfl | rfl | rfl | rfl | rfl | rfl | rfl <;> rfl

/-- **C53 (negation).** As a result, the maximum is ignored by `calculateBoundedFraction`: with at most 10 and at least 20 samples, 66 of 100 examples
are used, even though 10 would be used if only the maximum had been set. -/
theorem maximum_ignored : Sampling.calculateBoundedFraction 100 (66 / 100) 20 10 = 66 ∧ Sampling.calculateBoundedFraction 100 (66 / 100) 1 10 = 10 := by
  have h : ⌈(66 / 100 * (100 : Nat) : ℚ)⌉₊ = 66 := by
    rw [show (66 / 100 * (100 : Nat) : ℚ) = ((66 : Nat) : ℚ) by norm_num]
    exact Nat.ceil_natCast 66
  constructor
  · unfold Sampling.calculateBoundedFraction
    simp only [h]
    decide
  · unfold Sampling.calculateBoundedFraction
    simp only [h]
    decide

/-- **C53.** If the minimum does not exceed the maximum, the number of elements to be used is in the configured range, for any number of available
elements (the fraction `q` is the ratio in the configuration). -/
theorem bounded_number {c : BoundedClass} {lowest : Nat} {valid : ℚ → Prop} (hc : Documented c lowest valid) (hv : ∀ x, valid x → x ≤ 1) (calls : List BoundedCall) (n : Nat)
    (horder : (runBounded c calls c.initial).maximum = 0 ∨ (runBounded c calls c.initial).minimum ≤ (runBounded c calls c.initial).maximum) :
    ∃ q, (runBounded c calls c.initial).ratio = some q ∧
      Sampling.calculateBoundedFraction n q (runBounded c calls c.initial).minimum (runBounded c calls c.initial).maximum ≤ n ∧
      min (runBounded c calls c.initial).minimum n ≤
        Sampling.calculateBoundedFraction n q (runBounded c calls c.initial).minimum (runBounded c calls c.initial).maximum ∧
      ((runBounded c calls c.initial).maximum ≠ 0 →
        Sampling.calculateBoundedFraction n q (runBounded c calls c.initial).minimum (runBounded c calls c.initial).maximum ≤
          (runBounded c calls c.initial).maximum) := by
  obtain ⟨⟨q, hq, hvq⟩, _, _⟩ := bounded_ranges hc calls
  refine ⟨q, hq, Sampling.boundedFraction_le_total _ _ _ _ (hv q hvq), Sampling.boundedFraction_ge _ _ _ _, ?_⟩
  intro h0
  exact Sampling.boundedFraction_le_maximum _ _ _ _ (by tauto)

/-! ### Rule induction -/

theorem runCoverage_spec (ε : ℚ) (hε1 : ε < 1) (calls : List CoverageCall) : ∀ s : CoverageConfig, 1 ≤ s.minCoverage →
    (∃ x, s.minSupport = some x ∧ x < 1) → 1 ≤ (runCoverage ε calls s).minCoverage ∧ ∃ x, (runCoverage ε calls s).minSupport = some x ∧ x < 1 := by
  induction calls with
  | nil => intro s h1 h2; exact ⟨h1, h2⟩
  | cons call calls ih =>
    intro s h1 h2
    simp only [runCoverage]
    split
    · rename_i s' hs'
      cases call with
      | setMinCoverage m =>
        simp only [CoverageCall.apply] at hs'
        rw [bind_unit_ok, assertAtLeast_ok] at hs'
        obtain ⟨g1, g2⟩ := hs'
        cases g2
        exact ih _ g1 h2
      | setMinSupport r =>
        simp only [CoverageCall.apply] at hs'
        cases hz : isEqualToZero ε r with
        | false =>
          rw [hz] at hs'
          simp only [Bool.not_false, if_true] at hs'
          rw [bind_unit_ok, checkOpen_ok] at hs'
          obtain ⟨⟨x, hx, _, hx1⟩, g2⟩ := hs'
          cases g2
          exact ih _ h1 ⟨x, hx, hx1⟩
        | true =>
          rw [hz] at hs'
          cases hs'
          refine ih _ h1 ?_
          unfold isEqualToZero at hz
          cases r with
          | none => simp at hz
          | some x =>
            refine ⟨x, rfl, ?_⟩
            simp only [decide_eq_true_eq] at hz
            have := le_abs_self x
            rcases le_total 1 |x| with g1 | g1
            · rw [max_eq_right g1] at hz
              nlinarith
            · rw [max_eq_left g1] at hz
              linarith
    · exact ih s h1 h2

/-- **C53.** Whatever calls are made, a rule must cover at least one and at most all of the examples, at least the configured number of examples (if there
are as many) and at least the configured fraction of the examples. -/
theorem minCoverage_range (ε : ℚ) (hε1 : ε < 1) (calls : List CoverageCall) (numExamples : Nat) (hn : 1 ≤ numExamples) :
    1 ≤ minCoverageOf (runCoverage ε calls CoverageConfig.init) numExamples ∧
      minCoverageOf (runCoverage ε calls CoverageConfig.init) numExamples ≤ numExamples ∧
      min (runCoverage ε calls CoverageConfig.init).minCoverage numExamples ≤ minCoverageOf (runCoverage ε calls CoverageConfig.init) numExamples ∧
      ∃ q, (runCoverage ε calls CoverageConfig.init).minSupport = some q ∧
        q * numExamples ≤ minCoverageOf (runCoverage ε calls CoverageConfig.init) numExamples := by
  obtain ⟨h1, q, hq, hq1⟩ := runCoverage_spec ε hε1 calls CoverageConfig.init (Nat.le_refl _) ⟨0, rfl, by norm_num⟩
  generalize runCoverage ε calls CoverageConfig.init = s at *
  unfold minCoverageOf
  rw [hq]
  simp only
  by_cases hpos : q > 0
  · rw [if_pos hpos]
    have hge := Sampling.boundedFraction_ge numExamples q s.minCoverage numExamples
    have hle := Sampling.boundedFraction_le_total numExamples q s.minCoverage numExamples (le_of_lt hq1)
    refine ⟨by omega, hle, hge, q, rfl, ?_⟩
    have hceil : ⌈q * numExamples⌉₊ ≤ Sampling.calculateBoundedFraction numExamples q s.minCoverage numExamples := by
      have hc : ⌈q * numExamples⌉₊ ≤ numExamples := by
        apply Nat.ceil_le.mpr
        have : (0 : ℚ) ≤ numExamples := by positivity
        nlinarith
      unfold Sampling.calculateBoundedFraction
      simp only
      split_ifs <;> omega
    exact le_trans (Nat.le_ceil _) (by exact_mod_cast hceil)
  · rw [if_neg hpos]
    refine ⟨by omega, Nat.min_le_left _ _, by omega, q, rfl, ?_⟩
    have : (0 : ℚ) ≤ numExamples := by positivity
    have h2 : (0 : ℚ) ≤ ((min numExamples s.minCoverage : Nat) : ℚ) := by positivity
    nlinarith [not_lt.mp hpos]

example : minCoverageOf (runCoverage (1 / 1000) [.setMinCoverage 0, .setMinCoverage 3, .setMinSupport (some 2), .setMinSupport (some (1 / 4))]
    CoverageConfig.init) 30 = 8 := by
  have h : runCoverage (1 / 1000) [.setMinCoverage 0, .setMinCoverage 3, .setMinSupport (some 2), .setMinSupport (some (1 / 4))]
      CoverageConfig.init = ⟨3, some (1 / 4)⟩ := by decide +kernel
  rw [h]
  have h' : ⌈(1 / 4 * (30 : Nat) : ℚ)⌉₊ = 8 := by
    rw [Nat.ceil_eq_iff (by norm_num)]
    norm_num
  simp only [minCoverageOf]
  rw [if_pos (by norm_num)]
  unfold Sampling.calculateBoundedFraction
  simp only [h']
  decide

/-! ### Pre-pruning -/

/-- What is documented for all configurations of pre-pruning, except for `minImprovement`, which may not be a number, and the stop interval. -/
structure PrePruningRanges (s : PrePruningConfig) : Prop where
  minRules : 1 ≤ s.minRules
  updateInterval : 1 ≤ s.updateInterval
  numPast : 1 ≤ s.numPast
  numCurrent : 1 ≤ s.numCurrent
  minImprovement : ∀ x, s.minImprovement = some x → 0 ≤ x ∧ x ≤ 1

theorem prePruningCall_spec {s : PrePruningConfig} (h : PrePruningRanges s) (call : PrePruningCall) :
    (∃ s', call.apply s = .ok s' ∧ PrePruningRanges s') ∨ call.apply s = .error .exception := by
  have hat : ∀ (v t : Nat), (assertAtLeast v t = .ok () ∧ t ≤ v) ∨ assertAtLeast v t = .error .exception := by
    intro v t
    by_cases hlt : v < t
    · right; simp [assertAtLeast, hlt]
    · left; simp [assertAtLeast, hlt]; omega
  cases call with
  | setMinRules m =>
    simp only [PrePruningCall.apply]
    rcases hat m 1 with ⟨h1, h2⟩ | h1
    · rw [h1, ok_bind]
      exact Or.inl ⟨_, rfl, ⟨h2, h.updateInterval, h.numPast, h.numCurrent, h.minImprovement⟩⟩
    · rw [h1]; exact Or.inr rfl
  | setUpdateInterval m =>
    simp only [PrePruningCall.apply]
    rcases hat m 1 with ⟨h1, h2⟩ | h1
    · rw [h1, ok_bind]
      exact Or.inl ⟨_, rfl, ⟨h.minRules, h2, h.numPast, h.numCurrent, h.minImprovement⟩⟩
    · rw [h1]; exact Or.inr rfl
  | setStopInterval m =>
    simp only [PrePruningCall.apply]
    unfold assertMultiple
    rw [modAt_of_pos h.updateInterval, ok_bind]
    by_cases h0 : m % s.updateInterval = 0
    · rw [if_neg (by simpa using h0), ok_bind]
      exact Or.inl ⟨_, rfl, ⟨h.minRules, h.updateInterval, h.numPast, h.numCurrent, h.minImprovement⟩⟩
    · rw [if_pos h0]; exact Or.inr rfl
  | setNumPast m =>
    simp only [PrePruningCall.apply]
    rcases hat m 1 with ⟨h1, h2⟩ | h1
    · rw [h1, ok_bind]
      exact Or.inl ⟨_, rfl, ⟨h.minRules, h.updateInterval, h2, h.numCurrent, h.minImprovement⟩⟩
    · rw [h1]; exact Or.inr rfl
  | setNumCurrent m =>
    simp only [PrePruningCall.apply]
    rcases hat m 1 with ⟨h1, h2⟩ | h1
    · rw [h1, ok_bind]
      exact Or.inl ⟨_, rfl, ⟨h.minRules, h.updateInterval, h.numPast, h2, h.minImprovement⟩⟩
    · rw [h1]; exact Or.inr rfl
  | setMinImprovement x =>
    simp only [PrePruningCall.apply]
    by_cases h1 : assertGreaterOrEqual x (some 0) = .ok ()
    · rw [h1, ok_bind]
      by_cases h2 : assertLessOrEqual x (some 1) = .ok ()
      · rw [h2, ok_bind]
        refine Or.inl ⟨_, rfl, ⟨h.minRules, h.updateInterval, h.numPast, h.numCurrent, ?_⟩⟩
        intro y hy
        exact ⟨assertGreaterOrEqual_ok.mp h1 y hy, assertLessOrEqual_ok.mp h2 y hy⟩
      · right
        unfold assertLessOrEqual at h2 ⊢
        split
        · rfl
        · rename_i hn; rw [if_neg hn] at h2; exact absurd rfl h2
    · right
      unfold assertGreaterOrEqual at h1 ⊢
      split
      · rfl
      · rename_i hn; rw [if_neg hn] at h1; exact absurd rfl h1

theorem runPrePruning_spec (calls : List PrePruningCall) : ∀ {s : PrePruningConfig}, PrePruningRanges s →
    ∃ s', runPrePruning calls s = .ok s' ∧ PrePruningRanges s' := by
  induction calls with
  | nil => intro s h; exact ⟨s, rfl, h⟩
  | cons call calls ih =>
    intro s h
    rcases prePruningCall_spec h call with ⟨s', h1, h2⟩ | h1
    · obtain ⟨s'', g1, g2⟩ := ih h2
      exact ⟨s'', by simp only [runPrePruning, h1]; exact g1, g2⟩
    · obtain ⟨s'', g1, g2⟩ := ih h
      exact ⟨s'', by simp only [runPrePruning, h1]; exact g1, g2⟩

/-- **C53.** Setters of pre-pruning never divide by zero, and after an arbitrary sequence of calls, the parameters are in the documented ranges. -/
theorem prePruning_ranges (calls : List PrePruningCall) : ∃ s, runPrePruning calls PrePruningConfig.init = .ok s ∧ PrePruningRanges s :=
  runPrePruning_spec calls ⟨by decide, by decide, by decide, by decide, fun x hx => by cases hx; norm_num⟩

theorem runPrePruning_append (calls calls' : List PrePruningCall) : ∀ {s t : PrePruningConfig}, runPrePruning calls s = .ok t →
    runPrePruning (calls ++ calls') s = runPrePruning calls' t := by
  induction calls with
  | nil => intro s t h; cases h; rfl
  | cons call calls ih =>
    intro s t h
    simp only [List.cons_append, runPrePruning] at h ⊢
    cases hc : call.apply s with
    | ok s' => rw [hc] at h; exact ih h
    | error e => rw [hc] at h; cases e <;> first | exact ih h | cases h

/-- A call does not affect the update interval. -/
def PrePruningCall.KeepsUpdateInterval : PrePruningCall → Prop
  | .setUpdateInterval _ => False
  | _ => True

/-- **C53 (partial).** If the update interval is not set anymore after the stop interval has been set to an accepted value, the stop interval is a
multiple of the update interval. In general, it is not (`stopInterval_not_multiple`), and it may be zero (`stopInterval_zero`). -/
theorem prePruning_multiple_partial (before after : List PrePruningCall) (stopInterval : Nat) {t : PrePruningConfig}
    (ht : runPrePruning before PrePruningConfig.init = .ok t) (hacc : stopInterval % t.updateInterval = 0)
    (hafter : ∀ call ∈ after, call.KeepsUpdateInterval) :
    ∃ s, runPrePruning (before ++ .setStopInterval stopInterval :: after) PrePruningConfig.init = .ok s ∧ s.stopInterval % s.updateInterval = 0 := by
  obtain ⟨t', ht', hr⟩ := prePruning_ranges before
  rw [ht] at ht'
  cases ht'
  rw [runPrePruning_append before _ ht]
  have happly : PrePruningCall.apply t (.setStopInterval stopInterval) = .ok { t with stopInterval := stopInterval } := by
    simp only [PrePruningCall.apply]
    unfold assertMultiple
    rw [modAt_of_pos hr.updateInterval, ok_bind, if_neg (by simpa using hacc)]
    rfl
  simp only [runPrePruning, happly]
  have hinv : ∀ (calls : List PrePruningCall) (u : PrePruningConfig), (∀ call ∈ calls, call.KeepsUpdateInterval) → PrePruningRanges u →
      u.stopInterval % u.updateInterval = 0 → ∃ s, runPrePruning calls u = .ok s ∧ s.stopInterval % s.updateInterval = 0 := by
    intro calls
    induction calls with
    | nil => intro u _ _ h; exact ⟨u, rfl, h⟩
    | cons call calls ih =>
      intro u hk hu h
      rcases prePruningCall_spec hu call with ⟨u', h1, h2⟩ | h1
      · simp only [runPrePruning, h1]
        refine ih u' (fun x hx => hk x (by simp [hx])) h2 ?_
        cases call with
        | setUpdateInterval m => exact False.elim (hk _ (List.mem_cons_self ..))
        | setStopInterval m =>
          simp only [PrePruningCall.apply] at h1
          unfold assertMultiple at h1
          rw [modAt_of_pos hu.updateInterval, ok_bind] at h1
          by_cases h0 : m % u.updateInterval = 0
          · rw [if_neg (by simpa using h0), ok_bind] at h1
            cases h1
            exact h0
          · rw [if_pos h0] at h1
            cases h1
        | setMinImprovement x =>
          simp only [PrePruningCall.apply] at h1
          rw [bind_unit_ok, bind_unit_ok] at h1
          cases h1.2.2
          exact h
        | setMinRules m => simp only [PrePruningCall.apply] at h1; rw [bind_unit_ok] at h1; cases h1.2; exact h
        | setNumPast m => simp only [PrePruningCall.apply] at h1; rw [bind_unit_ok] at h1; cases h1.2; exact h
        | setNumCurrent m => simp only [PrePruningCall.apply] at h1; rw [bind_unit_ok] at h1; cases h1.2; exact h
      · simp only [runPrePruning, h1]
        exact ih u (fun x hx => hk x (by simp [hx])) hu h
  exact hinv after _ hafter ⟨hr.minRules, hr.updateInterval, hr.numPast, hr.numCurrent, hr.minImprovement⟩ hacc

example : runPrePruning [.setUpdateInterval 4, .setStopInterval 6, .setStopInterval 8, .setNumPast 0, .setMinRules 3] PrePruningConfig.init =
    .ok ⟨3, 4, 8, 50, 50, some (5 / 1000)⟩ := by decide +kernel

/-- **C53 (negation).** The stop interval is not a multiple of the update interval if the latter is set afterwards. -/
theorem stopInterval_not_multiple : runPrePruning [.setStopInterval 10, .setUpdateInterval 3] PrePruningConfig.init =
    .ok ⟨100, 3, 10, 50, 50, some (5 / 1000)⟩ := by decide +kernel

/-- **C53 (negation).** A stop interval of zero is accepted. If pre-pruning is used with it, there is a division by zero as soon as the buffers are
full. -/
theorem stopInterval_zero :
    runPrePruning [.setStopInterval 0, .setMinRules 1, .setNumPast 1, .setNumCurrent 1] PrePruningConfig.init =
        .ok ⟨1, 1, 0, 1, 1, some (5 / 1000)⟩ ∧
      (runTests (fun p x => PrePruning.test p x.1 x.2) (PrePruning.init .mean (some true) 1 1 0 1 1 (5 / 1000 : ℚ))
        [(1, 5), (2, 4), (3, 3)]).map (fun _ => ()) = .error .divByZero := by
  constructor <;> decide +kernel

/-- **C53 (negation).** Values that are not a number are accepted by setters that use `assertGreaterOrEqual` and `assertLessOrEqual`, e.g. for the minimum
improvement. -/
theorem minImprovement_nan : runPrePruning [.setMinImprovement none] PrePruningConfig.init = .ok ⟨100, 1, 1, 50, 50, none⟩ := by decide +kernel

/-- **C53, C02.** If the stop interval is not zero, the minimum improvement is a number and no product overflows, then any configuration that has been
accepted is one for which the behaviour of pre-pruning is specified by `prePruning_history`. -/
theorem prePruning_valid (calls : List PrePruningCall) {s : PrePruningConfig} (h : runPrePruning calls PrePruningConfig.init = .ok s)
    (hstop : s.stopInterval ≠ 0) (hover : (s.numPast + s.numCurrent) * s.updateInterval < 2 ^ 32) {x : ℚ} (hx : s.minImprovement = some x)
    (aggregation : Aggregation) (removeUnusedRules : Bool) :
    ValidPre (K := ℚ) { aggregation := aggregation, removeUnusedRules := removeUnusedRules, minRules := s.minRules, updateInterval := s.updateInterval, stopInterval := s.stopInterval, numPast := s.numPast, numCurrent := s.numCurrent, minImprovement := x, offset := s.minRules - (s.numPast + s.numCurrent) * s.updateInterval } := by
  obtain ⟨s', h', hr⟩ := prePruning_ranges calls
  rw [h] at h'
  cases h'
  exact ⟨hr.numPast, hr.numCurrent, hr.updateInterval, by show 1 ≤ s.stopInterval; omega, hover, rfl⟩

end MLRL.Config
