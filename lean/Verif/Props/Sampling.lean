import Verif.Lemma.Weights
import Mathlib.Algebra.Order.Floor.Semiring
import Mathlib.Tactic.Linarith
import Mathlib.Tactic.Positivity
import Mathlib.Tactic.SplitIfs

/-!
# C12, C13, C16, C17: sampling
-/

namespace MLRL.Sampling

open BitVector

variable {S : Type} {rng : Rng S} {P : S → Prop}

/-! ### C12: sampling without replacement -/

/-- **C12.** Whatever random numbers are drawn, sampling `k` of `n` indices without replacement gives exactly `k` pairwise distinct
indices out of the given ones, whichever of the three strategies is used, and never leads to undefined behaviour. (The loop of one
strategy ends only if the generator eventually draws new indices, see `withoutReplacement_terminates`.) -/
theorem withoutReplacement_distinct (hr : rng.InRange P) {total : List Nat} (hnd : total.Nodup) (hlt : total.length < 2 ^ 32)
    {k : Nat} (hk : k ≤ total.length) (fuel : Nat) (s : S) (hs : P s) :
    withoutReplacement rng fuel total k s = Run.unfinished ∨
      ∃ sample s', withoutReplacement rng fuel total k s = Run.done (sample, s') ∧ Spec.Drawn total k sample ∧ P s' := by
  unfold withoutReplacement
  split
  · exact viaTracking_spec hr hlt fuel k s hs hk
  · split
    · obtain ⟨l, s', h1, h2⟩ := viaReservoir_spec hr hnd hlt k s hs hk
      rw [h1]
      exact Or.inr ⟨l, s', rfl, h2⟩
    · obtain ⟨l, s', h1, h2⟩ := viaPermutation_spec hr hnd hlt k s hs hk
      rw [h1]
      exact Or.inr ⟨l, s', rfl, h2⟩

/-- **C12.** With the generator that is used by the library, sampling terminates for each seed. -/
theorem withoutReplacement_terminates {total : List Nat} (hnd : total.Nodup) (hlt : total.length < 2 ^ 31)
    {k : Nat} (hk : k ≤ total.length) (s : Nat) (hs : s < 2 ^ 32) :
    ∃ fuel sample s', (∀ n, fuel ≤ n → withoutReplacement XorShift.rng n total k s = Run.done (sample, s')) ∧
      Spec.Drawn total k sample ∧ s' < 2 ^ 32 := by
  have main : ∃ fuel sample s', ∀ n, fuel ≤ n → withoutReplacement XorShift.rng n total k s = Run.done (sample, s') := by
    unfold withoutReplacement
    split
    · exact trackingLoop_finishes hnd hlt k [] [] s hs (by simpa using hk)
    · split
      · obtain ⟨l, s', h1, -⟩ := viaReservoir_spec XorShift.rng_inRange hnd (by omega) k s hs hk
        exact ⟨0, l, s', fun n _ => by rw [h1]; rfl⟩
      · obtain ⟨l, s', h1, -⟩ := viaPermutation_spec XorShift.rng_inRange hnd (by omega) k s hs hk
        exact ⟨0, l, s', fun n _ => by rw [h1]; rfl⟩
  obtain ⟨fuel, sample, s', h⟩ := main
  rcases withoutReplacement_distinct XorShift.rng_inRange hnd (by omega) hk fuel s hs with h1 | ⟨l, s'', h1, h2, h3⟩
  · rw [h fuel (Nat.le_refl _)] at h1
    exact absurd h1 Run.done_ne_unfinished
  · have e := Run.done_inj ((h fuel (Nat.le_refl _)).symm.trans h1)
    simp only [Prod.mk.injEq] at e
    obtain ⟨rfl, rfl⟩ := e
    exact ⟨fuel, sample, s', h, h2, h3⟩

/-- **C12.** Sampling all indices gives each one of them exactly once. -/
theorem drawn_all {total sample : List Nat} (h : Spec.Drawn total total.length sample) (hnd : total.Nodup) :
    sample.Perm total := by
  have hsp := List.subperm_of_subset h.2.1 (fun x hx => h.2.2 x hx)
  exact hsp.perm_of_length_le (by rw [h.1])

/-- **C12.** A feature sample consists of existing, pairwise distinct features that include the last `numRetained` features. -/
theorem sampleFeatures_spec (hr : rng.InRange P) {numFeatures numSamples numRetained : Nat} (hlt : numFeatures < 2 ^ 32)
    (hret : numRetained ≤ numFeatures) (hk : numSamples ≤ numFeatures - numRetained) (fuel : Nat) (s : S) (hs : P s) :
    sampleFeatures rng fuel numFeatures numSamples numRetained s = Run.unfinished ∨
      ∃ sample s', sampleFeatures rng fuel numFeatures numSamples numRetained s = Run.done (sample, s') ∧
        Spec.Drawn (List.range numFeatures) (numRetained + numSamples) sample ∧
        (∀ f, numFeatures - numRetained ≤ f → f < numFeatures → f ∈ sample) ∧ P s' := by
  unfold sampleFeatures
  rcases withoutReplacement_distinct hr (total := List.range (numFeatures - numRetained)) (k := numSamples) List.nodup_range
    (by rw [List.length_range]; omega) (by rw [List.length_range]; exact hk) fuel s hs with h | ⟨l, s', h, h2, h3⟩
  · rw [h]; exact Or.inl rfl
  · rw [h, Run.done_bind]
    refine Or.inr ⟨_, s', rfl, ⟨?_, ?_, ?_⟩, ?_, h3⟩
    · simp [retained, h2.1]
    · rw [List.nodup_append]
      refine ⟨?_, h2.2.1, ?_⟩
      · unfold retained
        exact List.nodup_range.map (fun a b h => by simpa using h)
      · intro a ha b hb
        unfold retained at ha
        obtain ⟨i, -, rfl⟩ := List.mem_map.mp ha
        have := List.mem_range.mp (h2.2.2 b hb)
        omega
    · intro x hx
      rw [List.mem_range]
      rcases List.mem_append.mp hx with hx | hx
      · unfold retained at hx
        obtain ⟨i, hi, rfl⟩ := List.mem_map.mp hx
        have := List.mem_range.mp hi
        omega
      · have := List.mem_range.mp (h2.2.2 x hx)
        omega
    · intro f hf1 hf2
      apply List.mem_append_left
      unfold retained
      refine List.mem_map.mpr ⟨f - (numFeatures - numRetained), List.mem_range.mpr (by omega), by omega⟩

/-- **C12.** An output sample consists of existing, pairwise distinct outputs. -/
theorem sampleOutputs_spec (hr : rng.InRange P) {numOutputs numSamples : Nat} (hlt : numOutputs < 2 ^ 32)
    (hk : numSamples ≤ numOutputs) (fuel : Nat) (s : S) (hs : P s) :
    sampleOutputs rng fuel numOutputs numSamples s = Run.unfinished ∨
      ∃ sample s', sampleOutputs rng fuel numOutputs numSamples s = Run.done (sample, s') ∧
        Spec.Drawn (List.range numOutputs) numSamples sample ∧ P s' :=
  withoutReplacement_distinct hr List.nodup_range (by rwa [List.length_range]) (by rwa [List.length_range]) fuel s hs

/-- Concrete cases of all three strategies. -/
example : withoutReplacement XorShift.rng 10 (List.range 100) 5 1 = Run.done ([69, 89, 13, 95, 85], 2398689233) := by
  decide +kernel

example : withoutReplacement XorShift.rng 0 (List.range 10) 3 1 = Run.done ([9, 5, 7], 2647435461) := by decide +kernel

example : withoutReplacement XorShift.rng 0 (List.range 6) 4 1 = Run.done ([0, 5, 2, 3], 67634689) := by decide +kernel

/-! ### C17: sample sizes -/

/-- **C17.** The number of samples is at least `minimum`, or `numTotal` if there are not as many elements. -/
theorem boundedFraction_ge (n : Nat) (fraction : Rat) (minimum maximum : Nat) :
    min minimum n ≤ calculateBoundedFraction n fraction minimum maximum := by
  unfold calculateBoundedFraction
  simp only
  split_ifs <;> omega

/-- **C17.** The number of samples is at most `maximum`, if `maximum` is not less than `minimum`. -/
theorem boundedFraction_le_maximum (n : Nat) (fraction : Rat) (minimum maximum : Nat) (h : minimum ≤ maximum) :
    calculateBoundedFraction n fraction minimum maximum ≤ maximum := by
  unfold calculateBoundedFraction
  simp only
  split_ifs <;> omega

/-- **C17.** The number of samples does not exceed the number of elements if the fraction is at most one. -/
theorem boundedFraction_le_total (n : Nat) (fraction : Rat) (minimum maximum : Nat) (h : fraction ≤ 1) :
    calculateBoundedFraction n fraction minimum maximum ≤ n := by
  have hc : ⌈fraction * n⌉₊ ≤ n := by
    apply Nat.ceil_le.mpr
    have : (0 : Rat) ≤ n := by positivity
    nlinarith
  unfold calculateBoundedFraction
  simp only
  split_ifs <;> omega

/-- **C17.** If no bound takes effect, the number of samples is the fraction of the elements, rounded up. -/
theorem boundedFraction_eq (n : Nat) (fraction : Rat) (minimum maximum : Nat) (h1 : minimum ≤ ⌈fraction * n⌉₊)
    (h2 : maximum < minimum ∨ ⌈fraction * n⌉₊ ≤ maximum) :
    calculateBoundedFraction n fraction minimum maximum = ⌈fraction * n⌉₊ := by
  unfold calculateBoundedFraction
  simp only
  split_ifs <;> omega

/-- **C17.** More elements do not give less samples. -/
theorem boundedFraction_mono {n m : Nat} (hnm : n ≤ m) (fraction : Rat) (hf : 0 ≤ fraction) (minimum maximum : Nat) :
    calculateBoundedFraction n fraction minimum maximum ≤ calculateBoundedFraction m fraction minimum maximum := by
  have hc : ⌈fraction * n⌉₊ ≤ ⌈fraction * m⌉₊ := by
    apply Nat.ceil_le_ceil
    have : (n : Rat) ≤ m := by exact_mod_cast hnm
    nlinarith
  unfold calculateBoundedFraction
  simp only
  split_ifs <;> omega

/-- The upper bound is silently ignored if it is less than the lower bound, which can be configured by calling `setMaxSamples`
before `setMinSamples`. -/
theorem boundedFraction_ignores_maximum :
    calculateBoundedFraction 100 (1 / 2) 20 10 = 50 := by
  have : (⌈(1 / 2 : Rat) * (100 : Nat)⌉₊) = 50 := by
    rw [Nat.ceil_eq_iff (by norm_num)]
    norm_num
  unfold calculateBoundedFraction
  simp only [this]
  norm_num

example : calculateBoundedFraction 100 (1 / 2) 1 10 ≤ 10 := boundedFraction_le_maximum _ _ _ _ (by omega)

/-- **C12.** The number of features to be sampled never exceeds the number of features that are not retained, provided that a
sample size has been set or at least two features are not retained. -/
theorem numFeatureSamples_le {numFeatures numRetained minSamples maxSamples : Nat} {sampleSize : Rat} (h1 : sampleSize < 1)
    (hlt : numFeatures < 2 ^ 32) (h : 0 < sampleSize ∨ 2 ≤ numFeatures - numRetained) :
    ∃ r k, numFeatureSamples numFeatures numRetained sampleSize minSamples maxSamples = .ok (r, k) ∧
      r = min numRetained numFeatures ∧ k ≤ numFeatures - r := by
  unfold numFeatureSamples
  simp only
  split
  · exact ⟨_, _, rfl, rfl, boundedFraction_le_total _ _ _ _ (le_of_lt h1)⟩
  · next hs =>
    have hrem : 2 ≤ numFeatures - numRetained := by
      rcases h with h | h
      · exact absurd h hs
      · exact h
    have hx : (numFeatures - min numRetained numFeatures + (2 ^ 32 - 1)) % 2 ^ 32 = numFeatures - numRetained - 1 := by
      rw [Nat.min_eq_left (by omega), show numFeatures - numRetained + (2 ^ 32 - 1) = (numFeatures - numRetained - 1) + 2 ^ 32 by omega,
        Nat.add_mod_right, Nat.mod_eq_of_lt (by omega)]
    rw [hx, if_neg (by omega)]
    refine ⟨_, _, rfl, rfl, ?_⟩
    have := Nat.log2_lt (n := numFeatures - numRetained - 1) (k := numFeatures - numRetained - 1) (by omega)
    have h2 := this.mpr Nat.lt_two_pow_self
    rw [Nat.min_eq_left (by omega)]
    omega

/-- With the default sample size, a data set of which only one feature is not retained leads to undefined behaviour... -/
theorem numFeatureSamples_one (minSamples maxSamples : Nat) :
    numFeatureSamples 5 4 0 minSamples maxSamples = .error .badCast := by
  unfold numFeatureSamples
  norm_num

/-- ...and 32 features are drawn although there is none to be drawn if all features are retained. -/
theorem numFeatureSamples_zero (minSamples maxSamples : Nat) :
    numFeatureSamples 5 5 0 minSamples maxSamples = .ok (5, 32) := by
  unfold numFeatureSamples
  have : Nat.log2 4294967295 = 31 := by decide +kernel
  norm_num [this]

/-! ### C16: round robin -/

/-- The indices that are returned by the first `t` calls. -/
def RoundRobin.run : (t : Nat) → RoundRobin → List Nat
  | 0, _ => []
  | t + 1, r => r.sample.1 :: RoundRobin.run t r.sample.2

theorem RoundRobin.run_eq (n : Nat) (hn : 0 < n) (t a : Nat) (ha : a < n) :
    RoundRobin.run t { numOutputs := n, nextIndex := a } = (List.range t).map (fun i => (a + i) % n) := by
  induction t generalizing a with
  | zero => rfl
  | succ t ih =>
    rw [List.range_succ_eq_map]
    simp only [RoundRobin.run, RoundRobin.sample, List.map_cons, List.map_map]
    rw [show (a + 0) % n = a from Nat.mod_eq_of_lt ha]
    congr 1
    by_cases h : a + 1 ≥ n
    · rw [if_pos h, ih 0 hn]
      apply List.map_congr_left
      intro i _
      have : a + (i + 1) = i + n := by omega
      simp [Function.comp, this]
    · rw [if_neg h, ih (a + 1) (by omega)]
      apply List.map_congr_left
      intro i _
      simp only [Function.comp]
      congr 1
      omega

/-- **C16.** The `t`-th rule is assigned the output `t mod n`. -/
theorem roundRobin_sequence (n : Nat) (hn : 0 < n) (t : Nat) :
    RoundRobin.run t { numOutputs := n, nextIndex := 0 } = (List.range t).map (fun i => i % n) := by
  rw [RoundRobin.run_eq n hn t 0 hn]
  simp

theorem count_mod (n : Nat) (hn : 0 < n) (j : Nat) (hj : j < n) (t : Nat) :
    ((List.range t).map (fun i => i % n)).count j = t / n + if j < t % n then 1 else 0 := by
  induction t with
  | zero => simp
  | succ t ih =>
    rw [List.range_succ, List.map_append, List.count_append, ih]
    simp only [List.map_cons, List.map_nil, List.count_singleton]
    have hdm := Nat.div_add_mod t n
    have hlt := Nat.mod_lt t hn
    by_cases hw : t % n + 1 = n
    · have h1 : (t + 1) / n = t / n + 1 := by
        rw [show t + 1 = n * (t / n + 1) by rw [Nat.mul_add]; omega, Nat.mul_div_cancel_left _ hn]
      have h2 : (t + 1) % n = 0 := by
        rw [show t + 1 = n * (t / n + 1) by rw [Nat.mul_add]; omega, Nat.mul_mod_right]
      rw [h1, h2]
      by_cases hjt : t % n = j
      · simp [hjt]
      · simp only [beq_iff_eq, hjt, if_false, Nat.not_lt_zero]
        rw [if_pos (by omega)]
    · have h3 : t + 1 = n * (t / n) + (t % n + 1) := by omega
      have hsmall : t % n + 1 < n := by omega
      have h1 : (t + 1) / n = t / n := by
        conv_lhs => rw [h3, Nat.mul_add_div hn, Nat.div_eq_of_lt hsmall]
        rfl
      have h2 : (t + 1) % n = t % n + 1 := by
        conv_lhs => rw [h3, Nat.mul_add_mod, Nat.mod_eq_of_lt hsmall]
      rw [h1, h2]
      by_cases hjt : t % n = j
      · simp [hjt]
      · simp only [beq_iff_eq, hjt, if_false]
        split <;> split <;> omega

/-- **C16.** After any number of rules, the numbers of rules that have been learned for two outputs differ by at most one, and
after a multiple of the number of outputs they are equal. -/
theorem roundRobin_fair (n : Nat) (hn : 0 < n) (t : Nat) {j k : Nat} (hj : j < n) (hk : k < n) :
    (RoundRobin.run t { numOutputs := n, nextIndex := 0 }).count j ≤
      (RoundRobin.run t { numOutputs := n, nextIndex := 0 }).count k + 1 ∧
    (RoundRobin.run (n * t) { numOutputs := n, nextIndex := 0 }).count j = t := by
  rw [roundRobin_sequence n hn, roundRobin_sequence n hn, count_mod n hn j hj, count_mod n hn k hk, count_mod n hn j hj]
  refine ⟨by split <;> split <;> omega, ?_⟩
  rw [Nat.mul_mod_right, Nat.mul_div_cancel_left _ hn]
  simp

example : RoundRobin.run 7 { numOutputs := 3, nextIndex := 0 } = [0, 1, 2, 0, 1, 2, 0] := by decide

/-! ### C13: weights of examples -/

/-- **C13.** Sampling examples without replacement assigns the weight 1 to exactly `k` training examples and the weight 0 to all
other examples; the number of non-zero weights is `k`. -/
theorem weightsWithoutReplacement_spec (hr : rng.InRange P) {n : Nat} {total : List Nat} (hnd : total.Nodup)
    (hlt : total.length < 2 ^ 32) (hn : ∀ x ∈ total, x < n) {w : BitWeights} (hw1 : w.vector.numElements = n)
    (hw2 : w.vector.words.length = size n) {k : Nat} (hk : k ≤ total.length) (fuel : Nat) (s : S) (hs : P s) :
    weightsWithoutReplacement rng fuel w total k s = Run.unfinished ∨
      ∃ w' s' sel, weightsWithoutReplacement rng fuel w total k s = Run.done (w', s') ∧ w'.numNonZeroWeights = k ∧
        Spec.Drawn total k sel ∧ (∀ p < n, w'.vector.get p = .ok (decide (p ∈ sel))) ∧ P s' := by
  unfold weightsWithoutReplacement
  split
  · unfold weightsViaTracking
    rcases weightTrackingLoop_spec hr hlt hn fuel k [] w.vector.clear s hs (clear_rep hw1 hw2) (by simp) (by simp) (by omega)
      with h | ⟨v', s', sel, h1, h2, h3, h4⟩
    · rw [h]; exact Or.inl rfl
    · rw [h1]
      refine Or.inr ⟨_, s', sel, rfl, rfl, by simpa using h2, fun p hp => h3.get hp, h4⟩
  · obtain ⟨w', s', sel, h1, h2, h3, h4, h5⟩ := weightsViaPool_spec hr hnd hlt hn hw1 hw2 k hk s hs
    rw [h1]
    exact Or.inr ⟨w', s', sel, rfl, h2, h3, fun p hp => h4.get hp, h5⟩

/-- **C13.** With the generator that is used by the library, sampling examples terminates for each seed. -/
theorem weightsWithoutReplacement_terminates {n : Nat} {total : List Nat} (hnd : total.Nodup)
    (hlt : total.length < 2 ^ 31) (hn : ∀ x ∈ total, x < n) {w : BitWeights} (hw1 : w.vector.numElements = n)
    (hw2 : w.vector.words.length = size n) {k : Nat} (hk : k ≤ total.length) (s : Nat) (hs : s < 2 ^ 32) :
    ∃ fuel w' s', ∀ m, fuel ≤ m → weightsWithoutReplacement XorShift.rng m w total k s = Run.done (w', s') := by
  unfold weightsWithoutReplacement
  split
  · obtain ⟨fuel, v', s', h⟩ := weightTrackingLoop_finishes hnd hlt hn k [] w.vector.clear s hs (clear_rep hw1 hw2)
      (by simpa using hk)
    refine ⟨fuel, ⟨v', k⟩, s', fun m hm => ?_⟩
    unfold weightsViaTracking
    rw [h m hm]
    rfl
  · obtain ⟨w', s', sel, h1, -⟩ := weightsViaPool_spec XorShift.rng_inRange hnd (by omega) hn hw1 hw2 k hk s hs
    exact ⟨0, w', s', fun m _ => by rw [h1]; rfl⟩

/-- The vector that is created by the constructor of `InstanceSamplingWithoutReplacement` meets the assumptions. -/
example (n : Nat) : (BitVector.create n false).numElements = n ∧ (BitVector.create n false).words.length = size n := by
  simp [BitVector.create]

/-- **C13.** Without sampling, exactly the training examples of a `BiPartition` have the weight 1. -/
theorem weightsNoSampling_spec {n : Nat} {total : List Nat} (hn : ∀ x ∈ total, x < n) {w : BitWeights}
    (hw1 : w.vector.numElements = n) (hw2 : w.vector.words.length = size n) :
    ∃ w', weightsNoSampling w total = .ok w' ∧ w'.numNonZeroWeights = total.length ∧
      ∀ p < n, w'.vector.get p = .ok (decide (p ∈ total)) := by
  unfold weightsNoSampling
  obtain ⟨v, h1, sel, h2, h3⟩ := loop_rule (body := fun i v => do let x ← readAt total i; BitVector.set v x true)
    (fun i v => ∃ sel, (∀ x, x ∈ sel ↔ x ∈ total.take i) ∧ Rep n v (fun p => decide (p ∈ sel))) total.length w.vector.clear
    ⟨[], by simp, clear_rep hw1 hw2⟩ (by
      rintro i v hi ⟨sel, h1, h2⟩
      rw [readAt_of_lt hi, ok_bind]
      obtain ⟨v', e1, e2⟩ := set_rep h2 (hn _ (List.getElem_mem hi))
      refine ⟨v', e1, total[i] :: sel, ?_, e2⟩
      intro x
      rw [List.mem_cons, mem_take_succ hi, h1 x]
      exact Or.comm)
  rw [h1, ok_bind]
  refine ⟨_, rfl, rfl, fun p hp => ?_⟩
  rw [h3.get hp]
  have := h2 p
  rw [List.take_length] at this
  simp [this]

/-- **C13.** Sampling examples with replacement: the weights sum up to the number of samples, the number of non-zero weights is
correct and only training examples have non-zero weights. -/
theorem weightsWithReplacement_spec (hr : rng.InRange P) {numExamples : Nat} {total : List Nat} (hlt : total.length < 2 ^ 32)
    (hn : ∀ x ∈ total, x < numExamples) (hne : 0 < total.length) (k : Nat) (s : S) (hs : P s) :
    ∃ w s', weightsWithReplacement rng numExamples total k s = .ok (w, s') ∧ w.weights.length = numExamples ∧
      w.weights.sum = k ∧ w.numNonZeroWeights = w.weights.countP (fun x => decide (x ≠ 0)) ∧
      (∀ (p : Nat) (x : Nat), w.weights[p]? = some x → x ≠ 0 → p ∈ total) ∧ P s' := by
  unfold weightsWithReplacement
  obtain ⟨⟨w, s'⟩, h1, h2⟩ := loop_rule (body := fun _ => withReplacementStep rng total)
    (fun i (t : DenseWeights × S) => t.1.weights.length = numExamples ∧ t.1.weights.sum = i ∧
      t.1.numNonZeroWeights = t.1.weights.countP (fun x => decide (x ≠ 0)) ∧
      (∀ (p : Nat) (x : Nat), t.1.weights[p]? = some x → x ≠ 0 → p ∈ total) ∧ P t.2) k
    ({ weights := List.replicate numExamples 0, numNonZeroWeights := 0 }, s)
    ⟨by simp, by simp, by simp [List.countP_replicate], fun p x hx hx0 => by
      simp only at hx
      rw [List.getElem?_replicate] at hx
      split at hx
      · exact absurd (Option.some.inj hx).symm hx0
      · exact absurd hx (by simp), hs⟩ (by
      rintro i ⟨w, s⟩ hi ⟨h1, h2, h3, h4, h5⟩
      simp only at h1 h2 h3 h4 h5
      obtain ⟨r, s', e1, -, e3, e4⟩ := hr 0 total.length s h5 hne hlt
      have hx : total[r] < w.weights.length := by rw [h1]; exact hn _ (List.getElem_mem e3)
      unfold withReplacementStep
      simp only
      rw [e1, ok_bind]
      simp only
      rw [readAt_of_lt e3, ok_bind, readAt_of_lt hx, ok_bind, writeAt_of_lt hx, ok_bind]
      refine ⟨_, rfl, by simpa using h1, ?_, ?_, ?_, e4⟩
      · simp only
        rw [sum_set_succ hx, h2]
      · simp only
        rw [countP_set_succ hx, h3]
      · intro p x hp hx0
        simp only at hp
        rw [List.getElem?_set] at hp
        split at hp
        · next heq => rw [← heq]; exact List.getElem_mem e3
        · exact h4 p x hp hx0)
  exact ⟨w, s', h1, h2⟩

example : weightsWithReplacement XorShift.rng 5 [0, 2, 4] 4 1 =
    .ok ({ weights := [1, 0, 2, 0, 1], numNonZeroWeights := 3 }, 307599695) := by decide +kernel

end MLRL.Sampling
