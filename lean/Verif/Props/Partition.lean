import Verif.Lemma.Partition

/-!
# C14 and C13: partitioning of examples, stratified sampling
-/

namespace MLRL

namespace Spec

/-- The two parts are disjoint and each example `0, ..., n - 1` belongs to one of them. -/
def IsPartition (n : Nat) (first second : List Nat) : Prop :=
  first.Nodup ∧ second.Nodup ∧ (∀ x, x ∈ first → x ∉ second) ∧ ∀ x, x ∈ first ∨ x ∈ second ↔ x < n

theorem isPartition_of_perm {n : Nat} {first second : List Nat} (h : (first ++ second).Perm (List.range n)) :
    IsPartition n first second := by
  have hnd := List.nodup_append.mp (h.nodup_iff.mpr List.nodup_range)
  refine ⟨hnd.1, hnd.2.1, fun x h1 h2 => hnd.2.2 x h1 x h2 rfl, fun x => ?_⟩
  rw [← List.mem_append, h.mem_iff, List.mem_range]

end Spec

open RuleList (sub32_of_le)

namespace BiPartition

variable {S : Type} {rng : Rng S} {P : S → Prop}

theorem range_append (a b : Nat) : List.range a ++ (List.range b).map (fun i => a + i) = List.range (a + b) := by
  rw [List.range_add]

/-- **C14.** A random partition is a partition of all examples into two sets of the requested sizes, whatever random numbers are
drawn and whatever the previous partition was. -/
theorem randomPartition_spec (hr : rng.InRange P) (p : BiPartition) (hlt : p.first.length + p.second.length < 2 ^ 32) (s : S)
    (hs : P s) :
    ∃ p' s', randomPartition rng p s = .ok (p', s') ∧
      Spec.IsPartition (p.first.length + p.second.length) p'.first p'.second ∧ p'.first.length = p.first.length ∧
      p'.second.length = p.second.length ∧ P s' := by
  have hcat := range_append p.first.length p.second.length
  have hlen : (List.range p.first.length ++ (List.range p.second.length).map (fun i => p.first.length + i)).length =
      p.first.length + p.second.length := by simp
  obtain ⟨f, g, s', h1, h2, h3, h4, h5⟩ := Sampling.randomPermutation_spec hr (List.range p.first.length)
    ((List.range p.second.length).map (fun i => p.first.length + i)) (by rw [hlen]; exact hlt) p.first.length (by rw [hlen]; omega) s hs
  rw [hlen, List.length_range] at h1
  rw [hcat] at h2
  unfold randomPartition
  simp only
  rw [h1, ok_bind]
  exact ⟨_, s', rfl, Spec.isPartition_of_perm h2, by simpa using h3, by simpa using h4, h5⟩

/-- **C14.** The sizes of the two sets: the size of the holdout set is the given fraction, rounded down, both add up to the number of
examples, and at least one example is left for training. -/
theorem sizes_spec (n : Nat) (h : Rat) (h0 : 0 < h) (h1 : h < 1) (hlt : n < 2 ^ 32) :
    (sizes n h).2 = ⌊h * n⌋₊ ∧ (sizes n h).1 + (sizes n h).2 = n ∧ (0 < n → 0 < (sizes n h).1) := by
  have hn : (0 : Rat) ≤ n := by positivity
  have hle : ⌊h * n⌋₊ ≤ n := by
    have h2 : h * n ≤ n := by nlinarith
    have := Nat.floor_le_floor h2
    rwa [Nat.floor_natCast] at this
  unfold sizes
  simp only
  rw [sub32_of_le hle hlt]
  refine ⟨trivial, by omega, fun hpos => ?_⟩
  have : ⌊h * n⌋₊ < n := by
    rw [Nat.floor_lt (by positivity)]
    have : (0 : Rat) < n := by exact_mod_cast hpos
    nlinarith
  omega

/-- **C58, partial.** Sorting does not change the sets; if the flag is not set, i.e., before the set has been sorted for the first time,
it sorts the indices. Missing: sortedness after another partition has been drawn, which does not hold, see
`sortFirst_after_second_partition`. -/
theorem sortFirst_sorted_partial (p : BiPartition) :
    p.sortFirst.first.Perm p.first ∧ p.sortFirst.second = p.second ∧
      (p.firstSorted = false → p.sortFirst.first.Pairwise (· ≤ ·)) := by
  unfold sortFirst
  split
  · next h => exact ⟨List.Perm.refl _, rfl, fun h' => absurd h (by simp [h'])⟩
  · exact ⟨List.perm_insertionSort _ _, rfl, fun _ => List.pairwise_insertionSort _ _⟩

/-- **C58, partial.** See `sortFirst_sorted_partial`. -/
theorem sortSecond_sorted_partial (p : BiPartition) :
    p.sortSecond.second.Perm p.second ∧ p.sortSecond.first = p.first ∧
      (p.secondSorted = false → p.sortSecond.second.Pairwise (· ≤ ·)) := by
  unfold sortSecond
  split
  · next h => exact ⟨List.Perm.refl _, rfl, fun h' => absurd h (by simp [h'])⟩
  · exact ⟨List.perm_insertionSort _ _, rfl, fun _ => List.pairwise_insertionSort _ _⟩

/-- **C58** does not hold in general. Drawing a partition, sorting it, drawing another one and sorting that: the second partition is not sorted because the flag is
never reset. -/
theorem sortFirst_after_second_partition :
    ∃ p1 s1 p2 s2, randomPartition XorShift.rng (create [0, 0, 0] [0, 0]) 2 = .ok (p1, s1) ∧
      randomPartition XorShift.rng p1.sortFirst s1 = .ok (p2, s2) ∧ p2.sortFirst.first = [2, 3, 1] := by
  refine ⟨⟨[3, 0, 4], [1, 2], false, false⟩, 697882754, ⟨[2, 3, 1], [0, 4], true, false⟩, 818967331, ?_, ?_, ?_⟩
  all_goals decide +kernel

end BiPartition

namespace Stratification

variable {S : Type} {rng : Rng S} {P : S → Prop}

/-- **C14.** The strata used by the example-wise stratification: each example belongs to exactly one stratum, no stratum is empty and
two examples belong to the same stratum if and only if they have the same label vector. -/
theorem strata_spec {K : Type} [DecidableEq K] (row : Nat → K) (examples : List Nat) (order : List (List Nat))
    (h : IsOrder row examples order) :
    order.flatten.Perm examples ∧ (∀ l ∈ order, 0 < l.length) ∧
      (∀ l ∈ order, ∀ x ∈ l, ∀ y ∈ examples, y ∈ l ↔ row y = row x) := by
  obtain ⟨h1, h2, h3⟩ := groupExamples_spec row examples
  have hfl : order.flatten.Perm examples := (h.1.flatten).trans h3
  refine ⟨hfl, ?_, ?_⟩
  · intro l hl
    obtain ⟨p, hp, rfl⟩ := List.mem_map.mp (h.1.subset hl)
    exact List.length_pos_iff.mpr (h2 p hp).1
  · intro l hl x hx y hy
    obtain ⟨p, hp, rfl⟩ := List.mem_map.mp (h.1.subset hl)
    constructor
    · intro hy'
      rw [(h2 p hp).2 y hy', (h2 p hp).2 x hx]
    · intro hrow
      obtain ⟨l', hl', hy'⟩ := List.mem_flatten.mp (h3.symm.subset hy)
      obtain ⟨p', hp', rfl⟩ := List.mem_map.mp hl'
      have hk : p'.1 = p.1 := by rw [← (h2 p' hp').2 y hy', ← (h2 p hp).2 x hx, hrow]
      have : p' = p := List.inj_on_of_nodup_map h1 hp' hp hk
      rw [← this]
      exact hy'

/-- **C14.** A stratified partition is a partition of all examples into two sets of the requested sizes, for all strata without empty
ones. The strata still contain the same examples afterwards. -/
theorem sampleBiPartition_spec (hr : rng.InRange P) (strata : List (List Nat)) (p : BiPartition)
    (hperm : strata.flatten.Perm (List.range (p.first.length + p.second.length))) (hne : ∀ l ∈ strata, 0 < l.length)
    (hlt : p.first.length + p.second.length < 2 ^ 32) (s : S) (hs : P s) :
    ∃ strata' p' s', sampleBiPartition rng strata p s = .ok (strata', p', s') ∧
      Spec.IsPartition (p.first.length + p.second.length) p'.first p'.second ∧ p'.first.length = p.first.length ∧
      p'.second.length = p.second.length ∧ List.Forall₂ List.Perm strata' strata ∧ P s' := by
  have hlen : strata.flatten.length = p.first.length + p.second.length := by rw [hperm.length_eq, List.length_range]
  obtain ⟨strata', t', h1, h2, h3, h4⟩ := partitionLoop_spec hr (f0 := p.first.length) (g0 := p.second.length) hlt strata []
    { numFirst := p.first.length, numSecond := p.second.length,
      arrays := { first := p.first, second := p.second, firstPos := 0, secondPos := 0 }, rngState := s } hne hs
    ⟨rfl, rfl, by simp, by simp, hlen.symm, by simp⟩
  unfold sampleBiPartition
  rw [h1, ok_bind]
  obtain ⟨i1, i2, i3, i4, i5, i6⟩ := h4
  refine ⟨strata', _, _, rfl, Spec.isPartition_of_perm ?_, i1, i2, h2, h3⟩
  rw [List.take_of_length_le (by omega), List.take_of_length_le (by omega), List.nil_append] at i6
  exact i6.trans hperm

/-- **C14.** The previous theorem applies to the strata that are actually used, initially and after partitions have been drawn
already. -/
theorem stratifiedPartition_spec (hr : rng.InRange P) {K : Type} [DecidableEq K] (row : Nat → K) (order order' : List (List Nat))
    (p : BiPartition) (horder : IsOrder row (List.range (p.first.length + p.second.length)) order)
    (hsame : List.Forall₂ List.Perm order' order) (hlt : p.first.length + p.second.length < 2 ^ 32) (s : S) (hs : P s) :
    ∃ strata' p' s', sampleBiPartition rng order' p s = .ok (strata', p', s') ∧
      Spec.IsPartition (p.first.length + p.second.length) p'.first p'.second ∧ p'.first.length = p.first.length ∧
      p'.second.length = p.second.length ∧ List.Forall₂ List.Perm strata' order ∧ P s' := by
  obtain ⟨h1, h2, -⟩ := strata_spec row _ order horder
  have hfl : ∀ {a b : List (List Nat)}, List.Forall₂ List.Perm a b → a.flatten.Perm b.flatten := by
    intro a b h
    induction h with
    | nil => exact List.Perm.refl _
    | cons h _ ih => rw [List.flatten_cons, List.flatten_cons]; exact h.append ih
  have hne : ∀ {a b : List (List Nat)}, List.Forall₂ List.Perm a b → (∀ l ∈ b, 0 < l.length) → ∀ l ∈ a, 0 < l.length := by
    intro a b h
    induction h with
    | nil => intro _ l hl; cases hl
    | cons h _ ih =>
      intro hb l hl
      rcases List.mem_cons.mp hl with rfl | hl
      · rw [h.length_eq]; exact hb _ (by simp)
      · exact ih (fun m hm => hb m (List.mem_cons_of_mem _ hm)) l hl
  obtain ⟨strata', p', s', e1, e2, e3, e4, e5, e6⟩ :=
    sampleBiPartition_spec hr order' p ((hfl hsame).trans h1) (hne hsame h2) hlt s hs
  refine ⟨strata', p', s', e1, e2, e3, e4, ?_, e6⟩
  have htrans : ∀ {a b c : List (List Nat)}, List.Forall₂ List.Perm a b → List.Forall₂ List.Perm b c →
      List.Forall₂ List.Perm a c := by
    intro a b c h1
    induction h1 generalizing c with
    | nil => intro h2; cases h2; exact .nil
    | cons h _ ih => intro h2; cases h2 with | cons h' t' => exact .cons (h.trans h') (ih t')
  exact htrans e5 hsame

/-- Three strata, 4 training examples and 2 examples in the holdout set. -/
example : (sampleBiPartition XorShift.rng [[4], [0, 2], [1, 3, 5]] (BiPartition.create [9, 9, 9, 9] [9, 9]) 1).map
    (fun r => (r.2.1.first, r.2.1.second)) = .ok ([4, 2, 0, 5], [3, 1]) := by decide +kernel

example : IsOrder (fun e => e % 2) (List.range 5) [[1, 3], [0, 2, 4]] := by
  constructor
  · decide
  · simp

/-- A stratum without examples at the end leads to the conversion of NaN to an integer. -/
theorem sampleBiPartition_empty_stratum :
    (sampleBiPartition XorShift.rng [[0], []] (BiPartition.create [0] []) 1).map (fun r => r.2.1) = .error .badCast := by
  decide +kernel

/-- **C13.** Stratified sampling: exactly the examples in a set `sel` have the weight 1 among the examples in the strata, the number of
non-zero weights is correct and the number of selected examples of each stratum is the given fraction, rounded up or down. -/
theorem sampleWeights_spec (hr : rng.InRange P) {n : Nat} {b0 : Nat → Bool} (strata : List (List Nat)) (w : Sampling.BitWeights)
    {q : Rat} (hq : q ≤ 1) (minSamples maxSamples : Nat) (hw : BitVector.Rep n w.vector b0)
    (hlt : strata.flatten.length < 2 ^ 32) (hn : ∀ x ∈ strata.flatten, x < n) (hnd : strata.flatten.Nodup) (s : S) (hs : P s) :
    ∃ (strata' : List (List Nat)) (w' : Sampling.BitWeights) (s' : S) (sel : List Nat), sampleWeights rng strata w q minSamples maxSamples s = .ok (strata', w', s') ∧
      w'.numNonZeroWeights = sel.length ∧ sel.Nodup ∧ (∀ x ∈ sel, x ∈ strata.flatten) ∧
      (∀ p < n, w'.vector.get p = .ok (if p ∈ strata.flatten then decide (p ∈ sel) else b0 p)) ∧
      (∀ l ∈ strata, sel.countP (fun x => decide (x ∈ l)) = ⌈q * l.length⌉₊ ∨
        sel.countP (fun x => decide (x ∈ l)) = ⌊q * l.length⌋₊) ∧
      List.Forall₂ List.Perm strata' strata ∧ P s' := by
  unfold sampleWeights
  simp only
  obtain ⟨strata', t', sel, h1, h2, h3, h4, h5, h6⟩ := weightLoop_spec hr (n := n) (b0 := b0) hq
    (Sampling.calculateBoundedFraction strata.flatten.length q minSamples maxSamples)
    (sub32 strata.flatten.length (Sampling.calculateBoundedFraction strata.flatten.length q minSamples maxSamples)) strata [] []
    { numNonZeroWeights := 0, numZeroWeights := 0, vector := w.vector, rngState := s } hlt hn hnd (by simp) hs
    ⟨rfl, by simp, by simp, by simpa using hw⟩
  rw [h1, ok_bind]
  refine ⟨strata', _, _, sel, rfl, ?_, ?_, h5, ?_, h6, h2, h3⟩
  · simpa using h4.num
  · simpa using h4.nodup
  · intro p hp
    have := h4.rep.get hp
    simpa using this

/-- The bounds on the number of samples are not enforced by stratified sampling: with `maxSamples = 1`, four examples are sampled. -/
theorem sampleWeights_ignores_bounds :
    (sampleWeights XorShift.rng [[0, 1], [2, 3], [4, 5], [6, 7]]
      { vector := BitVector.create 8 true, numNonZeroWeights := 0 } (1 / 2) 1 1 1).map
      (fun r => r.2.1.numNonZeroWeights) = .ok 4 := by decide +kernel

/-- If no holdout set is used, the weights are not initialised before the single bits are set (instance_sampling_stratified_*.cpp). -/
theorem sampleWeights_uninitialised :
    (sampleWeights XorShift.rng [[0, 1]] { vector := BitVector.create 2 false, numNonZeroWeights := 0 } 1 1 0 1).map
      (fun r => r.2.1.numNonZeroWeights) = .error .uninitialised := by decide +kernel

end Stratification

end MLRL
