import Verif.Lemma.FeatureSpace

/-!
# C21, C59, C60: coverage, covered statistics and filtered vectors of a feature subspace
-/

namespace MLRL.FeatureSpace

section
variable {M : Type} [Zero M] [Add M] [Sub M]

/-- **C21.** Whatever conditions have been added to a subspace, in whatever order vectors have been requested, copies been made and
the subspace been reset, the mask never accesses invalid memory and reports an example as covered iff it satisfies all conditions
added since the last reset. -/
theorem mask_iff_satisfied {env : Env M} (hwf : env.WellFormed) {s : Subspace M} {conds : List (Nat → Bool)} {fresh : Bool}
    (h : History env s conds fresh) (e : Nat) (he : e < env.numExamples) :
    s.mask.isCovered e = .ok (satisfiesAll conds e) :=
  (h.inv hwf).marks.2 e he

/-- **C21**, resetting: all examples are covered again. -/
theorem mask_after_reset {env : Env M} (hwf : env.WellFormed) {s : Subspace M} {conds : List (Nat → Bool)} {fresh : Bool}
    (h : History env s conds fresh) (e : Nat) (he : e < env.numExamples) :
    (s.reset env).mask.isCovered e = .ok true :=
  (h.reset.inv hwf).marks.2 e he

/-- **C21**, absence of undefined behaviour: requesting a vector always succeeds, afterwards the vector is available to
`filterSubspace`, and adding a condition with a valid interval succeeds and stores the number of covered examples. -/
theorem filter_succeeds {env : Env M} (hwf : env.WellFormed) {s : Subspace M} {conds : List (Nat → Bool)} {fresh : Bool}
    (h : History env s conds fresh) (f : Nat) :
    ∃ v s', s.invoke env f = .ok (v, s') ∧ (∃ ex, s'.upToDate env f = .ok (v, ex)) ∧
      ∀ i k, v.ValidInterval i → ∃ s'', s'.filter env f i k = .ok s'' ∧ s''.numCovered = k := by
  have hinv := h.inv hwf
  obtain ⟨v, h1, h2⟩ := hinv.refreshed hwf f
  obtain ⟨s', h3, h4, h5, _, h7, h6⟩ := invoke_eq h1
  have hinv' := hinv.invoke hwf h3
  have hent := entry_upd h6 f
  rw [if_pos rfl] at hent
  have hav : (s'.entry f).vector.isSome = true ∨ s'.loaded f = true := by
    by_cases hgt : s.numModifications > (s.entry f).numConditions
    · left; rw [hent, if_pos hgt]; rfl
    · rw [if_neg hgt] at hent
      rcases h7 with h7 | h7
      · exact Or.inr h7
      · left; rw [hent]; exact h7.1
  obtain ⟨ex, h8⟩ := upToDate_eq (env := env) hav
  have h9 : s'.refreshed env f = .ok v := by
    unfold Subspace.refreshed Subspace.current
    rw [hent, h5]
    by_cases hgt : s.numModifications > (s.entry f).numConditions
    · rw [if_pos hgt]
      simp
    · unfold Subspace.refreshed Subspace.current at h1
      rw [if_neg hgt] at h1 ⊢
      rw [if_neg hgt]
      exact h1
  rw [h9, ok_bind] at h8
  refine ⟨v, s', h3, ⟨ex, h8⟩, fun i k hi => ?_⟩
  obtain ⟨_, _, s'', h10, _, h11, _⟩ := hinv'.filter (k := k) hwf h8 hi
  exact ⟨s'', h10, h11⟩

/-- **C60.** A vector that is provided to the search for refinements consists of exactly those entries (or bins) of the original
vector that belong to covered examples, in the same order, or it is the vector that excludes the feature from the search. -/
theorem invoke_sameEntries {env : Env M} (hwf : env.WellFormed) {s s' : Subspace M} {conds : List (Nat → Bool)} {fresh : Bool}
    (h : History env s conds fresh) {f : Nat} {v : FeatureVector} (hi : s.invoke env f = .ok (v, s')) :
    v = .equal ∨ v.SameEntries (satisfiesAll conds) (env.column f) := by
  obtain ⟨v0, h1, h2⟩ := (h.inv hwf).refreshed hwf f
  obtain ⟨s0, h3, _⟩ := invoke_eq h1
  rw [hi] at h3
  injection h3 with h3
  injection h3 with h3 _
  subst h3
  rcases h2 with h2 | h2
  · exact Or.inl h2
  · exact Or.inr h2.1.entries

/-- **C60**, missing values: the vector lists all covered examples whose value is missing, and no example whose value is not
missing; it lists no uncovered example unless some nominal feature has missing values. -/
theorem invoke_missing {env : Env M} (hwf : env.WellFormed) {s s' : Subspace M} {conds : List (Nat → Bool)} {fresh : Bool}
    (h : History env s conds fresh) {f : Nat} {v : FeatureVector} (hi : s.invoke env f = .ok (v, s')) (hv : v ≠ .equal) :
    (∀ e ∈ (env.column f).missing, satisfiesAll conds e = true → e ∈ v.missing) ∧
      (∀ e ∈ v.missing, e ∈ (env.column f).missing) ∧
      (env.NoNominalMissing → ∀ e ∈ v.missing, satisfiesAll conds e = true) := by
  obtain ⟨v0, h1, h2⟩ := (h.inv hwf).refreshed hwf f
  obtain ⟨s0, h3, _⟩ := invoke_eq h1
  rw [hi] at h3
  injection h3 with h3
  injection h3 with h3 _
  subst h3
  rcases h2 with h2 | h2
  · exact absurd h2 hv
  · exact ⟨h2.1.covered, fun e he => h2.1.missing.subset he, h2.2⟩

end

/-- **C59** (partial: subspaces that have never been reset, no missing values of nominal features; the negations below show that
both restrictions are needed). The statistics that are marked as covered are those of the covered examples. -/
theorem total_eq_sum_covered_partial {M : Type} [AddCommGroup M] {env : Env M} (hwf : env.WellFormed) (hN : env.NoNominalMissing)
    {s : Subspace M} {conds : List (Nat → Bool)} (h : History env s conds true) :
    s.total = sumOver env.numExamples env.stat (satisfiesAll conds) :=
  h.total hwf hN rfl

/-! ### A concrete subspace -/

/-- Six examples: a numerical feature with a missing value, a nominal one (majority value 0) with a missing value and a numerical one
without missing values. -/
def exEnv : Env Int :=
  { numExamples := 6, numNonZero := 6,
    column := fun f => match f with
      | 0 => .numerical [(3, 1), (0, 2), (1, 2), (2, 3), (4, 7)] 0 false [5]
      | 1 => .nominal .nominal [(1, [0, 1]), (2, [2])] 0 [4]
      | 2 => .numerical [(0, 1), (1, 2), (2, 2), (3, 3)] 0 true []
      | _ => .equal,
    isEqual := fun a b => a == b,
    stat := fun e => 10 ^ e }

theorem exEnv_wellFormed : exEnv.WellFormed := by
  intro f
  match f with
  | 0 => exact ⟨by decide +kernel, by decide +kernel, fun _ _ _ _ h => by cases h⟩
  | 1 =>
    refine ⟨by decide +kernel, by decide +kernel, fun _ _ _ _ h b hb => ?_⟩
    injection h with _ h _ _
    subst h
    revert b
    decide +kernel
  | 2 => exact ⟨by decide +kernel, by decide +kernel, fun _ _ _ _ h => by cases h⟩
  | _ + 3 => exact ⟨by simp [exEnv, FeatureVector.examples, FeatureVector.missing],
      by simp [exEnv, FeatureVector.examples, FeatureVector.missing], fun _ _ _ _ h => by simp [exEnv] at h⟩

/-- The state after a sequence of operations. -/
def exState : Res (Subspace Int) := do
  let (_, s) ← (Subspace.create exEnv).invoke exEnv 0
  s.filter exEnv 0 ⟨0, 1, true⟩ 4

/-- The hypotheses of the theorems can be met by a state after adding the condition "feature 0 > 1.5", which covers the examples
0, 1, 2 and 4 (the value of example 5 is missing); the mask has been updated as claimed. -/
example : ∃ s, exState = .ok s ∧ History exEnv s [fun e => [0, 1, 2, 4].contains e] true ∧
    (List.range 6).map (fun e => s.mask.isCovered e) =
      [.ok true, .ok true, .ok true, .ok false, .ok true, .ok false] ∧ s.total = 10111 := by
  obtain ⟨v, s1, h1, ⟨ex, h2⟩, h3⟩ := filter_succeeds exEnv_wellFormed (History.create (env := exEnv)) 0
  have hv : v = exEnv.column 0 := by
    have : (Subspace.create exEnv).invoke exEnv 0 = .ok (exEnv.column 0, _) := rfl
    rw [h1] at this
    injection this with this
    injection this
  subst hv
  have hvalid : (exEnv.column 0).ValidInterval ⟨0, 1, true⟩ :=
    ⟨by simp [exEnv], by decide, by decide +kernel, Or.inr (Or.inr (Or.inl rfl))⟩
  obtain ⟨s, h4, _⟩ := h3 ⟨0, 1, true⟩ 4 hvalid
  have hs : exState = .ok s := by
    unfold exState
    rw [h1]
    exact h4
  refine ⟨s, hs, ?_, ?_⟩
  · refine .filter (.invoke .create h1) h2 hvalid ?_ h4
    unfold FeatureVector.Describes
    decide +kernel
  · have h5 : exState.map (fun s => ((List.range 6).map (fun e => s.mask.isCovered e), s.total)) =
        .ok ([.ok true, .ok true, .ok true, .ok false, .ok true, .ok false], 10111) := by decide +kernel
    rw [hs] at h5
    injection h5 with h5
    injection h5 with h5 h6
    exact ⟨h5, h6⟩

/-! ### Disagreements with the intended behaviour -/

/-- **C59**, negation for subspaces that have been reset: `resetSubspace` marks all examples as covered again but does not touch the
weighted statistics. After adding the condition above and resetting, all six examples are covered but the statistics are still those
of the examples 0, 1, 2 and 4. -/
theorem total_stale_after_reset : exState.map (fun s => ((s.reset exEnv).total,
    (List.range 6).map (fun e => (s.reset exEnv).mask.isCovered e), sumOver 6 exEnv.stat (fun _ => true))) =
    .ok (10111, List.replicate 6 (.ok true), 111111) := by
  decide +kernel

/-- The conditions "feature 0 > 1.5", "feature 1 ≠ 1" and "feature 1 ≠ 2". -/
def exNominal : Res (Subspace Int) := do
  let (_, s) ← (Subspace.create exEnv).invoke exEnv 0
  let (_, s) ← s.invoke exEnv 1
  let s ← s.filter exEnv 0 ⟨0, 1, true⟩ 4
  let (_, s) ← s.invoke exEnv 1
  let s ← s.filter exEnv 1 ⟨0, 1, true⟩ 1
  s.filter exEnv 1 ⟨0, 1, true⟩ 0

/-- **C59**, negation for nominal features with missing values: the filtered vector of a nominal feature keeps its missing values
after a condition `≠` on the feature has been added, so that they are subtracted a second time when the next such condition is added.
Here, no example is covered any more but the statistics of example 4 (10000) have been subtracted twice. -/
theorem missing_subtracted_twice : exNominal.map (fun s => ((List.range 6).map (fun e => s.mask.isCovered e), s.total)) =
    .ok (List.replicate 6 (.ok false), -10000) := by
  decide +kernel

/-- A dense numerical vector with the values 1, 2, 2, 3. -/
def exDense : Env Int :=
  { exEnv with column := fun _ => .numerical [(0, 1), (1, 2), (2, 2), (3, 3)] 0 false [] }

/-- Filtering the values 1, 2, 2, 3 by the condition `> 1.5` (the interval from position 1 on) yields the vector that stands for a
constant feature, although the values 2, 2, 3 remain: feature_vector_decorator_numerical.hpp:26 compares the element at `start` to the
one at `numFilteredElements - 1` rather than to the last one. Filtering by the mask that covers the same examples keeps them. -/
theorem interval_filter_loses_values :
    (exDense.column 0).filterInterval exDense.isEqual false ⟨1, 4, false⟩ = .ok .equal ∧
      (exDense.column 0).filterMask exDense.isEqual { array := [1, 0, 0, 0], indicatorValue := 0 } =
        .ok (.numerical [(1, 2), (2, 2), (3, 3)] 0 false []) := by
  decide +kernel

/-- The first condition, using the interval from position 1 on. -/
def exFirst : Res (Subspace Int) := do
  let (_, s) ← (Subspace.create exDense).invoke exDense 0
  s.filter exDense 0 ⟨1, 4, false⟩ 3

/-- As a consequence, a subspace and a copy of it (as made by the beam search) disagree: a further condition on the same feature can
be found and added in the copy, whose cache is empty, but adding the same conditions to the original subspace (as done when a rule is
pruned) ends with an exception. -/
theorem copy_differs_from_original :
    (exFirst >>= fun s => s.filter exDense 0 ⟨0, 2, false⟩ 2).map (fun s => s.numCovered) = .error .exception ∧
      (exFirst >>= fun s => s.copy.filter exDense 0 ⟨0, 2, false⟩ 2).map (fun s => s.numCovered) = .ok 2 := by
  decide +kernel

end MLRL.FeatureSpace
