import Verif.Lemma.Body

/-!
# C07, C09: conditions, condition lists and rule bodies
-/

namespace MLRL.Body

open Spec

/-- **C07.** After an arbitrary sequence of calls that add and remove conditions, which leaves the conditions `conds`, the
body that is created covers an example if and only if the example satisfies all conditions in `conds`. No undefined behaviour
occurs, provided that all features exist and values tested by ordinal and nominal conditions are not missing. -/
theorem covers_iff_all_conditions (calls : List Call) (conds : List Condition) (hs : stack calls [] = some conds)
    (hw : ∀ c ∈ conds, WellTyped c) (row : List FVal)
    (hf : ∀ c ∈ conds, ∃ v, row[c.featureIndex]? = some v ∧ Admissible v c) :
    ∃ l body covered, ConditionList.applyCalls calls .init = .ok l ∧ l.createConjunctiveBody = .ok body ∧
      body.coversDense row = .ok covered ∧
      (covered = true ↔ ∀ c ∈ conds, ∀ v, row[c.featureIndex]? = some v → holds v c) := by
  have h := ConditionList.applyCalls_spec calls .init ConditionList.consistent_init
  rw [show ConditionList.init.conditions = [] from rfl, hs] at h
  obtain ⟨l, h1, h2, h3⟩ := h
  obtain ⟨vs, h4, h5⟩ := createConjunctiveBody_spec h3 (by rw [h2]; exact hw)
  have hread : ∀ c ∈ conds, readAt row c.featureIndex = .ok ((row[c.featureIndex]?).getD none) := by
    intro c hc
    obtain ⟨v, e, _⟩ := hf c hc
    rw [readAt_of_getElem? e, e]; rfl
  obtain ⟨b, h6, h7⟩ := coversVectors_spec (fun f => readAt row f) (fun f => (row[f]?).getD none) conds hw hread (by
    intro c hc
    obtain ⟨v, e, ha⟩ := hf c hc
    simpa [e] using ha)
  refine ⟨l, _, b, h1, h4, ?_, ?_⟩
  · unfold coversDense
    simp only
    have : vs = entries conds := by funext k; rw [h5 k, h2]
    rw [this, h6]
  · rw [h7]
    constructor
    · intro h c hc v hv
      have := h c hc
      simpa [hv] using this
    · intro h c hc
      obtain ⟨v, e, _⟩ := hf c hc
      simpa [e] using h c hc v e

/-- Instance: three conditions are added, the last one is removed and replaced. -/
example : (do
    let l ← ConditionList.applyCalls [.add ⟨0, .numericalLeq, .float 2⟩, .add ⟨1, .nominalNeq, .int 1⟩,
      .add ⟨0, .numericalGr, .float 5⟩, .removeLast, .add ⟨0, .numericalGr, .float 1⟩] .init
    let body ← l.createConjunctiveBody
    let a ← body.coversDense [some (3 / 2), some 4]
    let b ← body.coversDense [some (3 / 2), some 1]
    let c ← body.coversDense [some 3, some 4]
    return (a, b, c) : Res _) = .ok (true, false, false) := by decide +kernel

/-- C07: an empty body covers everything. -/
theorem empty_covers (row : List FVal) : Body.empty.coversDense row = .ok true := rfl

/-- C07, negative part: at prediction time, an example whose value is missing is covered by each numerical `≤` condition
(but by no numerical `>` condition), although examples with missing values are never covered by a condition during training. -/
theorem missing_value_covered (t : Rat) :
    (do let body ← (ConditionList.init.addCondition ⟨0, .numericalLeq, .float t⟩).createConjunctiveBody
        body.coversDense [none] : Res Bool) = .ok true ∧
    (do let body ← (ConditionList.init.addCondition ⟨0, .numericalGr, .float t⟩).createConjunctiveBody
        body.coversDense [none] : Res Bool) = .ok false := ⟨rfl, rfl⟩

/-- C07, negative part: a missing value that is tested by an ordinal or nominal condition is converted to an integer, which
is undefined behaviour. -/
theorem missing_value_cast (k : Comparator) (hk : ¬ IsNumerical k) (t : Int) :
    (do let body ← (ConditionList.init.addCondition ⟨0, k, .int t⟩).createConjunctiveBody
        body.coversDense [none] : Res Bool) = .error .badCast := by
  cases k
  · exact absurd (Or.inl rfl) hk
  · exact absurd (Or.inr rfl) hk
  all_goals rfl

/-- **C09**, partial: a copy of a condition list contains the same conditions and yields the same body, if the numbers of `==`
and `≠` conditions coincide. Missing: all other lists, for which it is wrong, see `copy_neq_out_of_bounds` and
`copy_eq_uninitialised`. The full statement would be `l.copy.createConjunctiveBody = l.createConjunctiveBody` for each `l`
that results from a sequence of calls. -/
theorem copy_same_body_partial (l : ConditionList)
    (h : l.numPerComparator .nominalNeq = l.numPerComparator .nominalEq) :
    l.copy.conditions = l.conditions ∧ l.copy.createConjunctiveBody = l.createConjunctiveBody := by
  have : l.copy = l := by
    obtain ⟨cs, n⟩ := l
    unfold ConditionList.copy
    congr 1
    funext k
    cases k <;> first | rfl | exact h.symm
  rw [this]
  exact ⟨rfl, rfl⟩

/-- Such lists are obtained, for example, from data without nominal features. -/
theorem copy_without_nominal_partial (calls : List Call) (conds : List Condition) (hs : stack calls [] = some conds)
    (hn : ∀ c ∈ conds, c.comparator ≠ .nominalEq ∧ c.comparator ≠ .nominalNeq) :
    ∃ l, ConditionList.applyCalls calls .init = .ok l ∧ l.copy.createConjunctiveBody = l.createConjunctiveBody := by
  have h := ConditionList.applyCalls_spec calls .init ConditionList.consistent_init
  rw [show ConditionList.init.conditions = [] from rfl, hs] at h
  obtain ⟨l, h1, h2, h3⟩ := h
  refine ⟨l, h1, (copy_same_body_partial l ?_).2⟩
  rw [h3, h3, h2]
  rw [List.countP_eq_zero.2, List.countP_eq_zero.2]
  · intro c hc; simpa using (hn c hc).1
  · intro c hc; simpa using (hn c hc).2

example : ∃ l, ConditionList.applyCalls [.add ⟨0, .numericalLeq, .float 2⟩, .add ⟨1, .ordinalGr, .int 1⟩] .init = .ok l ∧
    l.copy.createConjunctiveBody = l.createConjunctiveBody :=
  copy_without_nominal_partial _ _ rfl (by simp)

/-- C09, negative part: creating a body from a copy of a list with a single `≠` condition writes outside of an array. -/
theorem copy_neq_out_of_bounds (f : Nat) (t : Int) :
    (ConditionList.init.addCondition ⟨f, .nominalNeq, .int t⟩).copy.createConjunctiveBody = .error .outOfBounds := rfl

/-- C09, negative part: the body created from a copy of a list with a single `==` condition contains an uninitialised `≠`
condition, which is read when it is applied to an example that satisfies the `==` condition. -/
theorem copy_eq_uninitialised :
    (do let body ← (ConditionList.init.addCondition ⟨0, .nominalEq, .int 1⟩).copy.createConjunctiveBody
        body.coversDense [some 1] : Res Bool) = .error .uninitialised := by decide +kernel

end MLRL.Body
