import Verif.Lemma.RuleList

/-!
# C06, C52: rule lists
-/

namespace MLRL.RuleList

open Spec

variable {R : Type _}

/-- **C06.** After an arbitrary sequence of calls on a new rule list (fewer than `2^32` rules), iterating over all rules
yields every added rule exactly once, in the order of addition, with the default rule (if there is one) first or last as
requested at construction, and `getNumRules` is the length of this sequence. -/
theorem iterate_all (defaultFirst : Bool) (calls : List (RuleListCall R))
    (hlen : (addedRules calls).length + 1 < 2 ^ 32) :
    let l := calls.foldl RuleListCall.apply (init defaultFirst)
    l.toList 0 = .ok (allRules defaultFirst (lastDefault calls) (addedRules calls)) ∧
      l.getNumRules = (allRules defaultFirst (lastDefault calls) (addedRules calls)).length := by
  intro l
  have hl : l = _ := foldl_apply calls (init defaultFirst)
  simp only [init, Option.or_none, List.nil_append] at hl
  have hn : l.getNumRules = (allRules defaultFirst (lastDefault calls) (addedRules calls)).length := by
    rw [hl]; unfold getNumRules allRules
    cases defaultFirst <;> cases lastDefault calls <;> simp [Nat.add_comm]
  refine ⟨?_, hn⟩
  have h32 : (allRules defaultFirst (lastDefault calls) (addedRules calls)).length < 2 ^ 32 := by
    unfold allRules
    cases defaultFirst <;> cases lastDefault calls <;> simp <;> omega
  unfold toList cbegin cend limit
  rw [hn]
  rw [hl]
  simp only [gt_iff_lt, Nat.lt_irrefl, if_false]
  rw [iterate_eq _ _ _ _ (Nat.le_refl _) _ h32]
  · unfold firstRules allRules
    cases defaultFirst <;> cases lastDefault calls <;> simp
  · intro hd
    unfold allRules
    cases hdd : lastDefault calls with
    | none => rw [hdd] at hd; simp at hd
    | some r => cases defaultFirst <;> simp

/-- **C06.** Let `n` be the number of used rules that has been set last (`0`: all rules), which must not exceed the number of
rules, and let `limit` be a limit (`0`: no limit). Iterating over the used rules yields the first
`min n limit` rules, where a default rule at the end is always kept and counts towards this number. In particular, no access
is out of bounds. -/
theorem iterate_used (defaultFirst : Bool) (calls : List (RuleListCall R)) (limit : Nat)
    (hlen : (addedRules calls).length + 1 < 2 ^ 32)
    (hused : lastUsed calls ≤ (allRules defaultFirst (lastDefault calls) (addedRules calls)).length) :
    let all := allRules defaultFirst (lastDefault calls) (addedRules calls)
    let used := if lastUsed calls = 0 then all.length else lastUsed calls
    let k := if limit = 0 then used else min used limit
    (calls.foldl RuleListCall.apply (init defaultFirst)).usedToList limit =
      .ok (firstRules defaultFirst (lastDefault calls) (addedRules calls) k) := by
  intro all used k
  have hl := foldl_apply calls (init defaultFirst)
  simp only [init, Option.or_none, List.nil_append] at hl
  obtain ⟨_, hn⟩ := iterate_all defaultFirst calls hlen
  simp only [init] at hn
  have hg : (calls.foldl RuleListCall.apply (init defaultFirst)).getNumUsedRules = used := by
    have hu : (calls.foldl RuleListCall.apply (init defaultFirst)).numUsedRules = lastUsed calls := by
      simp only [init]; rw [hl]; rfl
    unfold getNumUsedRules
    rw [hu]
    simp only [init]
    rw [hn]
    show _ = if lastUsed calls = 0 then all.length else lastUsed calls
    by_cases h0 : lastUsed calls = 0
    · simp [h0, all]
    · have : lastUsed calls > 0 := by omega
      simp [h0, this]
  have h32 : all.length < 2 ^ 32 := by
    show (allRules _ _ _).length < _
    unfold allRules
    cases defaultFirst <;> cases lastDefault calls <;> simp <;> omega
  have hk : RuleList.limit used limit = k := by
    show _ = if limit = 0 then used else min used limit
    unfold RuleList.limit
    by_cases h0 : limit = 0
    · simp [h0]
    · have : limit > 0 := by omega
      simp [h0, this]
  have hone : (lastDefault calls).isSome → 1 ≤ all.length := by
    intro hd
    show 1 ≤ (allRules _ _ _).length
    unfold allRules
    cases hdd : lastDefault calls with
    | none => rw [hdd] at hd; simp at hd
    | some r => cases defaultFirst <;> simp
  have hused' : used ≤ all.length := by
    show (if _ then _ else _) ≤ _
    split
    · exact Nat.le_refl _
    · exact hused
  unfold usedToList usedCbegin usedCend
  rw [hg, hk]
  simp only [init]
  rw [hl]
  simp only
  refine iterate_eq _ _ _ _ ?_ ?_ h32
  · show (if _ then _ else _) ≤ _
    split
    · exact hused'
    · exact Nat.le_trans (Nat.min_le_left _ _) hused'
  · intro hd
    have := hone hd
    have hu1 : 1 ≤ used := by
      show 1 ≤ (if _ then _ else _)
      split <;> omega
    show 1 ≤ (if limit = 0 then used else min used limit)
    split <;> omega

/-- Instance: a default rule `0` at the end, rules `1, 2, 3`, three used rules. -/
example : ([.addRule 1, .addDefaultRule 0, .addRule 2, .setNumUsedRules 3, .addRule 3].foldl RuleListCall.apply
    (init false)).usedToList 0 = .ok [1, 2, 0] := by decide +kernel

example : ([.addRule 1, .addDefaultRule 0, .addRule 2, .setNumUsedRules 3, .addRule 3].foldl RuleListCall.apply
    (init true)).usedToList 2 = .ok [0, 1] := by decide +kernel

/-- C06, negative part: nothing prevents the number of used rules from being set to more than the number of rules, in which
case iterating over the used rules leaves the vector of rules. -/
theorem iterate_used_too_many :
    ([.addRule 7, .setNumUsedRules 2].foldl RuleListCall.apply (init true)).usedToList 0 = .error .outOfBounds := by
  decide +kernel

end MLRL.RuleList

namespace MLRL.IntermediateModelBuilder

open RuleList.Spec

variable {R : Type _}

/-- The list that is built contains what has been collected. -/
theorem buildModel_eq (p : Bool) (b : IntermediateModelBuilder R) :
    b.buildModel p = (⟨p, b.defaultRule, b.rules, b.numUsedRules⟩ : RuleList R) := by
  have h : ∀ (rules : List R) (l : RuleList R), rules.foldl (fun l r => l.addRule r) l =
      { l with rules := l.rules ++ rules } := by
    intro rules
    induction rules with
    | nil => intro l; simp
    | cons r rs ih => intro l; rw [List.foldl_cons, ih]; simp [RuleList.addRule]
  unfold buildModel
  cases p <;> cases hd : b.defaultRule <;>
    simp [h, RuleList.init, RuleList.setNumUsedRules, RuleList.addDefaultRule]

theorem filterMap_const_none {α β : Type _} (l : List α) : l.filterMap (fun _ => (none : Option β)) = [] := by
  induction l with
  | nil => rfl
  | cons a l ih => simp

/-- The same as a sequence of calls. -/
theorem usedToList_eq (p : Bool) (b : IntermediateModelBuilder R) (limit : Nat) (hlen : b.rules.length + 1 < 2 ^ 32)
    (hused : b.numUsedRules ≤ b.getNumRules) :
    (b.buildModel p).usedToList limit = .ok (firstRules p b.defaultRule b.rules
      (let used := if b.numUsedRules = 0 then b.getNumRules else b.numUsedRules
       if limit = 0 then used else min used limit)) := by
  have key := RuleList.iterate_used p
    ((b.defaultRule.toList.map RuleListCall.addDefaultRule) ++ b.rules.map RuleListCall.addRule ++
      [RuleListCall.setNumUsedRules b.numUsedRules]) limit
  have h1 : addedRules ((b.defaultRule.toList.map RuleListCall.addDefaultRule) ++ b.rules.map RuleListCall.addRule ++
      [RuleListCall.setNumUsedRules b.numUsedRules]) = b.rules := by
    unfold addedRules
    cases b.defaultRule <;> simp [List.filterMap_append, List.filterMap_map, Function.comp_def, ruleOf, defaultOf, usedOf,
      List.filterMap_cons, filterMap_const_none]
  have h2 : lastDefault ((b.defaultRule.toList.map RuleListCall.addDefaultRule) ++ b.rules.map RuleListCall.addRule ++
      [RuleListCall.setNumUsedRules b.numUsedRules]) = b.defaultRule := by
    unfold lastDefault
    cases b.defaultRule <;> simp [List.filterMap_append, List.filterMap_map, Function.comp_def, ruleOf, defaultOf, usedOf,
      List.filterMap_cons, filterMap_const_none]
  have h3 : lastUsed ((b.defaultRule.toList.map RuleListCall.addDefaultRule) ++ b.rules.map RuleListCall.addRule ++
      [RuleListCall.setNumUsedRules b.numUsedRules]) = b.numUsedRules := by
    unfold lastUsed
    cases b.defaultRule <;> simp [List.filterMap_append, List.filterMap_map, Function.comp_def, ruleOf, defaultOf, usedOf,
      List.filterMap_cons, filterMap_const_none]
  have h4 : (allRules p b.defaultRule b.rules).length = b.getNumRules := by
    unfold allRules getNumRules
    cases p <;> cases b.defaultRule <;> simp [Nat.add_comm]
  simp only [h1, h2, h3, h4] at key
  have e : b.buildModel p = List.foldl RuleListCall.apply (RuleList.init p)
      ((b.defaultRule.toList.map RuleListCall.addDefaultRule) ++ b.rules.map RuleListCall.addRule ++
      [RuleListCall.setNumUsedRules b.numUsedRules]) := by
    rw [RuleList.foldl_apply, h1, h2, buildModel_eq]
    simp only [RuleList.init, Option.or_none, List.nil_append]
    have h3' := h3
    unfold lastUsed at h3'
    rw [h3']
  rw [e]
  have := key hlen hused
  exact this

/-- The loop removes the last rules until the desired number of rules is left. -/
theorem removeLoop_eq (n : Nat) : ∀ (fuel : Nat) (b : IntermediateModelBuilder R), b.rules.length < fuel →
    (if b.defaultRule.isSome then 1 else 0) ≤ n →
    removeLoop n fuel b = some (.ok { b with rules := b.rules.take (n - (if b.defaultRule.isSome then 1 else 0)) })
  | 0, b, h, _ => by omega
  | fuel + 1, b, h, hn => by
    unfold removeLoop
    by_cases hgt : b.getNumRules > n
    · have hne : b.rules ≠ [] := by
        intro e
        unfold getNumRules at hgt
        rw [e] at hgt
        simp only [List.length_nil, Nat.zero_add] at hgt
        omega
      have hpos : 0 < b.rules.length := List.length_pos_iff.2 hne
      simp only [hgt, if_true]
      rw [show b.removeLastRule = .ok { b with rules := b.rules.dropLast } by simp [removeLastRule, hne]]
      simp only
      rw [removeLoop_eq n fuel _ (by simp; omega) (by simpa using hn)]
      have : b.rules.dropLast.take (n - (if b.defaultRule.isSome then 1 else 0)) =
          b.rules.take (n - (if b.defaultRule.isSome then 1 else 0)) := by
        rw [List.dropLast_eq_take, List.take_take]
        congr 1
        unfold getNumRules at hgt
        omega
      simp only [this]
    · simp only [hgt, if_false]
      have : b.rules.take (n - (if b.defaultRule.isSome then 1 else 0)) = b.rules := by
        apply List.take_of_length_le
        unfold getNumRules at hgt
        omega
      rw [this]

/-- **C52.** Removing unused rules terminates without undefined behaviour, leaves the sequence of rules that are used for
prediction unchanged (for both kinds of models and for every limit on the number of rules), and afterwards all rules are
used. `hused` is ensured by `Stopping.induceRules_used_le`. -/
theorem removeUnusedRules_keeps_used (b : IntermediateModelBuilder R) (hlen : b.rules.length + 1 < 2 ^ 32)
    (hused : b.numUsedRules ≤ b.getNumRules) (fuel : Nat) (hfuel : b.rules.length < fuel) :
    ∃ b', b.removeUnusedRules fuel = some (.ok b') ∧
      (∀ p limit, (b'.buildModel p).usedToList limit = (b.buildModel p).usedToList limit) ∧
      (∀ p, (b'.buildModel p).usedToList 0 = (b'.buildModel p).toList 0) := by
  have tl : ∀ (b : IntermediateModelBuilder R) (p : Bool), b.numUsedRules = 0 →
      (b.buildModel p).usedToList 0 = (b.buildModel p).toList 0 := by
    intro b p h
    rw [buildModel_eq]
    unfold RuleList.usedToList RuleList.toList RuleList.usedCbegin RuleList.usedCend RuleList.cbegin RuleList.cend
      RuleList.getNumUsedRules
    simp [h]
  unfold removeUnusedRules
  by_cases h0 : b.numUsedRules > 0
  · simp only [h0, if_true]
    have hd : (if b.defaultRule.isSome then 1 else 0) ≤ b.numUsedRules := by split <;> omega
    rw [removeLoop_eq b.numUsedRules fuel b hfuel hd]
    refine ⟨_, rfl, ?_, fun p => tl _ p rfl⟩
    intro p limit
    have hnum : getNumRules { b with rules := b.rules.take (b.numUsedRules - (if b.defaultRule.isSome then 1 else 0)) } =
        b.numUsedRules := by
      unfold getNumRules at hused ⊢
      simp only [List.length_take]
      omega
    rw [usedToList_eq p b limit hlen hused, usedToList_eq p _ limit (by simp only [List.length_take]; omega)
      (Nat.zero_le _)]
    have hne : b.numUsedRules ≠ 0 := by omega
    have hg : getNumRules (⟨b.defaultRule, b.rules.take
        (b.numUsedRules - (if b.defaultRule.isSome then 1 else 0)), 0⟩ : IntermediateModelBuilder R) =
        b.numUsedRules := hnum
    simp only [hg, hne, if_true, if_false]
    congr 1
    generalize hk : (if limit = 0 then b.numUsedRules else min b.numUsedRules limit) = k
    have hkle : k ≤ b.numUsedRules := by rw [← hk]; split <;> omega
    unfold firstRules
    cases p with
    | true =>
      cases hdr : b.defaultRule with
      | none => simp [List.take_take]; omega
      | some r =>
        simp only [if_true, Option.toList_some, Option.isSome_some, List.singleton_append]
        cases k with
        | zero => simp
        | succ k => simp [List.take_take]; omega
    | false =>
      simp only [Bool.false_eq_true, if_false]
      congr 1
      rw [List.take_take]
      congr 1
      cases hdr : b.defaultRule <;> simp <;> omega
  · simp only [h0, if_false]
    exact ⟨b, rfl, fun _ _ => rfl, fun p => tl b p (by omega)⟩

example : ({ defaultRule := some 0, rules := [1, 2, 3, 4], numUsedRules := 3 } : IntermediateModelBuilder Nat).removeUnusedRules 9
    = some (.ok { defaultRule := some 0, rules := [1, 2], numUsedRules := 0 }) := rfl

end MLRL.IntermediateModelBuilder
