import Verif.Spec.RuleList

namespace MLRL.RuleList

open Spec

variable {R : Type _}

theorem sub32_of_le {a b : Nat} (h : b ≤ a) (ha : a < 2 ^ 32) : sub32 a b = a - b := by
  unfold sub32
  rw [show a + 2 ^ 32 - b = (a - b) + 2 ^ 32 by omega, Nat.add_mod_right, Nat.mod_eq_of_lt (by omega)]

/-- Collecting from an iterator that yields the elements of a list. -/
theorem collect_eq (k : Nat) (it : ConstIterator R) (xs : List R) (hk : xs.length = k)
    (h : ∀ i (hi : i < xs.length), ConstIterator.deref { it with index := it.index + i } = .ok xs[i]) :
    collect k it = .ok xs := by
  induction k generalizing it xs with
  | zero => cases xs with
    | nil => rfl
    | cons _ _ => simp at hk
  | succ k ih =>
    cases xs with
    | nil => simp at hk
    | cons x xs =>
      have h0 := h 0 (by simp)
      have h1 := ih it.next xs (by simpa using hk) (by
        intro i hi
        have := h (i + 1) (by simpa using hi)
        rw [List.getElem_cons_succ] at this
        rw [← this]
        show ConstIterator.deref { it with index := it.index + 1 + i } = _
        rw [Nat.add_assoc, Nat.add_comm 1 i])
      unfold collect
      have h0' : it.deref = .ok x := h0
      rw [h0', ok_bind, h1, ok_bind, pure_eq_ok]

/-- Iterating up to position `k` yields the first `k` rules in the sense of the specification. -/
theorem iterate_eq (p : Bool) (d : Option R) (rules : List R) (k : Nat) (hk : k ≤ (allRules p d rules).length)
    (h1 : d.isSome → 1 ≤ k) (hlen : (allRules p d rules).length < 2 ^ 32) :
    iterate (.create p d rules 0 k) (.create p d rules k k) = .ok (firstRules p d rules k) := by
  unfold iterate
  apply collect_eq
  · cases p <;> cases d <;> simp_all [firstRules, allRules, ConstIterator.create]
  · intro i hi
    cases d with
    | none =>
      have hi' : i < min k rules.length := by cases p <;> simpa [firstRules] using hi
      have hk' : k ≤ rules.length := by cases p <;> simpa [allRules] using hk
      have hl' : rules.length < 2 ^ 32 := by cases p <;> simpa [allRules] using hlen
      have e : ConstIterator.deref { ConstIterator.create p none rules 0 k with
          index := (ConstIterator.create p none rules 0 k).index + i } = readAt rules i := by
        unfold ConstIterator.deref
        have : (0 + i : Nat) ≠ k := by omega
        cases p <;> simp [ConstIterator.create, sub32_of_le (Nat.zero_le k) (by omega : k < 2 ^ 32),
          sub32_of_le (Nat.zero_le i) (by omega : i < 2 ^ 32)] <;> intro h <;> omega
      rw [e, readAt_of_lt (by omega : i < rules.length)]
      cases p <;> simp [firstRules]
    | some r =>
      have h1' : 1 ≤ k := h1 rfl
      have hk' : k ≤ rules.length + 1 := by cases p <;> simpa [allRules] using hk
      have hl' : rules.length + 1 < 2 ^ 32 := by cases p <;> simpa [allRules] using hlen
      cases p with
      | true =>
        have hi' : i < k := by
          simp only [firstRules, if_true, List.length_take] at hi; omega
        have hi'' : i < rules.length + 1 := by omega
        unfold ConstIterator.deref
        cases i with
        | zero => simp [ConstIterator.create, firstRules]
        | succ i =>
          simp only [ConstIterator.create, Option.isSome_some, Bool.and_self, if_true, Nat.zero_add, Nat.lt_add_one,
            gt_iff_lt, Nat.succ_ne_zero, if_false]
          rw [sub32_of_le (by omega) (by omega), Nat.add_sub_cancel, readAt_of_lt (by omega : i < rules.length)]
          simp [firstRules]
      | false =>
        have hi' : i < k := by
          simp only [firstRules, Bool.false_eq_true, if_false, List.length_append, List.length_take, Option.toList_some,
            List.length_singleton] at hi
          omega
        unfold ConstIterator.deref
        simp only [ConstIterator.create, Option.isSome_some, Bool.and_true, Bool.false_eq_true, if_false, if_true,
          Nat.zero_add, gt_iff_lt, Nat.lt_irrefl]
        rw [sub32_of_le h1' (by omega)]
        by_cases hik : i = k - 1
        · subst hik
          simp only [if_true]
          have : (firstRules false (some r) rules k)[k - 1]? = some r := by
            simp only [firstRules, Bool.false_eq_true, if_false, Option.toList_some, List.length_singleton]
            rw [List.getElem?_append_right (by simp; omega)]
            rw [List.length_take, show k - 1 - min (k - 1) rules.length = 0 by omega]
            rfl
          rw [List.getElem?_eq_getElem hi] at this
          simp only [Option.some.injEq] at this
          rw [this]
        · simp only [hik, if_false]
          rw [sub32_of_le (by omega) (by omega), Nat.sub_zero, readAt_of_lt (by omega : i < rules.length)]
          have : (firstRules false (some r) rules k)[i]? = some rules[i] := by
            simp only [firstRules, Bool.false_eq_true, if_false, Option.toList_some, List.length_singleton]
            rw [List.getElem?_append_left (by rw [List.length_take]; omega), List.getElem?_take_of_lt (by omega),
              List.getElem?_eq_getElem (by omega)]
          rw [List.getElem?_eq_getElem hi] at this
          simp only [Option.some.injEq] at this
          rw [this]

/-- The fields of a rule list after a history of calls. -/
theorem foldl_apply (calls : List (RuleListCall R)) (l : RuleList R) :
    calls.foldl RuleListCall.apply l =
      { defaultRuleTakesPrecedence := l.defaultRuleTakesPrecedence,
        defaultRule := (lastDefault calls).or l.defaultRule,
        rules := l.rules ++ addedRules calls,
        numUsedRules := ((calls.filterMap usedOf).getLast?).getD
          l.numUsedRules } := by
  induction calls generalizing l with
  | nil => simp [lastDefault, addedRules]
  | cons c calls ih =>
    rw [List.foldl_cons, ih]
    cases c with
    | addDefaultRule r =>
      simp only [RuleListCall.apply, addDefaultRule, lastDefault, addedRules, List.filterMap_cons, List.getLast?_cons, ruleOf, defaultOf, usedOf]
      congr 1
      cases (calls.filterMap defaultOf).getLast? <;> rfl
    | addRule r =>
      simp [RuleListCall.apply, addRule, lastDefault, addedRules, List.filterMap_cons, ruleOf, defaultOf, usedOf]
    | setNumUsedRules n =>
      simp only [RuleListCall.apply, setNumUsedRules, lastDefault, addedRules, List.filterMap_cons, List.getLast?_cons, ruleOf, defaultOf, usedOf]
      congr 1

end MLRL.RuleList
