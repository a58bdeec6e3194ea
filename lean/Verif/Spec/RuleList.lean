import Verif.Model.RuleList

/-!
# Specification of rule lists in terms of the calls that have been made
-/

namespace MLRL.RuleList.Spec

variable {R : Type _}

/-- The rule a call adds, if it is a call of `addRule`. -/
def ruleOf : RuleListCall R → Option R
  | .addRule r => some r
  | _ => none

/-- The rule a call adds, if it is a call of `addDefaultRule`. -/
def defaultOf : RuleListCall R → Option R
  | .addDefaultRule r => some r
  | _ => none

/-- The number a call sets, if it is a call of `setNumUsedRules`. -/
def usedOf : RuleListCall R → Option Nat
  | .setNumUsedRules n => some n
  | _ => none

/-- The rules that have been added, in order. -/
def addedRules (calls : List (RuleListCall R)) : List R := calls.filterMap ruleOf

/-- The default rule that has been added last, if any. -/
def lastDefault (calls : List (RuleListCall R)) : Option R := (calls.filterMap defaultOf).getLast?

/-- The number of used rules that has been set last; `0` (no restriction) if it has never been set. -/
def lastUsed (calls : List (RuleListCall R)) : Nat := ((calls.filterMap usedOf).getLast?).getD 0

/-- All rules in the order in which they are visited. -/
def allRules (defaultFirst : Bool) (d : Option R) (rules : List R) : List R :=
  if defaultFirst then d.toList ++ rules else rules ++ d.toList

/-- What remains if only `k ≥ 1` rules may be used: the first `k` rules, except that a default rule at the end is always kept
and counts towards the limit. -/
def firstRules (defaultFirst : Bool) (d : Option R) (rules : List R) (k : Nat) : List R :=
  if defaultFirst then (d.toList ++ rules).take k else rules.take (k - d.toList.length) ++ d.toList

end MLRL.RuleList.Spec
