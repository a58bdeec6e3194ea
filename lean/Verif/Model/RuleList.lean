import Verif.Base

/-!
# Model of rule lists, their iterators and their construction

Sources: `common/src/mlrl/common/model/rule_list.cpp`, `boosting/src/mlrl/boosting/model/rule_list_builder.cpp`,
`seco/src/mlrl/seco/model/decision_list_builder.cpp`,
`common/src/mlrl/common/post_optimization/model_builder_intermediate.cpp`,
`common/src/mlrl/common/post_optimization/post_optimization_unused_rule_removal.cpp`.

`R` is the type of rules (body and head).
-/

namespace MLRL

/-- Subtraction of `uint32` values. -/
def sub32 (a b : Nat) : Nat := (a + 2 ^ 32 - b) % 2 ^ 32

/-- Fields of `RuleList`, rule_list.hpp; `none` is the null pointer. -/
structure RuleList (R : Type _) where
  defaultRuleTakesPrecedence : Bool
  defaultRule : Option R
  rules : List R
  numUsedRules : Nat

namespace RuleList

variable {R : Type _}

/-- Fields of `RuleList::ConstIterator`. `rules` is what the iterator of the underlying vector points to. -/
structure ConstIterator (R : Type _) where
  defaultRule : Option R
  rules : List R
  offset : Nat
  defaultRuleIndex : Nat
  index : Nat

/-- Constructor of the iterator, rule_list.cpp:28-32. -/
def ConstIterator.create (defaultRuleTakesPrecedence : Bool) (defaultRule : Option R) (rules : List R)
    (start end_ : Nat) : ConstIterator R :=
  let offset := if defaultRuleTakesPrecedence && defaultRule.isSome then 1 else 0
  { defaultRule := defaultRule, rules := rules, offset := offset,
    defaultRuleIndex := if offset > 0 then 0 else sub32 end_ (if defaultRule.isSome then 1 else 0), index := start }

/-- `operator*`, rule_list.cpp:34-42. Dereferencing the null pointer is reported as an access out of bounds. -/
def ConstIterator.deref (it : ConstIterator R) : Res R :=
  if it.index = it.defaultRuleIndex then
    match it.defaultRule with
    | some r => .ok r
    | none => .error .outOfBounds
  else readAt it.rules (sub32 it.index it.offset)

/-- `operator++`, rule_list.cpp:44-52. -/
def ConstIterator.next (it : ConstIterator R) : ConstIterator R := { it with index := it.index + 1 }

/-- `operator+`, rule_list.cpp:54-63. -/
def ConstIterator.add (it : ConstIterator R) (difference : Nat) : ConstIterator R :=
  { it with index := it.index + difference }

/-- `for (; it != end; it++) visit(*it)` (e.g. rule_list.cpp:137-140), for an iterator `end` that is `count` steps ahead. -/
def collect : (count : Nat) → ConstIterator R → Res (List R)
  | 0, _ => .ok []
  | k + 1, it => do
    let r ← it.deref
    let rs ← collect k it.next
    return r :: rs

/-- Constructor, rule_list.cpp:77-78. -/
def init (defaultRuleTakesPrecedence : Bool) : RuleList R :=
  { defaultRuleTakesPrecedence := defaultRuleTakesPrecedence, defaultRule := none, rules := [], numUsedRules := 0 }

/-- `getNumRules`, rule_list.cpp:100-108. -/
def getNumRules (l : RuleList R) : Nat := l.rules.length + (if l.defaultRule.isSome then 1 else 0)

/-- `getNumUsedRules`, rule_list.cpp:110-112. -/
def getNumUsedRules (l : RuleList R) : Nat := if l.numUsedRules > 0 then l.numUsedRules else l.getNumRules

/-- `setNumUsedRules`, rule_list.cpp:114-116. -/
def setNumUsedRules (l : RuleList R) (numUsedRules : Nat) : RuleList R := { l with numUsedRules := numUsedRules }

/-- `addDefaultRule`, rule_list.cpp:118-120. -/
def addDefaultRule (l : RuleList R) (r : R) : RuleList R := { l with defaultRule := some r }

/-- `addRule`, rule_list.cpp:122-124. -/
def addRule (l : RuleList R) (r : R) : RuleList R := { l with rules := l.rules ++ [r] }

/-- The number of rules `cbegin` and `cend` agree on, rule_list.cpp:81 and 86. -/
def limit (numRules maxRules : Nat) : Nat := if maxRules > 0 then min numRules maxRules else numRules

/-- `cbegin`, rule_list.cpp:80-83. -/
def cbegin (l : RuleList R) (maxRules : Nat) : ConstIterator R :=
  .create l.defaultRuleTakesPrecedence l.defaultRule l.rules 0 (limit l.getNumRules maxRules)

/-- `cend`, rule_list.cpp:85-88. -/
def cend (l : RuleList R) (maxRules : Nat) : ConstIterator R :=
  .create l.defaultRuleTakesPrecedence l.defaultRule l.rules (limit l.getNumRules maxRules) (limit l.getNumRules maxRules)

/-- `used_cbegin`, rule_list.cpp:90-93. -/
def usedCbegin (l : RuleList R) (maxRules : Nat) : ConstIterator R :=
  .create l.defaultRuleTakesPrecedence l.defaultRule l.rules 0 (limit l.getNumUsedRules maxRules)

/-- `used_cend`, rule_list.cpp:95-98. -/
def usedCend (l : RuleList R) (maxRules : Nat) : ConstIterator R :=
  .create l.defaultRuleTakesPrecedence l.defaultRule l.rules (limit l.getNumUsedRules maxRules)
    (limit l.getNumUsedRules maxRules)

/-- Iterating from `begin` to `end`; the distance is `end - begin` (rule_list.cpp:73-75). -/
def iterate (begin_ end_ : ConstIterator R) : Res (List R) := collect (end_.index - begin_.index) begin_

/-- Iterating over all rules, `cbegin(maxRules)` to `cend(maxRules)`. -/
def toList (l : RuleList R) (maxRules : Nat) : Res (List R) := iterate (l.cbegin maxRules) (l.cend maxRules)

/-- Iterating over the used rules, `used_cbegin(maxRules)` to `used_cend(maxRules)`. -/
def usedToList (l : RuleList R) (maxRules : Nat) : Res (List R) := iterate (l.usedCbegin maxRules) (l.usedCend maxRules)

end RuleList

/-- The calls that modify a rule list. -/
inductive RuleListCall (R : Type _) where
  | addDefaultRule (r : R)
  | addRule (r : R)
  | setNumUsedRules (n : Nat)

/-- Effect of a call. -/
def RuleListCall.apply {R : Type _} (l : RuleList R) : RuleListCall R → RuleList R
  | .addDefaultRule r => l.addDefaultRule r
  | .addRule r => l.addRule r
  | .setNumUsedRules n => l.setNumUsedRules n

/-- `IntermediateModelBuilder`, model_builder_intermediate.cpp: a list of rules, an optional default rule and the number of
used rules. -/
structure IntermediateModelBuilder (R : Type _) where
  defaultRule : Option R
  rules : List R
  numUsedRules : Nat

namespace IntermediateModelBuilder

variable {R : Type _}

/-- `getNumRules`, model_builder_intermediate.cpp:27-35. -/
def getNumRules (b : IntermediateModelBuilder R) : Nat := b.rules.length + (if b.defaultRule.isSome then 1 else 0)

/-- `removeLastRule`, model_builder_intermediate.cpp:23-25; `pop_back` of an empty vector is undefined behaviour. -/
def removeLastRule (b : IntermediateModelBuilder R) : Res (IntermediateModelBuilder R) :=
  if b.rules = [] then .error .outOfBounds else .ok { b with rules := b.rules.dropLast }

/-- The loop in `UnusedRuleRemoval::optimizeModel`, post_optimization_unused_rule_removal.cpp:24-26. `none` means that the
given number of iterations did not suffice. -/
def removeLoop (numUsedRules : Nat) : (fuel : Nat) → IntermediateModelBuilder R → Option (Res (IntermediateModelBuilder R))
  | 0, _ => none
  | fuel + 1, b =>
    if b.getNumRules > numUsedRules then
      match b.removeLastRule with
      | .error e => some (.error e)
      | .ok b' => removeLoop numUsedRules fuel b'
    else some (.ok b)

/-- `UnusedRuleRemoval::optimizeModel`, post_optimization_unused_rule_removal.cpp:19-30. -/
def removeUnusedRules (fuel : Nat) (b : IntermediateModelBuilder R) : Option (Res (IntermediateModelBuilder R)) :=
  if b.numUsedRules > 0 then
    match removeLoop b.numUsedRules fuel b with
    | none => none
    | some (.error e) => some (.error e)
    | some (.ok b') => some (.ok { b' with numUsedRules := 0 })
  else some (.ok b)

/-- `buildModel`, model_builder_intermediate.cpp:45-59, together with the builders it forwards to: rule_list_builder.cpp:17-46
(`defaultRuleTakesPrecedence = true`), decision_list_builder.cpp:20-53 (`false`; there, the default rule is only added at the
end). -/
def buildModel (defaultRuleTakesPrecedence : Bool) (b : IntermediateModelBuilder R) : RuleList R :=
  let l : RuleList R := .init defaultRuleTakesPrecedence
  let addDefault (l : RuleList R) : RuleList R := match b.defaultRule with
    | some r => l.addDefaultRule r
    | none => l
  let l := if defaultRuleTakesPrecedence then addDefault l else l
  let l := b.rules.foldl (fun l r => l.addRule r) l
  let l := l.setNumUsedRules b.numUsedRules
  if defaultRuleTakesPrecedence then l else addDefault l

end IntermediateModelBuilder

end MLRL
