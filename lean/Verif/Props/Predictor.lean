import Verif.Lemma.Predictor
import Verif.Props.RuleList
import Verif.Props.Body

/-!
# C08, C10: score predictions for dense and sparse examples, incremental predictions
-/

namespace MLRL.Predictor

open Spec

variable {K : Type}

/-- The scores predicted for a dense example are the sums of what the rules that cover the example contribute; each rule is
applied exactly once. -/
theorem applyRulesDense_sum [AddCommMonoid K] (row : List FVal) (rules : List (Rule K)) (scores : List K)
    (covered : Rule K → Bool) (hc : ∀ r ∈ rules, r.body.coversDense row = .ok (covered r))
    (hf : ∀ r ∈ rules, HeadFits scores.length r.head) :
    ∃ s', applyRulesDense row rules scores = .ok s' ∧ s'.length = scores.length ∧
      ∀ j (x : K), scores[j]? = some x →
        s'[j]? = some (x + ((rules.filter covered).map (fun r => contribution j r.head)).sum) := by
  induction rules generalizing scores with
  | nil => exact ⟨scores, rfl, rfl, by intro j x hx; simp [hx]⟩
  | cons r rs ih =>
    obtain ⟨s1, h1, h2, h3⟩ := applyRuleDense_spec row r scores _ (hc r (by simp)) (hf r (by simp))
    obtain ⟨s2, h4, h5, h6⟩ := ih s1 (fun r hr => hc r (List.mem_cons_of_mem _ hr))
      (fun r hr => by rw [h2]; exact hf r (List.mem_cons_of_mem _ hr))
    refine ⟨s2, ?_, by rw [h5, h2], ?_⟩
    · unfold applyRulesDense
      rw [h1, ok_bind, h4]
    · intro j x hx
      rw [h6 j _ (h3 j x hx)]
      cases hb : covered r <;> simp [hb, add_assoc]

example : applyRulesDense [some 3] [⟨.empty, .complete [1, 2]⟩,
    ⟨.conjunctive (fun k => if k = .numericalLeq then [some (0, .float 2)] else []), .partial_ [(0, 5)]⟩,
    ⟨.conjunctive (fun k => if k = .numericalGr then [some (0, .float 2)] else []), .partial_ [(1, 5)]⟩] [(0 : Int), 0] =
    .ok [1, 7] := by decide +kernel

/-- **C08.** Applying a list of rules to a sparse example (with temporary arrays that are shared between the rules and whose
content is not reset) has the same result as applying it to the dense example it stands for. This includes the absence of
reads of uninitialised elements. The feature indices must be distinct and smaller than the number of features. -/
theorem applyRulesSparse_eq_dense [Add K] (numFeatures : Nat) (row : SparseRow) (sparseValue : FVal)
    (hnd : (row.map Prod.fst).Nodup) (hlt : ∀ p ∈ row, p.1 < numFeatures) (rules : List (Rule K)) (scores : List K) :
    applyRulesSparse numFeatures row sparseValue rules scores =
      applyRulesDense (Body.Spec.toDense numFeatures row sparseValue) rules scores := by
  unfold applyRulesSparse
  exact applyRulesSparseLoop_eq numFeatures row sparseValue hnd hlt rules scores _ 1 (by simp) (by simp) (by
    intro s hs
    have := List.eq_of_mem_replicate hs
    omega)

/-- **C08** for a single body and arbitrary content of the temporary arrays, as long as the value of `n` is new. -/
theorem coversSparse_eq_dense (numFeatures n : Nat) (row : SparseRow) (sparseValue : FVal) (t : TmpArrays) (body : Body)
    (hv : t.values.length = numFeatures) (hs : t.stamps.length = numFeatures) (hnd : (row.map Prod.fst).Nodup)
    (hlt : ∀ p ∈ row, p.1 < numFeatures) (hnew : n ∉ t.stamps) :
    (body.coversSparse row sparseValue t n).map Prod.fst =
      body.coversDense (Body.Spec.toDense numFeatures row sparseValue) := by
  obtain ⟨t', _, _, _, h⟩ := coversSparse_eq n numFeatures row sparseValue t body hv hs hnd hlt
    (fun s h e => hnew (e ▸ h))
  rw [h]
  cases body.coversDense (Body.Spec.toDense numFeatures row sparseValue) <;> rfl

example : applyRulesSparse 3 [(2, some 7), (0, some 1)] (some 0)
    [⟨.conjunctive (fun k => if k = .numericalLeq then [some (0, .float 2), some (1, .float 0)] else []), .complete [1, 2]⟩,
     ⟨.conjunctive (fun k => if k = .numericalGr then [some (1, .float 0)] else []), .complete [10, 20]⟩,
     ⟨.conjunctive (fun k => if k = .numericalGr then [some (2, .float 3)] else []), .partial_ [(1, 5)]⟩] [(0 : Int), 0] =
    .ok [1, 7] := by decide +kernel

/-- **C10.** Let `rules` be the used rules of a model (subject to a limit). After incremental steps of arbitrary sizes `steps`,
the predictions are those that result from applying the first `min (sum of steps) (number of rules)` rules once each, and
the remaining number of rules is reported correctly. `apply` is the (fault-free) effect of a rule on an example's scores. -/
theorem incremental_eq_prefix {R S : Type} (apply : R → S → Res S) (model : RuleList R) (maxRules : Nat) (rules : List R)
    (hr : model.usedToList maxRules = .ok rules) (row : S)
    (hok : ∀ k ≤ rules.length, ∃ s, (rules.take k).foldlM (fun s r => apply r s) row = .ok s) (steps : List Nat) :
    ∃ p, (Incremental.create model maxRules row).applyAll apply steps = .ok p ∧
      p.getNumNext = rules.length - min steps.sum rules.length ∧
      (rules.take (min steps.sum rules.length)).foldlM (fun s r => apply r s) row = .ok p.row := by
  have := Incremental.applyAll_spec apply rules row (model.usedCbegin maxRules) (model.usedCend maxRules) hr
    (by simp [RuleList.usedCbegin, RuleList.usedCend, RuleList.ConstIterator.create]) steps 0 row (Nat.zero_le _) rfl hok
  rw [Nat.zero_add] at this
  exact this

/-- One-shot prediction: all used rules, subject to a limit, are applied (predictor_score_common.hpp:192-203). -/
def oneShot {R S : Type} (apply : R → S → Res S) (model : RuleList R) (maxRules : Nat) (row : S) : Res S := do
  let rules ← model.usedToList maxRules
  rules.foldlM (fun s r => apply r s) row

/-- **C10.** For boosted models (default rule first), whatever calls have been made to build the model: after incremental steps
that apply at least one rule, the predictions are those of a one-shot prediction that is limited to the number of rules that
have been applied. -/
theorem incremental_eq_oneShot {R S : Type} (apply : R → S → Res S) (calls : List (RuleListCall R)) (maxRules : Nat)
    (hlen : (RuleList.Spec.addedRules calls).length + 1 < 2 ^ 32)
    (hused : RuleList.Spec.lastUsed calls ≤
      (RuleList.Spec.allRules true (RuleList.Spec.lastDefault calls) (RuleList.Spec.addedRules calls)).length) (row : S)
    (hok : ∀ k, ∃ s, ((RuleList.Spec.allRules true (RuleList.Spec.lastDefault calls)
      (RuleList.Spec.addedRules calls)).take k).foldlM (fun s r => apply r s) row = .ok s) (steps : List Nat) :
    let model := calls.foldl RuleListCall.apply (RuleList.init true)
    let all := RuleList.Spec.allRules true (RuleList.Spec.lastDefault calls) (RuleList.Spec.addedRules calls)
    let used := if RuleList.Spec.lastUsed calls = 0 then all.length else RuleList.Spec.lastUsed calls
    let total := if maxRules = 0 then used else min used maxRules
    let applied := min steps.sum total
    ∃ p, (Incremental.create model maxRules row).applyAll apply steps = .ok p ∧
      p.getNumNext = total - applied ∧ (1 ≤ applied → oneShot apply model applied row = .ok p.row) := by
  intro model all used total applied
  have h1 := RuleList.iterate_used true calls maxRules hlen hused
  have hu : used ≤ all.length := by
    show (if _ then _ else _) ≤ _
    split
    · exact Nat.le_refl _
    · exact hused
  have htot : total ≤ used := by
    show (if maxRules = 0 then used else min used maxRules) ≤ used
    split <;> omega
  have hall : RuleList.Spec.firstRules true (RuleList.Spec.lastDefault calls) (RuleList.Spec.addedRules calls) =
      fun k => all.take k := by
    funext k
    simp [RuleList.Spec.firstRules, all, RuleList.Spec.allRules]
  have h1' : model.usedToList maxRules = .ok (all.take total) := by
    have := h1
    rw [hall] at this
    exact this
  have hlenT : (all.take total).length = total := by rw [List.length_take]; omega
  obtain ⟨p, h2, h3, h4⟩ := incremental_eq_prefix apply model maxRules (all.take total) h1' row (by
    intro k hk
    rw [hlenT] at hk
    rw [List.take_take, Nat.min_eq_left hk]
    exact hok k) steps
  rw [hlenT] at h3 h4
  refine ⟨p, h2, h3, ?_⟩
  intro happ
  have h5 := RuleList.iterate_used true calls applied hlen hused
  rw [hall] at h5
  have h5' : model.usedToList applied = .ok (all.take (if applied = 0 then used else min used applied)) := h5
  have happle : applied ≤ total := Nat.min_le_right _ _
  have hne : applied ≠ 0 := by omega
  rw [if_neg hne, Nat.min_eq_right (by omega)] at h5'
  unfold oneShot
  rw [h5', ok_bind]
  rw [List.take_take] at h4
  have : min (min steps.sum total) total = applied := by
    show min (min steps.sum total) total = min steps.sum total
    omega
  rw [this] at h4
  exact h4

/-- Instance: five rules that add their number, four of which are used; steps of size 1, 0 and 2. -/
example : (do
    let p ← (Incremental.create ([.addDefaultRule 1, .addRule 10, .addRule 100, .addRule 1000, .addRule 10000,
        .setNumUsedRules 4].foldl RuleListCall.apply (RuleList.init true)) 0 0).applyAll
      (fun (r s : Nat) => .ok (s + r)) [1, 0, 2]
    return (p.row, p.getNumNext) : Res _) = .ok (111, 1) := by decide +kernel

end MLRL.Predictor
