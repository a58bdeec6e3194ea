import Verif.Model.ModelOutput
import Mathlib.Data.List.Basic
import Mathlib.Data.List.Induction
import Mathlib.Algebra.BigOperators.Group.List.Basic
import Mathlib.Tactic.FieldSimp
import Mathlib.Tactic.Linarith
import Mathlib.Tactic.Push
import Mathlib.Tactic.NormNum

/-!
# Lemmas about characteristics and textual representations of rule models
-/

namespace MLRL.ModelOutput

/-! ## Specification -/

/-- Whether a rule is a default rule (specification). -/
def Rule.isDefault (r : Rule) : Bool :=
  match r.body with
  | .empty => true
  | .conjunctive _ => false

/-- Conditions, where `None` means that there are none (specification). -/
def Conditions.list : Conditions → List (Nat × Threshold)
  | none => []
  | some cs => cs

/-- The number of conditions of each type (specification). -/
def Body.counts : Body → Counts
  | .empty => ⟨0, 0, 0, 0, 0, 0⟩
  | .conjunctive b =>
    ⟨b.numericalLeq.list.length, b.numericalGr.list.length, b.ordinalLeq.list.length, b.ordinalGr.list.length,
      b.nominalEq.list.length, b.nominalNeq.list.length⟩

/-- The number of positive scores and the number of other scores (specification). -/
def Head.counts (h : Head) : Nat × Nat :=
  ((h.scores.filter fun s => decide (0 < s)).length, (h.scores.filter fun s => decide (s ≤ 0)).length)

theorem numConditions_eq (c : Conditions) : numConditions c = c.list.length := by cases c <;> rfl

theorem head_counts_eq (h : Head) :
    h.counts = (h.scores.countP (fun s => decide (s > 0)), h.scores.length - h.scores.countP fun s => decide (s > 0)) := by
  unfold Head.counts
  have h1 : (h.scores.filter fun s => decide (0 < s)).length = h.scores.countP fun s => decide (s > 0) := by
    rw [List.countP_eq_length_filter]
  have h2 : h.scores.length = h.scores.countP (fun s => decide (s > 0)) + h.scores.countP fun s => decide (s ≤ 0) := by
    induction h.scores with
    | nil => rfl
    | cons a l ih =>
      rw [List.length_cons, List.countP_cons, List.countP_cons, ih]
      by_cases ha : a > 0
      · have : ¬ a ≤ 0 := not_le.2 ha
        rw [if_pos (decide_eq_true ha), if_neg (by simpa using this)]; omega
      · have : a ≤ 0 := not_lt.1 ha
        rw [if_neg (by simpa using this), if_pos (decide_eq_true this)]; omega
  rw [h1, ← List.countP_eq_length_filter]
  congr 1
  omega

/-- The rules that are not default rules. -/
def locals (rules : List Rule) : List Rule := rules.filter fun r => !r.isDefault

theorem locals_snoc (rules : List Rule) (r : Rule) :
    locals (rules ++ [r]) = if r.isDefault then locals rules else locals rules ++ [r] := by
  unfold locals
  rw [List.filter_append]
  cases h : r.isDefault <;> simp [h]

theorem visit_append (v : Visitor) (a b : List Rule) : v.visit (a ++ b) = (v.visit a).visit b := by
  induction a generalizing v with
  | nil => rfl
  | cons r a ih => exact ih _

theorem visitHead_local (v : Visitor) (h : Head) (hne : some v.index ≠ v.defaultRuleIndex) :
    v.visitHead h = { v with predictions := v.predictions ++ [h.counts] } := by
  unfold Visitor.visitHead
  simp only [if_neg hne, head_counts_eq]

/-- What is known about the visitor after some rules have been visited. -/
structure Inv (rules : List Rule) (v : Visitor) : Prop where
  index : v.index = (rules.length : Int) - 1
  conditions : v.conditions = (locals rules).map fun r => r.body.counts
  predictions : v.predictions = (locals rules).map fun r => r.head.counts
  default : (v.defaultRuleIndex = none ∧ ∀ r ∈ rules, r.isDefault = false)
    ∨ ∃ i : Nat, ∃ r, rules[i]? = some r ∧ r.isDefault = true ∧ v.defaultRuleIndex = some (i : Int)
      ∧ v.defaultRulePredictions = r.head.counts
      ∧ ∀ i' r', i < i' → rules[i']? = some r' → r'.isDefault = false

theorem inv_visit (rules : List Rule) : Inv rules (Visitor.init.visit rules) := by
  induction rules using List.reverseRecOn with
  | nil =>
    refine ⟨rfl, rfl, rfl, Or.inl ⟨rfl, ?_⟩⟩
    intro r hr; cases hr
  | append_singleton rules r ih =>
    rw [visit_append]
    generalize Visitor.init.visit rules = v at ih
    obtain ⟨h1, h2, h3, h4⟩ := ih
    show Inv _ ((v.visitBody r.body).visitHead r.head)
    have hidx : v.index + 1 = (rules.length : Int) := by omega
    cases hb : r.body with
    | empty =>
      have hd : r.isDefault = true := by simp [Rule.isDefault, hb]
      simp only [Visitor.visitBody, Visitor.visitHead, if_true]
      refine ⟨?_, ?_, ?_, ?_⟩
      · show v.index + 1 = _
        rw [List.length_append]; simp; omega
      · show v.conditions = _
        rw [locals_snoc, if_pos hd]; exact h2
      · show v.predictions = _
        rw [locals_snoc, if_pos hd]; exact h3
      · right
        refine ⟨rules.length, r, by simp, hd, by rw [hidx], (head_counts_eq _).symm, ?_⟩
        intro i' r' hi hr'
        have := (List.getElem?_eq_some_iff.1 hr').1
        simp at this
        omega
    | conjunctive b =>
      have hd : r.isDefault = false := by simp [Rule.isDefault, hb]
      have hne : some (v.index + 1) ≠ v.defaultRuleIndex := by
        rcases h4 with ⟨h4, _⟩ | ⟨i, r', hi, _, h4, _⟩
        · rw [h4]; simp
        · have := (List.getElem?_eq_some_iff.1 hi).1
          rw [h4]
          intro h
          have := Option.some.inj h
          omega
      rw [visitHead_local _ _ hne]
      simp only [Visitor.visitBody]
      refine ⟨?_, ?_, ?_, ?_⟩
      · show v.index + 1 = _
        rw [List.length_append]; simp; omega
      · rw [locals_snoc, hd]
        simp only [Bool.false_eq_true, if_false, List.map_append, List.map_singleton, h2, hb, Body.counts,
          numConditions_eq]
      · rw [locals_snoc, hd]
        simp only [Bool.false_eq_true, if_false, List.map_append, List.map_singleton, h3]
      · rcases h4 with ⟨h4, h5⟩ | ⟨i, r', hi, hr', h4, h5, h6⟩
        · left
          refine ⟨h4, ?_⟩
          intro x hx
          rcases List.mem_append.1 hx with hx | hx
          · exact h5 x hx
          · rw [List.mem_singleton.1 hx]; exact hd
        · right
          have hlt := (List.getElem?_eq_some_iff.1 hi).1
          refine ⟨i, r', by rw [List.getElem?_append_left hlt]; exact hi, hr', h4, h5, ?_⟩
          intro i' x hi' hx
          by_cases hl : i' < rules.length
          · rw [List.getElem?_append_left hl] at hx
            exact h6 i' x hi' hx
          · have h7 := (List.getElem?_eq_some_iff.1 hx).1
            simp at h7
            have : i' = rules.length := by omega
            subst this
            simp at hx
            rw [← hx]; exact hd

theorem range'_cons' (s n : Nat) : List.range' s (n + 1) = s :: List.range' (s + 1) n := by
  rw [List.range'_succ]

/-- The row of a rule (specification). -/
def specRow (i : Nat) (r : Rule) : Row :=
  { name := i + 1
    isDefault := r.isDefault
    conditions := r.body.counts.total
    numerical := r.body.counts.numericalLeq + r.body.counts.numericalGr
    ordinal := r.body.counts.ordinalLeq + r.body.counts.ordinalGr
    nominal := r.body.counts.nominalEq + r.body.counts.nominalNeq
    counts := r.body.counts
    predictions := r.head.scores.length
    pos := (r.head.scores.filter fun s => decide (0 < s)).length
    neg := (r.head.scores.filter fun s => decide (s ≤ 0)).length }

theorem head_counts_sum (h : Head) : h.counts.1 + h.counts.2 = h.scores.length := by
  have := head_counts_eq h
  have hle : h.scores.countP (fun s => decide (s > 0)) ≤ h.scores.length := List.countP_le_length
  rw [this]
  simp only
  omega

theorem mkRow_eq (i : Nat) (r : Rule) : mkRow i r.isDefault r.body.counts r.head.counts = specRow i r := by
  unfold mkRow specRow
  simp only [Row.mk.injEq, true_and]
  refine ⟨?_, head_counts_sum _, rfl, rfl⟩
  unfold Counts.total
  omega

theorem tabLoop_eq (rules : List Rule) (v : Visitor) (hinv : Inv rules v)
    (hone : (rules.filter Rule.isDefault).length ≤ 1) (pre suf : List Rule) (h : rules = pre ++ suf) :
    tabLoop v (List.range' pre.length suf.length) (locals pre).length
      = .ok ((suf.zipIdx pre.length).map fun p => specRow p.2 p.1) := by
  induction suf generalizing pre with
  | nil => rfl
  | cons r suf ih =>
    have ih := ih (pre ++ [r]) (by rw [h]; simp)
    rw [List.length_append, List.length_singleton, locals_snoc] at ih
    rw [List.length_cons, range'_cons', List.zipIdx_cons, List.map_cons]
    have hget : rules[pre.length]? = some r := by rw [h]; simp
    simp only [tabLoop]
    by_cases hd : r.isDefault = true
    · rw [if_pos hd] at ih
      rcases hinv.default with ⟨_, h4⟩ | ⟨i, r', hi, hr', h4, h5, h6⟩
      · have := h4 r (by rw [h]; simp)
        rw [hd] at this; cases this
      · have hi' : i = pre.length := by
          rcases Nat.lt_trichotomy i pre.length with hlt | heq | hgt
          · exfalso
            have hmem : r' ∈ pre.filter Rule.isDefault := by
              rw [h, List.getElem?_append_left hlt] at hi
              exact List.mem_filter.2 ⟨List.mem_of_getElem? hi, hr'⟩
            have h7 : 0 < (pre.filter Rule.isDefault).length := List.length_pos_of_mem hmem
            rw [h, List.filter_append, List.filter_cons_of_pos hd, List.length_append, List.length_cons] at hone
            omega
          · exact heq
          · exfalso
            have hmem : r' ∈ suf.filter Rule.isDefault := by
              rw [h, List.getElem?_append_right (by omega)] at hi
              have : i - pre.length = (i - pre.length - 1) + 1 := by omega
              rw [this, List.getElem?_cons_succ] at hi
              exact List.mem_filter.2 ⟨List.mem_of_getElem? hi, hr'⟩
            have h7 : 0 < (suf.filter Rule.isDefault).length := List.length_pos_of_mem hmem
            rw [h, List.filter_append, List.filter_cons_of_pos hd, List.length_append, List.length_cons] at hone
            omega
        subst hi'
        rw [hget] at hi
        cases hi
        rw [if_pos h4.symm, ih]
        simp only
        have hbody : r.body.counts = ⟨0, 0, 0, 0, 0, 0⟩ := by
          unfold Rule.isDefault at hd
          cases hb : r.body with
          | empty => rfl
          | conjunctive b => rw [hb] at hd; cases hd
        rw [← mkRow_eq, hd, hbody, h5]
    · have hd' : r.isDefault = false := by simpa using hd
      rw [if_neg hd, List.length_append, List.length_singleton] at ih
      have hne : some ((pre.length : Nat) : Int) ≠ v.defaultRuleIndex := by
        rcases hinv.default with ⟨h4, _⟩ | ⟨i, r', hi, hr', h4, _⟩
        · rw [h4]; simp
        · rw [h4]
          intro heq
          have : pre.length = i := by exact_mod_cast Option.some.inj heq
          subst this
          rw [hget] at hi
          cases hi
          exact hd hr'
      rw [if_neg hne, hinv.conditions, hinv.predictions]
      have hloc : (locals rules)[(locals pre).length]? = some r := by
        rw [h]
        unfold locals
        rw [List.filter_append, List.getElem?_append_right (Nat.le_refl _), Nat.sub_self,
          List.filter_cons_of_pos (by simp [hd'])]
        rfl
      rw [List.getElem?_map, List.getElem?_map, hloc]
      simp only [Option.map_some]
      rw [ih]
      simp only
      rw [← mkRow_eq, hd']

/-! ## Text -/

/-- The name of a feature, if it is known and if names should be printed, or its index (specification). -/
def nameOf (names : List Text) (print : Bool) (str : Int → Text) (i : Nat) : Text :=
  match print, names[i]? with
  | true, some name => name
  | _, _ => str i

/-- The value a feature is compared to (specification): The name of a nominal value, if it is known and should be
printed, or its index, if the feature is nominal, or a number. -/
def valueOf (f : Format) (i : Nat) (t : Threshold) : Text :=
  match f.features[i]? with
  | none => f.formatThreshold t
  | some feature =>
    match feature.nominalValues with
    | none => f.formatThreshold t
    | some values =>
      match f.printNominalValues, values[(f.toInt t).toNat]? with
      | true, some value => '"' :: (value ++ ['"'])
      | _, _ => f.str (f.toInt t)

/-- The text of a condition (specification). -/
def conditionText (f : Format) (c : (Nat × Threshold) × Text) : Text :=
  nameOf (f.features.map fun x => x.name) f.printFeatureNames f.str c.1.1 ++ [' '] ++ c.2 ++ [' '] ++ valueOf f c.1.1 c.1.2

/-- The conditions of a body and the corresponding operators (specification). -/
def Body.all : Body → List ((Nat × Threshold) × Text)
  | .empty => []
  | .conjunctive b =>
    (b.numericalLeq.list.map fun c => (c, ['<', '='])) ++ (b.numericalGr.list.map fun c => (c, ['>']))
    ++ (b.ordinalLeq.list.map fun c => (c, ['<', '='])) ++ (b.ordinalGr.list.map fun c => (c, ['>']))
    ++ (b.nominalEq.list.map fun c => (c, ['=', '='])) ++ (b.nominalNeq.list.map fun c => (c, ['!', '=']))

/-- The text of a body (specification). -/
def bodyText (f : Format) (b : Body) : Text :=
  if f.printBodies then ['{'] ++ [' ', '&', ' '].intercalate (b.all.map (conditionText f)) ++ ['}'] else []

/-- The scores that are predicted by a head and the indices of the corresponding outputs (specification): The score at position `i` of a complete
head is predicted for output `i`. -/
def Head.indexed : Head → List (Nat × ℚ)
  | .complete scores => (List.range scores.length).zip scores
  | .incomplete scores => scores

theorem Head.elements_eq (h : Head) : h.elements = h.indexed := by
  cases h with
  | incomplete scores => rfl
  | complete scores =>
    apply List.ext_getElem
    · simp [Head.elements, Head.indexed]
    · intro i h1 h2
      simp [Head.elements, Head.indexed]

/-- The text of a head (specification). -/
def headText (f : Format) (h : Head) : Text :=
  if f.printHeads then
    (if f.printBodies then [' ', '=', '>', ' '] else [])
    ++ ['(']
    ++ [',', ' '].intercalate (h.indexed.map fun e => nameOf f.outputs f.printOutputNames f.str e.1 ++ [' ', '=', ' '] ++ f.formatScore e.2)
    ++ [')']
  else []

/-- The text of a rule (specification). -/
def ruleText (f : Format) (r : Rule) : Text :=
  bodyText f r.body ++ headText f r.head ++ (if f.printBodies || f.printHeads then ['\n'] else [])

/-- Nominal values are not negative. -/
def NonNegative (f : Format) (c : Nat × Threshold) : Prop :=
  ∀ feature values, f.features[c.1]? = some feature → feature.nominalValues = some values → 0 ≤ f.toInt c.2

theorem threshold_eq (f : Format) (c : Nat × Threshold) (h : NonNegative f c) :
    f.threshold f.features[c.1]? c.2 = .ok (valueOf f c.1 c.2) := by
  unfold Format.threshold valueOf
  cases hf : f.features[c.1]? with
  | none => rfl
  | some feature =>
    obtain ⟨name, vals⟩ := feature
    cases vals with
    | none => rfl
    | some values =>
      have hnn := h ⟨name, some values⟩ values hf rfl
      simp only
      cases hp : f.printNominalValues with
      | false => rfl
      | true =>
        by_cases hlt : (values.length : Int) > f.toInt c.2
        · have hlt' : (f.toInt c.2).toNat < values.length := by omega
          have hg : values[(f.toInt c.2).toNat]? = some values[(f.toInt c.2).toNat] := List.getElem?_eq_getElem hlt'
          rw [decide_eq_true hlt]
          simp only [Bool.and_self, if_true, pyGet]
          rw [if_pos hnn, hg]
          rfl
        · have hg : values[(f.toInt c.2).toNat]? = none := List.getElem?_eq_none (by omega)
          rw [decide_eq_false hlt, hg]
          rfl

theorem featureName_eq (f : Format) (i : Nat) :
    f.featureName f.features[i]? i = nameOf (f.features.map fun x => x.name) f.printFeatureNames f.str i := by
  unfold Format.featureName nameOf
  rw [List.getElem?_map]
  cases f.features[i]? with
  | none => cases f.printFeatureNames <;> rfl
  | some x => cases f.printFeatureNames <;> rfl

/-- The text of conditions, if `n` conditions have been written before. -/
def joined (sep : Text) (n : Nat) : List Text → Text
  | [] => []
  | t :: ts => (if n > 0 then sep else []) ++ t ++ joined sep (n + 1) ts

theorem joined_pos (sep : Text) (n : Nat) (hn : 0 < n) (ts : List Text) : joined sep n ts = (ts.map fun t => sep ++ t).flatten := by
  induction ts generalizing n with
  | nil => rfl
  | cons t ts ih =>
    rw [joined, if_pos hn, ih (n + 1) (by omega)]
    simp

theorem intercalate_cons' (sep t : Text) (ts : List Text) :
    sep.intercalate (t :: ts) = t ++ (ts.map fun x => sep ++ x).flatten := by
  induction ts generalizing t with
  | nil => simp [List.intercalate]
  | cons u ts ih =>
    have h : sep.intercalate (t :: u :: ts) = t ++ sep ++ sep.intercalate (u :: ts) := by
      simp [List.intercalate, List.intersperse]
    rw [h, ih u]
    simp

theorem joined_zero (sep : Text) (ts : List Text) : joined sep 0 ts = sep.intercalate ts := by
  cases ts with
  | nil => rfl
  | cons t ts =>
    rw [intercalate_cons', joined, joined_pos _ _ (by omega)]
    simp

theorem joined_append (sep : Text) (n : Nat) (a b : List Text) :
    joined sep n (a ++ b) = joined sep n a ++ joined sep (n + a.length) b := by
  induction a generalizing n with
  | nil => rfl
  | cons t a ih =>
    rw [List.cons_append, joined, joined, ih, List.length_cons]
    have : n + 1 + a.length = n + (a.length + 1) := by omega
    rw [this]
    simp

theorem conditionLoop_eq (f : Format) (op : Text) (cs : List (Nat × Threshold)) (h : ∀ c ∈ cs, NonNegative f c)
    (text : Text) (n : Nat) :
    f.conditionLoop op cs text n
      = .ok (text ++ joined [' ', '&', ' '] n ((cs.map fun c => (c, op)).map (conditionText f)), n + cs.length) := by
  induction cs generalizing text n with
  | nil => simp [Format.conditionLoop, joined]
  | cons c cs ih =>
    obtain ⟨i, t⟩ := c
    simp only [Format.conditionLoop]
    rw [threshold_eq f (i, t) (h _ (by simp)), featureName_eq]
    simp only
    rw [ih (fun c hc => h c (List.mem_cons_of_mem _ hc))]
    simp only [List.map_cons, joined, conditionText, List.length_cons]
    congr 2
    · by_cases hn : n > 0
      · simp [hn]
      · simp [hn]
    · omega

theorem conditions_eq (f : Format) (op : Text) (cs : Conditions) (h : ∀ c ∈ cs.list, NonNegative f c)
    (st : Text × Nat) :
    f.conditions op cs st
      = .ok (st.1 ++ joined [' ', '&', ' '] st.2 ((cs.list.map fun c => (c, op)).map (conditionText f)), st.2 + cs.list.length) := by
  cases cs with
  | none => simp [Format.conditions, Conditions.list, joined]
  | some cs => exact conditionLoop_eq f op cs h st.1 st.2

theorem visitBody_eq (f : Format) (text : Text) (b : Body) (h : ∀ c ∈ b.all, NonNegative f c.1) :
    f.visitBody text b = .ok (text ++ bodyText f b) := by
  unfold bodyText
  cases b with
  | empty =>
    cases hp : f.printBodies <;> simp [Format.visitBody, hp, Body.all, List.intercalate]
  | conjunctive b =>
    simp only [Format.visitBody]
    cases hp : f.printBodies with
    | false => simp
    | true =>
      have hm : ∀ (op : Text) (cs : Conditions), (∀ c ∈ cs.list, (c, op) ∈ (Body.conjunctive b).all) →
          ∀ c ∈ cs.list, NonNegative f c := fun op cs hc c hcc => h _ (hc c hcc)
      simp only [if_true]
      rw [conditions_eq f _ _ (hm ['<', '='] _ (by intro c hc; simp [Body.all, hc]))]
      simp only [bind, Except.bind]
      rw [conditions_eq f _ _ (hm ['>'] _ (by intro c hc; simp [Body.all, hc]))]
      simp only
      rw [conditions_eq f _ _ (hm ['<', '='] _ (by intro c hc; simp [Body.all, hc]))]
      simp only
      rw [conditions_eq f _ _ (hm ['>'] _ (by intro c hc; simp [Body.all, hc]))]
      simp only
      rw [conditions_eq f _ _ (hm ['=', '='] _ (by intro c hc; simp [Body.all, hc]))]
      simp only
      rw [conditions_eq f _ _ (hm ['!', '='] _ (by intro c hc; simp [Body.all, hc]))]
      simp only [pure, Except.pure, Except.ok.injEq]
      rw [← joined_zero]
      simp only [Body.all, List.map_append, joined_append, List.length_append, List.length_map, Nat.zero_add,
        List.append_assoc]

theorem scoreLoop_eq (f : Format) (es : List (Nat × ℚ)) (n : Nat) (text : Text) :
    f.scoreLoop es n text
      = text ++ joined [',', ' '] n
          (es.map fun e => nameOf f.outputs f.printOutputNames f.str e.1 ++ [' ', '=', ' '] ++ f.formatScore e.2) := by
  induction es generalizing n text with
  | nil => simp [Format.scoreLoop, joined]
  | cons e es ih =>
    obtain ⟨i, s⟩ := e
    simp only [Format.scoreLoop]
    rw [ih]
    simp only [List.map_cons, joined]
    have : f.outputName i = nameOf f.outputs f.printOutputNames f.str i := by
      unfold Format.outputName nameOf
      cases f.printOutputNames <;> cases f.outputs[i]? <;> rfl
    rw [this]
    by_cases hn : n > 0
    · simp [hn]
    · simp [hn]

theorem visitHead_eq (f : Format) (text : Text) (h : Head) :
    f.visitHead text h = text ++ headText f h ++ (if f.printBodies || f.printHeads then ['\n'] else []) := by
  unfold Format.visitHead headText
  simp only [scoreLoop_eq, ← joined_zero, Head.elements_eq]
  cases f.printHeads <;> cases f.printBodies <;> simp

end MLRL.ModelOutput
