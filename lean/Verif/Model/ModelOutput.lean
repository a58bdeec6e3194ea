import Mathlib.Algebra.Field.Rat
import Mathlib.Algebra.Order.Field.Rat

/-!
# Characteristics and textual representations of rule models

Model of `python/subprojects/testbed/mlrl/testbed/model_characteristics.py` and
`python/subprojects/testbed/mlrl/testbed/models.py`. A rule model is given by the list of used rules, in the order in
which they are visited by `visit_used` (for this order, see `Verif/Model/RuleList.lean`). Scores are rational numbers,
how numbers are formatted is a parameter.
-/

namespace MLRL.ModelOutput

abbrev Text := List Char

/-- The exceptions that may be raised. -/
inductive Err
  | index
  | zeroDivision
deriving DecidableEq, Repr

/-- The threshold of a numerical condition or the one of an ordinal or nominal condition. -/
inductive Threshold
  | numerical (value : ℚ)
  | discrete (value : Int)
deriving DecidableEq

/-- The indices and thresholds of conditions. They are `None`, if there are no conditions, rule_model.pyx. -/
abbrev Conditions := Option (List (Nat × Threshold))

/-- `ConjunctiveBody` -/
structure ConjunctiveBody where
  numericalLeq : Conditions
  numericalGr : Conditions
  ordinalLeq : Conditions
  ordinalGr : Conditions
  nominalEq : Conditions
  nominalNeq : Conditions

/-- `EmptyBody` or `ConjunctiveBody` -/
inductive Body
  | empty
  | conjunctive (body : ConjunctiveBody)

/-- `CompleteHead` or `PartialHead` -/
inductive Head
  | complete (scores : List ℚ)
  | incomplete (scores : List (Nat × ℚ))

structure Rule where
  body : Body
  head : Head

/-! ## Characteristics -/

/-- The number of conditions of a rule. -/
structure Counts where
  numericalLeq : Nat
  numericalGr : Nat
  ordinalLeq : Nat
  ordinalGr : Nat
  nominalEq : Nat
  nominalNeq : Nat
deriving DecidableEq, Repr

/-- The attributes of `RuleModelCharacteristicsVisitor`, model_characteristics.py:282-294. The lists
`num_numerical_leq`, ..., `num_nominal_neq`, to which elements are always appended jointly, are represented by a single
list. The same applies to `num_pos_predictions` and `num_neg_predictions`. -/
structure Visitor where
  conditions : List Counts
  predictions : List (Nat × Nat)
  defaultRuleIndex : Option Int
  defaultRulePredictions : Nat × Nat
  index : Int

/-- The constructor of `RuleModelCharacteristicsVisitor`, model_characteristics.py:282-294. -/
def Visitor.init : Visitor := ⟨[], [], none, (0, 0), -1⟩

/-- `indices.shape[0] if indices is not None else 0` -/
def numConditions : Conditions → Nat
  | none => 0
  | some cs => cs.length

/-- `visit_empty_body` and `visit_conjunctive_body`, model_characteristics.py:296-317. -/
def Visitor.visitBody (v : Visitor) : Body → Visitor
  | .empty => { v with index := v.index + 1, defaultRuleIndex := some (v.index + 1) }
  | .conjunctive b =>
    { v with
      index := v.index + 1
      conditions := v.conditions ++ [⟨numConditions b.numericalLeq, numConditions b.numericalGr,
        numConditions b.ordinalLeq, numConditions b.ordinalGr, numConditions b.nominalEq, numConditions b.nominalNeq⟩] }

/-- `head.scores` -/
def Head.scores : Head → List ℚ
  | .complete scores => scores
  | .incomplete scores => scores.map fun s => s.2

/-- `visit_complete_head` and `visit_partial_head`, model_characteristics.py:319-345. -/
def Visitor.visitHead (v : Visitor) (head : Head) : Visitor :=
  let numPos := head.scores.countP fun s => decide (s > 0)
  let numNeg := head.scores.length - numPos
  if some v.index = v.defaultRuleIndex then { v with defaultRulePredictions := (numPos, numNeg) }
  else { v with predictions := v.predictions ++ [(numPos, numNeg)] }

/-- `model.visit_used(visitor)`, model_characteristics.py:357. -/
def Visitor.visit (v : Visitor) : List Rule → Visitor
  | [] => v
  | r :: rules => ((v.visitBody r.body).visitHead r.head).visit rules

/-- A row of the table that is created by `tabularize`, model_characteristics.py:258-273. -/
structure Row where
  name : Nat
  isDefault : Bool
  conditions : Nat
  numerical : Nat
  ordinal : Nat
  nominal : Nat
  counts : Counts
  predictions : Nat
  pos : Nat
  neg : Nat
deriving DecidableEq, Repr

/-- Creates a row, model_characteristics.py:253-273. -/
def mkRow (i : Nat) (isDefault : Bool) (c : Counts) (p : Nat × Nat) : Row :=
  let numerical := c.numericalLeq + c.numericalGr
  let ordinal := c.ordinalLeq + c.ordinalGr
  let nominal := c.nominalEq + c.nominalNeq
  ⟨i + 1, isDefault, numerical + ordinal + nominal, numerical, ordinal, nominal, c, p.1 + p.2, p.1, p.2⟩

/-- The loop in `tabularize`, model_characteristics.py:229-273. -/
def tabLoop (v : Visitor) : List Nat → Nat → Except Err (List Row)
  | [], _ => .ok []
  | i :: is, j =>
    if some (i : Int) = v.defaultRuleIndex then
      match tabLoop v is j with
      | .error e => .error e
      | .ok rows => .ok (mkRow i true ⟨0, 0, 0, 0, 0, 0⟩ v.defaultRulePredictions :: rows)
    else
      match v.conditions[j]?, v.predictions[j]? with
      | some c, some p =>
        match tabLoop v is (j + 1) with
        | .error e => .error e
        | .ok rows => .ok (mkRow i false c p :: rows)
      | _, _ => .error .index

/-- `num_total_rules`, model_characteristics.py:226. -/
def totalRules (v : Visitor) : Nat :=
  match v.defaultRuleIndex with
  | none => v.predictions.length
  | some _ => v.predictions.length + 1

/-- `tabularize`, model_characteristics.py:219-275. -/
def tabularize (v : Visitor) : Except Err (List Row) := tabLoop v (List.range (totalRules v)) 0

/-- The total number of conditions of a rule, model_characteristics.py:105-106. -/
def Counts.total (c : Counts) : Nat :=
  c.numericalLeq + c.numericalGr + c.ordinalLeq + c.ordinalGr + c.nominalEq + c.nominalNeq

/-- `np.min`, `np.mean` and `np.max` of an array that is not empty. -/
structure Summary where
  min : ℚ
  mean : ℚ
  max : ℚ

/-- `np.min`, `np.mean` and `np.max`, if the sum of the values is positive, or zero, otherwise,
model_characteristics.py:109-148. -/
def summarize (l : List Nat) : Summary :=
  if l.sum > 0 then
    match l with
    | [] => ⟨0, 0, 0⟩
    | a :: as => ⟨(as.foldl min a : Nat), ((a :: as).sum : ℚ) / ((a :: as).length : ℚ), (as.foldl max a : Nat)⟩
  else ⟨0, 0, 0⟩

/-- A fraction in percent, model_characteristics.py:109-148. -/
def percentage (part total : Nat) : ℚ := if total > 0 then (part : ℚ) / (total : ℚ) * 100 else 0

/-- The statistics that are shown by `format`, model_characteristics.py:100-217. -/
structure Statistics where
  numRules : Nat
  totalConditions : Nat
  fractions : List ℚ
  totalPredictions : Nat
  fracPos : ℚ
  fracNeg : ℚ
  defaultRule : Option (Nat × ℚ × ℚ)
  conditionSummary : Summary
  predictionSummary : Summary

/-- `format`, model_characteristics.py:100-217. Sums and quotients are computed exactly. -/
def statistics (v : Visitor) : Except Err Statistics :=
  let numConditions := v.conditions.map Counts.total
  let total := numConditions.sum
  let numPredictions := v.predictions.map fun p => p.1 + p.2
  let totalPredictions := numPredictions.sum
  let stats : Statistics :=
    { numRules := v.predictions.length
      totalConditions := total
      fractions :=
        [percentage (v.conditions.map fun c => c.numericalLeq).sum total,
         percentage (v.conditions.map fun c => c.numericalGr).sum total,
         percentage (v.conditions.map fun c => c.ordinalLeq).sum total,
         percentage (v.conditions.map fun c => c.ordinalGr).sum total,
         percentage (v.conditions.map fun c => c.nominalEq).sum total,
         percentage (v.conditions.map fun c => c.nominalNeq).sum total]
      totalPredictions := totalPredictions
      fracPos := percentage (v.predictions.map fun p => p.1).sum totalPredictions
      fracNeg := percentage (v.predictions.map fun p => p.2).sum totalPredictions
      defaultRule := none
      conditionSummary := summarize numConditions
      predictionSummary := summarize numPredictions }
  match v.defaultRuleIndex with
  | none => .ok stats
  | some _ =>
    let p := v.defaultRulePredictions
    let n := p.1 + p.2
    if n = 0 then .error .zeroDivision
    else .ok { stats with defaultRule := some (n, (p.1 : ℚ) / n * 100, (p.2 : ℚ) / n * 100) }

/-! ## Textual representations -/

/-- The name and the values of a feature, if it is nominal. -/
structure Feature where
  name : Text
  nominalValues : Option (List Text)

/-- The attributes of `RuleModelFormattable`, models.py:79-94. The functions that format thresholds and scores depend on
the number of decimals. -/
structure Format where
  features : List Feature
  outputs : List Text
  printFeatureNames : Bool
  printOutputNames : Bool
  printNominalValues : Bool
  printBodies : Bool
  printHeads : Bool
  formatThreshold : Threshold → Text
  formatScore : ℚ → Text
  /-- `str(i)` -/
  str : Int → Text
  /-- `int(value)`, for a floating point value -/
  trunc : ℚ → Int

/-- `int(threshold)`, models.py:132. -/
def Format.toInt (f : Format) : Threshold → Int
  | .numerical q => f.trunc q
  | .discrete i => i

/-- `values[i]`. Negative indices refer to the end of the list. -/
def pyGet (values : List Text) (i : Int) : Except Err Text :=
  if i ≥ 0 then
    match values[i.toNat]? with
    | none => .error .index
    | some t => .ok t
  else if i + values.length ≥ 0 then
    match values[(i + values.length).toNat]? with
    | none => .error .index
    | some t => .ok t
  else .error .index

/-- Writes the threshold of a condition, models.py:131-139. -/
def Format.threshold (f : Format) (feature : Option Feature) (t : Threshold) : Except Err Text :=
  match feature with
  | some ⟨_, some values⟩ =>
    let nominalValue := f.toInt t
    if f.printNominalValues && decide ((values.length : Int) > nominalValue) then
      match pyGet values nominalValue with
      | .error e => .error e
      | .ok value => .ok (['"'] ++ value ++ ['"'])
    else .ok (f.str nominalValue)
  | _ => .ok (f.formatThreshold t)

/-- The name or index of a feature, models.py:120-127. -/
def Format.featureName (f : Format) (feature : Option Feature) (i : Nat) : Text :=
  match feature with
  | some feature => if f.printFeatureNames then feature.name else f.str i
  | none => f.str i

/-- The loop in `__format_conditions`, models.py:114-141. `text` is what has been written so far. -/
def Format.conditionLoop (f : Format) (op : Text) : List (Nat × Threshold) → Text → Nat → Except Err (Text × Nat)
  | [], text, result => .ok (text, result)
  | (i, t) :: cs, text, result =>
    let text := if result > 0 then text ++ [' ', '&', ' '] else text
    let feature := f.features[i]?
    let text := text ++ f.featureName feature i ++ [' '] ++ op ++ [' ']
    match f.threshold feature t with
    | .error e => .error e
    | .ok value => f.conditionLoop op cs (text ++ value) (result + 1)

/-- `__format_conditions`, models.py:103-143. -/
def Format.conditions (f : Format) (op : Text) (cs : Conditions) (st : Text × Nat) : Except Err (Text × Nat) :=
  match cs with
  | none => .ok st
  | some cs => f.conditionLoop op cs st.1 st.2

/-- `visit_empty_body` and `visit_conjunctive_body`, models.py:96-101, 145-163. -/
def Format.visitBody (f : Format) (text : Text) : Body → Except Err Text
  | .empty => .ok (if f.printBodies then text ++ ['{', '}'] else text)
  | .conjunctive b =>
    if f.printBodies then do
      let st ← f.conditions ['<', '='] b.numericalLeq (text ++ ['{'], 0)
      let st ← f.conditions ['>'] b.numericalGr st
      let st ← f.conditions ['<', '='] b.ordinalLeq st
      let st ← f.conditions ['>'] b.ordinalGr st
      let st ← f.conditions ['=', '='] b.nominalEq st
      let st ← f.conditions ['!', '='] b.nominalNeq st
      return st.1 ++ ['}']
    else .ok text

/-- The name or index of an output, models.py:186-189, 222-225. -/
def Format.outputName (f : Format) (output : Nat) : Text :=
  if f.printOutputNames then
    match f.outputs[output]? with
    | some name => name
    | none => f.str output
  else f.str output

/-- The loops in `visit_complete_head` and `visit_partial_head`, models.py:182-193, 216-229. `i` is the number of the
iteration. -/
def Format.scoreLoop (f : Format) : List (Nat × ℚ) → Nat → Text → Text
  | [], _, text => text
  | (output, score) :: ss, i, text =>
    let text := if i > 0 then text ++ [',', ' '] else text
    f.scoreLoop ss (i + 1) (text ++ f.outputName output ++ [' ', '=', ' '] ++ f.formatScore score)

/-- The indices of outputs and the corresponding scores. -/
def Head.elements : Head → List (Nat × ℚ)
  | .complete scores => scores.zipIdx.map fun s => (s.2, s.1)
  | .incomplete scores => scores

/-- `visit_complete_head` and `visit_partial_head`, models.py:165-232. -/
def Format.visitHead (f : Format) (text : Text) (head : Head) : Text :=
  if f.printHeads then
    let text := if f.printBodies then text ++ [' ', '=', '>', ' '] else text
    f.scoreLoop head.elements 0 (text ++ ['(']) ++ [')', '\n']
  else if f.printBodies then text ++ ['\n']
  else text

/-- `self.model.visit_used(self)`, models.py:246. -/
def Format.visit (f : Format) : List Rule → Text → Except Err Text
  | [], text => .ok text
  | r :: rules, text =>
    match f.visitBody text r.body with
    | .error e => .error e
    | .ok text => f.visit rules (f.visitHead text r.head)

/-- `format`, models.py:234-249. -/
def Format.format (f : Format) (rules : List Rule) : Except Err Text := f.visit rules []

end MLRL.ModelOutput
