import Verif.Model.PythonParameterTable
import Verif.Props.PythonOptions
import Mathlib.Logic.Function.Basic

/-!
# C103: the values of parameters configure a rule learning algorithm as intended
-/

namespace MLRL.PythonParameters

open PythonOptions

variable {F : Type}

/-! ### Specification -/

/-- The property that is set by an option. -/
def propertyOf (key : Str) : Str :=
  if key = "aggregation".toList then "aggregation_function".toList
  else if key = "num_recent".toList then "num_current".toList
  else if key = "use_probability_calibration".toList then "use_probability_calibration_model".toList
  else key

/-- The branch of the function `_configure` that is taken for a value. -/
def branchOf (p : Nominal) (value : Str) : Option Branch := p.branches.find? (fun b => b.value = none ∨ b.value = some value)

/-- A value calls the method that is declared by the mixin it requires, and the properties it sets are exactly those that correspond to its options. -/
def Matches (v : Value) (b : Branch) : Prop :=
  b.method = v.mixin ∧ (∀ s ∈ b.steps, s.key ∈ v.optionSet ∧ s.property = propertyOf s.key ∧ s.default = s.property) ∧
    (∀ key ∈ v.optionSet, key ∈ b.steps.map Step.key) ∧ (b.steps.map Step.property).Nodup

instance (v : Value) (b : Branch) : Decidable (Matches v b) := by unfold Matches; infer_instance

/-- All values of a parameter are coherent, and none of them is the beginning of another one. -/
def Coherent (p : Nominal) : Prop :=
  (∀ v ∈ p.values, match branchOf p v.name with | some b => Matches v b | none => False) ∧
    p.values.Pairwise (fun v w => ¬ v.name <+: w.name ∧ ¬ w.name <+: v.name)

instance (p : Nominal) (v : Value) : Decidable (match branchOf p v.name with | some b => Matches v b | none => False) := by
  cases branchOf p v.name with
  | some b => exact inferInstanceAs (Decidable (Matches v b))
  | none => exact inferInstanceAs (Decidable False)

instance (p : Nominal) : Decidable (Coherent p) := by unfold Coherent; infer_instance

/-- The setters of configurations: the property is set to a value that results from the given one (e.g. because it is rounded), or an error is raised that is not
an `AttributeError`. Setting a property to its initial value does not change it. -/
structure Lawful (env : Env F) (store : Str → Str → Val F → Val F) : Prop where
  set : ∀ {method property v props props'}, env.set method property v props = .ok props' → props' = Function.update props property (store method property v)
  error : ∀ {method property v props}, env.set method property v props ≠ .error .attributeError
  initial : ∀ method property, store method property (env.initial method property) = env.initial method property

/-- The value a text has, depending on the type of the option. -/
def converted (env : Env F) : OptionType → Str → Option (Val F)
  | .bool, text => if text = "true".toList then some (.bool true) else if text = "false".toList then some (.bool false) else none
  | .int, text => (env.int text).map Val.int
  | .float, text => (env.float text).map Val.float
  | .aggregation, text => if text ∈ ["min".toList, "max".toList, "avg".toList] then some (.str text) else none

/-- The types of options. -/
def typeOf (key : Str) : OptionType :=
  if key ∈ ["recalculate_predictions", "resample_features", "use_holdout_set", "remove_unused_rules", "refine_heads", "based_on_probabilities",
    "use_probability_calibration"].map String.toList then .bool
  else if key ∈ ["min_support", "bin_ratio", "sample_size", "holdout_set_size", "min_improvement", "output_ratio", "threshold", "exponent", "max_lift",
    "curvature", "k", "beta", "m"].map String.toList then .float
  else if key = "aggregation".toList then .aggregation
  else .int

/-- The types of the options are as intended. -/
def Typed (p : Nominal) : Prop := ∀ b ∈ p.branches, ∀ s ∈ b.steps, s.type = typeOf s.key

instance (p : Nominal) : Decidable (Typed p) := by unfold Typed; infer_instance

/-- All parameters. -/
def allParameters : List Nominal := boomerClassifierParameters ++ boomerRegressorParameters ++ secoClassifierParameters

theorem allCoherent : ∀ p ∈ allParameters, p.name ≠ "output_sampling".toList → Coherent p := by decide +kernel

theorem allTyped : ∀ p ∈ allParameters, Typed p := by decide +kernel

/-! ### Auxiliary lemmas -/

theorem getOption_eq (env : Env F) (dict : Dict) (step : Step) (props : Properties F) : getOption env dict step props =
    match dict.lookup step.key with
    | none => .ok (props step.default)
    | some text => match converted env step.type text with | some v => .ok v | none => .error .valueError := by
  unfold getOption
  cases dict.lookup step.key with
  | none => rfl
  | some text =>
    cases step.type with
    | bool =>
      simp only [parseBool, converted]
      split
      · rfl
      · split <;> rfl
    | int =>
      simp only [converted]
      cases env.int text <;> rfl
    | float =>
      simp only [converted]
      cases env.float text <;> rfl
    | aggregation =>
      simp only [parseParam, converted]
      split <;> rfl

/-- The value a property should have, given the text of an option (if any) and the value it has had before. -/
def Expected (env : Env F) (store : Str → Str → Val F → Val F) (method property : Str) (type : OptionType) (text : Option Str) (old new : Val F) : Prop :=
  match text with
  | none => new = store method property old
  | some text => ∃ v, converted env type text = some v ∧ new = store method property v

theorem runSteps_ok {env : Env F} {store : Str → Str → Val F → Val F} (hl : Lawful env store) {method : Str} {dict : Dict} :
    ∀ {steps : List Step} {props props' : Properties F}, (steps.map Step.property).Nodup → (∀ s ∈ steps, s.default = s.property) →
    runSteps env method (some dict) steps props = .ok props' →
    (∀ q, q ∉ steps.map Step.property → props' q = props q) ∧
    ∀ s ∈ steps, Expected env store method s.property s.type (dict.lookup s.key) (props s.property) (props' s.property)
  | [], _, _, _, _, h => by
    cases h
    exact ⟨fun _ _ => rfl, (fun _ h => by cases h)⟩
  | s :: steps, props, props', hn, hd, h => by
    rw [runSteps] at h
    rw [List.map_cons, List.nodup_cons] at hn
    split at h
    · cases h
    · rename_i v hv
      split at h
      · cases h
      · rename_i props1 hs
        have hp1 := hl.set hs
        obtain ⟨ih1, ih2⟩ := runSteps_ok hl hn.2 (fun s hs => hd s (List.mem_cons_of_mem _ hs)) h
        have hself : props' s.property = store method s.property v := by
          rw [ih1 _ hn.1, hp1, Function.update_self]
        refine ⟨?_, ?_⟩
        · intro q hq
          rw [List.map_cons, List.mem_cons, not_or] at hq
          rw [ih1 q hq.2, hp1, Function.update_of_ne hq.1]
        · intro t ht
          rcases List.mem_cons.1 ht with rfl | ht
          · rw [getOption_eq] at hv
            unfold Expected
            cases hk : dict.lookup t.key with
            | none =>
              rw [hk] at hv
              cases hv
              rw [hself, hd t (by simp)]
            | some text =>
              rw [hk] at hv
              dsimp only at hv
              cases hc : converted env t.type text with
              | none => rw [hc] at hv; cases hv
              | some x =>
                rw [hc] at hv
                cases hv
                exact ⟨v, hc, hself⟩
          · have hne : t.property ≠ s.property := fun he => hn.1 (he ▸ List.mem_map_of_mem ht)
            have := ih2 t ht
            rwa [hp1, Function.update_of_ne hne] at this

theorem runSteps_error {env : Env F} {store : Str → Str → Val F → Val F} (hl : Lawful env store) {method : Str} {options : Option Dict} :
    ∀ {steps : List Step} {props : Properties F}, (steps = [] ∨ ∃ dict, options = some dict) → runSteps env method options steps props ≠ .error .attributeError
  | [], _, _, h => by cases h
  | s :: steps, props, ho, h => by
    obtain ⟨dict, rfl⟩ : ∃ dict, options = some dict := by
      rcases ho with h0 | h0
      · cases h0
      · exact h0
    rw [runSteps] at h
    split at h
    · rename_i e he
      cases h
      rw [getOption_eq] at he
      split at he
      · cases he
      · split at he <;> cases he
    · split at h
      · rename_i e he
        cases h
        exact hl.error he
      · exact runSteps_error hl (.inr ⟨dict, rfl⟩) h

theorem runSteps_total {env : Env F} {method : Str} {dict : Dict} (hset : ∀ method property v props, ∃ props', env.set method property v props = .ok props') :
    ∀ {steps : List Step} {props : Properties F}, (∀ s ∈ steps, ∀ text, dict.lookup s.key = some text → (converted env s.type text).isSome) →
    ∃ props', runSteps env method (some dict) steps props = .ok props'
  | [], props, _ => ⟨props, rfl⟩
  | s :: steps, props, h => by
    rw [runSteps]
    have : ∃ v, getOption env dict s props = .ok v := by
      rw [getOption_eq]
      cases hk : dict.lookup s.key with
      | none => exact ⟨_, rfl⟩
      | some text =>
        obtain ⟨v, hv⟩ := Option.isSome_iff_exists.1 (h s (by simp) text hk)
        exact ⟨v, by simp only [hv]⟩
    obtain ⟨v, hv⟩ := this
    obtain ⟨props1, hp⟩ := hset method s.property v props
    simp only [hv, hp]
    exact runSteps_total hset (fun s hs => h s (List.mem_cons_of_mem _ hs))

theorem applyBranches_eq (env : Env F) (config : List Str) (value : Str) (options : Option Dict) : ∀ bs : List Branch,
    applyBranches env config value options bs =
      match bs.find? (fun b => b.value = none ∨ b.value = some value) with
      | none => .ok .unchanged
      | some b => if b.method ∈ config then (runSteps env b.method options b.steps (env.initial b.method)).map (Outcome.used b.method)
          else .error .attributeError
  | [] => rfl
  | b :: bs => by
    rw [applyBranches, List.find?_cons]
    by_cases h : b.value = none ∨ b.value = some value
    · rw [if_pos h, decide_eq_true h]
    · rw [if_neg h, decide_eq_false h]
      exact applyBranches_eq env config value options bs

theorem supported_mem {p : Nominal} {config : List Str} {v : Value} (h : v ∈ p.supported config) : v ∈ p.values ∧ v.mixin ∈ config := by
  simpa [Nominal.supported] using h

theorem supported_prefixFree {p : Nominal} (hp : Coherent p) (config : List Str) :
    PrefixFree ((p.supported config).map (fun v => (v.name, v.optionSet))) := by
  unfold PrefixFree
  rw [List.pairwise_map]
  exact hp.2.sublist List.filter_sublist

/-- The value of a parameter that is meant by a text is the only one. -/
theorem supported_means {p : Nominal} {config : List Str} {space : Char → Bool} {text name : Str} {es : List (Option (Str × Str))}
    (h : Means space ((p.supported config).map (fun v => (v.name, v.optionSet))) text name es) :
    ∃ v ∈ p.supported config, name = v.name ∧ Means space [(v.name, v.optionSet)] text v.name es := by
  cases h with
  | bare allowed s hi hs ht =>
    obtain ⟨v, hv, he⟩ := List.mem_map.1 hi
    cases he
    exact ⟨v, hv, rfl, .bare _ v.optionSet s (by simp) hs ht⟩
  | options allowed s t body es hi hs ht hb htext =>
    obtain ⟨v, hv, he⟩ := List.mem_map.1 hi
    cases he
    exact ⟨v, hv, rfl, .options _ _ s t body es (by simp) hs ht hb htext⟩

theorem sum_eq_zero {l : List Value} (h : (l.map (fun v => v.optionSet.length)).sum = 0) {v : Value} (hv : v ∈ l) : v.optionSet = [] := by
  induction l with
  | nil => cases hv
  | cons w l ih =>
    rw [List.map_cons, List.sum_cons] at h
    rcases List.mem_cons.1 hv with rfl | hv
    · exact List.length_eq_zero_iff.1 (by omega)
    · exact ih (by omega) hv

theorem branch_of {p : Nominal} (hp : Coherent p) {v : Value} (hv : v ∈ p.values) :
    ∃ b, p.branches.find? (fun b => b.value = none ∨ b.value = some v.name) = some b ∧ Matches v b := by
  have h := hp.1 v hv
  split at h
  · rename_i b hb
    exact ⟨b, hb, h⟩
  · exact h.elim

theorem configure_cases {p : Nominal} (hp : Coherent p) (env : Env F) (config : List Str) (text : Str) :
    (p.supported config = [] ∧ p.configure env config text = .ok .unchanged) ∨
    p.configure env config text = .error .valueError ∨
    ∃ v ∈ p.supported config, ∃ b, Matches v b ∧ b ∈ p.branches ∧ ∃ es options, Means env.space [(v.name, v.optionSet)] text v.name es ∧
      (b.steps = [] ∨ ∃ dict, options = some dict) ∧ (∀ dict, options = some dict → ∀ key, dict.lookup key = lastValue es key) ∧
      (options = none → es = []) ∧
      p.configure env config text = (runSteps env b.method options b.steps (env.initial b.method)).map (Outcome.used b.method) := by
  unfold Nominal.configure
  split
  · rename_i hlen
    right
    split
    · rename_i hsum
      unfold parseParam
      split
      · rename_i e he
        split at he
        · cases he
        · cases he; exact .inl rfl
      · rename_i value he
        split at he
        · rename_i hm
          cases he
          right
          obtain ⟨v, hv, rfl⟩ := List.mem_map.1 hm
          obtain ⟨hv1, hv2⟩ := supported_mem hv
          obtain ⟨b, hb, hm⟩ := branch_of hp hv1
          refine ⟨v, hv, b, hm, List.mem_of_find?_eq_some hb, [], none, .bare _ v.optionSet [] (by simp) (by simp) (by simp), .inl ?_, (fun _ h => by cases h),
            fun _ => rfl, ?_⟩
          · have h0 := sum_eq_zero hsum hv
            cases hs : b.steps with
            | nil => rfl
            | cons s steps =>
              have := (hm.2.1 s (by simp [hs])).1
              rw [h0] at this
              cases this
          · rw [applyBranches_eq, hb]
            dsimp only
            rw [if_pos (hm.1 ▸ hv2)]
        · cases he
    · split
      · rename_i e he
        have := parse_error he
        subst this
        exact .inl rfl
      · rename_i value options he
        right
        obtain ⟨es, hm, hl⟩ := parse_ok he
        obtain ⟨v, hv, rfl, hm'⟩ := supported_means hm
        obtain ⟨hv1, hv2⟩ := supported_mem hv
        obtain ⟨b, hb, hmb⟩ := branch_of hp hv1
        refine ⟨v, hv, b, hmb, List.mem_of_find?_eq_some hb, es, some options, hm', .inr ⟨_, rfl⟩, ?_, (fun h => by cases h), ?_⟩
        · intro dict hd
          cases hd
          exact hl
        · rw [applyBranches_eq, hb]
          dsimp only
          rw [if_pos (hmb.1 ▸ hv2)]
  · rename_i hlen
    exact .inl ⟨List.length_eq_zero_iff.1 (by omega), rfl⟩

theorem keyed {p : Nominal} {v : Value} {b : Branch} (ht : Typed p) (hb : b ∈ p.branches) (hm : Matches v b) {key : Str} (hk : key ∈ v.optionSet) :
    ∃ s ∈ b.steps, s.key = key ∧ s.property = propertyOf key ∧ s.type = typeOf key := by
  obtain ⟨s, hs, rfl⟩ := List.mem_map.1 (hm.2.2.1 key hk)
  exact ⟨s, hs, rfl, (hm.2.1 s hs).2.1, ht b hb s hs⟩

theorem configure_used_aux {p : Nominal} (hp : Coherent p) (ht : Typed p) {env : Env F} {store : Str → Str → Val F → Val F} (hl : Lawful env store)
    {config : List Str} {text method : Str} {props : Properties F} (h : p.configure env config text = .ok (.used method props)) :
    ∃ v ∈ p.values, v.mixin ∈ config ∧ method = v.mixin ∧ ∃ es, Means env.space [(v.name, v.optionSet)] text v.name es ∧
      (∀ key ∈ v.optionSet, Expected env store method (propertyOf key) (typeOf key) (lastValue es key) (env.initial method (propertyOf key))
        (props (propertyOf key))) ∧
      (∀ q, (∀ key ∈ v.optionSet, q ≠ propertyOf key) → props q = env.initial method q) := by
  rcases configure_cases hp env config text with ⟨_, h0⟩ | h0 | ⟨v, hv, b, hm, hb, es, options, hes, hsteps, hdict, hnone, h0⟩
  · rw [h0] at h; cases h
  · rw [h0] at h; cases h
  · rw [h0] at h
    obtain ⟨hv1, hv2⟩ := supported_mem hv
    cases hr : runSteps env b.method options b.steps (env.initial b.method) with
    | error e => rw [hr] at h; cases h
    | ok props' =>
      rw [hr] at h
      cases h
      refine ⟨v, hv1, hv2, hm.1, es, hes, ?_⟩
      cases options with
      | some dict =>
        obtain ⟨h1, h2⟩ := runSteps_ok hl hm.2.2.2 (fun s hs => (hm.2.1 s hs).2.2) hr
        refine ⟨?_, ?_⟩
        · intro key hk
          obtain ⟨s, hs, hk, hprop, htype⟩ := keyed ht hb hm hk
          have := h2 s hs
          rwa [hprop, htype, hk, hdict dict rfl] at this
        · intro q hq
          refine h1 q ?_
          intro hmem
          obtain ⟨s, hs, rfl⟩ := List.mem_map.1 hmem
          exact hq s.key (hm.2.1 s hs).1 (hm.2.1 s hs).2.1
      | none =>
        rcases hsteps with hs | ⟨_, hs⟩
        · rw [hs] at hr
          cases hr
          refine ⟨?_, fun _ _ => rfl⟩
          intro key hk
          obtain ⟨s, hs', _⟩ := keyed ht hb hm hk
          rw [hs] at hs'
          cases hs'
        · cases hs

/-! ### Theorems -/

/-- **C103** (partial): if a text is accepted as the value of a parameter, it means one of the values of the parameter, the configuration supports this value, the
method that corresponds to the value has been called, all properties for which the text contains options are set accordingly, and all other properties have their
initial values. The parameter for the sampling of outputs is left out, because it checks for the wrong mixins, see `outputSampling_attribute`. -/
theorem configure_used_partial {p : Nominal} (hp : p ∈ allParameters) (hn : p.name ≠ "output_sampling".toList) {env : Env F}
    {store : Str → Str → Val F → Val F} (hl : Lawful env store) {config : List Str} {text method : Str} {props : Properties F}
    (h : p.configure env config text = .ok (.used method props)) :
    ∃ v ∈ p.values, v.mixin ∈ config ∧ method = v.mixin ∧ ∃ es, Means env.space [(v.name, v.optionSet)] text v.name es ∧
      (∀ key ∈ v.optionSet,
        match lastValue es key with
        | some t => ∃ x, converted env (typeOf key) t = some x ∧ props (propertyOf key) = store method (propertyOf key) x
        | none => props (propertyOf key) = env.initial method (propertyOf key)) ∧
      (∀ q, (∀ key ∈ v.optionSet, q ≠ propertyOf key) → props q = env.initial method q) := by
  obtain ⟨v, h1, h2, h3, es, h4, h5, h6⟩ := configure_used_aux (allCoherent p hp hn) (allTyped p hp) hl h
  refine ⟨v, h1, h2, h3, es, h4, ?_, h6⟩
  intro key hk
  have := h5 key hk
  unfold Expected at this
  split at this
  · rename_i ho
    rw [ho]
    exact this.trans (hl.initial _ _)
  · rename_i t ho
    rw [ho]
    exact this

/-- **C103** (partial): every text that means a value that is supported by the configuration is accepted, if its options can be converted and the setters do not
raise errors. If none of the supported values has any options, the text must be the value itself. -/
theorem configure_accepted_partial {p : Nominal} (hp : p ∈ allParameters) (hn : p.name ≠ "output_sampling".toList) {env : Env F}
    (hs1 : env.space '{' = false) (hs2 : env.space '}' = false) (hset : ∀ method property v props, ∃ props', env.set method property v props = .ok props')
    {config : List Str} {v : Value} (hv : v ∈ p.values) (hc : v.mixin ∈ config) {text : Str} {es : List (Option (Str × Str))}
    (hm : Means env.space [(v.name, v.optionSet)] text v.name es)
    (hconv : ∀ key t, lastValue es key = some t → (converted env (typeOf key) t).isSome)
    (htext : text = v.name ∨ ∃ w ∈ p.values, w.mixin ∈ config ∧ w.optionSet ≠ []) :
    ∃ props, p.configure env config text = .ok (.used v.mixin props) := by
  have hcoh := allCoherent p hp hn
  have hty := allTyped p hp
  have hsup : v ∈ p.supported config := by simp [Nominal.supported, hv, hc]
  obtain ⟨b, hb, hmb⟩ := branch_of hcoh hv
  have hbm := List.mem_of_find?_eq_some hb
  unfold Nominal.configure
  rw [if_pos (List.length_pos_of_mem hsup)]
  split
  · rename_i hsum
    have ht : text = v.name := by
      rcases htext with h | ⟨w, hw, hwc, hwo⟩
      · exact h
      · exact absurd (sum_eq_zero hsum (by simp [Nominal.supported, hw, hwc])) hwo
    have h0 := sum_eq_zero hsum hsup
    have hsteps : b.steps = [] := by
      cases hs : b.steps with
      | nil => rfl
      | cons s steps =>
        have := (hmb.2.1 s (by simp [hs])).1
        rw [h0] at this
        cases this
    unfold parseParam
    rw [if_pos (by rw [ht]; exact List.mem_map_of_mem hsup)]
    dsimp only
    rw [applyBranches_eq, ht, hb]
    dsimp only
    rw [if_pos (hmb.1 ▸ hc), hsteps, hmb.1]
    exact ⟨_, rfl⟩
  · have hm' : Means env.space ((p.supported config).map (fun v => (v.name, v.optionSet))) text v.name es := by
      have hmem : (v.name, v.optionSet) ∈ (p.supported config).map (fun v => (v.name, v.optionSet)) := List.mem_map.2 ⟨v, hsup, rfl⟩
      cases hm with
      | bare allowed s hi hs ht => exact .bare _ v.optionSet s hmem hs ht
      | options allowed s t body es hi hs ht hb htext =>
        have : allowed = v.optionSet := by simpa using hi
        subst this
        exact .options _ _ s t body es hmem hs ht hb htext
    obtain ⟨dict, hd, hl⟩ := parse_text_partial hs1 hs2 (supported_prefixFree hcoh config) hm'
    rw [hd]
    dsimp only
    rw [applyBranches_eq, hb]
    dsimp only
    rw [if_pos (hmb.1 ▸ hc)]
    obtain ⟨props', hr⟩ := runSteps_total (method := b.method) (dict := dict) (steps := b.steps) (props := env.initial b.method) hset (by
      intro s hs t ht
      rw [hl] at ht
      rw [hty b hbm s hs]
      exact hconv _ _ ht)
    rw [hr, hmb.1]
    exact ⟨_, rfl⟩

/-- **C103** (partial): an `AttributeError` is not raised, no matter what mixins a configuration inherits from. -/
theorem configure_attribute_partial {p : Nominal} (hp : p ∈ allParameters) (hn : p.name ≠ "output_sampling".toList) {env : Env F}
    {store : Str → Str → Val F → Val F} (hl : Lawful env store) (config : List Str) (text : Str) :
    p.configure env config text ≠ .error .attributeError := by
  rcases configure_cases (allCoherent p hp hn) env config text with ⟨_, h0⟩ | h0 | ⟨v, hv, b, hm, hb, es, options, hes, hsteps, hdict, hnone, h0⟩
  · rw [h0]; exact fun h => by cases h
  · rw [h0]; exact fun h => by cases h
  · rw [h0]
    have := runSteps_error hl (method := b.method) (props := env.initial b.method) hsteps
    intro h
    cases hr : runSteps env b.method options b.steps (env.initial b.method) with
    | error e =>
      rw [hr] at h this
      cases h
      exact this rfl
    | ok props => rw [hr] at h; cases h

/-- **C103** (partial): a value is silently ignored only if the configuration does not support any value of the parameter. -/
theorem configure_unchanged_partial {p : Nominal} (hp : p ∈ allParameters) (hn : p.name ≠ "output_sampling".toList) {env : Env F} {config : List Str} {text : Str}
    (h : p.configure env config text = .ok .unchanged) : ∀ v ∈ p.values, v.mixin ∉ config := by
  rcases configure_cases (allCoherent p hp hn) env config text with ⟨h0, _⟩ | h0 | ⟨v, hv, b, hm, hb, es, options, hes, hsteps, hdict, hnone, h0⟩
  · intro v hv hc
    have : v ∈ p.supported config := by simp [Nominal.supported, hv, hc]
    rw [h0] at this
    cases this
  · rw [h0] at h; cases h
  · rw [h0] at h
    cases hr : runSteps env b.method options b.steps (env.initial b.method) <;> rw [hr] at h <;> cases h

theorem configure_single (env : Env F) {p : Nominal} {config : List Str} {v : Value} {b : Branch} (hs : p.supported config = [v]) (ho : v.options = none)
    (hf : p.branches.find? (fun b => b.value = none ∨ b.value = some v.name) = some b) (hm : b.method ∉ config) :
    p.configure env config v.name = .error .attributeError := by
  unfold Nominal.configure
  rw [hs, if_pos (by simp), if_pos (by simp [Value.optionSet, ho])]
  have : parseParam v.name ([v].map Value.name) = .ok v.name := by simp [parseParam]
  rw [this]
  dsimp only
  rw [applyBranches_eq, hf]
  dsimp only
  rw [if_neg hm]

theorem filter_three {α : Type} {q : α → Bool} {x y z : α} (h1 : q x = true) (h2 : q y = false) (h3 : q z = false) : [x, y, z].filter q = [x] := by
  simp [h1, h2, h3]

/-- **C103** (the claim is false for the sampling of outputs): if a configuration supports the sampling of features, but not the sampling of outputs, an
`AttributeError` is raised, although the value should be ignored or rejected. -/
theorem outputSampling_attribute (env : Env F) {config : List Str} (h1 : "use_no_feature_sampling".toList ∈ config) (h2 : "use_no_output_sampling".toList ∉ config)
    (h3 : "use_round_robin_output_sampling".toList ∉ config) (h4 : "use_feature_sampling_without_replacement".toList ∉ config) :
    outputSamplingParameter.configure env config "none".toList = .error .attributeError :=
  configure_single env (v := ⟨"none".toList, "use_no_feature_sampling".toList, none⟩) (b := ⟨some "none".toList, "use_no_output_sampling".toList, []⟩)
    (filter_three (decide_eq_true h1) (decide_eq_false h4) (decide_eq_false h3)) rfl (by decide +kernel) h2

/-- A union contains the elements of the first set and those elements of the second one that are not equal to them. -/
theorem mem_union {a b : List Nominal} {p : Nominal} : p ∈ union a b ↔ p ∈ a ∨ (p ∈ b ∧ ∀ q ∈ a, q.name ≠ p.name) := by
  unfold union
  rw [List.mem_append, List.mem_filter]
  simp

theorem parse_mismatch {space : Char → Bool} {c : Char} {rest : Str} : ∀ {items : List (Str × List Str)}, (∀ item ∈ items, ∃ d s, item.1 = d :: s ∧ d ≠ c) →
    parseParamAndOptions space (c :: rest) items = .error .valueError
  | [], _ => rfl
  | (name, allowed) :: items, h => by
    obtain ⟨d, s, hn, hd⟩ := h _ List.mem_cons_self
    dsimp only at hn
    subst hn
    rw [parseParamAndOptions, if_neg]
    · exact parse_mismatch (fun item hi => h item (List.mem_cons_of_mem _ hi))
    · intro hp
      obtain ⟨t, ht⟩ := List.isPrefixOf_iff_prefix.1 hp
      exact hd (List.cons.inj ht).1

/-- The first character of a value is not an `a`. -/
def notA : Str → Bool
  | [] => false
  | c :: _ => c != 'a'

/-- **C103** (the claim is false for several parameters): the documentation states that `auto` may be used, and the configurations provide the corresponding methods,
but all texts that start with this value are rejected. Parameters like `ExtendedPartitionSamplingParameter` that allow to use this value are equal to the
parameters they extend and are hence discarded when the union of two sets of parameters is formed; in case of the types of heads, the value is missing. -/
theorem auto_rejected (env : Env F) (rest : Str) {name : Str}
    (hname : name ∈ ["holdout", "feature_binning", "parallel_rule_refinement", "parallel_statistic_update", "head_type"].map String.toList) :
    (∀ p ∈ boomerClassifierParameters, p.name = name → p.configure env boomerClassifierConfig ("auto".toList ++ rest) = .error .valueError) ∧
    (∀ p ∈ boomerRegressorParameters, p.name = name → p.configure env boomerRegressorConfig ("auto".toList ++ rest) = .error .valueError) := by
  have key : ∀ (p : Nominal) (config : List Str), (p.supported config).length > 0 → ((p.supported config).map (fun v => v.optionSet.length)).sum ≠ 0 →
      (∀ v ∈ p.supported config, notA v.name) → p.configure env config ("auto".toList ++ rest) = .error .valueError := by
    intro p config h1 h2 h3
    unfold Nominal.configure
    rw [if_pos h1, if_neg h2]
    have : parseParamAndOptions env.space ("auto".toList ++ rest) ((p.supported config).map (fun v => (v.name, v.optionSet))) = .error .valueError := by
      refine parse_mismatch (c := 'a') ?_
      intro item hi
      obtain ⟨v, hv, rfl⟩ := List.mem_map.1 hi
      have := h3 v hv
      dsimp only
      cases hn : v.name with
      | nil => rw [hn] at this; cases this
      | cons d s =>
        rw [hn] at this
        exact ⟨d, s, rfl, by simpa [notA] using this⟩
    rw [this]
  have h1 : ∀ p ∈ boomerClassifierParameters,
      p.name ∈ ["holdout", "feature_binning", "parallel_rule_refinement", "parallel_statistic_update", "head_type"].map String.toList →
      (p.supported boomerClassifierConfig).length > 0 ∧ ((p.supported boomerClassifierConfig).map (fun v => v.optionSet.length)).sum ≠ 0 ∧
      (∀ v ∈ p.supported boomerClassifierConfig, notA v.name) := by decide +kernel
  have h2 : ∀ p ∈ boomerRegressorParameters,
      p.name ∈ ["holdout", "feature_binning", "parallel_rule_refinement", "parallel_statistic_update", "head_type"].map String.toList →
      (p.supported boomerRegressorConfig).length > 0 ∧ ((p.supported boomerRegressorConfig).map (fun v => v.optionSet.length)).sum ≠ 0 ∧
      (∀ v ∈ p.supported boomerRegressorConfig, notA v.name) := by decide +kernel
  refine ⟨?_, ?_⟩
  · rintro p hp rfl
    obtain ⟨a, b, c⟩ := h1 p hp hname
    exact key p _ a b c
  · rintro p hp rfl
    obtain ⟨a, b, c⟩ := h2 p hp hname
    exact key p _ a b c

/-- The configurations provide the methods for the value `auto`, and each of the parameters exists. -/
theorem auto_provided :
    (∀ m ∈ ["use_automatic_partition_sampling", "use_automatic_feature_binning", "use_automatic_parallel_rule_refinement",
      "use_automatic_parallel_statistic_update", "use_automatic_heads"].map String.toList, m ∈ boomerClassifierConfig) ∧
    (∀ name ∈ ["holdout", "feature_binning", "parallel_rule_refinement", "parallel_statistic_update", "head_type"].map String.toList,
      ∃ p ∈ boomerClassifierParameters, p.name = name) := by decide +kernel

/-! ### The order in which parameters are processed -/

theorem configureAll_ok {env : Env F} {config : List Str} {learner : Str → Option Str} : ∀ {ps : List Nominal},
    (∃ outcomes, configureAll env config learner ps = .ok outcomes) ↔
      ∀ p ∈ ps, ∀ text, learner p.name = some text → ∃ outcome, p.configure env config text = .ok outcome
  | [] => by simp [configureAll]
  | p :: ps => by
    have ih := configureAll_ok (env := env) (config := config) (learner := learner) (ps := ps)
    rw [configureAll, List.forall_mem_cons, ← ih]
    cases hl : learner p.name with
    | none => simp
    | some text =>
      dsimp only
      cases hc : p.configure env config text with
      | error e => simp [hc]
      | ok outcome =>
        cases configureAll env config learner ps with
        | error e => simp [Except.map]
        | ok outcomes => simp [Except.map, hc]

theorem configureAll_mem {env : Env F} {config : List Str} {learner : Str → Option Str} {name : Str} {outcome : Outcome F} : ∀ {ps : List Nominal}
    {outcomes : List (Str × Outcome F)}, configureAll env config learner ps = .ok outcomes →
    ((name, outcome) ∈ outcomes ↔ ∃ p ∈ ps, p.name = name ∧ ∃ text, learner name = some text ∧ p.configure env config text = .ok outcome)
  | [], outcomes, h => by
    cases h
    simp
  | p :: ps, outcomes, h => by
    rw [configureAll] at h
    cases hl : learner p.name with
    | none =>
      rw [hl] at h
      rw [configureAll_mem h]
      constructor
      · rintro ⟨q, hq, h⟩
        exact ⟨q, List.mem_cons_of_mem _ hq, h⟩
      · rintro ⟨q, hq, hn, text, ht, h⟩
        rcases List.mem_cons.1 hq with rfl | hq
        · rw [← hn, hl] at ht; cases ht
        · exact ⟨q, hq, hn, text, ht, h⟩
    | some text =>
      rw [hl] at h
      dsimp only at h
      cases hc : p.configure env config text with
      | error e => rw [hc] at h; cases h
      | ok o =>
        rw [hc] at h
        dsimp only at h
        cases hr : configureAll env config learner ps with
        | error e => rw [hr] at h; cases h
        | ok os =>
          rw [hr] at h
          cases h
          rw [List.mem_cons, configureAll_mem hr]
          constructor
          · rintro (he | ⟨q, hq, h⟩)
            · cases he
              exact ⟨p, by simp, rfl, text, hl, hc⟩
            · exact ⟨q, List.mem_cons_of_mem _ hq, h⟩
          · rintro ⟨q, hq, hn, text', ht, h⟩
            rcases List.mem_cons.1 hq with rfl | hq
            · left
              rw [← hn, hl] at ht
              cases ht
              rw [hc] at h
              cases h
              rw [hn]
            · exact .inr ⟨q, hq, hn, text', ht, h⟩

/-- **C103**: the order in which the elements of a set of parameters are enumerated affects neither whether an error is raised, nor which methods are called and which
properties are set. -/
theorem configureAll_perm {env : Env F} {config : List Str} {learner : Str → Option Str} {ps qs : List Nominal} (h : ∀ p, p ∈ ps ↔ p ∈ qs) :
    ((∃ outcomes, configureAll env config learner ps = .ok outcomes) ↔ ∃ outcomes, configureAll env config learner qs = .ok outcomes) ∧
    ∀ {outcomes outcomes' : List (Str × Outcome F)}, configureAll env config learner ps = .ok outcomes → configureAll env config learner qs = .ok outcomes' →
      ∀ x, x ∈ outcomes ↔ x ∈ outcomes' := by
  refine ⟨?_, ?_⟩
  · rw [configureAll_ok, configureAll_ok]
    exact forall_congr' fun p => by rw [h p]
  · rintro outcomes outcomes' h1 h2 ⟨name, outcome⟩
    rw [configureAll_mem h1, configureAll_mem h2]
    simp only [h]

/-! ### Examples -/

/-- An environment, where all texts that are intended for numbers are converted to 5, all properties are initially 1, and numbers are stored as they are. -/
def exampleEnv : Env Nat where
  space c := c = ' '
  int _ := some 5
  float text := if text = "nan".toList then none else some 5
  initial _ _ := .float 1
  set _ property v props := .ok (Function.update props property v)

theorem exampleEnv_lawful : Lawful exampleEnv (fun _ _ v => v) where
  set h := by cases h; rfl
  error h := by cases h
  initial _ _ := rfl

/-- The values of properties that are relevant for the examples below. -/
def observe : Except PyError (Outcome Nat) → Except PyError (Option (Str × List (Val Nat)))
  | .error e => .error e
  | .ok .unchanged => .ok none
  | .ok (.used method props) => .ok (some (method, ["sample_size".toList, "min_samples".toList, "max_samples".toList].map props))

example : instanceSamplingParameter ∈ allParameters ∧ instanceSamplingParameter.name ≠ "output_sampling".toList := by decide +kernel

example : observe (instanceSamplingParameter.configure exampleEnv boomerClassifierConfig "with-replacement{sample_size=0.5,min_samples=2}".toList) =
    .ok (some ("use_instance_sampling_with_replacement".toList, [.float 5, .int 5, .float 1])) := by decide +kernel

example : observe (instanceSamplingParameter.configure exampleEnv boomerClassifierConfig "with-replacement{sample_size=nan}".toList) = .error .valueError := by
  decide +kernel

example : observe (instanceSamplingParameter.configure exampleEnv [] "with-replacement".toList) = .ok none := by decide +kernel

example : observe (partitionSamplingParameter.configure exampleEnv boomerClassifierConfig "auto".toList) = .error .valueError ∧
    observe (extendedPartitionSamplingParameter.configure exampleEnv boomerClassifierConfig "auto".toList) =
      .ok (some ("use_automatic_partition_sampling".toList, [.float 1, .float 1, .float 1])) := by decide +kernel

/-- The configurations that exist provide the methods for the sampling of features as well as those for the sampling of outputs. -/
example : observe (outputSamplingParameter.configure exampleEnv boomerClassifierConfig "without-replacement{sample_size=0.5}".toList) =
    .ok (some ("use_output_sampling_without_replacement".toList, [.float 5, .float 1, .float 1])) := by decide +kernel

example : observe (outputSamplingParameter.configure exampleEnv ["use_no_feature_sampling".toList] "none".toList) = .error .attributeError := by decide +kernel

end MLRL.PythonParameters
