import Verif.Model.Measures
import Mathlib.Data.List.Forall2
import Mathlib.Tactic.Tauto
import Mathlib.Algebra.Order.Field.Rat

/-!
# C114: Exactly the measures that are enabled are reported
-/

namespace MLRL.Measures

open PythonOptions (Str Dict PyError getBool getNumber parseBool)

/-! ### Specification -/

/-- Whether an option has been set to `true` or, if it has not been set, all options are enabled by default. -/
inductive Enabled (options : Dict) (option : Str) : Prop
  | explicit : options.lookup option = some "true".toList → Enabled options option
  | default : options.lookup option = none →
      (options.lookup "enable_all".toList = none ∨ options.lookup "enable_all".toList = some "true".toList) →
      Enabled options option

/-- The measures that are available for certain predictions. -/
def available : Writer → Bool → List Formatter
  | .binary, true => multiLabelMeasures
  | .binary, false => singleLabelMeasures
  | .regression, _ => regressionMeasures
  | .ranking, true => rankingMeasures ++ regressionMeasures
  | .ranking, false => regressionMeasures

/-- Whether scores are given as a percentage. -/
def percentageEnabled (options : Dict) : Prop :=
  options.lookup "percentage".toList = none ∨ options.lookup "percentage".toList = some "true".toList

instance (options : Dict) : Decidable (percentageEnabled options) := by unfold percentageEnabled; infer_instance

/-! ### Options -/

theorem getBool_true {options : Dict} {option : Str} {default b : Bool} (h : getBool options option default = .ok b) :
    b = true ↔ options.lookup option = some "true".toList ∨ (options.lookup option = none ∧ default = true) := by
  unfold getBool at h
  cases hl : options.lookup option with
  | none => simp_all
  | some v =>
    simp only [hl, parseBool] at h
    split at h
    · simp_all
    · split at h
      · simp_all
      · simp at h

theorem getBool_weaken {options : Dict} {option : Str} {default b : Bool} (h : getBool options option default = .ok b) :
    ∃ b', getBool options option true = .ok b' ∧ (b = true → b' = true) := by
  unfold getBool at h ⊢
  cases hl : options.lookup option with
  | none => exact ⟨true, rfl, fun _ => rfl⟩
  | some v =>
    simp only [hl] at h ⊢
    exact ⟨b, h, id⟩

theorem enabled_iff {options : Dict} {option : Str} {enableAll b : Bool}
    (he : getBool options "enable_all".toList true = .ok enableAll) (h : getBool options option enableAll = .ok b) :
    b = true ↔ Enabled options option := by
  rw [getBool_true h, getBool_true he]
  constructor
  · rintro (h1 | ⟨h1, h2⟩)
    · exact .explicit h1
    · exact .default h1 (by tauto)
  · rintro (h1 | ⟨h1, h2⟩)
    · exact .inl h1
    · exact .inr ⟨h1, by tauto⟩

/-! ### Measures that are computed -/

theorem foldlM_any {option : Str} {options : List Dict} {init b : Bool}
    (h : options.foldlM (init := init) (fun aggr o => do
      let b ← getBool o option true
      Except.ok (aggr || b)) = .ok b) :
    b = true ↔ init = true ∨ ∃ o ∈ options, getBool o option true = .ok true := by
  induction options generalizing init with
  | nil =>
    simp only [List.foldlM_nil, pure, Except.pure, Except.ok.injEq] at h
    simp [h]
  | cons o os ih =>
    simp only [List.foldlM_cons, bind, Except.bind] at h
    cases hb : getBool o option true with
    | error e => simp [hb] at h
    | ok b0 =>
      simp only [hb] at h
      rw [ih h]
      cases init <;> cases b0 <;> simp [hb]

theorem filterFormatters_mem {options : List Dict} {fs result : List Formatter}
    (h : filterFormatters options fs = .ok result) :
    ∃ keep : Formatter → Bool, result = fs.filter keep ∧
      ∀ f ∈ fs, keep f = true ↔ ∃ o ∈ options, getBool o f.option true = .ok true := by
  induction fs generalizing result with
  | nil =>
    simp only [filterFormatters, Except.ok.injEq] at h
    exact ⟨fun _ => true, by simp [← h], by simp⟩
  | cons f fs ih =>
    simp only [filterFormatters, bind, Except.bind] at h
    cases hb : anyEnabled f.option options with
    | error e => simp [hb] at h
    | ok b =>
      cases hr : filterFormatters options fs with
      | error e => simp [hb, hr] at h
      | ok rest =>
        simp only [hb, hr, Except.ok.injEq] at h
        obtain ⟨keep, rfl, hk⟩ := ih hr
        have hb' := foldlM_any hb
        simp only [Bool.false_eq_true, false_or] at hb'
        classical
        refine ⟨fun g => decide (∃ o ∈ options, getBool o g.option true = .ok true), ?_, by simp⟩
        have hf : fs.filter keep = fs.filter fun g => decide (∃ o ∈ options, getBool o g.option true = .ok true) := by
          refine List.filter_congr fun g hg => ?_
          have := hk g hg
          cases hkg : keep g <;> simp_all
        rw [← h, List.filter_cons, hf]
        cases b with
        | false => rw [if_neg (by simp), if_neg (by simpa using fun o ho => (not_exists.1 (mt hb'.2 (by simp)) o ∘ (⟨ho, ·⟩)))]
        | true => rw [if_pos rfl, if_pos (by simpa using hb'.1 rfl)]

/-- A measure that should be reported by one of several sinks has been computed, and all measures that have been computed are
available. -/
theorem functions_filter {w : Writer} {options : List Dict} {multiLabel : Bool} {functions : List Formatter}
    (h : w.functions options multiLabel = .ok functions) :
    ∃ keep : Formatter → Bool, functions = (available w multiLabel).filter keep ∧
      ∀ f ∈ available w multiLabel, keep f = true ↔ ∃ o ∈ options, getBool o f.option true = .ok true := by
  unfold Writer.functions at h
  cases w with
  | binary =>
    simp only [bind, Except.bind] at h
    cases h1 : filterFormatters options multiLabelMeasures with
    | error e => simp [h1] at h
    | ok multi =>
      cases h2 : filterFormatters options singleLabelMeasures with
      | error e => simp [h1, h2] at h
      | ok single =>
        simp only [h1, h2, Except.ok.injEq] at h
        cases multiLabel
        · exact h ▸ filterFormatters_mem h2
        · exact h ▸ filterFormatters_mem h1
  | regression => cases multiLabel <;> exact filterFormatters_mem h
  | ranking =>
    simp only [bind, Except.bind] at h
    cases h1 : filterFormatters options regressionMeasures with
    | error e => simp [h1] at h
    | ok regression =>
      cases h2 : filterFormatters options rankingMeasures with
      | error e => simp [h1, h2] at h
      | ok ranking =>
        simp only [h1, h2, Except.ok.injEq] at h
        cases multiLabel
        · exact h ▸ filterFormatters_mem h1
        · obtain ⟨k1, e1, hk1⟩ := filterFormatters_mem h1
          obtain ⟨k2, e2, hk2⟩ := filterFormatters_mem h2
          classical
          refine ⟨fun g => decide (∃ o ∈ options, getBool o g.option true = .ok true), ?_, by simp⟩
          have hc : ∀ (l : List Formatter) (k : Formatter → Bool),
              (∀ f ∈ l, k f = true ↔ ∃ o ∈ options, getBool o f.option true = .ok true) →
              l.filter k = l.filter fun g => decide (∃ o ∈ options, getBool o g.option true = .ok true) := by
            intro l k hk
            refine List.filter_congr fun g hg => ?_
            rw [Bool.eq_iff_iff, hk g hg, decide_eq_true_iff]
          rw [← h, e1, e2, hc _ _ hk1, hc _ _ hk2]
          exact (List.filter_append ..).symm

/-! ### Measures that are reported -/

/-- The numbers that are reported by a sink. -/
noncomputable def rows {Text : Type} (formatFloat : ℚ → Int → Text) (options : Dict) (decimals : Int) (score : Formatter → ℚ)
    (measures : List Formatter) : List (Str × Text) :=
  open Classical in
  (measures.filter fun f => decide (Enabled options f.option)).map fun f =>
    (f.name, formatFloat (if f.percentage = true ∧ percentageEnabled options then 100 * score f else score f) decimals)

/-- The measures that can be reported by a sink: training and prediction times are only written to files. -/
def listed (kind : Kind) (w : Writer) (multiLabel : Bool) : List Formatter :=
  match kind with
  | .log => (available w multiLabel).filter (·.function)
  | .csv => trainingTime :: predictionTime :: (available w multiLabel).filter (·.function)

/-- What should be reported by a sink. -/
noncomputable def expected {Text : Type} (formatFloat : ℚ → Int → Text) (kind : Kind) (options : Dict) (decimals : Int)
    (w : Writer) (multiLabel : Bool) (score : Formatter → ℚ) : List (Str × Text) :=
  rows formatFloat options decimals score (listed kind w multiLabel)

theorem put_append {Text : Type} (l : List (Str × Text)) (key : Str) (value : Text) (h : key ∉ l.map Prod.fst) :
    put l key value = l ++ [(key, value)] := by
  induction l with
  | nil => rfl
  | cons x l ih =>
    simp only [List.map_cons, List.mem_cons, not_or] at h
    rw [put, if_neg (fun he => h.1 he.symm), ih h.2]
    rfl

theorem percentage_iff {options : Dict} {percentage : Bool} (h : getBool options "percentage".toList true = .ok percentage) :
    percentage = true ↔ percentageEnabled options := by
  rw [getBool_true h]
  unfold percentageEnabled
  tauto

theorem format_eq {Text : Type} {formatFloat : ℚ → Int → Text} {options : Dict} {percentage : Bool} {decimals : Int}
    (h : getBool options "percentage".toList true = .ok percentage) (f : Formatter) (value : ℚ) :
    f.format formatFloat value percentage decimals =
      formatFloat (if f.percentage = true ∧ percentageEnabled options then 100 * value else value) decimals := by
  have hi := percentage_iff h
  unfold Formatter.format
  rw [mul_comm]
  congr 1
  cases f.percentage
  · simp
  · cases percentage
    · simp [show ¬ percentageEnabled options from fun hh => by simpa using hi.2 hh]
    · simp [hi.1 rfl]

theorem tabularize_fold {Text : Type} {formatFloat : ℚ → Int → Text} {options : Dict} {percentage enableAll : Bool}
    {decimals : Int} {score : Formatter → ℚ} (hp : getBool options "percentage".toList true = .ok percentage)
    (he : getBool options "enable_all".toList true = .ok enableAll) {measures : List Formatter} {init result}
    (hn : (init.map Prod.fst ++ measures.map Formatter.name).Nodup)
    (h : (measures.map fun f => (f, score f)).foldlM (init := init) (fun columns r => do
      let b ← getBool options r.1.option enableAll
      Except.ok (if b then put columns r.1.name (r.1.format formatFloat r.2 percentage decimals) else columns)) =
        .ok result) :
    result = init ++ rows formatFloat options decimals score measures := by
  induction measures generalizing init with
  | nil =>
    simp only [List.map_nil, List.foldlM_nil, pure, Except.pure, Except.ok.injEq] at h
    simp [h, rows]
  | cons f fs ih =>
    simp only [List.map_cons, List.foldlM_cons, bind, Except.bind] at h
    cases hb : getBool options f.option enableAll with
    | error e => simp [hb] at h
    | ok b =>
      simp only [hb] at h
      have hi := enabled_iff he hb
      cases b with
      | false =>
        have hd : ¬ Enabled options f.option := fun hh => by simpa using hi.2 hh
        rw [if_neg (by simp)] at h
        rw [ih (hn.sublist (by simp)) h]
        simp [rows, hd]
      | true =>
        have hd : Enabled options f.option := hi.1 rfl
        have hm : f.name ∉ init.map Prod.fst := by
          intro hm
          rw [List.nodup_append] at hn
          exact hn.2.2 _ hm _ (by simp) rfl
        rw [if_pos rfl, put_append _ _ _ hm] at h
        rw [ih (by simpa using hn) h, format_eq hp]
        simp [rows, hd]

theorem format_fold {Text : Type} {formatFloat : ℚ → Int → Text} {options : Dict} {percentage enableAll : Bool}
    {decimals : Int} {score : Formatter → ℚ} (hp : getBool options "percentage".toList true = .ok percentage)
    (he : getBool options "enable_all".toList true = .ok enableAll) {measures : List Formatter} {init result}
    (h : (measures.map fun f => (f, score f)).foldlM (init := init) (fun rows r => do
      let b ← getBool options r.1.option enableAll
      Except.ok (if b && r.1 ≠ trainingTime && r.1 ≠ predictionTime then
        rows ++ [(r.1.name, r.1.format formatFloat r.2 percentage decimals)] else rows)) = .ok result) :
    result = init ++ rows formatFloat options decimals score
      (measures.filter fun f => f ≠ trainingTime ∧ f ≠ predictionTime) := by
  induction measures generalizing init with
  | nil =>
    simp only [List.map_nil, List.foldlM_nil, pure, Except.pure, Except.ok.injEq] at h
    simp [h, rows]
  | cons f fs ih =>
    simp only [List.map_cons, List.foldlM_cons, bind, Except.bind] at h
    cases hb : getBool options f.option enableAll with
    | error e => simp [hb] at h
    | ok b =>
      simp only [hb] at h
      have hi := enabled_iff he hb
      rw [ih h, List.filter_cons]
      by_cases h1 : f = trainingTime
      · simp [h1]
      · by_cases h2 : f = predictionTime
        · simp [h2]
        · cases b with
          | false =>
            have hd : ¬ Enabled options f.option := fun hh => by simpa using hi.2 hh
            simp [h1, h2, rows, hd]
          | true =>
            have hd : Enabled options f.option := hi.1 rfl
            simp [h1, h2, rows, hd, format_eq hp]

theorem enabled_getBool {options : Dict} {option : Str} (h : Enabled options option) : getBool options option true = .ok true := by
  unfold getBool
  rcases h with h | ⟨h, -⟩ <;> rw [h]
  rfl

theorem names_nodup (w : Writer) (multiLabel : Bool) :
    ((trainingTime :: predictionTime :: (available w multiLabel).filter (·.function)).map Formatter.name).Nodup := by
  cases w <;> cases multiLabel <;> decide +kernel

/-- The number of decimals that is used by a sink. -/
def Decimals (int : Str → Option Int) (sink : Kind × Dict) (decimals : Int) : Prop :=
  match sink.2.lookup "decimals".toList with
  | none => decimals = match sink.1 with
    | .log => 2
    | .csv => 0
  | some text => int text = some decimals

theorem getNumber_eq {int : Str → Option Int} {options : Dict} {default d : Int}
    (h : getNumber int options "decimals".toList default = .ok d) :
    match options.lookup "decimals".toList with
    | none => d = default
    | some text => int text = some d := by
  unfold getNumber at h
  cases hl : options.lookup "decimals".toList with
  | none =>
    simp only [hl, Except.ok.injEq] at h
    exact h.symm
  | some v =>
    simp only [hl] at h ⊢
    cases hv : int v with
    | none => simp only [hv, reduceCtorEq] at h
    | some x =>
      simp only [hv, Except.ok.injEq] at h
      rw [h]

/-- The rows that are reported by a single sink. -/
theorem sink_eq {Text : Type} {int : Str → Option Int} {formatFloat : ℚ → Int → Text} {w : Writer} {options : List Dict}
    {multiLabel : Bool} {score : Formatter → ℚ} {functions : List Formatter}
    (hf : w.functions options multiLabel = .ok functions) {sink : Kind × Dict} (hs : sink.2 ∈ options) {table}
    (h : (match sink.1 with
      | .log => format int formatFloat sink.2 (populate functions score)
      | .csv => tabularize int formatFloat sink.2 (populate functions score)) = .ok table) :
    ∃ decimals, Decimals int sink decimals ∧ table = expected formatFloat sink.1 sink.2 decimals w multiLabel score := by
  obtain ⟨keep, rfl, hk⟩ := functions_filter hf
  obtain ⟨kind, o⟩ := sink
  have hl : ∀ (p : Formatter → Bool), (∀ f, p f = true ↔ Enabled o f.option) →
      (((available w multiLabel).filter keep).filter (·.function)).filter p =
        ((available w multiLabel).filter (·.function)).filter p := by
    intro p hp
    simp only [List.filter_filter]
    refine List.filter_congr fun f hm => ?_
    cases hpf : p f with
    | false => simp
    | true => simp [(hk f hm).2 ⟨o, hs, enabled_getBool ((hp f).1 hpf)⟩]
  have hl' := hl (fun f => @decide (Enabled o f.option) (Classical.propDecidable _))
    fun f => @decide_eq_true_iff _ (Classical.propDecidable _)
  have hpop : populate ((available w multiLabel).filter keep) score =
      (trainingTime :: predictionTime :: ((available w multiLabel).filter keep).filter (·.function)).map
        fun f => (f, score f) := rfl
  cases kind with
  | csv =>
    simp only [tabularize, bind, Except.bind] at h
    cases h1 : getBool o "percentage".toList true with
    | error e => simp only [h1, reduceCtorEq] at h
    | ok percentage =>
      cases h2 : getNumber int o "decimals".toList 0 with
      | error e => simp only [h1, h2, reduceCtorEq] at h
      | ok decimals =>
        cases h3 : getBool o "enable_all".toList true with
        | error e => simp only [h1, h2, h3, reduceCtorEq] at h
        | ok enableAll =>
          simp only [h1, h2, h3, hpop] at h
          have hsub : List.Sublist
              (trainingTime :: predictionTime :: ((available w multiLabel).filter keep).filter (·.function))
              (trainingTime :: predictionTime :: (available w multiLabel).filter (·.function)) :=
            .cons_cons _ (.cons_cons _ (List.Sublist.filter _ List.filter_sublist))
          have := tabularize_fold h1 h3 (init := [])
            (by simpa using (names_nodup w multiLabel).sublist (hsub.map Formatter.name)) h
          refine ⟨decimals, getNumber_eq h2, ?_⟩
          rw [this, List.nil_append]
          unfold expected rows listed
          simp only [List.filter_cons, hl']
  | log =>
    simp only [format, bind, Except.bind] at h
    cases h1 : getBool o "percentage".toList true with
    | error e => simp only [h1, reduceCtorEq] at h
    | ok percentage =>
      cases h2 : getNumber int o "decimals".toList 2 with
      | error e => simp only [h1, h2, reduceCtorEq] at h
      | ok decimals =>
        cases h3 : getBool o "enable_all".toList true with
        | error e => simp only [h1, h2, h3, reduceCtorEq] at h
        | ok enableAll =>
          simp only [h1, h2, h3, hpop] at h
          have := format_fold h1 h3 (init := []) h
          refine ⟨decimals, getNumber_eq h2, ?_⟩
          rw [this, List.nil_append]
          have hfun : (trainingTime :: predictionTime :: ((available w multiLabel).filter keep).filter (·.function)).filter
              (fun f => f ≠ trainingTime ∧ f ≠ predictionTime) =
              ((available w multiLabel).filter keep).filter (·.function) := by
            rw [List.filter_cons, if_neg (by simp), List.filter_cons, if_neg (by simp), List.filter_eq_self]
            intro f hm
            have hf := (List.mem_filter.1 hm).2
            have h1 : f ≠ trainingTime := by rintro rfl; cases hf
            have h2 : f ≠ predictionTime := by rintro rfl; cases hf
            simp [h1, h2]
          rw [hfun]
          unfold expected rows listed
          simp only [hl']

/-- **Each sink reports exactly the measures that are enabled by its own options**, regardless of the options of other
sinks, and the scores according to these measures, as a percentage, if desired and possible. -/
theorem reported {Text : Type} {int : Str → Option Int} {formatFloat : ℚ → Int → Text} {w : Writer}
    {sinks : List (Kind × Dict)} {multiLabel : Bool} {score : Formatter → ℚ} {tables}
    (h : report int formatFloat w sinks multiLabel score = .ok tables) :
    List.Forall₂ (fun sink table => ∃ decimals, Decimals int sink decimals ∧
      table = expected formatFloat sink.1 sink.2 decimals w multiLabel score) sinks tables := by
  simp only [report, bind, Except.bind] at h
  cases hf : w.functions (sinks.map Prod.snd) multiLabel with
  | error e => simp [hf] at h
  | ok functions =>
    simp only [hf] at h
    have hmem : ∀ s ∈ sinks, s.2 ∈ sinks.map Prod.snd := fun s hs => List.mem_map_of_mem hs
    generalize sinks.map Prod.snd = options at hf hmem
    induction sinks generalizing tables with
    | nil =>
      simp only [List.mapM_nil, pure, Except.pure, Except.ok.injEq] at h
      exact h ▸ .nil
    | cons s sinks ih =>
      rw [List.mapM_cons] at h
      simp only [bind, Except.bind] at h
      split at h
      · simp at h
      · rename_i table h1
        split at h
        · simp at h
        · rename_i tables' h2
          simp only [pure, Except.pure, Except.ok.injEq] at h
          subst h
          exact .cons (sink_eq hf (hmem s List.mem_cons_self) h1)
            (ih h2 fun s hs => hmem s (List.mem_cons_of_mem _ hs))

/-! ### Valid options -/

/-- Options that have been set to valid values. -/
structure Valid (int : Str → Option Int) (options : Dict) : Prop where
  bool : ∀ key value, key ≠ "decimals".toList → options.lookup key = some value →
    value = "true".toList ∨ value = "false".toList
  number : ∀ value, options.lookup "decimals".toList = some value → (int value).isSome = true

theorem Valid.getBool {int : Str → Option Int} {options : Dict} (h : Valid int options) {key : Str}
    (hk : key ≠ "decimals".toList) (default : Bool) : ∃ b, PythonOptions.getBool options key default = .ok b := by
  unfold PythonOptions.getBool
  cases hl : options.lookup key with
  | none => exact ⟨default, rfl⟩
  | some v =>
    rcases h.bool key v hk hl with rfl | rfl
    · exact ⟨true, rfl⟩
    · exact ⟨false, rfl⟩

theorem Valid.getNumber {int : Str → Option Int} {options : Dict} (h : Valid int options) (default : Int) :
    ∃ d, PythonOptions.getNumber int options "decimals".toList default = .ok d := by
  unfold PythonOptions.getNumber
  cases hl : options.lookup "decimals".toList with
  | none => exact ⟨default, rfl⟩
  | some v =>
    obtain ⟨d, hd⟩ := Option.isSome_iff_exists.1 (h.number v hl)
    exact ⟨d, by simp only [hd]⟩

theorem foldlM_ok {A B : Type} {f : A → B → Except PyError A} {l : List B} (h : ∀ a, ∀ b ∈ l, ∃ a', f a b = .ok a')
    (init : A) : ∃ a, l.foldlM f init = .ok a := by
  induction l generalizing init with
  | nil => exact ⟨init, rfl⟩
  | cons b l ih =>
    obtain ⟨a', ha⟩ := h init b List.mem_cons_self
    obtain ⟨a, h'⟩ := ih (fun a b hb => h a b (List.mem_cons_of_mem _ hb)) a'
    exact ⟨a, by rw [List.foldlM_cons]; simp only [bind, Except.bind, ha, h']⟩

theorem filterFormatters_ok {int : Str → Option Int} {options : List Dict} (h : ∀ o ∈ options, Valid int o)
    {fs : List Formatter} (hf : ∀ f ∈ fs, f.option ≠ "decimals".toList) : ∃ result, filterFormatters options fs = .ok result := by
  induction fs with
  | nil => exact ⟨[], rfl⟩
  | cons f fs ih =>
    obtain ⟨b, hb⟩ : ∃ b, anyEnabled f.option options = .ok b := by
      refine foldlM_ok (fun a o ho => ?_) false
      obtain ⟨b, hb⟩ := (h o ho).getBool (hf f List.mem_cons_self) true
      exact ⟨a || b, by simp only [bind, Except.bind, hb]⟩
    obtain ⟨rest, hr⟩ := ih fun g hg => hf g (List.mem_cons_of_mem _ hg)
    exact ⟨_, by simp only [filterFormatters, bind, Except.bind, hb, hr]; rfl⟩

/-- **Results are reported if all options have been set to valid values.** -/
theorem reported_valid {Text : Type} {int : Str → Option Int} (formatFloat : ℚ → Int → Text) (w : Writer)
    {sinks : List (Kind × Dict)} (multiLabel : Bool) (score : Formatter → ℚ) (h : ∀ sink ∈ sinks, Valid int sink.2) :
    ∃ tables, report int formatFloat w sinks multiLabel score = .ok tables := by
  have ho : ∀ o ∈ sinks.map Prod.snd, Valid int o := by
    intro o ho
    obtain ⟨s, hs, rfl⟩ := List.mem_map.1 ho
    exact h s hs
  obtain ⟨functions, hf⟩ : ∃ functions, w.functions (sinks.map Prod.snd) multiLabel = .ok functions := by
    obtain ⟨l1, h1⟩ := filterFormatters_ok ho (fs := multiLabelMeasures) (by decide +kernel)
    obtain ⟨l2, h2⟩ := filterFormatters_ok ho (fs := singleLabelMeasures) (by decide +kernel)
    obtain ⟨l3, h3⟩ := filterFormatters_ok ho (fs := regressionMeasures) (by decide +kernel)
    obtain ⟨l4, h4⟩ := filterFormatters_ok ho (fs := rankingMeasures) (by decide +kernel)
    cases w
    · exact ⟨_, by simp only [Writer.functions, bind, Except.bind, h1, h2]; rfl⟩
    · exact ⟨l3, h3⟩
    · exact ⟨_, by simp only [Writer.functions, bind, Except.bind, h3, h4]; rfl⟩
  have hname : ∀ r ∈ populate functions score, r.1.option ≠ "decimals".toList := by
    obtain ⟨keep, rfl, -⟩ := functions_filter hf
    have hd : ∀ f ∈ trainingTime :: predictionTime :: available w multiLabel, f.option ≠ "decimals".toList := by
      cases w <;> cases multiLabel <;> decide +kernel
    intro r hr
    simp only [populate, List.mem_cons, List.mem_map, List.mem_filter] at hr
    rcases hr with rfl | rfl | ⟨f, ⟨⟨hf, -⟩, -⟩, rfl⟩
    · exact hd _ (by simp)
    · exact hd _ (by simp)
    · exact hd _ (by simp [hf])
  simp only [report, bind, Except.bind, hf]
  clear ho hf
  induction sinks with
  | nil => exact ⟨[], rfl⟩
  | cons s sinks ih =>
    obtain ⟨tables, ht⟩ := ih fun s hs => h s (List.mem_cons_of_mem _ hs)
    have hv := h s List.mem_cons_self
    obtain ⟨p, hp⟩ := hv.getBool (key := "percentage".toList) (by decide +kernel) true
    obtain ⟨e, he⟩ := hv.getBool (key := "enable_all".toList) (by decide +kernel) true
    obtain ⟨kind, o⟩ := s
    cases kind with
    | log =>
      obtain ⟨d, hd⟩ := hv.getNumber 2
      obtain ⟨table, h1⟩ : ∃ table, format int formatFloat o (populate functions score) = .ok table := by
        simp only [format, bind, Except.bind, hp, hd, he]
        refine foldlM_ok (fun a r hr => ?_) _
        obtain ⟨b, hb⟩ := hv.getBool (hname r hr) e
        exact ⟨_, by simp only [hb]; rfl⟩
      exact ⟨table :: tables, by rw [List.mapM_cons]; simp only [bind, Except.bind, h1, ht]; rfl⟩
    | csv =>
      obtain ⟨d, hd⟩ := hv.getNumber 0
      obtain ⟨table, h1⟩ : ∃ table, tabularize int formatFloat o (populate functions score) = .ok table := by
        simp only [tabularize, bind, Except.bind, hp, hd, he]
        refine foldlM_ok (fun a r hr => ?_) _
        obtain ⟨b, hb⟩ := hv.getBool (hname r hr) e
        exact ⟨_, by simp only [hb]; rfl⟩
      exact ⟨table :: tables, by rw [List.mapM_cons]; simp only [bind, Except.bind, h1, ht]; rfl⟩

/-! ### Selecting measures -/

/-- Options that select certain measures. -/
def select (wanted : List Str) : Dict := ("enable_all".toList, "false".toList) :: wanted.map fun k => (k, "true".toList)

/-- **Any set of options can be selected.** -/
theorem select_enabled (wanted : List Str) {option : Str} (h : option ≠ "enable_all".toList) :
    Enabled (select wanted) option ↔ option ∈ wanted := by
  have hl : (select wanted).lookup option = if option ∈ wanted then some "true".toList else none := by
    unfold select
    rw [List.lookup_cons, beq_eq_false_iff_ne.2 h]
    induction wanted with
    | nil => rfl
    | cons k wanted ih =>
      simp only [List.map_cons, List.lookup_cons]
      by_cases hk : option = k
      · subst hk
        simp only [beq_self_eq_true, List.mem_cons_self, if_true]
      · simp only [beq_eq_false_iff_ne.2 hk, List.mem_cons, hk, false_or]
        exact ih
  have he : (select wanted).lookup "enable_all".toList = some "false".toList := by
    unfold select
    rw [List.lookup_cons, beq_self_eq_true]
  constructor
  · rintro (h1 | ⟨-, h2⟩)
    · by_contra hn
      rw [hl, if_neg hn] at h1
      cases h1
    · rw [he] at h2
      rcases h2 with h2 | h2
      · cases h2
      · exact absurd h2 (by decide +kernel)
  · intro hw
    exact .explicit (by rw [hl, if_pos hw])

/-- Hence, each individual measure for binary predictions, and each ranking measure, can be selected. -/
theorem options_nodup_partial :
    ((available .binary true).map Formatter.option).Nodup ∧ ((available .binary false).map Formatter.option).Nodup ∧
    (rankingMeasures.map Formatter.option).Nodup := by
  decide +kernel

/-- **The median absolute error cannot be selected individually**: regardless of the options, it is reported if and only if
the mean absolute error is reported. -/
theorem median_not_selectable {Text : Type} {int : Str → Option Int} {formatFloat : ℚ → Int → Text} {w : Writer}
    {sinks : List (Kind × Dict)} {multiLabel : Bool} {score : Formatter → ℚ} {tables}
    (h : report int formatFloat w sinks multiLabel score = .ok tables) :
    ∀ table ∈ tables, "Median Absolute Error".toList ∈ table.map Prod.fst ↔
      "Mean Absolute Error".toList ∈ table.map Prod.fst := by
  intro table ht
  obtain ⟨sink, hr⟩ : ∃ sink : Kind × Dict, ∃ decimals, Decimals int sink decimals ∧
      table = expected formatFloat sink.1 sink.2 decimals w multiLabel score := by
    have hr := reported h
    clear h
    induction hr with
    | nil => cases ht
    | cons h1 _ ih =>
      rcases List.mem_cons.1 ht with rfl | ht
      · exact ⟨_, h1⟩
      · exact ih ht
  obtain ⟨decimals, -, rfl⟩ := hr
  have hrow : ∀ (l : List Formatter) (name option : Str),
      (∀ f ∈ l, f.name = name → f.option = option) →
      (name ∈ (rows formatFloat sink.2 decimals score l).map Prod.fst ↔
        name ∈ l.map Formatter.name ∧ Enabled sink.2 option) := by
    intro l name option hl
    simp only [rows, List.map_map, List.mem_map, List.mem_filter, decide_eq_true_iff, Function.comp]
    constructor
    · rintro ⟨f, ⟨hf, he⟩, rfl⟩
      exact ⟨⟨f, hf, rfl⟩, hl f hf rfl ▸ he⟩
    · rintro ⟨⟨f, hf, rfl⟩, he⟩
      exact ⟨f, ⟨hf, (hl f hf rfl).symm ▸ he⟩, rfl⟩
  unfold expected
  rw [hrow _ "Median Absolute Error".toList "mean_absolute_error".toList,
    hrow _ "Mean Absolute Error".toList "mean_absolute_error".toList]
  · have hn : ∀ k : Kind, ("Median Absolute Error".toList ∈ (listed k w multiLabel).map Formatter.name ↔
        "Mean Absolute Error".toList ∈ (listed k w multiLabel).map Formatter.name) := by
      intro k
      cases k <;> cases w <;> cases multiLabel <;> decide +kernel
    rw [hn sink.1]
  · cases sink.1 <;> cases w <;> cases multiLabel <;> decide +kernel
  · cases sink.1 <;> cases w <;> cases multiLabel <;> decide +kernel

/-! ### Examples -/

/-- Numbers are not rounded. -/
def exactText (value : ℚ) (decimals : Int) : ℚ × Int := (value, decimals)

/-- A sink that only reports the F1-measure and one that reports everything, but not as a percentage. -/
def exampleSinks : List (Kind × Dict) :=
  [(.log, select ["f1".toList]), (.csv, [("percentage".toList, "false".toList), ("accuracy".toList, "false".toList)])]

theorem example_report :
    (report (fun _ => none) exactText .binary exampleSinks false (fun _ => 1 / 2)).toOption.map
        (fun tables => tables.map fun table => table.map fun row => (String.ofList row.1, row.2)) =
      some [[("F1", (50, 2))],
        [("Training Time", (1 / 2, 0)), ("Prediction Time", (1 / 2, 0)), ("0/1 Loss", (1 / 2, 0)),
          ("Precision", (1 / 2, 0)), ("Recall", (1 / 2, 0)), ("F1", (1 / 2, 0)), ("Jaccard", (1 / 2, 0))]] := by
  decide +kernel

example : ∀ sink ∈ exampleSinks, Valid (fun _ => none) sink.2 := by
  intro sink hs
  have hb : ∀ kv ∈ sink.2, kv.1 ≠ "decimals".toList ∧ (kv.2 = "true".toList ∨ kv.2 = "false".toList) := by
    revert hs sink
    decide +kernel
  have hm : ∀ key value, sink.2.lookup key = some value → (key, value) ∈ sink.2 := by
    intro key value hl
    obtain ⟨l1, l2, he, -⟩ := List.lookup_eq_some_iff.1 hl
    simp [he]
  exact ⟨fun key value _ hl => (hb _ (hm key value hl)).2, fun value hl => absurd rfl (hb _ (hm _ value hl)).1⟩

end MLRL.Measures
