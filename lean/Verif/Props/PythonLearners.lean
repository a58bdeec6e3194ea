import Verif.Model.PythonLearners
import Mathlib.Data.List.Nodup

/-!
# C118: The arguments of rule learners and of their command line interface affect the configuration
-/

namespace MLRL.PythonLearners

open PythonOptions (Str)
open PythonParameters

/-! ### Specification -/

/-- All rule learners. -/
def learners : List Learner := [boomerClassifier, boomerRegressor, secoClassifier]

/-- The arguments that specify the formats of matrices, which do not affect the configuration (see C98). -/
def formats : List Str := ["feature_format".toList, "output_format".toList, "prediction_format".toList]

/-- The value of an argument of the constructor: the one that is given, or its default value. -/
def Learner.argument (l : Learner) (kwargs : List (Str × Option Str)) (name : Str) : Option Str :=
  match kwargs.lookup name with
  | some value => value
  | none => (l.arguments.lookup name).join

/-! ### The tables -/

/-- Properties of the tables. -/
structure Coherent (l : Learner) : Prop where
  nodup : (l.arguments.map Prod.fst).Nodup
  assigned : l.assignments.Perm (l.arguments.map fun a => (a.1, a.1))
  distinct : (l.parameters.map Parameter.name).Nodup
  provided : ∀ p ∈ l.parameters, p.isSupported l.config = true → p.name ∈ l.arguments.map Prod.fst
  general : ∀ name ∈ generalArguments, name ∈ l.arguments.map Prod.fst
  formats : ∀ p ∈ l.parameters, p.name ∉ formats

theorem coherent : ∀ l ∈ learners, Coherent l := by
  have h1 : ∀ l ∈ learners, (l.arguments.map Prod.fst).Nodup := by decide +kernel
  have h2 : ∀ l ∈ learners, l.assignments.Perm (l.arguments.map fun a => (a.1, a.1)) := by decide +kernel
  have h3 : ∀ l ∈ learners, (l.parameters.map Parameter.name).Nodup := by decide +kernel
  have h4 : ∀ l ∈ learners, ∀ p ∈ l.parameters, p.isSupported l.config = true → p.name ∈ l.arguments.map Prod.fst := by decide +kernel
  have h5 : ∀ l ∈ learners, ∀ name ∈ generalArguments, name ∈ l.arguments.map Prod.fst := by decide +kernel
  have h6 : ∀ l ∈ learners, ∀ p ∈ l.parameters, p.name ∉ formats := by decide +kernel
  exact fun l hl => ⟨h1 l hl, h2 l hl, h3 l hl, h4 l hl, h5 l hl, h6 l hl⟩

/-- The arguments of constructors are names of parameters, except for the formats. -/
theorem argument_parameter : ∀ l ∈ learners, ∀ a ∈ l.arguments, a.1 ∉ formats → ∃ p ∈ l.parameters, p.name = a.1 := by decide +kernel

/-- The parameters are supported, except for the random state in case of regression problems. -/
theorem argument_supported : ∀ l ∈ learners, ∀ p ∈ l.parameters, p.name ∈ l.arguments.map Prod.fst →
    p.isSupported l.config = true ∨ (l.config = boomerRegressorConfig ∧ p.name = "random_state".toList) := by decide +kernel

/-! ### Lists of pairs -/

theorem lookup_mem {V : Type} {name : Str} {v : V} : ∀ {l : List (Str × V)}, l.lookup name = some v → (name, v) ∈ l := by
  intro l
  induction l with
  | nil => intro h; cases h
  | cons a l ih =>
    intro h
    obtain ⟨k, w⟩ := a
    rw [List.lookup_cons] at h
    by_cases hk : name = k
    · subst hk
      simp only [beq_self_eq_true] at h
      cases h
      exact List.mem_cons_self
    · simp only [beq_eq_false_iff_ne.2 hk] at h
      exact List.mem_cons_of_mem _ (ih h)

theorem lookup_of_mem {V : Type} {name : Str} {v : V} : ∀ {l : List (Str × V)}, (l.map Prod.fst).Nodup → (name, v) ∈ l →
    l.lookup name = some v := by
  intro l
  induction l with
  | nil => intro _ h; cases h
  | cons a l ih =>
    intro hn h
    obtain ⟨k, w⟩ := a
    rw [List.map_cons, List.nodup_cons] at hn
    rw [List.lookup_cons]
    rcases List.mem_cons.1 h with h' | h'
    · cases h'
      simp
    · have hk : name ≠ k := by
        rintro rfl
        exact hn.1 (List.mem_map.2 ⟨_, h', rfl⟩)
      simp only [beq_eq_false_iff_ne.2 hk]
      exact ih hn.2 h'

theorem lookup_none {V : Type} {name : Str} {l : List (Str × V)} : l.lookup name = none ↔ name ∉ l.map Prod.fst := by
  induction l with
  | nil => simp
  | cons a l ih =>
    obtain ⟨k, w⟩ := a
    rw [List.lookup_cons, List.map_cons, List.mem_cons]
    by_cases hk : name = k
    · subst hk
      simp
    · simp only [beq_eq_false_iff_ne.2 hk, ih, hk, false_or]

/-! ### Constructors -/

theorem construct_cases (l : Learner) (kwargs : List (Str × Option Str)) :
    ((∀ kwarg ∈ kwargs, kwarg.1 ∈ l.arguments.map Prod.fst) ∧ ∃ attributes, l.construct kwargs = .ok attributes) ∨
      ((∃ kwarg ∈ kwargs, kwarg.1 ∉ l.arguments.map Prod.fst) ∧ l.construct kwargs = .error .type) := by
  unfold Learner.construct
  split
  · rename_i h
    exact Or.inr ⟨h, rfl⟩
  · rename_i h
    push_neg at h
    exact Or.inl ⟨h, _, rfl⟩

/-- **Unknown arguments are rejected** by constructors, and others are accepted. -/
theorem construct_ok (l : Learner) (kwargs : List (Str × Option Str)) :
    (∃ attributes, l.construct kwargs = .ok attributes) ↔ ∀ kwarg ∈ kwargs, kwarg.1 ∈ l.arguments.map Prod.fst := by
  rcases construct_cases l kwargs with ⟨h1, h2⟩ | ⟨⟨a, h1, h1'⟩, h2⟩
  · exact ⟨fun _ => h1, fun _ => h2⟩
  · rw [h2]
    exact ⟨fun ⟨_, h⟩ => (by cases h), fun h => absurd (h a h1) h1'⟩

/-- **Arguments are stored** in attributes of the same name. -/
theorem construct_attribute {l : Learner} (hl : l ∈ learners) {kwargs : List (Str × Option Str)} {attributes : Attributes}
    (h : l.construct kwargs = .ok attributes) {name : Str} (hn : name ∈ l.arguments.map Prod.fst) :
    attributes.lookup name = some (l.argument kwargs name) := by
  obtain ⟨h1, h2, -⟩ := coherent l hl
  unfold Learner.construct at h
  split at h
  · cases h
  cases h
  have hfst : ∀ (as : List (Str × Str)), (as.filterMap fun a =>
      match kwargs.lookup a.2 with
      | some value => some (a.1, value)
      | none => (l.arguments.lookup a.2).map fun default => (a.1, default)).map Prod.fst |>.Sublist (as.map Prod.fst) := by
    intro as
    induction as with
    | nil => exact List.Sublist.slnil
    | cons a as ih =>
      rw [List.filterMap_cons, List.map_cons]
      cases hk : kwargs.lookup a.2 with
      | some v => exact ih.cons_cons _
      | none =>
        dsimp only
        cases hd : l.arguments.lookup a.2 with
        | some d => exact ih.cons_cons _
        | none => exact ih.cons _
  have hnd : (l.assignments.map Prod.fst).Nodup := by
    have := (h2.map Prod.fst).nodup_iff
    rw [List.map_map] at this
    exact this.2 h1
  refine lookup_of_mem ((hfst _).nodup hnd) (List.mem_filterMap.2 ⟨(name, name), ?_, ?_⟩)
  · obtain ⟨a, ha, rfl⟩ := List.mem_map.1 hn
    exact h2.mem_iff.2 (List.mem_map.2 ⟨a, ha, rfl⟩)
  · unfold Learner.argument
    dsimp only
    cases hk : kwargs.lookup name with
    | some v => rfl
    | none =>
      dsimp only
      cases hd : l.arguments.lookup name with
      | some d => rfl
      | none => exact absurd hn (lookup_none.1 hd)

theorem construct_attribute_only {l : Learner} (hl : l ∈ learners) {kwargs : List (Str × Option Str)} {attributes : Attributes}
    (h : l.construct kwargs = .ok attributes) {name : Str} (hn : name ∉ l.arguments.map Prod.fst) : attributes.lookup name = none := by
  obtain ⟨h1, h2, -⟩ := coherent l hl
  unfold Learner.construct at h
  split at h
  · cases h
  cases h
  rw [lookup_none]
  intro hm
  obtain ⟨a, ha, rfl⟩ := List.mem_map.1 hm
  obtain ⟨b, hb, hab⟩ := List.mem_filterMap.1 ha
  have : a.1 = b.1 := by
    cases hk : kwargs.lookup b.2 with
    | some v =>
      rw [hk] at hab
      cases hab
      rfl
    | none =>
      rw [hk] at hab
      obtain ⟨d, -, hd⟩ := Option.map_eq_some_iff.1 hab
      rw [← hd]
  obtain ⟨c, hc, rfl⟩ := List.mem_map.1 (h2.mem_iff.1 hb)
  exact hn (this ▸ List.mem_map_of_mem hc)

theorem mem_configureWith {config : List Str} {attributes : Attributes} {name value : Str} : ∀ {ps : List Parameter},
    (name, value) ∈ configureWith config attributes ps ↔ ∃ p ∈ ps, p.name = name ∧ p.isSupported config = true ∧
      attributes.lookup name = some (some value) := by
  intro ps
  induction ps with
  | nil => simp [configureWith]
  | cons p ps ih =>
    unfold configureWith
    have hcons : (∃ q ∈ p :: ps, q.name = name ∧ q.isSupported config = true ∧ attributes.lookup name = some (some value)) ↔
        (p.name = name ∧ p.isSupported config = true ∧ attributes.lookup name = some (some value)) ∨
          (name, value) ∈ configureWith config attributes ps := by
      rw [ih]
      simp only [List.mem_cons, exists_eq_or_imp]
    rw [hcons]
    split
    · rename_i v hv
      split
      · rename_i hs
        rw [List.mem_cons]
        refine or_congr_left ?_
        constructor
        · intro h
          cases h
          exact ⟨rfl, hs, hv⟩
        · rintro ⟨rfl, -, h⟩
          rw [hv] at h
          cases h
          rfl
      · rename_i hs
        refine ⟨Or.inr, ?_⟩
        rintro (⟨-, h, -⟩ | h)
        · exact absurd h hs
        · exact h
    · rename_i hv
      refine ⟨Or.inr, ?_⟩
      rintro (⟨rfl, -, h⟩ | h)
      · exact absurd h (hv value)
      · exact h

/-! ### Theorems -/

/-- **Arguments affect the configuration** (partial). The configuration is modified according to exactly those arguments of the constructor that are not `None`,
except for the formats of matrices. For regression problems, this does not apply to the random state. -/
theorem configure_partial {l : Learner} (hl : l ∈ learners) {kwargs : List (Str × Option Str)} {attributes : Attributes}
    (h : l.construct kwargs = .ok attributes) {name value : Str} (hr : l.config = boomerRegressorConfig → name ≠ "random_state".toList) :
    (name, value) ∈ l.configure attributes ↔ name ∈ l.arguments.map Prod.fst ∧ name ∉ formats ∧ l.argument kwargs name = some value := by
  unfold Learner.configure
  rw [mem_configureWith]
  constructor
  · rintro ⟨p, hp, rfl, hs, ha⟩
    have hm := (coherent l hl).provided p hp hs
    rw [construct_attribute hl h hm] at ha
    exact ⟨hm, (coherent l hl).formats p hp, Option.some.inj ha⟩
  · rintro ⟨hm, hf, hv⟩
    obtain ⟨a, ha, rfl⟩ := List.mem_map.1 hm
    obtain ⟨p, hp, hpn⟩ := argument_parameter l hl a ha hf
    refine ⟨p, hp, hpn, ?_, by rw [construct_attribute hl h hm, hv]⟩
    rcases argument_supported l hl p hp (hpn ▸ hm) with hs | ⟨hc, hn⟩
    · exact hs
    · exact absurd (hpn ▸ hn) (hr hc)

/-- **Each parameter is configured at most once.** -/
theorem configure_nodup {l : Learner} (hl : l ∈ learners) (attributes : Attributes) : ((l.configure attributes).map Prod.fst).Nodup := by
  have hsub : ∀ ps : List Parameter, ((configureWith l.config attributes ps).map Prod.fst).Sublist (ps.map Parameter.name) := by
    intro ps
    induction ps with
    | nil => exact List.Sublist.slnil
    | cons p ps ih =>
      unfold configureWith
      split
      · split
        · exact ih.cons_cons _
        · exact ih.cons _
      · exact ih.cons _
  exact (hsub _).nodup (coherent l hl).distinct

/-- **The random state is ignored in case of regression problems**: although the constructor accepts it, the configuration is never modified accordingly. -/
theorem random_state_ignored (attributes : Attributes) (value : Str) :
    ("random_state".toList, value) ∉ boomerRegressor.configure attributes := by
  unfold Learner.configure
  rw [mem_configureWith]
  rintro ⟨p, hp, hn, hs, -⟩
  have : ∀ p ∈ boomerRegressor.parameters, p.name = "random_state".toList → p.isSupported boomerRegressor.config = false := by decide +kernel
  rw [this p hp hn] at hs
  cases hs

/-! ### Command line -/

theorem mem_addArguments {config : List Str} {name : Str} : ∀ {ps : List Parameter} {arguments : List Str},
    name ∈ addArguments config ps arguments ↔ name ∈ arguments ∨ ∃ p ∈ ps, p.name = name ∧ p.isSupported config = true := by
  intro ps
  induction ps with
  | nil => simp [addArguments]
  | cons p ps ih =>
    intro arguments
    unfold addArguments
    simp only [List.mem_cons, exists_eq_or_imp]
    split
    · rename_i h
      rw [ih, List.mem_append, List.mem_singleton]
      constructor
      · rintro ((h1 | h1) | h1)
        · exact Or.inl h1
        · exact Or.inr (Or.inl ⟨h1.symm, h.1⟩)
        · exact Or.inr (Or.inr h1)
      · rintro (h1 | h1 | h1)
        · exact Or.inl (Or.inl h1)
        · exact Or.inl (Or.inr h1.1.symm)
        · exact Or.inr h1
    · rename_i h
      rw [ih]
      constructor
      · rintro (h1 | h1)
        · exact Or.inl h1
        · exact Or.inr (Or.inr h1)
      · rintro (h1 | h1 | h1)
        · exact Or.inl h1
        · refine Or.inl ?_
          by_contra hc
          exact h ⟨h1.2, h1.1 ▸ hc⟩
        · exact Or.inr h1

theorem nodup_addArguments {config : List Str} : ∀ {ps : List Parameter} {arguments : List Str}, arguments.Nodup →
    (addArguments config ps arguments).Nodup := by
  intro ps
  induction ps with
  | nil => exact id
  | cons p ps ih =>
    intro arguments hn
    unfold addArguments
    split
    · rename_i h
      refine ih (List.nodup_append.2 ⟨hn, by simp, ?_⟩)
      rintro a ha b hb rfl
      rw [List.mem_singleton] at hb
      exact h.2 (hb ▸ ha)
    · exact ih hn

theorem cliArguments_sub {l : Learner} (hl : l ∈ learners) {name : Str} (h : name ∈ l.cliArguments) : name ∈ l.arguments.map Prod.fst := by
  unfold Learner.cliArguments at h
  rw [mem_addArguments] at h
  rcases h with h | ⟨p, hp, rfl, hs⟩
  · exact (coherent l hl).general name h
  · exact (coherent l hl).provided p hp hs

theorem lookup_map {V : Type} {f : Str → V} {name : Str} : ∀ {names : List Str}, name ∈ names →
    (names.map fun n => (n, f n)).lookup name = some (f name) := by
  intro names
  induction names with
  | nil => intro h; cases h
  | cons n names ih =>
    intro h
    rw [List.map_cons, List.lookup_cons]
    by_cases hk : name = n
    · subst hk
      simp
    · simp only [beq_eq_false_iff_ne.2 hk]
      exact ih ((List.mem_cons.1 h).resolve_left hk)

theorem mem_createKwargs {l : Learner} {args : List (Str × Option Str)} {name : Str} {value : Option Str}
    (h : (name, value) ∈ l.createKwargs args) : args.lookup name = some value := by
  unfold Learner.createKwargs createKwargs at h
  rcases List.mem_append.1 h with h | h
  · obtain ⟨p, -, hp⟩ := List.mem_filterMap.1 h
    obtain ⟨v, hv, he⟩ := Option.map_eq_some_iff.1 hp
    cases he
    exact hv
  · obtain ⟨p, -, hp⟩ := List.mem_filterMap.1 h
    obtain ⟨v, hv, he⟩ := Option.map_eq_some_iff.1 hp
    cases he
    exact hv

theorem createKwargs_mem {l : Learner} {args : List (Str × Option Str)} {p : Parameter} (hp : p ∈ l.parameters) {value : Option Str}
    (h : args.lookup p.name = some value) : (p.name, value) ∈ l.createKwargs args := by
  unfold Learner.createKwargs createKwargs
  exact List.mem_append_left _ (List.mem_filterMap.2 ⟨p, hp, by rw [h]; rfl⟩)

theorem lookup_createKwargs {l : Learner} {args : List (Str × Option Str)} {name : Str} {value : Option Str}
    (h : (name, value) ∈ l.createKwargs args) : (l.createKwargs args).lookup name = some value := by
  cases hl : (l.createKwargs args).lookup name with
  | none => exact absurd (List.mem_map.2 ⟨_, h, rfl⟩) (lookup_none.1 hl)
  | some w =>
    have h1 := mem_createKwargs (lookup_mem hl)
    rw [mem_createKwargs h] at h1
    cases h1
    rfl

/-- **Command line arguments** are accepted if and only if the configuration supports the parameter, or if they are among those that are available for all
algorithms. Creating the rule learner does never fail. -/
theorem run_ok {l : Learner} (hl : l ∈ learners) (given : List (Str × Str)) : (∃ calls, l.run given = .ok calls) ↔
    ∀ g ∈ given, g.1 ∈ generalArguments ∨ ∃ p ∈ l.parameters, p.name = g.1 ∧ p.isSupported l.config = true := by
  have hcli : ∀ name, name ∈ l.cliArguments ↔ name ∈ generalArguments ∨ ∃ p ∈ l.parameters, p.name = name ∧ p.isSupported l.config = true :=
    fun name => mem_addArguments
  unfold Learner.run Learner.parseArgs
  by_cases h : ∃ argument ∈ given, argument.1 ∉ l.cliArguments
  · rw [if_pos h]
    constructor
    · rintro ⟨_, hc⟩
      cases hc
    · intro hall
      obtain ⟨a, ha, ha'⟩ := h
      exact absurd ((hcli _).2 (hall a ha)) ha'
  · rw [if_neg h]
    push_neg at h
    refine ⟨fun _ g hg => (hcli _).1 (h g hg), fun _ => ?_⟩
    have := (construct_ok l (l.createKwargs (l.cliArguments.map fun name => (name, given.reverse.lookup name)))).2 (by
      rintro ⟨name, value⟩ hm
      have hlk := lookup_mem (mem_createKwargs hm)
      obtain ⟨n, hn, he⟩ := List.mem_map.1 hlk
      cases he
      exact cliArguments_sub hl hn)
    obtain ⟨attributes, ha⟩ := this
    simp only [bind, Except.bind, ha]
    exact ⟨_, rfl⟩

/-- **Command line arguments affect the configuration** (partial): the configuration is modified according to exactly those arguments that are given, where
the last one counts, except for the formats of matrices. For regression problems, this does not apply to the random state. -/
theorem run_partial {l : Learner} (hl : l ∈ learners) {given calls : List (Str × Str)} (h : l.run given = .ok calls) {name value : Str}
    (hr : l.config = boomerRegressorConfig → name ≠ "random_state".toList) :
    (name, value) ∈ calls ↔ name ∉ formats ∧ given.reverse.lookup name = some value := by
  unfold Learner.run at h
  cases hp : l.parseArgs given with
  | error e =>
    rw [hp] at h
    cases h
  | ok args =>
    rw [hp] at h
    simp only [bind, Except.bind] at h
    cases hc : l.construct (l.createKwargs args) with
    | error e =>
      rw [hc] at h
      cases h
    | ok attributes =>
      rw [hc] at h
      cases h
      unfold Learner.parseArgs at hp
      split at hp
      · cases hp
      rename_i hg
      push_neg at hg
      cases hp
      rw [configure_partial hl hc hr]
      have hkw : ∀ p ∈ l.parameters, p.name ∈ l.cliArguments →
          l.argument (l.createKwargs (l.cliArguments.map fun name => (name, given.reverse.lookup name))) p.name = given.reverse.lookup p.name := by
        intro p hp hm
        unfold Learner.argument
        rw [lookup_createKwargs (createKwargs_mem hp (lookup_map hm))]
      have hin : ∀ p ∈ l.parameters, p.name = name → p.name ∈ l.arguments.map Prod.fst → p.name ∈ l.cliArguments := by
        intro p hp hpn hm
        unfold Learner.cliArguments
        rw [mem_addArguments]
        rcases argument_supported l hl p hp hm with hs | ⟨hc', hn'⟩
        · exact Or.inr ⟨p, hp, rfl, hs⟩
        · exact absurd (hpn ▸ hn') (hr hc')
      constructor
      · rintro ⟨hm, hf, hv⟩
        refine ⟨hf, ?_⟩
        obtain ⟨a, ha, hae⟩ := List.mem_map.1 hm
        obtain ⟨p, hp, hpn⟩ := argument_parameter l hl a ha (hae ▸ hf)
        have hpn' : p.name = name := hpn.trans hae
        have := hkw p hp (hin p hp hpn' (hpn' ▸ hm))
        rw [hpn'] at this
        rw [← this]
        exact hv
      · rintro ⟨hf, hv⟩
        have hmem := lookup_mem hv
        rw [List.mem_reverse] at hmem
        have hm := cliArguments_sub hl (hg _ hmem)
        obtain ⟨a, ha, hae⟩ := List.mem_map.1 hm
        obtain ⟨p, hp, hpn⟩ := argument_parameter l hl a ha (by rw [hae]; exact hf)
        have hpn' : p.name = name := hpn.trans hae
        refine ⟨hm, hf, ?_⟩
        have := hkw p hp (hpn' ▸ hg _ hmem)
        rw [hpn'] at this
        rw [this]
        exact hv

/-- **The random state that is given on the command line is ignored in case of regression problems**: it is accepted, but has no effect. -/
theorem run_random_state (value : Str) : boomerRegressor.run [("random_state".toList, value)] = .ok [] := by
  have hl : boomerRegressor ∈ learners := List.mem_cons_of_mem _ List.mem_cons_self
  obtain ⟨calls, hc⟩ := (run_ok hl [("random_state".toList, value)]).2 (by
    intro g hg
    rw [List.mem_singleton] at hg
    subst hg
    exact Or.inl List.mem_cons_self)
  rw [hc]
  refine congrArg _ (List.eq_nil_iff_forall_not_mem.2 ?_)
  rintro ⟨n, v⟩ hm
  by_cases hn : n = "random_state".toList
  · subst hn
    unfold Learner.run at hc
    cases hp : boomerRegressor.parseArgs [("random_state".toList, value)] with
    | error e =>
      rw [hp] at hc
      cases hc
    | ok args =>
      rw [hp] at hc
      simp only [bind, Except.bind] at hc
      cases ha : boomerRegressor.construct (boomerRegressor.createKwargs args) with
      | error e =>
        rw [ha] at hc
        cases hc
      | ok attributes =>
        rw [ha] at hc
        cases hc
        exact random_state_ignored attributes v hm
  · obtain ⟨-, hv⟩ := (run_partial hl hc fun _ => hn).1 hm
    have := lookup_mem hv
    rw [List.reverse_singleton, List.mem_singleton] at this
    cases this
    exact hn rfl

/-! ### Examples -/

/-- The default value of the shrinkage parameter is used. -/
example : (boomerClassifier.construct [("max_rules".toList, some "10".toList)]).map boomerClassifier.configure =
    .ok [("max_rules".toList, "10".toList), ("shrinkage".toList, "0.3".toList)] := by decide +kernel

/-- Global pruning is not supported by the separate-and-conquer algorithm. -/
example : secoClassifier.construct [("global_pruning".toList, some "post-pruning".toList)] = .error .type := by decide +kernel

example : secoClassifier.run [("global_pruning".toList, "post-pruning".toList)] = .error .usage := by decide +kernel

/-- The last value counts. -/
example : secoClassifier.run [("heuristic".toList, "recall".toList), ("random_state".toList, "1".toList), ("heuristic".toList, "precision".toList)] =
    .ok [("heuristic".toList, "precision".toList), ("random_state".toList, "1".toList)] := by decide +kernel

end MLRL.PythonLearners
