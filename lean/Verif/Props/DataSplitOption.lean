import Verif.Model.DataSplitOption
import Verif.Props.ResultFiles
import Verif.Props.PythonOptions
import Mathlib.Algebra.Order.Ring.Rat
import Mathlib.Algebra.Field.Rat
import Mathlib.Tactic.Push

/-!
# C119: Data sets are split as specified on the command line, and the results of individual folds are retained
-/

namespace MLRL.DataSplitOption

open PythonOptions (Str Dict PyError getNumber parseParamAndOptions)
open ResultFiles (Target writeAll Same)

variable {F : Type}

/-! ### Specification -/

/-- The values that may be passed to the constructors. Folds are counted from zero, and `-1` means that all of them are used. -/
def Valid [Field F] [LinearOrder F] : Splitter F → Prop
  | .none => True
  | .trainTest testSize randomState => 0 < testSize ∧ testSize < 1 ∧ 1 ≤ randomState
  | .crossValidation numFolds currentFold randomState => 2 ≤ numFolds ∧ -1 ≤ currentFold ∧ currentFold < numFolds ∧ 1 ≤ randomState

/-- How the values are specified: the number of a single fold is counted from one, zero means that all folds are used. -/
def Specified [Field F] (int : Str → Option Int) (float : Str → Option F) (randomState : Option Int) (value : Str) (options : Dict) : Splitter F → Prop
  | .none => value = "none".toList
  | .trainTest testSize seed => value = "train-test".toList ∧ getNumber float options "test_size".toList (33 / 100) = .ok testSize ∧
      seed = randomState.getD 1
  | .crossValidation numFolds currentFold seed => value = "cross-validation".toList ∧ getNumber int options "num_folds".toList 10 = .ok numFolds ∧
      getNumber int options "current_fold".toList 0 = .ok (currentFold + 1) ∧ seed = randomState.getD 1

/-! ### Auxiliary statements -/

theorem require_bind {condition : Prop} [Decidable condition] {α : Type} (f : Unit → Except PyError α) (a : α) :
    (require condition >>= f) = .ok a ↔ condition ∧ f () = .ok a := by
  unfold require
  by_cases h : condition
  · rw [if_pos h]
    exact ⟨fun hh => ⟨h, hh⟩, fun hh => hh.2⟩
  · rw [if_neg h]
    exact ⟨fun hh => (by cases hh), fun hh => absurd hh.1 h⟩

theorem bind_ok {α β : Type} (r : Except PyError α) (f : α → Except PyError β) (b : β) : (r >>= f) = .ok b ↔ ∃ a, r = .ok a ∧ f a = .ok b := by
  cases r with
  | error e => exact ⟨fun h => (by cases h), fun ⟨_, h, _⟩ => (by cases h)⟩
  | ok a => exact ⟨fun h => ⟨a, rfl, h⟩, fun ⟨_, h, h'⟩ => (by cases h; exact h')⟩

theorem seed_eq {randomState : Option Int} (h : randomState ≠ some 0) : seed randomState = randomState.getD 1 := by
  cases randomState with
  | none => rfl
  | some i =>
    have : i ≠ 0 := fun hi => h (by rw [hi])
    simp [seed, this]

theorem value_cases {space : Char → Bool} {text value : Str} {options : Dict} : ∀ {items : List (Str × List Str)},
    parseParamAndOptions space text items = .ok (value, options) → value ∈ items.map Prod.fst := by
  intro items
  induction items with
  | nil => intro h; cases h
  | cons item items ih =>
    intro h
    obtain ⟨v, o⟩ := item
    unfold parseParamAndOptions at h
    rw [List.map_cons, List.mem_cons]
    split at h
    · split at h
      · split at h
        · cases h
          exact Or.inl rfl
        · cases h
      · cases h
        exact Or.inl rfl
    · exact Or.inr (ih h)

/-! ### Theorems -/

/-- **Data sets are split as specified** (partial): an object is created if and only if valid values are specified, and the values of its attributes are those that
are specified, or default values. If the random state is zero, see `random_state_zero`. -/
theorem create_partial [Field F] [LinearOrder F] (space : Char → Bool) (int : Str → Option Int) (float : Str → Option F) (text : Str)
    {randomState : Option Int} (hr : randomState ≠ some 0) (s : Splitter F) :
    createDataSplitter space int float text randomState = .ok s ↔
      ∃ value options, parseParamAndOptions space text dataSplitValues = .ok (value, options) ∧ Specified int float randomState value options s ∧ Valid s := by
  unfold createDataSplitter
  rw [bind_ok]
  constructor
  · rintro ⟨⟨value, options⟩, hp, h⟩
    refine ⟨value, options, hp, ?_⟩
    dsimp only at h
    split at h
    · rename_i hv
      rw [bind_ok] at h
      obtain ⟨n, hn, h⟩ := h
      rw [require_bind] at h
      obtain ⟨h2, h⟩ := h
      rw [bind_ok] at h
      obtain ⟨c, hc, h⟩ := h
      split at h
      · rw [require_bind] at h
        obtain ⟨h3, h⟩ := h
        rw [require_bind] at h
        obtain ⟨h4, h⟩ := h
        rw [require_bind] at h
        obtain ⟨h5, h⟩ := h
        cases h
        exact ⟨⟨hv, hn, by rw [hc]; congr 1; omega, seed_eq hr⟩, h2, by omega, by omega, h5⟩
      · rename_i h0
        rw [require_bind] at h
        obtain ⟨h5, h⟩ := h
        cases h
        exact ⟨⟨hv, hn, by rw [hc]; congr 1; omega, seed_eq hr⟩, h2, by omega, by omega, h5⟩
    · rename_i hv
      split at h
      · rename_i hv'
        rw [bind_ok] at h
        obtain ⟨t, ht, h⟩ := h
        rw [require_bind] at h
        obtain ⟨h2, h⟩ := h
        rw [require_bind] at h
        obtain ⟨h3, h⟩ := h
        rw [require_bind] at h
        obtain ⟨h4, h⟩ := h
        cases h
        exact ⟨⟨hv', ht, seed_eq hr⟩, h2, h3, h4⟩
      · rename_i hv'
        cases h
        have := value_cases hp
        simp only [dataSplitValues, List.map_cons, List.map_nil, List.mem_cons, List.not_mem_nil, or_false] at this
        rcases this with h | h | h
        · exact ⟨h, trivial⟩
        · exact absurd h hv'
        · exact absurd h hv
  · rintro ⟨value, options, hp, hs, hv⟩
    refine ⟨(value, options), hp, ?_⟩
    dsimp only
    cases s with
    | none =>
      have hval : value = "none".toList := hs
      subst hval
      rw [if_neg (by decide), if_neg (by decide)]
      rfl
    | trainTest t r =>
      obtain ⟨hval, ht, hseed⟩ := hs
      obtain ⟨h1, h2, h3⟩ := hv
      subst hval
      rw [if_neg (by decide), if_pos rfl, bind_ok]
      refine ⟨t, ht, ?_⟩
      rw [require_bind, require_bind, require_bind, seed_eq hr, ← hseed]
      exact ⟨h1, h2, h3, rfl⟩
    | crossValidation n c r =>
      obtain ⟨hval, hn, hc, hseed⟩ := hs
      obtain ⟨h1, h2, h3, h4⟩ := hv
      subst hval
      rw [if_pos rfl, bind_ok]
      refine ⟨n, hn, ?_⟩
      rw [require_bind, bind_ok]
      refine ⟨h1, c + 1, hc, ?_⟩
      have hres : (require (1 ≤ seed randomState) >>= fun _ => (pure (Splitter.crossValidation n (c + 1 - 1) (seed randomState)) : Except PyError (Splitter F))) =
          .ok (.crossValidation n c r) := by
        rw [require_bind, seed_eq hr, ← hseed, Int.add_sub_cancel]
        exact ⟨h4, rfl⟩
      split
      · rw [require_bind, require_bind]
        exact ⟨by omega, by omega, hres⟩
      · exact hres

/-- **A random state of zero is not rejected**, although it must be at least one. Instead, the default value is used. -/
theorem random_state_zero [Field F] [LinearOrder F] (space : Char → Bool) (int : Str → Option Int) (float : Str → Option F) (text : Str) :
    createDataSplitter space int float text (some 0) = createDataSplitter space int float text none := rfl

/-- **The results of an experiment**: unless a single fold of a cross validation is performed, the output directory contains the results of the experiment, and
nothing else. -/
theorem run_cleared {C : Type} {s : Splitter F} (hs : s.currentFold < 0) {results : List (Target × C)} (hp : ∀ r ∈ results, r.1.Possible)
    (hd : results.Pairwise fun r r' => ¬ Same r.1 r'.1) (files : Str → Option C) (name : Str) (c : C) :
    runExperiment s results files name = some c ↔ ∃ r ∈ results, r.1.fileName = name ∧ r.2 = c := by
  have hc : s.clears = true := by
    unfold Splitter.clears
    rw [decide_eq_false (by omega)]
    rfl
  unfold runExperiment
  rw [hc, if_pos rfl]
  constructor
  · intro h
    by_contra hno
    by_cases hex : ∃ r ∈ results, r.1.fileName = name
    · obtain ⟨r, hr, rfl⟩ := hex
      rw [ResultFiles.written _ results hp hd r hr] at h
      exact hno ⟨r, hr, rfl, Option.some.inj h⟩
    · push_neg at hex
      rw [ResultFiles.writeAll_other _ results name fun r hr he => hex r hr he.symm] at h
      cases h
  · rintro ⟨r, hr, rfl, rfl⟩
    exact ResultFiles.written _ results hp hd r hr

theorem runExperiments_kept {C : Type} : ∀ {es : List (Splitter F × List (Target × C))}, (∀ e ∈ es, 0 ≤ e.1.currentFold) →
    ∀ files, runExperiments es files = writeAll files (es.map Prod.snd).flatten := by
  intro es
  induction es with
  | nil => intro _ _; rfl
  | cons e es ih =>
    intro h files
    rw [List.forall_mem_cons] at h
    have hc : e.1.clears = false := by
      unfold Splitter.clears
      rw [decide_eq_true h.1]
      rfl
    rw [runExperiments, ih h.2, List.map_cons, List.flatten_cons]
    unfold runExperiment writeAll
    rw [hc, List.foldl_append]
    rfl

/-- **The results of individual folds are retained**: if folds of a cross validation are performed one after the other, using the same output directory, it finally
contains the results of all folds, as well as all files it contained before that are not overwritten. -/
theorem run_folds {C : Type} {es : List (Splitter F × List (Target × C))} (h : ∀ e ∈ es, 0 ≤ e.1.currentFold)
    (hp : ∀ e ∈ es, ∀ r ∈ e.2, r.1.Possible) (hd : ∀ e ∈ es, e.2.Pairwise fun r r' => ¬ Same r.1 r'.1)
    (hf : ∀ e ∈ es, ∀ r ∈ e.2, r.1.fold = some e.1.currentFold.toNat) (hn : (es.map fun e => e.1.currentFold).Nodup) (files : Str → Option C) :
    (∀ e ∈ es, ∀ r ∈ e.2, runExperiments es files r.1.fileName = some r.2) ∧
      ∀ name, (∀ e ∈ es, ∀ r ∈ e.2, name ≠ r.1.fileName) → runExperiments es files name = files name := by
  rw [runExperiments_kept h]
  have hmem : ∀ r, r ∈ (es.map Prod.snd).flatten ↔ ∃ e ∈ es, r ∈ e.2 := by
    intro r
    rw [List.mem_flatten]
    constructor
    · rintro ⟨l, hl, hr⟩
      obtain ⟨e, he, rfl⟩ := List.mem_map.1 hl
      exact ⟨e, he, hr⟩
    · rintro ⟨e, he, hr⟩
      exact ⟨e.2, List.mem_map_of_mem he, hr⟩
  constructor
  · intro e he r hr
    refine ResultFiles.written files _ (fun r hr => ?_) ?_ r ((hmem r).2 ⟨e, he, hr⟩)
    · obtain ⟨e, he, hr⟩ := (hmem r).1 hr
      exact hp e he r hr
    · rw [List.pairwise_flatten]
      constructor
      · intro l hl
        obtain ⟨e, he, rfl⟩ := List.mem_map.1 hl
        exact hd e he
      · rw [List.pairwise_map]
        have hn' : es.Pairwise fun e e' => e.1.currentFold ≠ e'.1.currentFold := by
          rw [List.Nodup, List.pairwise_map] at hn
          exact hn
        refine hn'.imp_of_mem ?_
        intro e e' he he' hne r hr r' hr' hsame
        have h1 := hf e he r hr
        have h2 := hf e' he' r' hr'
        have h3 := h e he
        have h4 := h e' he'
        have := hsame.fold
        rw [h1, h2, Option.some.injEq] at this
        omega
  · intro name hname
    refine ResultFiles.writeAll_other files _ name fun r hr => ?_
    obtain ⟨e, he, hr⟩ := (hmem r).1 hr
    exact hname e he r hr

/-! ### Examples -/

/-- Parses digits only. -/
def exampleInt (text : Str) : Option Int :=
  if text = "5".toList then some 5 else if text = "3".toList then some 3 else if text = "7".toList then some 7 else none

example : createDataSplitter (F := ℚ) (fun c => c = ' ') exampleInt (fun _ => none) "cross-validation{num_folds=5,current_fold=3}".toList (some 7) =
    .ok (.crossValidation 5 2 7) := by decide +kernel

/-- There is no such fold. -/
example : createDataSplitter (F := ℚ) (fun c => c = ' ') exampleInt (fun _ => none) "cross-validation{num_folds=5,current_fold=7}".toList none =
    .error .valueError := by decide +kernel

example : createDataSplitter (F := ℚ) (fun c => c = ' ') exampleInt (fun _ => none) "train-test".toList none = .ok (.trainTest (33 / 100) 1) := by decide +kernel

/-- The results of the first fold are retained when performing the second one. -/
example : (runExperiments [(.crossValidation (F := ℚ) 2 0 1, [(⟨.evaluation, some .test, none, some 0⟩, 10)]),
    (.crossValidation 2 1 1, [(⟨.evaluation, some .test, none, some 1⟩, 20)])] (fun _ => none) "evaluation_test_fold-1.csv".toList) = some 10 := by decide +kernel

end MLRL.DataSplitOption
