import Verif.Model.ResultFiles
import Verif.Props.Experiment

/-!
# C115: Different results are written to different files
-/

namespace MLRL.ResultFiles

open ParameterFiles (Str str fileNamePerFold fileNamePerFold_inj str_mem str_inj)
open Experiment (DataType)

/-- Predictions always correspond to training or test data. -/
def Target.Possible (t : Target) : Prop := t.output = .predictions → t.dataType.isSome = true

instance (t : Target) : Decidable t.Possible := by unfold Target.Possible; infer_instance

/-- Results that belong into the same file: the size of a model does only matter for predictions. -/
structure Same (t t' : Target) : Prop where
  output : t.output = t'.output
  dataType : t.dataType = t'.dataType
  fold : t.fold = t'.fold
  size : t.output = .predictions → t.size = t'.size

instance (t t' : Target) : Decidable (Same t t') :=
  decidable_of_iff (t.output = t'.output ∧ t.dataType = t'.dataType ∧ t.fold = t'.fold ∧
    (t.output = .predictions → t.size = t'.size)) ⟨fun h => ⟨h.1, h.2.1, h.2.2.1, h.2.2.2⟩, fun h => ⟨h.1, h.2, h.3, h.4⟩⟩

theorem split_last (c : Char) : ∀ (a a' b b' : Str), c ∉ b → c ∉ b' → a ++ c :: b = a' ++ c :: b' → a = a' ∧ b = b' := by
  intro a
  induction a with
  | nil =>
    intro a' b b' hb hb' h
    cases a' with
    | nil => simpa using h
    | cons d a' =>
      simp only [List.nil_append, List.cons_append, List.cons.injEq] at h
      exact absurd (by rw [h.2]; simp) hb
  | cons d a ih =>
    intro a' b b' hb hb' h
    cases a' with
    | nil =>
      simp only [List.nil_append, List.cons_append, List.cons.injEq] at h
      exact absurd (by rw [← h.2]; simp) hb'
    | cons e a' =>
      simp only [List.cons_append, List.cons.injEq] at h
      obtain ⟨h1, h2⟩ := ih a' b b' hb hb' h.2
      exact ⟨by rw [h.1, h1], h2⟩

theorem suffix_inj {name name' suffix suffix' : Str} {fold fold' : Option Nat} (hs : '.' ∉ suffix) (hs' : '.' ∉ suffix')
    (h : fileNamePerFold name suffix fold = fileNamePerFold name' suffix' fold') :
    suffix = suffix' ∧ name = name' ∧ fold = fold' := by
  have h1 := (split_last '.' _ _ _ _ hs hs' h).2
  subst h1
  exact ⟨rfl, (fileNamePerFold_inj ..).1 h⟩

theorem suffix_dot (o : Output) : '.' ∉ o.suffix := by cases o <;> decide +kernel

/-- All kinds of results. -/
def outputs : List Output :=
  [.evaluation, .predictions, .predictionCharacteristics, .dataCharacteristics, .modelCharacteristics, .rules,
    .labelVectors, .parameters, .marginalCalibration, .jointCalibration]

/-- All types of data. -/
def dataTypes : List (Option DataType) := [none, some .training, some .test]

/-- The names of files that do not contain predictions. -/
theorem base_inj (o o' : Output) (d d' : Option DataType)
    (h : (match d with
      | none => o.base
      | some d => dataTypeFileName d o.base) = match d' with
      | none => o'.base
      | some d => dataTypeFileName d o'.base) : o = o' ∧ d = d' := by
  have ho : ∀ o : Output, o ∈ outputs := by
    intro o
    cases o <;> decide
  have hd : ∀ d : Option DataType, d ∈ dataTypes := by
    intro d
    rcases d with _ | _ | _ <;> decide
  have hall : ∀ o ∈ outputs, ∀ o' ∈ outputs, ∀ d ∈ dataTypes, ∀ d' ∈ dataTypes, (match d with
      | none => o.base
      | some d => dataTypeFileName d o.base) = (match d' with
      | none => o'.base
      | some d => dataTypeFileName d o'.base) → o = o' ∧ d = d' := by
    decide +kernel
  exact hall o (ho o) o' (ho o') d (hd d) d' (hd d') h

/-- The sizes of models can be told apart. -/
theorem scope_inj (d d' : DataType) (size size' : Option Nat)
    (h : scopeFileName size (dataTypeFileName d Output.predictions.base) =
      scopeFileName size' (dataTypeFileName d' Output.predictions.base)) : d = d' ∧ size = size' := by
  have hn : ∀ n, '_' ∉ "model-size-".toList ++ str n := by
    intro n hm
    rcases List.mem_append.1 hm with hm | hm
    · exact absurd hm (by decide +kernel)
    · exact absurd (str_mem _ _ hm) (by decide)
  have hd : ∀ d, '_' ∉ (match d with
      | DataType.training => "training".toList
      | .test => "test".toList) := by
    intro d
    cases d <;> decide +kernel
  have hform : ∀ n (name : Str), scopeFileName (some n) name = name ++ '_' :: ("model-size-".toList ++ str n) := by
    intro n name
    show name ++ "_model-size-".toList ++ str n = _
    rw [List.append_assoc]
    rfl
  have hne : ∀ d n, (match d with
      | DataType.training => "training".toList
      | .test => "test".toList) ≠ "model-size-".toList ++ str n := by
    intro d n he
    have := congrArg List.head? he
    revert this
    cases d <;> simp
  rcases size with _ | n <;> rcases size' with _ | n'
  · refine ⟨?_, rfl⟩
    revert h
    cases d <;> cases d' <;> decide +kernel
  · rw [hform] at h
    exact absurd (split_last '_' _ _ _ _ (hd d) (hn n') h).2 (hne d n')
  · rw [hform] at h
    exact absurd (split_last '_' _ _ _ _ (hn n) (hd d') h).2.symm (hne d' n)
  · rw [hform, hform] at h
    obtain ⟨h1, h2⟩ := split_last '_' _ _ _ _ (hn n) (hn n') h
    refine ⟨?_, congrArg some (str_inj _ _ (List.append_cancel_left h2))⟩
    revert h1
    cases d <;> cases d' <;> decide +kernel

/-- **Files have the same name if and only if they belong to the same kind of result, data, fold and, in the case of
predictions, model size.** -/
theorem fileName_inj (t t' : Target) (h : t.Possible) (h' : t'.Possible) : t.fileName = t'.fileName ↔ Same t t' := by
  obtain ⟨o, d, s, f⟩ := t
  obtain ⟨o', d', s', f'⟩ := t'
  constructor
  · intro he
    obtain ⟨hs, hn, rfl⟩ := suffix_inj (suffix_dot o) (suffix_dot o') he
    dsimp only at hn
    by_cases hp : o = .predictions
    · have hp' : o' = .predictions := by
        subst hp
        revert hs
        cases o' <;> decide +kernel
      subst hp hp'
      obtain ⟨d, rfl⟩ := Option.isSome_iff_exists.1 (h rfl)
      obtain ⟨d', rfl⟩ := Option.isSome_iff_exists.1 (h' rfl)
      simp only [if_true] at hn
      obtain ⟨rfl, rfl⟩ := scope_inj d d' s s' hn
      exact ⟨rfl, rfl, rfl, fun _ => rfl⟩
    · have hp' : o' ≠ .predictions := by
        rintro rfl
        revert hs hp
        cases o <;> decide +kernel
      rw [if_neg hp, if_neg hp'] at hn
      obtain ⟨rfl, rfl⟩ := base_inj o o' d d' hn
      exact ⟨rfl, rfl, rfl, fun hh => absurd hh hp⟩
  · rintro ⟨h1, h2, h3, h4⟩
    dsimp only at h1 h2 h3 h4
    subst h1 h2 h3
    unfold Target.fileName
    dsimp only
    split
    · rename_i hp
      rw [h4 hp]
    · rfl

/-! ### Contents of files -/

theorem writeAll_other {C : Type} (files : Str → Option C) (results : List (Target × C)) (name : Str)
    (h : ∀ r ∈ results, name ≠ r.1.fileName) : writeAll files results name = files name := by
  unfold writeAll
  induction results generalizing files with
  | nil => rfl
  | cons r rs ih =>
    rw [List.foldl_cons, ih _ fun r hr => h r (List.mem_cons_of_mem _ hr), if_neg (h r List.mem_cons_self)]

/-- **No result is lost**: if several different results are written, each of them is found in its own file afterwards,
regardless of the files that existed before. -/
theorem written {C : Type} (files : Str → Option C) (results : List (Target × C)) (hp : ∀ r ∈ results, r.1.Possible)
    (hd : results.Pairwise fun r r' => ¬ Same r.1 r'.1) :
    ∀ r ∈ results, writeAll files results r.1.fileName = some r.2 := by
  induction results generalizing files with
  | nil => simp
  | cons r rs ih =>
    rw [List.pairwise_cons] at hd
    intro x hx
    rcases List.mem_cons.1 hx with rfl | hx
    · show writeAll _ rs x.1.fileName = _
      rw [writeAll_other]
      · exact if_pos rfl
      · intro y hy he
        exact hd.1 y hy ((fileName_inj _ _ (hp x List.mem_cons_self) (hp y (List.mem_cons_of_mem _ hy))).1 he)
    · exact ih _ (fun y hy => hp y (List.mem_cons_of_mem _ hy)) hd.2 x hx

/-! ### Experiments -/

/-- The files that contain the results of the evaluations of an experiment (see C113). -/
def evaluationFiles {D : Type} (output : Output) (trainEvaluation testEvaluation : Bool) (splits : List (Experiment.Split D)) :
    List Str :=
  splits.flatMap fun split => (Experiment.expected trainEvaluation testEvaluation split).map fun e =>
    (Target.mk output (some e.1) none split.fold).fileName

/-- **The evaluations of an experiment do not overwrite each other's results.** -/
theorem evaluationFiles_nodup {D : Type} (output : Output) (trainEvaluation testEvaluation : Bool)
    (splits : List (Experiment.Split D)) (hd : (splits.map Experiment.Split.fold).Nodup) :
    (evaluationFiles output trainEvaluation testEvaluation splits).Nodup := by
  have hinj : ∀ d d' f f', (Target.mk output (some d) none f).fileName = (Target.mk output (some d') none f').fileName →
      d = d' ∧ f = f' := by
    intro d d' f f' he
    have hs := (fileName_inj _ _ (fun _ => rfl) (fun _ => rfl)).1 he
    exact ⟨Option.some.inj hs.dataType, hs.fold⟩
  induction splits with
  | nil => simp [evaluationFiles]
  | cons split splits ih =>
    rw [List.map_cons, List.nodup_cons] at hd
    show ((Experiment.expected trainEvaluation testEvaluation split).map _ ++ evaluationFiles _ _ _ splits).Nodup
    rw [List.nodup_append]
    refine ⟨?_, ih hd.2, ?_⟩
    · have hne : (Target.mk output (some .training) none split.fold).fileName ≠
          (Target.mk output (some .test) none split.fold).fileName := fun he => by simpa using (hinj _ _ _ _ he).1
      unfold Experiment.expected
      split <;> simp [hne]
    · intro a ha b hb hab
      subst hab
      obtain ⟨e, -, rfl⟩ := List.mem_map.1 ha
      obtain ⟨split', hs', hb⟩ := List.mem_flatMap.1 hb
      obtain ⟨e', -, he⟩ := List.mem_map.1 hb
      refine hd.1 ?_
      rw [← (hinj _ _ _ _ he).2]
      exact List.mem_map_of_mem hs'

/-! ### Examples -/

example : (Target.mk .predictions (some .test) (some 50) (some 2)).fileName =
    "predictions_test_model-size-50_fold-3.arff".toList := by decide +kernel

example : (Target.mk .evaluation (some .training) (some 50) none).fileName = "evaluation_training_overall.csv".toList := by
  decide +kernel

/-- Predictions for models of different sizes. -/
def exampleResults : List (Target × Nat) :=
  [(⟨.predictions, some .test, some 1, none⟩, 1), (⟨.predictions, some .test, some 11, none⟩, 2),
    (⟨.predictions, some .test, none, none⟩, 3), (⟨.parameters, none, none, none⟩, 4)]

example : (∀ r ∈ exampleResults, r.1.Possible) ∧ exampleResults.Pairwise fun r r' => ¬ Same r.1 r'.1 := by
  decide +kernel

example : evaluationFiles .evaluation true true Experiment.crossValidation =
    ["evaluation_training_fold-1.csv".toList, "evaluation_test_fold-1.csv".toList,
      "evaluation_training_fold-2.csv".toList, "evaluation_test_fold-2.csv".toList] := by
  decide +kernel

end MLRL.ResultFiles
