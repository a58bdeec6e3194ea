import Verif.Lemma.TabularData
import Verif.Props.Tabular

/-!
# C81: training on a dense feature matrix
-/

namespace MLRL.TabularData

open FeatureSpace FeatureType Search Tabular Predictor TrainingLoss RuleEval

/-- **C81**, types of features: after declaring the types of features in any order and arbitrarily often, the type of each feature is the one that has
been declared last. Features are numerical by default. -/
theorem featureInfo_correct {n : Nat} {calls : List (Nat × Kind)} (h : ∀ c ∈ calls, c.1 < n) :
    ∃ info, calls.foldlM (fun info c => BitFeatureInfo.set info c.1 c.2) (.create n) = .ok info ∧
      ∀ f < n, (FeatureInfo.mixed info).createFeatureType f = .ok (declared calls f) := by
  obtain ⟨info, h1, h2⟩ := info_calls calls h
  exact ⟨info, h1, fun f hf => info_get h2 hf⟩

example : ∃ info, [(0, Kind.nominal), (40, .ordinal), (0, .ordinal), (7, .nominal), (7, .numerical)].foldlM
      (fun info c => BitFeatureInfo.set info c.1 c.2) (.create 41) = .ok info ∧
    (FeatureInfo.mixed info).createFeatureType 0 = .ok .ordinal ∧ (FeatureInfo.mixed info).createFeatureType 7 = .ok .numerical ∧
    (FeatureInfo.mixed info).createFeatureType 39 = .ok .numerical := by
  obtain ⟨info, h1, h2⟩ := featureInfo_correct (n := 41) (calls := [(0, Kind.nominal), (40, .ordinal), (0, .ordinal), (7, .nominal), (7, .numerical)])
    (by decide)
  exact ⟨info, h1, h2 0 (by omega), h2 7 (by omega), h2 39 (by omega)⟩

/-! ### The training data -/

variable {lib : Library} {info : FeatureInfo} {kind : Nat → Kind} {n : Nat} {nonZero : Nat → Bool} {matrix : List (List FVal)}

/-- The type of a vector suits the type of the feature. -/
def Suits (k : Kind) : FeatureVector → Prop
  | .equal => True
  | .numerical _ _ _ _ => k = .numerical
  | .nominal _ _ _ _ => k ≠ .numerical

theorem createVector_ok (hlib : lib.Ok) (hm : MatrixOk kind n nonZero matrix) {f : Nat} {column : List FVal} (hf : matrix[f]? = some column) :
    ∃ v, createVector lib column (kind f) = .ok v ∧ ColumnOk n nonZero (value kind matrix f) v ∧ Suits (kind f) v := by
  have hlen := hm.length f column hf
  have hsize : column.length < 2 ^ 32 := by rw [hlen]; exact hm.size
  have hp := hm.present f column hf
  have hrange : kind f ≠ .numerical → InRange (denseEntries column) := by
    intro hk
    rintro ⟨i, v⟩ he x rfl
    exact hm.range f column hf hk x (List.mem_of_getElem? (mem_denseEntries.1 he))
  have hval : ∀ e x, column[e]? = some (some x) →
      value kind matrix f e = if kind f = .numerical then some x else some (category x : Rat) := by
    intro e x he
    unfold value
    rw [hf]
    simp only [he]
  cases hk : kind f with
  | numerical =>
    obtain ⟨v, h1, h2⟩ := numericalDense_correct (isEqual := lib.isEqual) (column := column) hlib.sortValues
    refine ⟨v, h1, numerical_column hlen hp (hm.numerical f column hf hk) h2 (fun e x he => ?_) (numericalDense_dense h1), ?_⟩
    · rw [hval e x he, if_pos hk]
    · cases v with
      | equal => trivial
      | numerical _ _ _ _ => rfl
      | nominal _ _ _ _ => exact h2.elim
  | ordinal =>
    have hne : kind f ≠ .numerical := by rw [hk]; simp
    obtain ⟨c, h1, h2, _⟩ := ordinalDense_correct (column := column) hlib.order hlib.sort (hrange hne) hsize
    obtain ⟨v, h3, h4⟩ := id h2
    refine ⟨v, ?_, nominal_column hlen hp h2 h3 (by simp) (fun _ => hm.ordinal f (List.getElem?_eq_some_iff.1 hf).1 hk) (fun e x he => ?_), ?_⟩
    · simp only [createVector, h1, ok_bind, h3]
    · rw [hval e x he, if_neg hne]
    · cases v with
      | equal => trivial
      | numerical _ _ _ _ => exact h4.elim
      | nominal _ _ _ _ => exact (fun h => by cases h)
  | nominal =>
    have hne : kind f ≠ .numerical := by rw [hk]; simp
    obtain ⟨c, h1, h2, _⟩ := nominalDense_correct (column := column) hlib.order (hrange hne) hsize
    obtain ⟨v, h3, h4⟩ := id h2
    refine ⟨v, ?_, nominal_column hlen hp h2 h3 (by simp) (fun h => by cases h) (fun e x he => ?_), ?_⟩
    · simp only [createVector, h1, ok_bind, h3]
    · rw [hval e x he, if_neg hne]
    · cases v with
      | equal => trivial
      | numerical _ _ _ _ => exact h4.elim
      | nominal _ _ _ _ => exact (fun h => by cases h)

theorem mapM_exists {α β : Type} {f : α → Res β} {P : α → β → Prop} : ∀ {l : List α}, (∀ x ∈ l, ∃ y, f x = .ok y ∧ P x y) →
    ∃ r, l.mapM f = .ok r ∧ List.Forall₂ P l r
  | [], _ => ⟨[], rfl, .nil⟩
  | a :: l, h => by
    obtain ⟨y, h1, h2⟩ := h a (by simp)
    obtain ⟨r, h3, h4⟩ := mapM_exists (fun x hx => h x (List.mem_cons_of_mem _ hx))
    exact ⟨y :: r, by rw [List.mapM_cons, h1, ok_bind, h3, ok_bind]; rfl, .cons h2 h4⟩

/-- **C81**, training data: the vectors that are created from the columns of a matrix meet the requirements of C80. -/
theorem createColumns_ok (hlib : lib.Ok) (hinfo : ∀ f < matrix.length, info.createFeatureType f = .ok (kind f))
    (hm : MatrixOk kind n nonZero matrix) :
    ∃ columns, createColumns lib info matrix = .ok columns ∧ ∀ minCoverage,
      (createEnv lib columns n minCoverage nonZero).Ok n (value kind matrix) ∧
      ∃ rows, (∀ e < n, row matrix e = .ok (rows e)) ∧ RowsOk (createEnv lib columns n minCoverage nonZero) n (value kind matrix) rows := by
  have hcol : ∀ f ∈ List.range matrix.length, ∃ v, createColumn lib info matrix f = .ok v ∧
      (ColumnOk n nonZero (value kind matrix f) v ∧ Suits (kind f) v) := by
    intro f hf
    have hlt := List.mem_range.1 hf
    obtain ⟨v, h1, h2⟩ := createVector_ok hlib hm (List.getElem?_eq_getElem hlt)
    refine ⟨v, ?_, h2⟩
    unfold createColumn
    rw [hinfo f hlt, ok_bind, readAt_of_lt hlt, ok_bind, h1]
  obtain ⟨columns, h1, h2⟩ := mapM_exists hcol
  have hlen := h2.length_eq
  rw [List.length_range] at hlen
  have hget : ∀ (f : Nat) (v : FeatureVector), columns[f]? = some v → f < matrix.length ∧ ColumnOk n nonZero (value kind matrix f) v ∧ Suits (kind f) v := by
    intro f v hv
    obtain ⟨hlt, rfl⟩ := List.getElem?_eq_some_iff.1 hv
    have := (List.forall₂_iff_get.1 h2).2 f (by simpa [hlen] using hlt) hlt
    simpa [hlen, hlt] using this
  refine ⟨columns, h1, fun minCoverage => ⟨⟨rfl, hm.size, rfl, hlib.isEqual, fun f => ?_⟩, ?_⟩⟩
  · show ColumnOk n nonZero _ ((columns[f]?).getD .equal)
    cases hf : columns[f]? with
    | none => exact .equal
    | some v => exact (hget f v hf).2.1
  · have hrow : ∀ e < n, row matrix e = .ok (matrix.map (fun column => (column[e]?).getD none)) := by
      intro e he
      have hc : ∀ column ∈ matrix, e < column.length := by
        intro column hcol
        obtain ⟨f, hf⟩ := List.mem_iff_getElem?.1 hcol
        rw [hm.length f column hf]
        exact he
      unfold row
      clear hcol hget hlen h1 h2 hinfo hm
      induction matrix with
      | nil => rfl
      | cons column matrix ih =>
        rw [List.mapM_cons, readAt_of_lt (hc column (by simp)), ok_bind, ih (fun c h => hc c (List.mem_cons_of_mem _ h)), ok_bind, List.map_cons,
          List.getElem?_eq_getElem (hc column (by simp))]
        rfl
    refine ⟨_, hrow, fun e he f => ?_⟩
    show match (columns[f]?).getD .equal with
      | .equal => True
      | .numerical _ _ _ _ => _
      | .nominal _ _ _ _ => _
    cases hf : columns[f]? with
    | none => trivial
    | some v =>
      obtain ⟨hlt, _, hs⟩ := hget f v hf
      have hc := List.getElem?_eq_getElem hlt
      obtain ⟨x, hx⟩ := get_of_lt (hm.present f _ hc) (e := e) (by rw [hm.length f _ hc]; exact he)
      have hv : value kind matrix f e = if kind f = .numerical then some x else some (category x : Rat) := by
        unfold value
        rw [hc]
        simp only [hx]
      have hr : (matrix.map (fun column => (column[e]?).getD none))[f]? = some (some x) := by
        rw [List.getElem?_map, hc, Option.map_some, hx]
        rfl
      cases v with
      | equal => trivial
      | numerical _ _ _ _ =>
        have he : kind f = .numerical := hs
        exact ⟨x, hr, by rw [hv, if_pos he]⟩
      | nominal _ _ _ _ =>
        have hne : kind f ≠ .numerical := hs
        exact ⟨x, hr, by rw [hv, if_neg hne]; rfl, hm.range f _ hc hne x (List.mem_of_getElem? hx)⟩

/-! ### Training and prediction -/

section
variable {K T : Type} [Field K] [LinearOrder K] [IsStrictOrderedRing K] {cfg : Boosting.Config (Subspace Unit) K} {data : Data K T} {l1 l2 : K}

/-- What the first rules of a model predict for the training examples. -/
def Predicts (matrix : List (List FVal)) (numExamples numOutputs : Nat) (learned : List (Induction.Rule Boosting.Condition K))
    (predicted : Nat → List K) : Prop :=
  ∃ rules, learned.mapM createRule = .ok rules ∧ ∀ e < numExamples, ∃ values, row matrix e = .ok values ∧
    applyRulesDense values rules (List.replicate numOutputs 0) = .ok (predicted e)

/-- **C81**: training and prediction on a dense feature matrix. The first rules of a model can be applied to the rows of the matrix the model has been
trained on, and each rule that is added after the default rule decreases the loss of the predictions. -/
theorem matrix_training_partial (hlib : lib.Ok) (hinfo : ∀ f < matrix.length, info.createFeatureType f = .ok (kind f))
    (hm : MatrixOk kind data.numExamples (fun e => decide (data.weight e ≠ 0)) matrix) :
    ∃ columns, createColumns lib info matrix = .ok columns ∧ ∀ minCoverage,
      Settings cfg data (createEnv lib columns data.numExamples minCoverage (fun e => decide (data.weight e ≠ 0))) l1 l2 →
      ∀ {update : T → K → Stat K} {evaluate : T → K → K} {factor : K},
        Update.Laws cfg.updates data.numOutputs (fun r : List K => r.length = data.numOutputs) Update.denseValue (UpToDate data update) →
        Majorised update evaluate factor → 0 < data.numExamples → ∀ cells,
          Training.Initial data.numExamples data.numOutputs (fun r : List K => r.length = data.numOutputs) Update.denseValue
            (UpToDate data update) cells →
          ∀ fuel (st : Training.State Boosting.Condition K (List K) (List (Stat K))), cfg.setup.induceRules fuel cells = Run.done st →
          ∃ predicted : Nat → Nat → List K,
            (∀ m, Predicts matrix data.numExamples data.numOutputs (st.allRules.take m) (predicted m)) ∧
            ∀ m, (if cfg.useDefaultRule then 1 else 0) ≤ m → m < st.allRules.length →
              data.loss evaluate (fun e => Update.denseValue (predicted (m + 1) e)) < data.loss evaluate (fun e => Update.denseValue (predicted m e)) := by
  obtain ⟨columns, h1, h2⟩ := createColumns_ok hlib hinfo hm
  refine ⟨columns, h1, fun minCoverage hs update evaluate factor hu hmaj hn cells hi fuel st hr => ?_⟩
  obtain ⟨htable, rows, hrow, hrows⟩ := h2 minCoverage
  have ht : Trainable cfg data _ (value kind matrix) l1 l2 := ⟨hs, htable⟩
  refine ⟨fun m e => (List.range data.numOutputs).map (modelScores (Boosting.Condition.holds (value kind matrix)) (st.allRules.take m) e), ?_, ?_⟩
  · intro m
    obtain ⟨rules, h3, h4⟩ := tabular_prediction_partial ht hu hi hr hrows hn m
    exact ⟨rules, h3, fun e he => ⟨rows e, hrow e he, h4 e he⟩⟩
  · intro m hd hlt
    have hloss : ∀ s : Nat → Nat → K, data.loss evaluate (fun e => Update.denseValue ((List.range data.numOutputs).map (s e))) = data.loss evaluate s := by
      intro s
      unfold Data.loss
      refine Finset.sum_congr rfl (fun i _ => congrArg _ (Finset.sum_congr rfl (fun j hj => ?_)))
      have : Update.denseValue ((List.range data.numOutputs).map (s i)) j = s i j := by
        unfold Update.denseValue
        simp [List.getElem?_range (Finset.mem_range.1 hj)]
      exact congrArg _ this
    rw [hloss, hloss]
    exact tabular_decreases_partial ht hu hmaj hi hr m hd hlt

end

/-! ### An example -/

def exLibrary : Library := ⟨id, List.insertionSort (· ≤ ·), List.insertionSort (fun a b => a.2 ≤ b.2), fun a b => decide (a = b)⟩

theorem exLibrary_ok : exLibrary.Ok where
  order := isOrder_id
  sort := isSort_insertionSort
  sortValues l := by
    haveI : Std.Total (fun a b : Nat × Rat => a.2 ≤ b.2) := ⟨fun a b => le_total a.2 b.2⟩
    haveI : IsTrans (Nat × Rat) (fun a b => a.2 ≤ b.2) := ⟨fun a b c => le_trans⟩
    exact ⟨List.perm_insertionSort _ l, List.pairwise_insertionSort _ l⟩
  isEqual x := decide_eq_true rfl

/-- The second and third feature are nominal, the fourth one is ordinal. -/
def exCalls : List (Nat × Kind) := [(1, .nominal), (3, .nominal), (2, .nominal), (3, .ordinal)]

/-- The values of four features and examples. -/
def exMatrix : List (List FVal) :=
  [[some 3, some 1, some 2, some 5], [some (15 / 2), some 7, some 2, some 5], [some 1, some 0, some (-1 / 2), some 0],
    [some (-2), some 4, some 1, some 1]]

theorem exMatrix_ok : MatrixOk (declared exCalls) exData.numExamples (fun e => decide (exData.weight e ≠ 0)) exMatrix where
  size := by decide
  length := by
    intro f column h
    match f with
    | 0 | 1 | 2 | 3 => cases h; rfl
    | _ + 4 => cases h
  present := by
    intro f column h
    match f with
    | 0 | 1 | 2 | 3 => cases h; decide +kernel
    | _ + 4 => cases h
  numerical := by
    intro f column h hk
    match f with
    | 0 => cases h; exact Or.inr (fun x hx => by simp at hx; rcases hx with rfl | rfl | rfl | rfl <;> norm_num)
    | 1 | 2 | 3 => cases hk
    | _ + 4 => cases h
  range := by
    intro f column h hk x hx
    match f with
    | 0 => exact absurd rfl hk
    | 1 | 2 | 3 => cases h; simp at hx; rcases hx with rfl | rfl | rfl | rfl <;> decide +kernel
    | _ + 4 => cases h
  ordinal := by
    intro f _ _
    decide +kernel

/-- The vectors that are created. -/
def exColumns : List FeatureVector :=
  [.numerical [(1, 1), (2, 2), (0, 3), (3, 5)] 0 false [], .nominal .nominal [(2, [2]), (5, [3])] 7 [], .nominal .binary [(1, [0])] 0 [],
    .nominal .ordinal [(-2, [0]), (4, [1])] 1 []]

/-- The algorithm of the example of C80. -/
def exConfig : Boosting.Config (Subspace Unit) ℚ :=
  { exTabular with
    subspaces := subspaces (createEnv exLibrary exColumns 4 1 (fun e => decide (exData.weight e ≠ 0)))
    searchFeature := searchFeature (createEnv exLibrary exColumns 4 1 (fun e => decide (exData.weight e ≠ 0))) }

theorem exConfig_settings : Settings exConfig exData (createEnv exLibrary exColumns 4 1 (fun e => decide (exData.weight e ≠ 0))) 0 1 :=
  { exTabular_ok.toSettings with subspaces := rfl, searchFeature := rfl, nonZero := rfl }

example (fuel : Nat) (st : Training.State Boosting.Condition ℚ (List ℚ) (List (Stat ℚ)))
    (h : exConfig.setup.induceRules fuel exCells = Run.done st) :
    ∃ info, exCalls.foldlM (fun info c => BitFeatureInfo.set info c.1 c.2) (.create 4) = .ok info ∧
      createColumns exLibrary (.mixed info) exMatrix = .ok exColumns ∧
      ∃ predicted : Nat → Nat → List ℚ, (∀ m, Predicts exMatrix 4 2 (st.allRules.take m) (predicted m)) ∧
        ∀ m, 1 ≤ m → m < st.allRules.length →
          exData.loss exEvaluate (fun e => Update.denseValue (predicted (m + 1) e)) < exData.loss exEvaluate (fun e => Update.denseValue (predicted m e)) := by
  obtain ⟨info, h1, h2⟩ := featureInfo_correct (n := 4) (calls := exCalls) (by decide)
  have h3 : createColumns exLibrary (.mixed info) exMatrix = .ok exColumns := by
    show (List.range 4).mapM (createColumn exLibrary (.mixed info) exMatrix) = _
    simp only [List.range_succ, List.range_zero, List.nil_append, List.cons_append, List.mapM_cons, List.mapM_nil, createColumn,
      h2 0 (by omega), h2 1 (by omega), h2 2 (by omega), h2 3 (by omega), ok_bind]
    decide +kernel
  refine ⟨info, h1, h3, ?_⟩
  obtain ⟨columns, h4, h5⟩ := matrix_training_partial (matrix := exMatrix) (cfg := exConfig) (l1 := 0) (l2 := 1) exLibrary_ok h2 exMatrix_ok
  rw [h3] at h4
  injection h4 with h4
  subst h4
  exact h5 1 exConfig_settings exConfig_ok.updates exMajorised (by decide) _ exCells_initial fuel st h

/-- Four rules are learned. -/
example : (exConfig.setup.induceRules 20 exCells >>= fun st => Run.done
      (st.allRules.map (fun rule => rule.conditions.map (fun c => (c.feature, c.comparator, c.threshold))))) =
    Run.done [[], [(1, .nominalEq, 7)], [(1, .nominalNeq, 7)], [(3, .ordinalGr, (1 : ℚ))]] := by decide +kernel

end MLRL.TabularData
