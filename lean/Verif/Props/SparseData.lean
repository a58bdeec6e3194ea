import Verif.Lemma.SparseData
import Verif.Props.TabularData
import Verif.Props.Predictor
import Mathlib.Tactic.IntervalCases

/-!
# C86: training on a sparse feature matrix and predictions for the rows of a sparse feature matrix
-/

namespace MLRL.SparseData

open FeatureSpace FeatureType Search Tabular Predictor TrainingLoss RuleEval TabularData

variable {lib : Library} {info : FeatureInfo} {kind : Nat → Kind} {nonZero : Nat → Bool} {csc csr : SparseView} {matrix : Nat → Nat → FVal}

theorem getElem?_columns {F n f : Nat} (hf : f < F) : (columns F n matrix)[f]? = some ((List.range n).map (matrix f)) := by
  unfold columns
  rw [List.getElem?_map, List.getElem?_range hf]
  rfl

theorem value_columns {F n f e : Nat} (hf : f < F) (he : e < n) {x : Rat} (hx : matrix f e = some x) :
    value kind (columns F n matrix) f e = if kind f = .numerical then some x else some (category x : Rat) := by
  unfold value
  rw [getElem?_columns hf]
  simp only [List.getElem?_map, List.getElem?_range he, Option.map_some, hx]

theorem numericalCsc_full {isEqual : Rat → Rat → Bool} {sort : List (Nat × Rat) → List (Nat × Rat)} {entries : List Entry} {numRows : Nat} {x : Rat}
    (hs : IsValueSort sort) (hv : ValidCsc entries numRows) (hlen : entries.length = numRows) (hp : ∀ i y, (i, y) ∈ entries → y ≠ none)
    {v : FeatureVector} (h : numericalCsc isEqual sort entries numRows x = .ok v) : ∀ es sv sp mi, v = .numerical es sv sp mi → sp = false := by
  intro es sv sp mi he
  subst he
  unfold numericalCsc at h
  rw [createNumerical_ok hv.nodup, ok_bind] at h
  simp only at h
  have hl : (sort (present entries)).length = numRows := by
    rw [(hs _).1.length_eq, ← hlen]
    unfold present
    clear h hlen hv
    induction entries with
    | nil => rfl
    | cons a entries ih =>
      obtain ⟨i, y⟩ := a
      cases y with
      | none => exact absurd rfl (hp i none (by simp))
      | some y => simpa using ih (fun i y hy => hp i y (List.mem_cons_of_mem _ hy))
  rw [hl] at h
  by_cases hn : numRows > 0
  · simp only [hn, decide_true, lt_self_iff_false, decide_false] at h
    obtain ⟨same, _, h⟩ := ok_of_bind h
    cases same with
    | true => cases h
    | false => injection h with h; injection h with _ _ h _; exact h.symm
  · simp only [hn, decide_false] at h
    cases h

theorem createVector_ok (hlib : lib.Ok) (hm : SparseOk kind nonZero csc matrix) {f : Nat} (hf : f < csc.numMajor) :
    ∃ entries v, csc.slice f = .ok entries ∧ createVector lib entries csc.numMinor csc.sparseValue (kind f) = .ok v ∧
      ColumnOk csc.numMinor nonZero (value kind (columns csc.numMajor csc.numMinor matrix) f) v ∧ Suits (kind f) v := by
  obtain ⟨a, b, entries, ha, hb, hslice, hlen, hvalid, hmem, hlook⟩ := slice_ok hm.denotes hf
  have hcol : cscColumn entries csc.numMinor (some csc.sparseValue) = denseEntries ((List.range csc.numMinor).map (matrix f)) := cscColumn_eq hlook
  have hcount : csc.count f = some (b - a) := by
    unfold SparseView.count
    rw [ha, hb]
    rfl
  have hget : ∀ (e : Nat) (x : Rat), ((List.range csc.numMinor).map (matrix f))[e]? = some (some x) → e < csc.numMinor ∧ matrix f e = some x := by
    intro e x he
    obtain ⟨hlt, he⟩ := List.getElem?_eq_some_iff.1 he
    rw [List.length_map, List.length_range] at hlt
    exact ⟨hlt, by simpa using he⟩
  have hpres : none ∉ (List.range csc.numMinor).map (matrix f) := by
    intro h
    obtain ⟨e, he, h⟩ := List.mem_map.1 h
    exact hm.present f hf e (List.mem_range.1 he) h
  have hclen : ((List.range csc.numMinor).map (matrix f)).length = csc.numMinor := by simp
  have hrange : kind f ≠ .numerical → InRange entries := by
    intro hk
    rintro ⟨j, y⟩ he x rfl
    exact hm.range f hf hk j (hvalid.lt _ he) x (hmem j _ he).1.symm
  have hdist : kind f ≠ .numerical → entries.length < csc.numMinor → Distinct entries csc.sparseValue := by
    intro hk hlt j x he
    obtain ⟨_, p, hp1, hp2, hp3⟩ := hmem j _ he
    exact hm.distinct f hf hk (by rw [hcount]; simp; omega) a b ha hb p hp1 hp2 x hp3
  cases hk : kind f with
  | numerical =>
    obtain ⟨v, h1, h2⟩ := numericalCsc_correct (isEqual := lib.isEqual) (x := csc.sparseValue) hlib.sortValues hvalid
    rcases hm.numerical f hf hk with h0 | ⟨h0, hsign⟩
    · rw [hcount] at h0
      injection h0 with h0
      have : entries = [] := List.length_eq_zero_iff.1 (by omega)
      subst this
      have he : v = .equal := by
        unfold numericalCsc at h1
        rw [createNumerical_ok hvalid.nodup, ok_bind] at h1
        have : (lib.sortValues (present [])).length = 0 := by rw [(hlib.sortValues _).1.length_eq]; rfl
        simp only [this, lt_self_iff_false, decide_false] at h1
        injection h1 with h1
        exact h1.symm
      subst he
      exact ⟨_, _, hslice, h1, .equal, trivial⟩
    · rw [hcount] at h0
      injection h0 with h0
      rw [hcol] at h2
      refine ⟨entries, v, hslice, h1, numerical_column hclen hpres ?_ h2 (fun e x he => ?_)
        (numericalCsc_full hlib.sortValues hvalid (by omega) (fun j y hy => ?_) h1), ?_⟩
      · have hx : ∀ x, some x ∈ (List.range csc.numMinor).map (matrix f) → ∃ e < csc.numMinor, matrix f e = some x := by
          intro x hx
          obtain ⟨e, he, hx⟩ := List.mem_map.1 hx
          exact ⟨e, List.mem_range.1 he, hx⟩
        refine hsign.imp (fun h x hx' => ?_) (fun h x hx' => ?_) <;>
        · obtain ⟨e, he, hx''⟩ := hx x hx'
          exact h e he x hx''
      · obtain ⟨h3, h4⟩ := hget e x he
        rw [value_columns hf h3 h4, if_pos hk]
      · rw [(hmem j y hy).1]
        exact hm.present f hf j (hvalid.lt _ hy)
      · cases v with
        | equal => trivial
        | numerical _ _ _ _ => rfl
        | nominal _ _ _ _ => exact h2.elim
  | ordinal =>
    have hne : kind f ≠ .numerical := by rw [hk]; simp
    obtain ⟨c, h1, h2, _⟩ := ordinalCsc_correct_partial hlib.order hlib.sort hvalid (hrange hne) (hm.sparseRange f hf hne) hm.size (hdist hne)
    rw [hcol] at h2
    obtain ⟨v, h3, h4⟩ := id h2
    refine ⟨entries, v, hslice, ?_, nominal_column hclen hpres h2 h3 (by simp) (fun _ => hm.ordinal f hf hk) (fun e x he => ?_), ?_⟩
    · simp only [createVector, h1, ok_bind, h3]
    · obtain ⟨h5, h6⟩ := hget e x he
      rw [value_columns hf h5 h6, if_neg hne]
    · cases v with
      | equal => trivial
      | numerical _ _ _ _ => exact h4.elim
      | nominal _ _ _ _ => exact (fun h => by cases h)
  | nominal =>
    have hne : kind f ≠ .numerical := by rw [hk]; simp
    obtain ⟨c, h1, h2, _⟩ := nominalCsc_correct_partial hlib.order hvalid (hrange hne) (hm.sparseRange f hf hne) hm.size (hdist hne)
    rw [hcol] at h2
    obtain ⟨v, h3, h4⟩ := id h2
    refine ⟨entries, v, hslice, ?_, nominal_column hclen hpres h2 h3 (by simp) (fun h => by cases h) (fun e x he => ?_), ?_⟩
    · simp only [createVector, h1, ok_bind, h3]
    · obtain ⟨h5, h6⟩ := hget e x he
      rw [value_columns hf h5 h6, if_neg hne]
    · cases v with
      | equal => trivial
      | numerical _ _ _ _ => exact h4.elim
      | nominal _ _ _ _ => exact (fun h => by cases h)

/-- **C86**, training data: the vectors that are created from the columns of a sparse matrix meet the requirements of C80. -/
theorem createColumns_ok (hlib : lib.Ok) (hinfo : ∀ f < csc.numMajor, info.createFeatureType f = .ok (kind f))
    (hm : SparseOk kind nonZero csc matrix) :
    ∃ vectors, createColumns lib info csc = .ok vectors ∧ ∀ minCoverage,
      (createEnv lib vectors csc.numMinor minCoverage nonZero).Ok csc.numMinor (value kind (columns csc.numMajor csc.numMinor matrix)) ∧
      RowsOk (createEnv lib vectors csc.numMinor minCoverage nonZero) csc.numMinor (value kind (columns csc.numMajor csc.numMinor matrix))
        (fun e => (List.range csc.numMajor).map (fun f => matrix f e)) := by
  have hcol : ∀ f ∈ List.range csc.numMajor, ∃ v, createColumn lib info csc f = .ok v ∧
      (ColumnOk csc.numMinor nonZero (value kind (columns csc.numMajor csc.numMinor matrix) f) v ∧ Suits (kind f) v) := by
    intro f hf
    have hlt := List.mem_range.1 hf
    obtain ⟨entries, v, h0, h1, h2⟩ := createVector_ok hlib hm hlt
    refine ⟨v, ?_, h2⟩
    unfold createColumn
    rw [hinfo f hlt, ok_bind, h0, ok_bind, h1]
  obtain ⟨vectors, h1, h2⟩ := mapM_exists hcol
  have hlen := h2.length_eq
  rw [List.length_range] at hlen
  have hget : ∀ (f : Nat) (v : FeatureVector), vectors[f]? = some v → f < csc.numMajor ∧
      ColumnOk csc.numMinor nonZero (value kind (columns csc.numMajor csc.numMinor matrix) f) v ∧ Suits (kind f) v := by
    intro f v hv
    obtain ⟨hlt, rfl⟩ := List.getElem?_eq_some_iff.1 hv
    have := (List.forall₂_iff_get.1 h2).2 f (by simpa [hlen] using hlt) hlt
    simpa [hlen, hlt] using this
  refine ⟨vectors, h1, fun minCoverage => ⟨⟨rfl, hm.size, rfl, hlib.isEqual, fun f => ?_⟩, fun e he f => ?_⟩⟩
  · show ColumnOk csc.numMinor nonZero _ ((vectors[f]?).getD .equal)
    cases hf : vectors[f]? with
    | none => exact .equal
    | some v => exact (hget f v hf).2.1
  · show match (vectors[f]?).getD .equal with
      | .equal => True
      | .numerical _ _ _ _ => _
      | .nominal _ _ _ _ => _
    cases hf : vectors[f]? with
    | none => trivial
    | some v =>
      obtain ⟨hlt, _, hs⟩ := hget f v hf
      obtain ⟨x, hx⟩ := Option.ne_none_iff_exists'.1 (hm.present f hlt e he)
      have hv := value_columns (kind := kind) hlt he hx
      have hr : ((List.range csc.numMajor).map (fun f => matrix f e))[f]? = some (some x) := by
        rw [List.getElem?_map, List.getElem?_range hlt, Option.map_some, hx]
      cases v with
      | equal => trivial
      | numerical _ _ _ _ =>
        have hk : kind f = .numerical := hs
        exact ⟨x, hr, by rw [hv, if_pos hk]⟩
      | nominal _ _ _ _ =>
        have hne : kind f ≠ .numerical := hs
        exact ⟨x, hr, by rw [hv, if_neg hne]; rfl, hm.range f hlt hne e he x hx⟩

/-! ### Training and prediction -/

/-- **C86**, prediction: rules are applied to the rows of a sparse matrix with the same result as to the rows of a dense matrix with the same
elements, whatever the rules and the elements are. -/
theorem applyRules_eq_dense {K : Type} [Add K] (h : Denotes csr (fun e f => matrix f e)) {e : Nat} (he : e < csr.numMajor) (rules : List (Predictor.Rule K))
    (scores : List K) : applyRules csr e rules scores = applyRulesDense ((List.range csr.numMinor).map (fun f => matrix f e)) rules scores := by
  obtain ⟨a, b, row, _, _, hslice, _, hvalid, _, hlook⟩ := slice_ok h he
  unfold applyRules
  rw [hslice, ok_bind, applyRulesSparse_eq_dense _ _ _ hvalid.nodup hvalid.lt, toDense_eq hlook]

section
variable {K T : Type} [Field K] [LinearOrder K] [IsStrictOrderedRing K] {cfg : Boosting.Config (Subspace Unit) K} {data : Data K T} {l1 l2 : K}

/-- What the first rules of a model predict for the rows of a sparse matrix. -/
def Predicts (csr : SparseView) (numOutputs : Nat) (learned : List (Induction.Rule Boosting.Condition K)) (predicted : Nat → List K) : Prop :=
  ∃ rules, learned.mapM createRule = .ok rules ∧ ∀ e < csr.numMajor, applyRules csr e rules (List.replicate numOutputs 0) = .ok (predicted e)

/-- **C86**: training on a sparse feature matrix and prediction for the rows of a sparse feature matrix with the same elements. The first rules of a
model can be applied to the rows, the result is the same as for a dense matrix, and each rule that is added after the default rule decreases the
loss of the predictions. -/
theorem sparse_training_partial (hlib : lib.Ok) (hinfo : ∀ f < csc.numMajor, info.createFeatureType f = .ok (kind f))
    (hexamples : csc.numMinor = data.numExamples) (hm : SparseOk kind (fun e => decide (data.weight e ≠ 0)) csc matrix)
    (hcsr : Denotes csr (fun e f => matrix f e)) (hmajor : csr.numMajor = csc.numMinor) (hminor : csr.numMinor = csc.numMajor) :
    ∃ vectors, createColumns lib info csc = .ok vectors ∧ ∀ minCoverage,
      Settings cfg data (createEnv lib vectors data.numExamples minCoverage (fun e => decide (data.weight e ≠ 0))) l1 l2 →
      ∀ {update : T → K → Stat K} {evaluate : T → K → K} {factor : K},
        Update.Laws cfg.updates data.numOutputs (fun r : List K => r.length = data.numOutputs) Update.denseValue (UpToDate data update) →
        Majorised update evaluate factor → 0 < data.numExamples → ∀ cells,
          Training.Initial data.numExamples data.numOutputs (fun r : List K => r.length = data.numOutputs) Update.denseValue
            (UpToDate data update) cells →
          ∀ fuel (st : Training.State Boosting.Condition K (List K) (List (Stat K))), cfg.setup.induceRules fuel cells = Run.done st →
          ∃ predicted : Nat → Nat → List K,
            (∀ m, Predicts csr data.numOutputs (st.allRules.take m) (predicted m)) ∧
            (∀ m, TabularData.Predicts (columns csc.numMajor csc.numMinor matrix) data.numExamples data.numOutputs (st.allRules.take m) (predicted m)) ∧
            ∀ m, (if cfg.useDefaultRule then 1 else 0) ≤ m → m < st.allRules.length →
              data.loss evaluate (fun e => Update.denseValue (predicted (m + 1) e)) < data.loss evaluate (fun e => Update.denseValue (predicted m e)) := by
  obtain ⟨vectors, h1, h2⟩ := createColumns_ok hlib hinfo hm
  refine ⟨vectors, h1, fun minCoverage hs update evaluate factor hu hmaj hn cells hi fuel st hr => ?_⟩
  obtain ⟨htable, hrows⟩ := h2 minCoverage
  rw [hexamples] at htable hrows
  have ht : Trainable cfg data _ (value kind (columns csc.numMajor data.numExamples matrix)) l1 l2 := ⟨hs, htable⟩
  refine ⟨fun m e => (List.range data.numOutputs).map (modelScores (Boosting.Condition.holds (value kind (columns csc.numMajor data.numExamples matrix)))
    (st.allRules.take m) e), ?_, ?_, ?_⟩
  · intro m
    obtain ⟨rules, h3, h4⟩ := tabular_prediction_partial ht hu hi hr hrows hn m
    refine ⟨rules, h3, fun e he => ?_⟩
    rw [applyRules_eq_dense hcsr he, hminor]
    exact h4 e (by omega)
  · intro m
    obtain ⟨rules, h3, h4⟩ := tabular_prediction_partial ht hu hi hr hrows hn m
    refine ⟨rules, h3, fun e he => ⟨_, ?_, h4 e he⟩⟩
    unfold row columns
    generalize List.range csc.numMajor = features
    induction features with
    | nil => rfl
    | cons f features ih =>
      rw [List.map_cons, List.mapM_cons, ih, readAt_of_getElem? (x := matrix f e)]
      · rfl
      · rw [List.getElem?_map, List.getElem?_range (by omega)]
        rfl
  · intro m hd hlt
    have hloss : ∀ s : Nat → Nat → K, data.loss evaluate (fun e => Update.denseValue ((List.range data.numOutputs).map (s e))) = data.loss evaluate s := by
      intro s
      unfold Data.loss
      refine Finset.sum_congr rfl (fun i _ => congrArg _ (Finset.sum_congr rfl (fun j hj => ?_)))
      have : Update.denseValue ((List.range data.numOutputs).map (s i)) j = s i j := by
        unfold Update.denseValue
        simp [List.getElem?_range (Finset.mem_range.1 hj)]
      exact congrArg _ this
    rw [hloss, hloss]
    exact tabular_decreases_partial ht hu hmaj hi hr m hd hlt

end

/-! ### An example -/

/-- The values of four features and examples. -/
def exElements : List (List Rat) := [[3, 1, 2, 5], [15 / 2, 7, 2, 0], [1, 0, 0, 0], [-2, 4, 0, 0]]

def exMatrix (f e : Nat) : FVal := (exElements[f]?).bind (fun column => column[e]?)

def exCsc : SparseView :=
  ⟨[some 3, some 1, some 2, some 5, some (15 / 2), some 7, some 2, some 1, some (-2), some 4], [0, 1, 2, 3, 0, 1, 2, 0, 0, 1], [0, 4, 7, 8, 10], 4, 4, 0⟩

/-- The elements of a row are not sorted. -/
def exCsr : SparseView :=
  ⟨[some 3, some (15 / 2), some 1, some (-2), some 4, some 1, some 7, some 2, some 2, some 5], [0, 1, 2, 3, 3, 0, 1, 0, 1, 0], [0, 4, 7, 9, 10], 4, 4, 0⟩

theorem exCsc_denotes : Denotes exCsc exMatrix where
  indptr := rfl
  lengths := rfl
  ordered i a b ha hb := by
    match i with
    | 0 | 1 | 2 | 3 => cases ha; cases hb; decide
    | _ + 4 => cases hb
  minor := by decide
  distinct i a b ha hb p q h1 h2 h3 := by
    match i with
    | 0 | 1 | 2 | 3 => cases ha; cases hb; interval_cases q <;> interval_cases p <;> decide
    | _ + 4 => cases hb
  stored i a b ha hb p j h1 h2 hj := by
    match i with
    | 0 | 1 | 2 | 3 => cases ha; cases hb; interval_cases p <;> cases hj <;> rfl
    | _ + 4 => cases hb
  other i a b ha hb j hj h := by
    change j < 4 at hj
    match i with
    | 0 | 1 | 2 | 3 =>
      cases ha; cases hb
      interval_cases j <;> first | rfl | (exfalso; revert h; decide)
    | _ + 4 => cases hb

theorem exCsr_denotes : Denotes exCsr (fun e f => exMatrix f e) where
  indptr := rfl
  lengths := rfl
  ordered i a b ha hb := by
    match i with
    | 0 | 1 | 2 | 3 => cases ha; cases hb; decide
    | _ + 4 => cases hb
  minor := by decide
  distinct i a b ha hb p q h1 h2 h3 := by
    match i with
    | 0 | 1 | 2 | 3 => cases ha; cases hb; interval_cases q <;> interval_cases p <;> decide
    | _ + 4 => cases hb
  stored i a b ha hb p j h1 h2 hj := by
    match i with
    | 0 | 1 | 2 | 3 => cases ha; cases hb; interval_cases p <;> cases hj <;> rfl
    | _ + 4 => cases hb
  other i a b ha hb j hj h := by
    change j < 4 at hj
    match i with
    | 0 | 1 | 2 | 3 =>
      cases ha; cases hb
      interval_cases j <;> first | rfl | (exfalso; revert h; decide)
    | _ + 4 => cases hb

theorem exCsc_ok : SparseOk (declared exCalls) (fun e => decide (exData.weight e ≠ 0)) exCsc exMatrix where
  denotes := exCsc_denotes
  size := by decide
  present := by decide
  numerical f hf hk := by
    change f < 4 at hf
    interval_cases f
    · exact Or.inr ⟨rfl, Or.inr (fun e he x hx => by
        change e < 4 at he
        interval_cases e <;> cases hx <;> decide)⟩
    all_goals cases hk
  range f hf _ e he x hx := by
    change f < 4 at hf
    change e < 4 at he
    interval_cases f <;> interval_cases e <;> cases hx <;> decide +kernel
  sparseRange _ _ _ := by decide +kernel
  distinct f hf hk hc a b ha hb p hp1 hp2 x hx := by
    change f < 4 at hf
    interval_cases f
    · exact absurd rfl hk
    all_goals
      cases ha; cases hb
      interval_cases p <;> cases hx <;> decide +kernel
  ordinal _ _ _ := by decide +kernel

/-- The vectors that are created. -/
def exVectors : List FeatureVector :=
  [.numerical [(1, 1), (2, 2), (0, 3), (3, 5)] 0 false [], .nominal .nominal [(7, [1, 0]), (2, [2])] 0 [], .nominal .binary [(1, [0])] 0 [],
    .nominal .ordinal [(-2, [0]), (4, [1])] 0 []]

/-- The algorithm of the example of C80. -/
def exConfig : Boosting.Config (Subspace Unit) ℚ :=
  { exTabular with
    subspaces := subspaces (createEnv exLibrary exVectors 4 1 (fun e => decide (exData.weight e ≠ 0)))
    searchFeature := searchFeature (createEnv exLibrary exVectors 4 1 (fun e => decide (exData.weight e ≠ 0))) }

theorem exConfig_settings : Settings exConfig exData (createEnv exLibrary exVectors 4 1 (fun e => decide (exData.weight e ≠ 0))) 0 1 :=
  { exTabular_ok.toSettings with subspaces := rfl, searchFeature := rfl, nonZero := rfl }

example (fuel : Nat) (st : Training.State Boosting.Condition ℚ (List ℚ) (List (Stat ℚ)))
    (h : exConfig.setup.induceRules fuel exCells = Run.done st) :
    ∃ info, exCalls.foldlM (fun info c => BitFeatureInfo.set info c.1 c.2) (.create 4) = .ok info ∧
      createColumns exLibrary (.mixed info) exCsc = .ok exVectors ∧
      ∃ predicted : Nat → Nat → List ℚ, (∀ m, Predicts exCsr 2 (st.allRules.take m) (predicted m)) ∧
        (∀ m, TabularData.Predicts (columns 4 4 exMatrix) 4 2 (st.allRules.take m) (predicted m)) ∧
        ∀ m, 1 ≤ m → m < st.allRules.length →
          exData.loss exEvaluate (fun e => Update.denseValue (predicted (m + 1) e)) < exData.loss exEvaluate (fun e => Update.denseValue (predicted m e)) := by
  obtain ⟨info, h1, h2⟩ := featureInfo_correct (n := 4) (calls := exCalls) (by decide)
  have h3 : createColumns exLibrary (.mixed info) exCsc = .ok exVectors := by
    show (List.range 4).mapM (createColumn exLibrary (.mixed info) exCsc) = _
    simp only [List.range_succ, List.range_zero, List.nil_append, List.cons_append, List.mapM_cons, List.mapM_nil, createColumn,
      h2 0 (by omega), h2 1 (by omega), h2 2 (by omega), h2 3 (by omega), ok_bind]
    decide +kernel
  refine ⟨info, h1, h3, ?_⟩
  obtain ⟨vectors, h4, h5⟩ := sparse_training_partial (csc := exCsc) (csr := exCsr) (cfg := exConfig) (data := exData) (l1 := 0) (l2 := 1)
    exLibrary_ok h2 rfl exCsc_ok exCsr_denotes rfl rfl
  rw [h3] at h4
  injection h4 with h4
  subst h4
  exact h5 1 exConfig_settings exConfig_ok.updates exMajorised (by decide) _ exCells_initial fuel st h

/-- The rules that are learned and their predictions for the rows of the sparse matrix. -/
example : (exConfig.setup.induceRules 20 exCells >>= fun st => do
      let rules ← Run.lift (st.allRules.mapM createRule)
      let predicted ← Run.lift ((List.range 4).mapM (fun e => applyRules exCsr e rules [0, 0]))
      Run.done (st.allRules.map (fun rule => rule.conditions.map (fun c => (c.feature, c.comparator, c.threshold))), predicted)) =
    Run.done ([[], [(1, .nominalEq, 7)], [(1, .nominalNeq, 7)], [(3, .ordinalGr, (0 : ℚ))]],
      [[12 / 5, 0], [12 / 5, -3 / 4], [1, 0], [1, 0]]) := by decide +kernel

/-! ### What the requirements are needed for -/

/-- A numerical feature whose values are 3, 5 and 0. The last one is not stored. -/
def badCsc : SparseView := ⟨[some 3, some 5], [0, 1], [0, 2], 1, 3, 0⟩

/-- **C86**, negative part: if values of a numerical feature are stored for some examples only, the only rule that is learned is evaluated on the
second example only. Its condition is `> 5/2`, which covers the first two examples. The loss of the predictions is greater than without any rule. -/
theorem sparse_training_fails :
    createColumns exLibrary (.equal .numerical) badCsc = .ok [.numerical [(0, 3), (1, 5)] 0 true []] ∧
    badRun [-4, 4, 0] (.numerical [(0, 3), (1, 5)] 0 true []) (fun e => [([3, 5, 0] : List ℚ)[e]?]) =
      Run.done ([[4], [4], [0]], [[4], [4], [0]]) ∧
    badLoss [-4, 4, 0] [[0], [0], [0]] = 32 ∧ badLoss [-4, 4, 0] [[4], [4], [0]] = 64 := by
  decide +kernel

end MLRL.SparseData
