import Mathlib.Data.List.Nodup
import Mathlib.Data.List.Forall2
import Mathlib.Tactic.NormNum
import Verif.Lemma.OneHotEncoding

/-!
# C110: One-hot encoding preserves the values of features
-/

namespace MLRL.OneHotEncoding

/-! ## Specification -/

/-- The meaning of a column of the encoded matrix. -/
inductive Column where
  /-- Whether a nominal feature has a certain value -/
  | indicator (feature : Nat) (value : ℚ)
  /-- The value of another feature -/
  | copy (feature : Nat)
deriving DecidableEq

/-- Whether an element of a column is correct for an example. -/
def Column.Correct (row : List ℚ) : Column → ℚ → Prop
  | .indicator feature value, v => (row[feature]? = some value ∧ v = 1) ∨ (row[feature]? ≠ some value ∧ v = 0)
  | .copy feature, v => row[feature]? = some v

/-- Whether the rows of a matrix are encoded correctly. -/
def Encodes (columns : List Column) (x x' : Matrix) : Prop :=
  List.Forall₂ (fun row row' => List.Forall₂ (fun column v => column.Correct row v) columns row') x x'

/-- A nominal feature. -/
def IsNominal (features : List FeatureType) (j : Nat) : Prop := features[j]? = some .nominal

/-- A value that occurs in a matrix. -/
def Known (x : Matrix) (j : Nat) (value : ℚ) : Prop := ∃ row ∈ x, row[j]? = some value

/-- The columns that result from encoding a matrix: there is one for each known value of a nominal feature and for each of the other
features. -/
structure IsColumns (x : Matrix) (features : List FeatureType) (columns : List Column) : Prop where
  nodup : columns.Nodup
  indicator : ∀ j value, .indicator j value ∈ columns ↔ IsNominal features j ∧ Known x j value
  copy : ∀ j, .copy j ∈ columns ↔ j < features.length ∧ ¬ IsNominal features j

/-- The number of features is as expected. -/
def Rect (features : List FeatureType) (x : Matrix) : Prop := ∀ row ∈ x, row.length = features.length

/-! ## Encoding -/

def columnsOf (x : Matrix) (features : List FeatureType) : List Column :=
  ((categoriesOf x (featureIndices features .nominal)).map (fun c => c.2.map (Column.indicator c.1))).flatten ++
    (remainderOf features.length (featureIndices features .nominal)).map Column.copy

theorem lt_of_nominal (features : List FeatureType) (j : Nat) (h : j ∈ featureIndices features .nominal) : j < features.length := by
  rw [mem_featureIndices] at h
  by_contra hge
  rw [List.getElem?_eq_none (by omega)] at h
  exact absurd h (by simp)

theorem known_iff (x : Matrix) (features : List FeatureType) (hx : Rect features x) (j : Nat) (hj : j < features.length) (value : ℚ) :
    value ∈ unique (x.map (fun row => row.getD j 0)) ↔ Known x j value := by
  rw [mem_unique, List.mem_map]
  unfold Known
  constructor
  · rintro ⟨row, hrow, rfl⟩
    have : j < row.length := by rw [hx row hrow]; exact hj
    exact ⟨row, hrow, by simp [this]⟩
  · rintro ⟨row, hrow, h⟩
    exact ⟨row, hrow, by simp [h]⟩

theorem isColumns_columnsOf (x : Matrix) (features : List FeatureType) (hx : Rect features x) :
    IsColumns x features (columnsOf x features) := by
  have hind : ∀ j value, Column.indicator j value ∈ columnsOf x features ↔ IsNominal features j ∧ Known x j value := by
    intro j value
    unfold columnsOf categoriesOf
    rw [List.mem_append, List.mem_flatten]
    constructor
    · rintro (⟨l, hl, hm⟩ | h)
      · rw [List.map_map, List.mem_map] at hl
        obtain ⟨i, hi, rfl⟩ := hl
        simp only [Function.comp] at hm
        rw [List.mem_map] at hm
        obtain ⟨v, hv, he⟩ := hm
        cases he
        exact ⟨(mem_featureIndices _ _ _).1 hi, (known_iff x features hx j (lt_of_nominal _ _ hi) value).1 hv⟩
      · rw [List.mem_map] at h
        obtain ⟨_, _, h⟩ := h
        cases h
    · rintro ⟨h1, h2⟩
      left
      have hi : j ∈ featureIndices features .nominal := (mem_featureIndices _ _ _).2 h1
      refine ⟨(unique (x.map (fun row => row.getD j 0))).map (Column.indicator j), ?_, ?_⟩
      · rw [List.map_map, List.mem_map]
        exact ⟨j, hi, rfl⟩
      · rw [List.mem_map]
        exact ⟨value, (known_iff x features hx j (lt_of_nominal _ _ hi) value).2 h2, rfl⟩
  refine ⟨?_, hind, ?_⟩
  · unfold columnsOf
    rw [List.nodup_append]
    refine ⟨?_, ?_, ?_⟩
    · unfold categoriesOf
      rw [List.map_map]
      have hnd := featureIndices_nodup features .nominal
      generalize featureIndices features .nominal = l at hnd
      induction l with
      | nil => simp
      | cons i l ih =>
        rw [List.nodup_cons] at hnd
        rw [List.map_cons, List.flatten_cons, List.nodup_append]
        refine ⟨?_, ih hnd.2, ?_⟩
        · exact List.Nodup.map (fun a b h => by cases h; rfl) (unique_nodup _)
        · intro a ha b hb hab
          subst hab
          simp only [Function.comp] at ha
          rw [List.mem_map] at ha
          obtain ⟨v, _, rfl⟩ := ha
          rw [List.mem_flatten] at hb
          obtain ⟨l', hl', hm⟩ := hb
          rw [List.mem_map] at hl'
          obtain ⟨i', hi', rfl⟩ := hl'
          simp only [Function.comp] at hm
          rw [List.mem_map] at hm
          obtain ⟨w, _, h⟩ := hm
          cases h
          exact hnd.1 hi'
    · exact List.Nodup.map (fun a b h => by cases h; rfl) (List.Nodup.filter _ List.nodup_range)
    · intro a ha b hb hab
      subst hab
      rw [List.mem_map] at hb
      obtain ⟨j, _, rfl⟩ := hb
      rw [List.mem_flatten] at ha
      obtain ⟨l, hl, hm⟩ := ha
      rw [List.mem_map] at hl
      obtain ⟨c, _, rfl⟩ := hl
      rw [List.mem_map] at hm
      obtain ⟨_, _, h⟩ := hm
      cases h
  · intro j
    unfold columnsOf
    rw [List.mem_append]
    constructor
    · rintro (h | h)
      · rw [List.mem_flatten] at h
        obtain ⟨l, hl, hm⟩ := h
        rw [List.mem_map] at hl
        obtain ⟨c, _, rfl⟩ := hl
        rw [List.mem_map] at hm
        obtain ⟨_, _, h⟩ := hm
        cases h
      · rw [List.mem_map] at h
        obtain ⟨i, hi, h⟩ := h
        cases h
        unfold remainderOf at hi
        rw [List.mem_filter, List.mem_range] at hi
        refine ⟨hi.1, fun hn => ?_⟩
        have := hi.2
        simp only [decide_not, Bool.not_eq_true', decide_eq_false_iff_not] at this
        exact this ((mem_featureIndices _ _ _).2 hn)
    · rintro ⟨h1, h2⟩
      right
      rw [List.mem_map]
      refine ⟨j, ?_, rfl⟩
      unfold remainderOf
      rw [List.mem_filter, List.mem_range]
      refine ⟨h1, ?_⟩
      simp only [decide_not, Bool.not_eq_true', decide_eq_false_iff_not]
      exact fun h => h2 ((mem_featureIndices _ _ _).1 h)

theorem transform_correct (x : Matrix) (features : List FeatureType) (row : List ℚ) (hr : row.length = features.length) :
    ∃ row', transformRow { numFeatures := features.length, categories := categoriesOf x (featureIndices features .nominal) } row = .ok row' ∧
      List.Forall₂ (fun column v => column.Correct row v) (columnsOf x features) row' := by
  have hfst : (categoriesOf x (featureIndices features .nominal)).map Prod.fst = featureIndices features .nominal := by
    simp [categoriesOf, Function.comp_def]
  refine ⟨_, transformRow_ok _ _ row hr ?_, ?_⟩
  · intro c hc
    have : c.1 ∈ featureIndices features .nominal := by
      rw [← hfst]
      exact List.mem_map.2 ⟨c, hc, rfl⟩
    exact lt_of_nominal _ _ this
  · rw [hfst]
    unfold columnsOf
    apply List.rel_append
    · have hlt : ∀ c ∈ categoriesOf x (featureIndices features .nominal), c.1 < row.length := by
        intro c hc
        rw [hr]
        apply lt_of_nominal
        rw [← hfst]
        exact List.mem_map.2 ⟨c, hc, rfl⟩
      generalize categoriesOf x (featureIndices features .nominal) = cats at hlt
      induction cats with
      | nil => simp
      | cons c cats ih =>
        rw [List.map_cons, List.map_cons, List.flatten_cons, List.flatten_cons]
        apply List.rel_append
        · unfold encodeValue
          rw [List.forall₂_map_left_iff, List.forall₂_map_right_iff]
          apply List.forall₂_same.2
          intro v _
          have hc := hlt c (by simp)
          simp only [Column.Correct]
          have hget : row[c.1]? = some (row.getD c.1 0) := by simp [hc]
          rw [hget]
          by_cases h : v = row.getD c.1 0
          · left
            rw [if_pos h, h]
            exact ⟨rfl, rfl⟩
          · right
            rw [if_neg h]
            exact ⟨fun e => h (Option.some.inj e).symm, rfl⟩
        · exact ih (fun c' hc' => hlt c' (by simp [hc']))
    · rw [List.forall₂_map_left_iff, List.forall₂_map_right_iff]
      apply List.forall₂_same.2
      intro j hj
      unfold remainderOf at hj
      rw [List.mem_filter, List.mem_range] at hj
      simp only [Column.Correct]
      have : j < row.length := by rw [hr]; exact hj.1
      simp [this]

theorem mapM_forall₂ {α β : Type} (f : α → Except Err β) (R : α → β → Prop) (l : List α) (h : ∀ a ∈ l, ∃ b, f a = .ok b ∧ R a b) :
    ∃ l', l.mapM f = .ok l' ∧ List.Forall₂ R l l' := by
  induction l with
  | nil => exact ⟨[], rfl, List.Forall₂.nil⟩
  | cons a l ih =>
    obtain ⟨l', h1, h2⟩ := ih (fun b hb => h b (by simp [hb]))
    obtain ⟨b, h3, h4⟩ := h a (by simp)
    refine ⟨b :: l', ?_, List.Forall₂.cons h4 h2⟩
    rw [List.mapM_cons, h3, h1]
    rfl

/-- If there are nominal features, a matrix is encoded without an exception. There is one column per value of a nominal feature that occurs
in the matrix and one column per other feature. All elements are correct. If the encoder is used to encode other matrices, their columns
have the same meaning. -/
theorem encode_ok (x : Matrix) (features : List FeatureType) (hne : x ≠ []) (hx : Rect features x) (hn : ∃ j, IsNominal features j) :
    ∃ x' encoder columns, oneHotEncode x features none = .ok (x', some encoder, []) ∧ IsColumns x features columns ∧
      Encodes columns x x' ∧
      ∀ z, Rect features z → ∃ z', oneHotEncode z features (some encoder) = .ok (z', some encoder, []) ∧ Encodes columns z z' := by
  have hlen : (featureIndices features .nominal).length > 0 := by
    obtain ⟨j, hj⟩ := hn
    exact List.length_pos_of_mem ((mem_featureIndices _ _ _).2 hj)
  have hall : ∀ z, Rect features z → ∃ z', z.mapM (transformRow { numFeatures := features.length, categories := categoriesOf x (featureIndices features .nominal) }) = .ok z' ∧
      Encodes (columnsOf x features) z z' := by
    intro z hz
    exact mapM_forall₂ _ _ z (fun row hrow => transform_correct x features row (hz row hrow))
  obtain ⟨x', h1, h2⟩ := hall x hx
  refine ⟨x', { numFeatures := features.length, categories := categoriesOf x (featureIndices features .nominal) },
    columnsOf x features, ?_, isColumns_columnsOf x features hx, h2, ?_⟩
  · unfold oneHotEncode
    simp only [if_pos hlen]
    rw [fit_ok x features.length _ hne hx (fun i hi => lt_of_nominal _ _ hi)]
    simp only [bind, Except.bind]
    rw [h1]
  · intro z hz
    obtain ⟨z', h3, h4⟩ := hall z hz
    refine ⟨z', ?_, h4⟩
    unfold oneHotEncode
    simp only [if_pos hlen]
    simp only [bind, Except.bind]
    rw [h3]

def exFeatures : List FeatureType := [.numerical, .nominal, .ordinal, .nominal]

def exMatrix : Matrix := [[5, 1, 7, 2], [6, 0, 7, 2], [6, 1, 8, 2]]

example : exMatrix ≠ [] ∧ Rect exFeatures exMatrix ∧ ∃ j, IsNominal exFeatures j := by
  refine ⟨by decide, ?_, 1, rfl⟩
  intro row hrow
  revert row
  decide +kernel

example : (oneHotEncode exMatrix exFeatures none).toOption.map Prod.fst =
    some [[0, 1, 1, 5, 7], [1, 0, 1, 6, 7], [0, 1, 1, 6, 8]] := by decide +kernel

/-- Without nominal features, nothing is changed. -/
theorem encode_none (x : Matrix) (features : List FeatureType) (encoder : Option Encoder) (hn : ∀ j, ¬ IsNominal features j) :
    oneHotEncode x features encoder = .ok (x, none, features) := by
  have : featureIndices features .nominal = [] := by
    rw [List.eq_nil_iff_forall_not_mem]
    intro j hj
    exact hn j ((mem_featureIndices _ _ _).1 hj)
  unfold oneHotEncode
  simp [this]

/-- Two examples are encoded equally if and only if they have the same values, except for values of nominal features that did not
occur in the matrix the encoder has been fit to. -/
theorem encode_eq_iff (x : Matrix) (features : List FeatureType) (columns : List Column) (hc : IsColumns x features columns)
    (row₁ row₂ row₁' row₂' : List ℚ) (h₁ : row₁.length = features.length) (h₂ : row₂.length = features.length)
    (he₁ : List.Forall₂ (fun column v => column.Correct row₁ v) columns row₁')
    (he₂ : List.Forall₂ (fun column v => column.Correct row₂ v) columns row₂') :
    row₁' = row₂' ↔ ∀ j, row₁[j]? = row₂[j]? ∨
      (IsNominal features j ∧ (∀ value, row₁[j]? = some value → ¬ Known x j value) ∧ ∀ value, row₂[j]? = some value → ¬ Known x j value) := by
  have huniq : ∀ (row : List ℚ) (c : Column) (v w : ℚ), c.Correct row v → c.Correct row w → v = w := by
    intro row c v w hv hw
    cases c with
    | indicator j value =>
      simp only [Column.Correct] at hv hw
      rcases hv with hv | hv <;> rcases hw with hw | hw
      · rw [hv.2, hw.2]
      · exact absurd hv.1 hw.1
      · exact absurd hw.1 hv.1
      · rw [hv.2, hw.2]
    | copy j =>
      simp only [Column.Correct] at hv hw
      rw [hv] at hw
      exact Option.some.inj hw
  -- rows are equal iff all columns agree
  have hcols : row₁' = row₂' ↔ ∀ c ∈ columns, ∃ v, c.Correct row₁ v ∧ c.Correct row₂ v := by
    clear hc
    induction columns generalizing row₁' row₂' with
    | nil =>
      cases he₁; cases he₂
      simp
    | cons c columns ih =>
      cases he₁ with
      | cons a1 r1 =>
        cases he₂ with
        | cons a2 r2 =>
          have ih := ih _ _ r1 r2
          constructor
          · intro h
            injection h with h3 h4
            intro c' hc'
            rcases List.mem_cons.1 hc' with rfl | hc'
            · exact ⟨_, a1, by rw [h3]; exact a2⟩
            · exact ih.1 h4 c' hc'
          · intro h
            obtain ⟨v, hv1, hv2⟩ := h c (by simp)
            rw [huniq _ _ _ _ a1 hv1, huniq _ _ _ _ a2 hv2, ih.2 (fun c' hc' => h c' (by simp [hc']))]
  rw [hcols]
  constructor
  · intro h j
    by_cases hj : j < features.length
    · by_cases hn : IsNominal features j
      · obtain ⟨v1, hv1⟩ : ∃ v, row₁[j]? = some v := ⟨row₁[j]'(by omega), by simp⟩
        obtain ⟨v2, hv2⟩ : ∃ v, row₂[j]? = some v := ⟨row₂[j]'(by omega), by simp⟩
        by_cases heq : v1 = v2
        · left
          rw [hv1, hv2, heq]
        · right
          refine ⟨hn, ?_, ?_⟩
          · intro value hval hk
            obtain ⟨v, ha, hb⟩ := h _ ((hc.indicator j value).2 ⟨hn, hk⟩)
            simp only [Column.Correct] at ha hb
            rcases ha with ha | ha
            · rcases hb with hb | hb
              · have e1 := hval.symm.trans hv1
                have e2 := hb.1.symm.trans hv2
                exact heq ((Option.some.inj e1).symm.trans (Option.some.inj e2))
              · have := ha.2.symm.trans hb.2
                norm_num at this
            · exact ha.1 hval
          · intro value hval hk
            obtain ⟨v, ha, hb⟩ := h _ ((hc.indicator j value).2 ⟨hn, hk⟩)
            simp only [Column.Correct] at ha hb
            rcases hb with hb | hb
            · rcases ha with ha | ha
              · have e1 := hval.symm.trans hv2
                have e2 := ha.1.symm.trans hv1
                exact heq ((Option.some.inj e2).symm.trans (Option.some.inj e1))
              · have := ha.2.symm.trans hb.2
                norm_num at this
            · exact hb.1 hval
      · left
        obtain ⟨v, ha, hb⟩ := h _ ((hc.copy j).2 ⟨hj, hn⟩)
        simp only [Column.Correct] at ha hb
        rw [ha, hb]
    · left
      rw [List.getElem?_eq_none (by omega), List.getElem?_eq_none (by omega)]
  · intro h c hcm
    cases c with
    | indicator j value =>
      obtain ⟨hn, hk⟩ := (hc.indicator j value).1 hcm
      simp only [Column.Correct]
      rcases h j with h | ⟨_, ha, hb⟩
      · rw [h]
        by_cases hv : row₂[j]? = some value
        · exact ⟨1, Or.inl ⟨hv, rfl⟩, Or.inl ⟨hv, rfl⟩⟩
        · exact ⟨0, Or.inr ⟨hv, rfl⟩, Or.inr ⟨hv, rfl⟩⟩
      · exact ⟨0, Or.inr ⟨fun e => ha value e hk, rfl⟩, Or.inr ⟨fun e => hb value e hk, rfl⟩⟩
    | copy j =>
      obtain ⟨hj, hn⟩ := (hc.copy j).1 hcm
      rcases h j with h | ⟨hn', _⟩
      · simp only [Column.Correct]
        rw [h]
        exact ⟨row₂[j]'(by omega), by simp⟩
      · exact absurd hn' hn

/-- In particular, no information about the matrix the encoder has been fit to is lost: two of its rows are encoded equally if and only
if they are equal. -/
theorem encode_injective (x x' : Matrix) (features : List FeatureType) (columns : List Column) (hx : Rect features x)
    (hc : IsColumns x features columns) (he : Encodes columns x x') (i₁ i₂ : Nat) (row₁ row₂ row₁' row₂' : List ℚ)
    (h₁ : x[i₁]? = some row₁) (h₂ : x[i₂]? = some row₂) (h₁' : x'[i₁]? = some row₁') (h₂' : x'[i₂]? = some row₂') :
    row₁' = row₂' ↔ row₁ = row₂ := by
  have hget : ∀ (i : Nat) (row row' : List ℚ), x[i]? = some row → x'[i]? = some row' →
      List.Forall₂ (fun column v => column.Correct row v) columns row' := by
    intro i row row' h h'
    obtain ⟨hi, rfl⟩ := List.getElem?_eq_some_iff.1 h
    obtain ⟨hi', rfl⟩ := List.getElem?_eq_some_iff.1 h'
    exact (List.forall₂_iff_get.1 he).2 i hi hi'
  have hm₁ := List.mem_of_getElem? h₁
  have hm₂ := List.mem_of_getElem? h₂
  rw [encode_eq_iff x features columns hc row₁ row₂ row₁' row₂' (hx _ hm₁) (hx _ hm₂) (hget _ _ _ h₁ h₁') (hget _ _ _ h₂ h₂')]
  constructor
  · intro h
    apply List.ext_getElem?
    intro j
    rcases h j with h | ⟨hn, ha, _⟩
    · exact h
    · exfalso
      have hj : j < row₁.length := by
        rw [hx _ hm₁]
        exact lt_of_nominal _ _ ((mem_featureIndices _ _ _).2 hn)
      exact ha (row₁[j]'hj) (by simp) ⟨row₁, hm₁, by simp⟩
  · rintro rfl j
    exact Or.inl rfl

/-- A condition that uses the column of a known value covers exactly the examples with this value. -/
theorem condition_iff (row row' : List ℚ) (columns : List Column) (he : List.Forall₂ (fun column v => column.Correct row v) columns row')
    (i j : Nat) (value v threshold : ℚ) (h0 : 0 ≤ threshold) (h1 : threshold < 1) (hi : columns[i]? = some (.indicator j value))
    (hv : row'[i]? = some v) : v > threshold ↔ row[j]? = some value := by
  obtain ⟨hi1, hi2⟩ := List.getElem?_eq_some_iff.1 hi
  obtain ⟨hv1, hv2⟩ := List.getElem?_eq_some_iff.1 hv
  have h := (List.forall₂_iff_get.1 he).2 i hi1 hv1
  simp only [List.get_eq_getElem] at h
  rw [hi2, hv2] at h
  simp only [Column.Correct] at h
  rcases h with h | h
  · rw [h.2]
    exact ⟨fun _ => h.1, fun _ => h1⟩
  · rw [h.2]
    exact ⟨fun h' => absurd h' (not_lt.2 h0), fun h' => absurd h' h.1⟩

/-! ## Predefined folds -/

/-- If there are files for the individual folds, the columns of all folds have the same meaning, but only the values that occur in the
first fold have a column. The same applies to predefined training and test sets. -/
theorem predefined_ok (features : List FeatureType) (first : Matrix) (rest : List Matrix) (hne : first ≠ [])
    (hx : Rect features first) (hr : ∀ x ∈ rest, Rect features x) (hn : ∃ j, IsNominal features j) :
    ∃ folds columns, predefinedFolds true features first rest = .ok (folds, []) ∧ IsColumns first features columns ∧
      List.Forall₂ (Encodes columns) (first :: rest) folds := by
  obtain ⟨x', encoder, columns, h1, h2, h3, h4⟩ := encode_ok first features hne hx hn
  obtain ⟨rest', h5, h6⟩ := mapM_forall₂
    (fun x => (oneHotEncode x features (some encoder) >>= fun result => .ok result.1 : Except Err Matrix)) (Encodes columns) rest (by
      intro z hz
      obtain ⟨z', h7, h8⟩ := h4 z (hr z hz)
      exact ⟨z', by rw [h7]; rfl, h8⟩)
  refine ⟨x' :: rest', columns, ?_, h2, List.Forall₂.cons h3 h6⟩
  unfold predefinedFolds
  rw [if_pos rfl, h1]
  show (encodeFolds features (some encoder) rest >>= _) = _
  unfold encodeFolds
  simp only []
  rw [h5]
  rfl

/-- Without one-hot encoding, the folds are not changed. -/
theorem predefined_unencoded (features : List FeatureType) (first : Matrix) (rest : List Matrix) :
    predefinedFolds false features first rest = .ok (first :: rest, features) := by
  have h : rest.mapM (fun x => (.ok x : Except Err Matrix)) = .ok rest := by
    rw [mapM_ok (fun x => (.ok x : Except Err Matrix)) id rest (fun a _ => rfl), List.map_id]
  unfold predefinedFolds encodeFolds
  rw [if_neg (by simp)]
  simp only []
  rw [h]
  rfl

/-- Hence, the training set for the first fold may contain examples that differ in nominal values only and are encoded equally, because these
values do not occur in the first fold. If the same examples are part of a single file, they are encoded differently. -/
theorem predefined_loses_values :
    ∃ (features : List FeatureType) (a b c : List ℚ) (a' b' : List ℚ) (rows : Matrix), b ≠ c ∧
      (predefinedFolds true features [a] [[b], [c]]).toOption = some ([[a'], [b'], [b']], []) ∧
      (oneHotEncode [a, b, c] features none).toOption.map Prod.fst = some rows ∧ rows.Nodup := by
  refine ⟨[.nominal, .numerical], [0, 5], [1, 6], [2, 6], [1, 5], [0, 6], [[1, 0, 0, 5], [0, 1, 0, 6], [0, 0, 1, 6]], ?_, ?_, ?_, ?_⟩
  · decide +kernel
  · decide +kernel
  · decide +kernel
  · decide +kernel

/-- As the types of features are removed, ordinal features are not known to be ordinal afterwards. -/
theorem ordinal_lost (x : Matrix) (features : List FeatureType) (hne : x ≠ []) (hx : Rect features x) (hn : ∃ j, IsNominal features j)
    (j : Nat) (hj : features[j]? = some .ordinal) :
    ∃ x' encoder features', oneHotEncode x features none = .ok (x', encoder, features') ∧ j ∈ featureIndices features .ordinal ∧
      featureIndices features' .ordinal = [] := by
  obtain ⟨x', encoder, columns, h1, _⟩ := encode_ok x features hne hx hn
  exact ⟨x', some encoder, [], h1, (mem_featureIndices _ _ _).2 hj, rfl⟩

end MLRL.OneHotEncoding
