import Verif.Model.PartialPrediction
import Verif.Spec.PartialPrediction
import Verif.Lemma.Loss

/-!
# Lemmas about partial predictions
-/

set_option linter.unusedSectionVars false

namespace MLRL.Refinement

open Spec

variable {K α : Type}

theorem read_of {v : ResizableVector α} {i : Nat} {x : α} (h : v.cells[i]? = some (some x)) : v.read i = .ok x := by
  unfold ResizableVector.read
  rw [readAt_of_getElem? h, ok_bind]

theorem write_of {v : ResizableVector α} {i : Nat} (h : i < v.cells.length) (x : α) :
    v.write i x = .ok { v with cells := v.cells.set i (some x) } := by
  unfold ResizableVector.write
  rw [writeAt_of_lt h, ok_bind]
  rfl

theorem resize_capacity (v : ResizableVector α) (n : Nat) (b : Bool) : n ≤ (v.resize n b).cells.length ∧ (v.resize n b).numElements = n := by
  unfold ResizableVector.resize
  split
  · refine ⟨?_, rfl⟩
    cases b
    · simp; omega
    · simp [reallocate]; omega
  · split
    · refine ⟨?_, rfl⟩
      simp [reallocate]; omega
    · exact ⟨by simp; omega, rfl⟩

theorem copyInto_spec {source : List α} {n : Nat} {v : ResizableVector α} (hs : n ≤ source.length) (hc : n ≤ v.cells.length) :
    ∃ v', copyInto source n v = .ok v' ∧ v'.numElements = v.numElements ∧ v'.cells.length = v.cells.length ∧
      ∀ i < n, ∀ x, source[i]? = some x → v'.cells[i]? = some (some x) := by
  unfold copyInto
  refine loop_rule (body := copyStep source) (fun k (v' : ResizableVector α) => v'.numElements = v.numElements ∧
    v'.cells.length = v.cells.length ∧ ∀ i < k, ∀ x, source[i]? = some x → v'.cells[i]? = some (some x)) n v ⟨rfl, rfl, by omega⟩ ?_
  rintro k v' hk ⟨h1, h2, h3⟩
  refine ⟨{ v' with cells := v'.cells.set k (some source[k]) }, ?_, h1, by simpa using h2, ?_⟩
  · unfold copyStep
    rw [readAt_of_lt (by omega), ok_bind, write_of (by omega)]
  · intro i hi x hx
    by_cases hik : i = k
    · subst hik
      rw [List.getElem?_eq_getElem (by omega)] at hx
      cases hx
      simp [show i < v'.cells.length by omega]
    · simp only
      rw [List.getElem?_set_ne (by omega)]
      exact h3 i (by omega) x hx

theorem Spec.Holds.index_cells {p : PartialPrediction K} {es : List (Nat × K)} (h : Holds p es) : es.length ≤ p.indices.cells.length := by
  have := h.capacity.2
  rw [h.numIndices] at this
  exact this

theorem Spec.Holds.value_cells {p : PartialPrediction K} {es : List (Nat × K)} (h : Holds p es) : es.length ≤ p.values.cells.length := by
  have := h.capacity.1
  rw [h.numValues] at this
  exact this

theorem collect_spec {p : PartialPrediction K} {es : List (Nat × K)} (h : Holds p es) : loop es.length (collectStep p) [] = .ok es := by
  obtain ⟨r, h1, h2⟩ := loop_rule (body := collectStep p) (fun k (r : List (Nat × K)) => r = es.take k) es.length [] (by simp) (by
    rintro k r hk rfl
    have he := List.getElem?_eq_getElem hk
    refine ⟨es.take k ++ [(es[k].1, es[k].2)], ?_, ?_⟩
    · unfold collectStep
      rw [read_of (h.eachIndex k _ he), ok_bind, read_of (h.eachValue k _ he), ok_bind]
      rfl
    · rw [List.take_succ_eq_append_getElem hk])
  rw [h1, h2, List.take_length]

theorem store_spec {p : PartialPrediction K} {es es' : List (Nat × K)} (h : Holds p es) (hl : es'.length = es.length) :
    ∃ q, loop es.length (storeStep es') p = .ok q ∧ Holds q es' ∧ q.sorted = p.sorted := by
  obtain ⟨q, h1, h2, h3, h4, h5, h6, h7, h8⟩ := loop_rule (body := storeStep es') (fun k (q : PartialPrediction K) => q.sorted = p.sorted ∧
    q.values.numElements = p.values.numElements ∧ q.indices.numElements = p.indices.numElements ∧ q.values.cells.length = p.values.cells.length ∧
    q.indices.cells.length = p.indices.cells.length ∧ (∀ i < k, ∀ e : Nat × K, es'[i]? = some e → q.values.cells[i]? = some (some e.2)) ∧
    (∀ i < k, ∀ e : Nat × K, es'[i]? = some e → q.indices.cells[i]? = some (some e.1))) es.length p
    ⟨rfl, rfl, rfl, rfl, rfl, by omega, by omega⟩ (by
    rintro k q hk ⟨g1, g2, g3, g4, g5, g6, g7⟩
    have hv := h.value_cells
    have hi := h.index_cells
    refine ⟨⟨{ q.values with cells := q.values.cells.set k (some es'[k].2) }, { q.indices with cells := q.indices.cells.set k (some es'[k].1) },
      q.sorted⟩, ?_, g1, g2, g3, by simpa using g4, by simpa using g5, ?_, ?_⟩
    · unfold storeStep
      rw [readAt_of_lt (by omega), ok_bind, write_of (by omega), ok_bind, write_of (by omega), ok_bind]
      rfl
    · intro i hi' e he
      by_cases hik : i = k
      · subst hik
        rw [List.getElem?_eq_getElem (by omega)] at he
        cases he
        simp [show i < q.values.cells.length by omega]
      · simp only
        rw [List.getElem?_set_ne (by omega)]
        exact g6 i (by omega) e he
    · intro i hi' e he
      by_cases hik : i = k
      · subst hik
        rw [List.getElem?_eq_getElem (by omega)] at he
        cases he
        simp [show i < q.indices.cells.length by omega]
      · simp only
        rw [List.getElem?_set_ne (by omega)]
        exact g7 i (by omega) e he)
  refine ⟨q, h1, ⟨?_, ?_, ?_, ?_, ?_⟩, h2⟩
  · rw [h3, h.numValues, hl]
  · rw [h4, h.numIndices, hl]
  · intro i e he
    obtain ⟨hi, _⟩ := List.getElem?_eq_some_iff.mp he
    exact h7 i (by omega) e he
  · intro i e he
    obtain ⟨hi, _⟩ := List.getElem?_eq_some_iff.mp he
    exact h8 i (by omega) e he
  · have := h.capacity
    omega

theorem postProcess_holds {p : PartialPrediction K} {es : List (Nat × K)} (h : Holds p es) (f : K → K) :
    ∃ q, p.postProcess f = .ok q ∧ Holds q (es.map (fun e => (e.1, f e.2))) ∧ q.sorted = p.sorted := by
  unfold PartialPrediction.postProcess
  rw [h.numValues]
  obtain ⟨q, h1, h2, h3, h4, h5, h6, h7⟩ := loop_rule (body := postProcessStep f) (fun k (q : PartialPrediction K) => q.sorted = p.sorted ∧
    q.values.numElements = p.values.numElements ∧ q.values.cells.length = p.values.cells.length ∧ q.indices = p.indices ∧
    (∀ i < k, ∀ e : Nat × K, es[i]? = some e → q.values.cells[i]? = some (some (f e.2))) ∧
    (∀ i, k ≤ i → q.values.cells[i]? = p.values.cells[i]?)) es.length p
    ⟨rfl, rfl, rfl, rfl, by omega, fun _ _ => rfl⟩ (by
    rintro k q hk ⟨g1, g2, g3, g4, g5, g6⟩
    have hv := h.value_cells
    have hek := List.getElem?_eq_getElem hk
    refine ⟨⟨{ q.values with cells := q.values.cells.set k (some (f es[k].2)) }, q.indices, q.sorted⟩, ?_, g1, g2, by simpa using g3, g4, ?_, ?_⟩
    · unfold postProcessStep
      rw [read_of (x := es[k].2) (by rw [g6 k (by omega)]; exact h.eachValue k _ hek), ok_bind, write_of (by omega), ok_bind]
      rfl
    · intro i hi e he
      by_cases hik : i = k
      · subst hik
        rw [hek] at he
        cases he
        simp [show i < q.values.cells.length by omega]
      · simp only
        rw [List.getElem?_set_ne (by omega)]
        exact g5 i (by omega) e he
    · intro i hi
      simp only
      rw [List.getElem?_set_ne (by omega)]
      exact g6 i (by omega))
  refine ⟨q, h1, ⟨?_, ?_, ?_, ?_, ?_⟩, h2⟩
  · rw [h3, h.numValues]; simp
  · rw [h5, h.numIndices]; simp
  · intro i e he
    rw [List.getElem?_map] at he
    obtain ⟨e', he', rfl⟩ := Option.map_eq_some_iff.mp he
    obtain ⟨hi, _⟩ := List.getElem?_eq_some_iff.mp he'
    exact h6 i (by omega) e' he'
  · intro i e he
    rw [List.getElem?_map] at he
    obtain ⟨e', he', rfl⟩ := Option.map_eq_some_iff.mp he
    rw [h5]
    exact h.eachIndex i e' he'
  · have := h.capacity
    rw [h5]
    omega

theorem set_holds {p : PartialPrediction K} {es : List (Nat × K)} (h : Holds p es) {values : List K} (hl : es.length ≤ values.length) :
    ∃ q, p.set values = .ok q ∧ Holds q ((es.map Prod.fst).zip values) ∧ q.sorted = p.sorted := by
  unfold PartialPrediction.set
  have hv := h.value_cells
  obtain ⟨v, h1, h2, h3, h4⟩ := copyInto_spec (source := values) (n := p.values.numElements) (v := p.values) (by rw [h.numValues]; exact hl)
    h.capacity.1
  rw [h1, ok_bind]
  refine ⟨_, rfl, ⟨?_, ?_, ?_, ?_, ?_⟩, rfl⟩
  · simp only [List.length_zip, List.length_map]
    rw [h2, h.numValues]; omega
  · simp only [List.length_zip, List.length_map]
    rw [h.numIndices]; omega
  · intro i e he
    rw [List.getElem?_zip_eq_some] at he
    obtain ⟨hi, _⟩ := List.getElem?_eq_some_iff.mp he.1
    rw [List.length_map] at hi
    exact h4 i (by rw [h.numValues]; exact hi) _ he.2
  · intro i e he
    rw [List.getElem?_zip_eq_some] at he
    have he1 := he.1
    rw [List.getElem?_map] at he1
    obtain ⟨e', h5, h6⟩ := Option.map_eq_some_iff.mp he1
    rw [← h6]
    exact h.eachIndex i e' h5
  · have := h.capacity
    simp only
    rw [h3, h2]
    exact this

theorem process_holds (existing : Option (PartialPrediction K)) (hcap : ∀ p, existing = some p → p.values.numElements ≤ p.values.cells.length ∧
      p.indices.numElements ≤ p.indices.cells.length ∧ p.values.numElements = p.indices.numElements) {s : ScoreVector K}
    (hs : s.values.length = s.indices.length) :
    ∃ q, processPartialScores existing s = .ok q ∧ Holds q (ScoreVector.entries s) ∧ q.sorted = s.sorted := by
  have hprep : s.indices.length ≤ (prepareHead existing s.indices.length s.sorted).values.cells.length ∧
      s.indices.length ≤ (prepareHead existing s.indices.length s.sorted).indices.cells.length ∧
      (prepareHead existing s.indices.length s.sorted).values.numElements = s.indices.length ∧
      (prepareHead existing s.indices.length s.sorted).indices.numElements = s.indices.length ∧
      (prepareHead existing s.indices.length s.sorted).sorted = s.sorted := by
    cases existing with
    | none => simp [prepareHead, PartialPrediction.create, ResizableVector.create]
    | some p =>
      obtain ⟨c1, c2, c3⟩ := hcap p rfl
      simp only [prepareHead]
      split
      · have r1 := resize_capacity p.values s.indices.length false
        have r2 := resize_capacity p.indices s.indices.length false
        exact ⟨r1.1, r2.1, r1.2, r2.2, trivial⟩
      · rename_i hne
        have hne : p.values.numElements = s.indices.length := by simpa using hne
        exact ⟨by omega, by omega, hne, by omega, trivial⟩
  unfold processPartialScores
  generalize prepareHead existing s.indices.length s.sorted = p at hprep
  obtain ⟨p1, p2, p3, p4, p5⟩ := hprep
  obtain ⟨v, h1, h2, h3, h4⟩ := copyInto_spec (source := s.values) (n := s.indices.length) (v := p.values) (by omega) p1
  obtain ⟨w, g1, g2, g3, g4⟩ := copyInto_spec (source := s.indices) (n := s.indices.length) (v := p.indices) (Nat.le_refl _) p2
  simp only
  rw [h1, ok_bind, g1, ok_bind]
  have hlen : (ScoreVector.entries s).length = s.indices.length := by simp [ScoreVector.entries, hs]
  refine ⟨_, rfl, ⟨?_, ?_, ?_, ?_, ?_⟩, p5⟩
  · simp only; rw [h2, p3, hlen]
  · simp only; rw [g2, p4, hlen]
  · intro i e he
    unfold ScoreVector.entries at he
    rw [List.getElem?_zip_eq_some] at he
    obtain ⟨hi, _⟩ := List.getElem?_eq_some_iff.mp he.1
    exact h4 i hi _ he.2
  · intro i e he
    unfold ScoreVector.entries at he
    rw [List.getElem?_zip_eq_some] at he
    obtain ⟨hi, _⟩ := List.getElem?_eq_some_iff.mp he.1
    exact g4 i hi _ he.1
  · simp only
    rw [h3, g3, h2, g2, p3, p4]
    exact ⟨p1, p2⟩

end MLRL.Refinement
