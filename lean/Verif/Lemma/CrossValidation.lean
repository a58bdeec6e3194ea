import Verif.Model.CrossValidation
import Mathlib.Data.List.Nodup
import Mathlib.Data.List.Range
import Mathlib.Tactic.Ring

/-! # Auxiliary lemmas on the evaluation results of a cross validation -/

namespace MLRL.CrossValidation

section dicts
variable {M S : Type} [DecidableEq M]

theorem dictPut_middle (pre post : List (M × S)) (m : M) (old new : S) (h : m ∉ pre.map Prod.fst) :
    dictPut (pre ++ (m, old) :: post) m new = pre ++ (m, new) :: post := by
  induction pre with
  | nil => simp [dictPut]
  | cons p pre ih =>
    obtain ⟨k, v⟩ := p
    simp only [List.map_cons, List.mem_cons, not_or] at h
    have hk : k ≠ m := fun hh => h.1 hh.symm
    simp only [List.cons_append, dictPut, if_neg hk, ih h.2]

theorem dictPut_end (pre : List (M × S)) (m : M) (new : S) (h : m ∉ pre.map Prod.fst) :
    dictPut pre m new = pre ++ [(m, new)] := by
  induction pre with
  | nil => simp [dictPut]
  | cons p pre ih =>
    obtain ⟨k, v⟩ := p
    simp only [List.map_cons, List.mem_cons, not_or] at h
    have hk : k ≠ m := fun hh => h.1 hh.symm
    simp only [dictPut, if_neg hk, ih h.2, List.cons_append]

theorem foldl_put_replace (l : List M) (old new : M → S) (pre : List (M × S)) (hl : l.Nodup)
    (hd : ∀ m ∈ l, m ∉ pre.map Prod.fst) :
    (l.map fun m => (m, new m)).foldl (fun d p => dictPut d p.1 p.2) (pre ++ l.map fun m => (m, old m))
      = pre ++ l.map fun m => (m, new m) := by
  induction l generalizing pre with
  | nil => simp
  | cons m l ih =>
    rw [List.nodup_cons] at hl
    simp only [List.map_cons, List.foldl_cons]
    rw [dictPut_middle _ _ _ _ _ (hd m (by simp))]
    have := ih (pre ++ [(m, new m)]) hl.2 (by
      intro k hk
      simp only [List.map_append, List.map_cons, List.map_nil, List.mem_append, List.mem_singleton, not_or]
      exact ⟨hd k (by simp [hk]), fun h => hl.1 (h ▸ hk)⟩)
    simpa using this

theorem foldl_put_fresh (l : List M) (new : M → S) (pre : List (M × S)) (hl : l.Nodup)
    (hd : ∀ m ∈ l, m ∉ pre.map Prod.fst) :
    (l.map fun m => (m, new m)).foldl (fun d p => dictPut d p.1 p.2) pre
      = pre ++ l.map fun m => (m, new m) := by
  induction l generalizing pre with
  | nil => simp
  | cons m l ih =>
    rw [List.nodup_cons] at hl
    simp only [List.map_cons, List.foldl_cons]
    rw [dictPut_end _ _ _ (hd m (by simp))]
    have := ih (pre ++ [(m, new m)]) hl.2 (by
      intro k hk
      simp only [List.map_append, List.map_cons, List.map_nil, List.mem_append, List.mem_singleton, not_or]
      exact ⟨hd k (by simp [hk]), fun h => hl.1 (h ▸ hk)⟩)
    simpa using this

theorem foldl_add_fresh (l pre : List M) (hl : l.Nodup) (hd : ∀ m ∈ l, m ∉ pre) :
    l.foldl addMeasure pre = pre ++ l := by
  induction l generalizing pre with
  | nil => simp
  | cons m l ih =>
    rw [List.nodup_cons] at hl
    simp only [List.foldl_cons, addMeasure, if_neg (hd m (by simp))]
    rw [ih _ hl.2]
    · simp
    · intro k hk
      simp only [List.mem_append, List.mem_singleton, not_or]
      exact ⟨hd k (by simp [hk]), fun h => hl.1 (h ▸ hk)⟩

theorem foldl_add_present (l ms : List M) (h : ∀ m ∈ l, m ∈ ms) : l.foldl addMeasure ms = ms := by
  induction l with
  | nil => rfl
  | cons m l ih =>
    simp only [List.foldl_cons, addMeasure, if_pos (h m (by simp))]
    exact ih (fun k hk => h k (by simp [hk]))

theorem dictGet_map (ms : List M) (s : M → S) (m : M) (h : m ∈ ms) :
    dictGet (ms.map fun m => (m, s m)) m = .ok (s m) := by
  induction ms with
  | nil => simp at h
  | cons k ms ih =>
    simp only [List.map_cons, dictGet]
    by_cases hk : k = m
    · simp [hk]
    · rw [if_neg hk]
      rcases List.mem_cons.1 h with h | h
      · exact absurd h.symm hk
      · exact ih h

variable [Field S]

theorem putAll_some (l : List (M × S)) (meas : List M) (rs : List (List (M × S))) (K f : Nat)
    (hK : rs.length = K) (hf : f < rs.length) :
    putAll ⟨meas, some rs⟩ K (some f) l
      = .ok ⟨(l.map Prod.fst).foldl addMeasure meas,
          some (rs.set f (l.foldl (fun d p => dictPut d p.1 p.2) rs[f]))⟩ := by
  induction l generalizing meas rs with
  | nil => simp [putAll]
  | cons p l ih =>
    obtain ⟨m, s⟩ := p
    have hget : rs[f]? = some rs[f] := List.getElem?_eq_getElem hf
    have h1 : Result.put (⟨meas, some rs⟩ : Result M S) m s K (some f)
        = .ok ⟨addMeasure meas m, some (rs.set f (dictPut rs[f] m s))⟩ := by
      simp [Result.put, hget, hK]
    simp only [putAll, h1]
    rw [ih (addMeasure meas m) (rs.set f (dictPut rs[f] m s)) (by simpa using hK) (by simpa using hf)]
    simp

theorem putAll_none (l : List (M × S)) (hl : l ≠ []) (K f : Nat) (hf : f < K) :
    putAll (Result.empty : Result M S) K (some f) l
      = .ok ⟨(l.map Prod.fst).foldl addMeasure [],
          some ((List.replicate K []).set f (l.foldl (fun d p => dictPut d p.1 p.2) []))⟩ := by
  have key : putAll (Result.empty : Result M S) K (some f) l
      = putAll ⟨[], some (List.replicate K [])⟩ K (some f) l := by
    cases l with
    | nil => exact absurd rfl hl
    | cons p l =>
      obtain ⟨m, s⟩ := p
      simp [putAll, Result.put, Result.empty]
  rw [key]
  have := putAll_some l [] (List.replicate K ([] : List (M × S))) K f (by simp) (by simpa using hf)
  simpa using this

theorem putAll_noFold (l : List (M × S)) (r : Result M S) (K : Nat) (f : Option Nat) :
    putAll r K f l = putAll r K (some (f.getD 0)) l := by
  induction l generalizing r with
  | nil => rfl
  | cons p l ih =>
    obtain ⟨m, s⟩ := p
    have h : r.put m s K (some (f.getD 0)) = r.put m s K f := by simp [Result.put]
    simp only [putAll, h]
    cases r.put m s K f with
    | error e => rfl
    | ok r' => exact ih r'

theorem collect_map (ms : List M) (m : M) (hm : m ∈ ms) (fs : List Nat) (s : Nat → Option (M → S)) :
    collect m (fs.map fun f => ((s f).map fun v => ms.map fun m => (m, v m)).getD [])
      = .ok (fs.filterMap fun f => (s f).map fun v => v m) := by
  induction fs with
  | nil => rfl
  | cons f fs ih =>
    have hms : 0 < ms.length := List.length_pos_of_mem hm
    cases hs : s f with
    | none => simp [collect, hs, ih]
    | some v => simp [collect, hs, ih, hms, dictGet_map ms v m hm]

theorem avgDictFrom_eq (r : Result M S) (g : M → S × S) (l : List M) (h : ∀ m ∈ l, r.avg m = .ok (g m)) :
    r.avgDictFrom l = .ok (l.map fun m => (m, g m)) := by
  induction l with
  | nil => rfl
  | cons m l ih =>
    simp only [Result.avgDictFrom, h m (by simp), ih (fun k hk => h k (by simp [hk])), List.map_cons]

end dicts

section runs
variable {M T S : Type} [DecidableEq M] [DecidableEq T] [Field S]

/-- An evaluation, whose scores are given as a function of the measures. -/
structure Eval (M T S : Type) where
  dataType : T
  modelSize : Option Nat
  score : M → S

/-- The corresponding evaluation in the model. -/
def Eval.toModel (ms : List M) (e : Eval M T S) : Evaluation M T S :=
  ⟨e.dataType, e.modelSize, ms.map fun m => (m, e.score m)⟩

/-- The index of the dictionary, the scores are stored in. -/
def slot (s : Split) : Nat := s.getFold.getD 0

/-- The scores that have been stored most recently. -/
def lastScore (hist : List (Split × Eval M T S)) (f : Nat) (t : T) : Option (M → S) :=
  ((hist.filter fun p => decide (slot p.1 = f) && decide (p.2.dataType = t)).getLast?).map fun p => p.2.score

/-- The result for a certain type of data after several evaluations. -/
def resultOf (K : Nat) (ms : List M) (hist : List (Split × Eval M T S)) (t : T) : Result M S :=
  ⟨ms, some ((List.range K).map fun f => ((lastScore hist f t).map fun v => ms.map fun m => (m, v m)).getD [])⟩

/-- The state of the writer after several evaluations. -/
def stateOf (K : Nat) (ms : List M) (hist : List (Split × Eval M T S)) : Results M T S := fun t =>
  if ∃ p ∈ hist, p.2.dataType = t then some (resultOf K ms hist t) else none

theorem lastScore_append (hist : List (Split × Eval M T S)) (p : Split × Eval M T S) (f : Nat) (t : T) :
    lastScore (hist ++ [p]) f t
      = if slot p.1 = f ∧ p.2.dataType = t then some p.2.score else lastScore hist f t := by
  unfold lastScore
  rw [List.filter_append]
  by_cases h : slot p.1 = f ∧ p.2.dataType = t
  · simp [h]
  · have h' : ([p].filter fun p => decide (slot p.1 = f) && decide (p.2.dataType = t)) = [] := by
      rw [List.filter_cons_of_neg (by simpa using h)]; rfl
    simp only [h', List.append_nil, if_neg h]

theorem lastScore_none (hist : List (Split × Eval M T S)) (f : Nat) (t : T)
    (h : ¬ ∃ p ∈ hist, p.2.dataType = t) : lastScore hist f t = none := by
  unfold lastScore
  have : (hist.filter fun p => decide (slot p.1 = f) && decide (p.2.dataType = t)) = [] := by
    rw [List.filter_eq_nil_iff]
    intro p hp hc
    simp only [Bool.and_eq_true, decide_eq_true_eq] at hc
    exact h ⟨p, hp, hc.2⟩
  simp [this]

theorem map_range_set {α : Type} (K f : Nat) (g : Nat → α) (a : α) :
    ((List.range K).map g).set f a = (List.range K).map fun i => if f = i then a else g i := by
  apply List.ext_getElem
  · simp
  · intro i h1 h2
    simp [List.getElem_set]

theorem generate_stateOf (K : Nat) (ms : List M) (hms : ms.Nodup) (hne : ms ≠ [])
    (hist : List (Split × Eval M T S)) (s : Split) (e : Eval M T S) (hK : s.numFolds = K) (hs : slot s < K) :
    generate (stateOf K ms hist) s (e.toModel ms)
      = .ok (stateOf K ms (hist ++ [(s, e)]), resultOf K ms (hist ++ [(s, e)]) e.dataType) := by
  have hput : putAll ((stateOf K ms hist e.dataType).getD Result.empty) K s.getFold (ms.map fun m => (m, e.score m))
      = .ok (resultOf K ms (hist ++ [(s, e)]) e.dataType) := by
    rw [putAll_noFold]
    have hkeys : ((ms.map fun m => (m, e.score m)).map Prod.fst) = ms := by
      rw [List.map_map]
      exact List.map_id ms
    by_cases hex : ∃ p ∈ hist, p.2.dataType = e.dataType
    · simp only [stateOf, if_pos hex, Option.getD_some, resultOf]
      rw [putAll_some _ _ _ K _ (by simp) (by simpa [slot] using hs), hkeys,
        foldl_add_present ms ms (fun _ h => h), map_range_set]
      congr 3
      apply List.map_congr_left
      intro f hf
      rw [lastScore_append]
      by_cases hc : slot s = f
      · subst hc
        simp only [and_self, if_true, Option.map_some, Option.getD_some]
        rw [if_pos (by rfl)]
        cases hl : lastScore hist (slot s) e.dataType with
        | none =>
          have := foldl_put_fresh ms e.score [] hms (by simp)
          simp only [List.getElem_map, List.getElem_range]
          change List.foldl _ (((lastScore hist (slot s) e.dataType).map _).getD []) _ = _
          rw [hl]
          simpa using this
        | some v =>
          have := foldl_put_replace ms v e.score [] hms (by simp)
          simp only [List.getElem_map, List.getElem_range]
          change List.foldl _ (((lastScore hist (slot s) e.dataType).map _).getD []) _ = _
          rw [hl]
          simpa using this
      · rw [if_neg (by simpa [slot] using hc), if_neg (by simp [hc])]
    · simp only [stateOf, if_neg hex, Option.getD_none]
      rw [putAll_none _ (by simpa using hne) K _ (by simpa [slot] using hs), hkeys,
        foldl_add_fresh ms [] hms (by simp)]
      have h := foldl_put_fresh ms e.score [] hms (by simp)
      rw [h]
      have hrep : List.replicate K ([] : List (M × S)) = (List.range K).map fun _ => [] := by
        simp [List.map_const']
      rw [hrep, map_range_set]
      simp only [resultOf, List.nil_append]
      congr 3
      apply List.map_congr_left
      intro f hf
      rw [lastScore_append, lastScore_none hist f _ hex]
      by_cases hc : slot s = f
      · subst hc
        simp [slot]
      · rw [if_neg (by simpa [slot] using hc), if_neg (by simp [hc])]
        rfl
  unfold generate
  simp only [Eval.toModel, hK, hput]
  congr 2
  funext t
  by_cases ht : t = e.dataType
  · subst ht
    simp [stateOf]
  · rw [Function.update_of_ne ht]
    have h1 : (∃ p ∈ hist ++ [(s, e)], p.2.dataType = t) ↔ ∃ p ∈ hist, p.2.dataType = t := by
      constructor
      · rintro ⟨p, hp, hpt⟩
        rcases List.mem_append.1 hp with hp | hp
        · exact ⟨p, hp, hpt⟩
        · rw [List.mem_singleton] at hp
          subst hp
          exact absurd hpt.symm ht
      · rintro ⟨p, hp, hpt⟩
        exact ⟨p, List.mem_append_left _ hp, hpt⟩
    have h2 : resultOf K ms (hist ++ [(s, e)]) t = resultOf K ms hist t := by
      unfold resultOf
      congr 2
      apply List.map_congr_left
      intro f hf
      rw [lastScore_append, if_neg (fun h => ht h.2.symm)]
    by_cases hex : ∃ p ∈ hist, p.2.dataType = t
    · simp only [stateOf, if_pos hex, if_pos (h1.2 hex), h2]
    · simp only [stateOf, if_neg hex, if_neg (fun h => hex (h1.1 h))]

/-- The values that are averaged after several evaluations. -/
def valuesOf (K : Nat) (hist : List (Split × Eval M T S)) (t : T) (m : M) : List S :=
  (List.range K).filterMap fun f => (lastScore hist f t).map fun v => v m

theorem avgDict_resultOf (K : Nat) (ms : List M) (hist : List (Split × Eval M T S)) (t : T) :
    (resultOf K ms hist t).avgDict
      = .ok (ms.map fun m => (m, average (valuesOf K hist t m), variance (valuesOf K hist t m))) := by
  unfold Result.avgDict
  apply avgDictFrom_eq
  intro m hm
  simp only [resultOf] at hm ⊢
  simp only [Result.avg]
  rw [collect_map ms m hm]
  rfl

/-- The outputs that are written for the last evaluation. -/
def outputsOf (K : Nat) (ms : List M) (hist : List (Split × Eval M T S)) (s : Split) (e : Eval M T S) :
    List (Output M T S) :=
  Output.single e.dataType e.modelSize s.getFold (ms.map fun m => (m, e.score m)) ::
    if s.crossValidation && s.isLastFold then
      [Output.overall e.dataType e.modelSize (ms.map fun m =>
        (m, average (valuesOf K (hist ++ [(s, e)]) e.dataType m), variance (valuesOf K (hist ++ [(s, e)]) e.dataType m)))]
    else []

theorem write_stateOf (K : Nat) (ms : List M) (hms : ms.Nodup) (hne : ms ≠ [])
    (hist : List (Split × Eval M T S)) (s : Split) (e : Eval M T S) (hK : s.numFolds = K) (hs : slot s < K)
    (hcv : s.crossValidation = true → s.getFold ≠ none) (hncv : s.crossValidation = false → s.getFold = none ∨ s.getFold = some 0) :
    write (stateOf K ms hist) s (e.toModel ms)
      = .ok (stateOf K ms (hist ++ [(s, e)]), outputsOf K ms hist s e) := by
  unfold write
  rw [generate_stateOf K ms hms hne hist s e hK hs]
  have hdict : (resultOf K ms (hist ++ [(s, e)]) e.dataType).dict (some (slot s))
      = .ok (ms.map fun m => (m, e.score m)) := by
    simp only [Result.dict, resultOf, Option.getD_some]
    rw [List.getElem?_map, List.getElem?_range hs]
    simp [lastScore_append]
  have hfold : (if s.crossValidation = true then s.getFold else some 0) = some (slot s) := by
    cases hc : s.crossValidation with
    | true =>
      simp only [if_true]
      cases hg : s.getFold with
      | none => exact absurd hg (hcv hc)
      | some f => simp [slot, hg]
    | false =>
      simp only [Bool.false_eq_true, if_false]
      rcases hncv hc with h | h <;> simp [slot, h]
  have hsink : sink s (e.toModel ms) (resultOf K ms (hist ++ [(s, e)]) e.dataType) = .ok (outputsOf K ms hist s e) := by
    unfold sink
    simp only [hfold, hdict, avgDict_resultOf, outputsOf, Eval.toModel]
    split <;> rfl
  simp only [hsink]

/-- The outputs that are written for several evaluations. -/
def allOutputs (K : Nat) (ms : List M) (hist : List (Split × Eval M T S)) :
    List (Split × Eval M T S) → List (Output M T S)
  | [] => []
  | (s, e) :: rest => outputsOf K ms hist s e ++ allOutputs K ms (hist ++ [(s, e)]) rest

theorem run_stateOf (K : Nat) (ms : List M) (hms : ms.Nodup) (hne : ms ≠ [])
    (l hist : List (Split × Eval M T S))
    (hl : ∀ p ∈ l, p.1.numFolds = K ∧ slot p.1 < K ∧ (p.1.crossValidation = true → p.1.getFold ≠ none) ∧
      (p.1.crossValidation = false → p.1.getFold = none ∨ p.1.getFold = some 0)) :
    run (stateOf K ms hist) (l.map fun p => (p.1, p.2.toModel ms)) = .ok (allOutputs K ms hist l) := by
  induction l generalizing hist with
  | nil => rfl
  | cons p l ih =>
    obtain ⟨s, e⟩ := p
    obtain ⟨h1, h2, h3, h4⟩ := hl (s, e) (by simp)
    simp only [List.map_cons, run, write_stateOf K ms hms hne hist s e h1 h2 h3 h4,
      ih (hist ++ [(s, e)]) (fun q hq => hl q (by simp [hq])), allOutputs]

end runs

end MLRL.CrossValidation
