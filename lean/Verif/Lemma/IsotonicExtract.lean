import Verif.Lemma.Isotonic
import Verif.Lemma.SparseSet

/-!
# Lemmas about the extraction of bins for the isotonic calibration
-/

set_option linter.unusedSectionVars false

namespace MLRL.Isotonic

open Iterators Stopping Loss LabelVectors

variable {K : Type}

/-- A loop that updates one element of an array after the other. -/
theorem loop_update {A : Type} {n : Nat} {body : Nat → List A → Res (List A)} (m m' : Nat → A)
    (step : ∀ j g, j < n → g j = m j → body j (row n g) = .ok (row n (Function.update g j (m' j)))) :
    loop n body (row n m) = .ok (row n m') := by
  obtain ⟨r, h1, g, h2, h3⟩ := loop_rule (body := body) (fun i r => ∃ g, r = row n g ∧ ∀ c, g c = if c < i then m' c else m c) n (row n m)
    ⟨m, rfl, by simp⟩ (by
    rintro i t hi ⟨g, rfl, hg⟩
    refine ⟨_, step i g hi (by simp [hg]), _, rfl, fun c => ?_⟩
    rw [Function.update_apply]
    by_cases e : c = i
    · subst e
      simp
    · rw [if_neg e, hg]
      by_cases hc : c < i
      · rw [if_pos hc, if_pos (by omega)]
      · rw [if_neg hc, if_neg (by omega)])
  rw [h1, h2]
  congr 1
  simp only [row]
  refine List.map_congr_left (fun c hc => ?_)
  rw [h3, if_pos (List.mem_range.1 hc)]

/-- A loop over the elements of a list. -/
theorem loop_list {A σ : Type} {l : List A} {body : Nat → σ → Res σ} (S : List A → σ)
    (step : ∀ i x, l[i]? = some x → body i (S (l.take i)) = .ok (S (l.take i ++ [x]))) : loop l.length body (S []) = .ok (S l) := by
  obtain ⟨r, h1, h2⟩ := loop_rule (body := body) (fun i r => r = S (l.take i)) l.length (S []) (by simp) (by
    rintro i t hi rfl
    refine ⟨_, step i _ (List.getElem?_eq_getElem hi), ?_⟩
    rw [take_succ_eq (List.getElem?_eq_getElem hi)])
  rw [h1, h2, List.take_length]

theorem addBin_row {n : Nat} (m : Nat → List (K × K)) {j : Nat} (h : j < n) (bin : K × K) :
    addBin (row n m) j bin = .ok (row n (Function.update m j (m j ++ [bin]))) := by
  unfold addBin
  rw [readAt_row m h, ok_bind, writeAt_row m h]

/-- The value of a label. -/
def indicator [Zero K] [One K] (b : Bool) : K := if b then 1 else 0

theorem row_congr {A : Type} {n : Nat} {f g : Nat → A} (h : ∀ c, c < n → f c = g c) : row n f = row n g := by
  simp only [row]
  exact List.map_congr_left (fun c hc => h c (List.mem_range.1 hc))

theorem extractDenseDense_ok [Field K] (marginal : Nat → K → K) {indices : List Nat} {n : Nat} {labels : List (List Bool)} {scores : List (List K)}
    {rel : Nat → Nat → Bool} {sc : Nat → Nat → K} (hl : ∀ e ∈ indices, labels[e]? = some (row n (rel e)))
    (hs : ∀ e ∈ indices, scores[e]? = some (row n (sc e))) (m : Nat → List (K × K)) :
    extractDenseDense marginal indices n labels scores (row n m) =
      .ok (row n (fun j => m j ++ indices.map (fun e => (marginal j (sc e j), indicator (rel e j))))) := by
  unfold extractDenseDense
  have := loop_list (l := indices) (body := fun i model => do
    let exampleIndex ← readAt indices i
    let labelRow ← readAt labels exampleIndex
    let scoreRow ← readAt scores exampleIndex
    loop n (fun j model => do
      let label ← readAt labelRow j
      let score ← readAt scoreRow j
      addBin model j (marginal j score, if label then 1 else 0)) model)
    (fun done => row n (fun j => m j ++ done.map (fun e => (marginal j (sc e j), indicator (rel e j))))) (by
    intro i e he
    have hm := List.mem_of_getElem? he
    rw [readAt_of_getElem? he, ok_bind, readAt_of_getElem? (hl e hm), ok_bind, readAt_of_getElem? (hs e hm), ok_bind]
    refine loop_update _ _ (fun j g hj hg => ?_)
    rw [readAt_row _ hj, ok_bind, readAt_row _ hj, ok_bind, addBin_row g hj, hg]
    simp [indicator])
  simpa using this

/-- A loop that advances an iterator and updates one element of an array after the other. -/
theorem loop_update_iter {A I : Type} {n : Nat} {next : I → I} {body : Nat → I × List A → Res (I × List A)} (it : I) (m m' : Nat → A)
    (step : ∀ j g, j < n → g j = m j → body j (iterate next j it, row n g) =
      .ok (next (iterate next j it), row n (Function.update g j (m' j)))) :
    ∃ r, loop n body (it, row n m) = .ok r ∧ r.2 = row n m' := by
  obtain ⟨r, h1, h4, g, h2, h3⟩ := loop_rule (body := body)
    (fun i r => r.1 = iterate next i it ∧ ∃ g, r.2 = row n g ∧ ∀ c, g c = if c < i then m' c else m c) n (it, row n m)
    ⟨rfl, m, rfl, by simp⟩ (by
    rintro i ⟨t1, t2⟩ hi ⟨h0, g, h2, hg⟩
    simp only at h0 h2
    subst h0; subst h2
    refine ⟨_, step i g hi (by simp [hg]), rfl, _, rfl, fun c => ?_⟩
    rw [Function.update_apply]
    by_cases e : c = i
    · subst e
      simp
    · rw [if_neg e, hg]
      by_cases hc : c < i
      · rw [if_pos hc, if_pos (by omega)]
      · rw [if_neg hc, if_neg (by omega)])
  refine ⟨r, h1, ?_⟩
  rw [h2]
  exact row_congr (fun c hc => by rw [h3, if_pos hc])

theorem extractCsrDense_ok [Field K] (marginal : Nat → K → K) {indices : List Nat} {n : Nat} {labels : List (List Nat)} {scores : List (List K)}
    {rel : Nat → List Nat} {sc : Nat → Nat → K} (hl : ∀ e ∈ indices, labels[e]? = some (rel e)) (hsort : ∀ e ∈ indices, (rel e).Pairwise (· < ·))
    (hs : ∀ e ∈ indices, scores[e]? = some (row n (sc e))) (m : Nat → List (K × K)) :
    extractCsrDense marginal indices n labels scores (row n m) =
      .ok (row n (fun j => m j ++ indices.map (fun e => (marginal j (sc e j), indicator (decide (j ∈ rel e)))))) := by
  unfold extractCsrDense
  have := loop_list (l := indices) (body := fun i model => do
    let exampleIndex ← readAt indices i
    let labelRow ← readAt labels exampleIndex
    let scoreRow ← readAt scores exampleIndex
    let r ← loop n (fun j (s : BinarySparseForward × List (List (K × K))) => do
      let score ← readAt scoreRow j
      let model ← addBin s.2 j (marginal j score, if s.1.deref then 1 else 0)
      return (s.1.next, model)) (BinarySparseForward.create labelRow 0, model)
    return r.2)
    (fun done => row n (fun j => m j ++ done.map (fun e => (marginal j (sc e j), indicator (decide (j ∈ rel e)))))) (by
    intro i e he
    have hm := List.mem_of_getElem? he
    rw [readAt_of_getElem? he, ok_bind, readAt_of_getElem? (hl e hm), ok_bind, readAt_of_getElem? (hs e hm), ok_bind]
    obtain ⟨r, h1, h2⟩ := loop_update_iter (n := n) (next := BinarySparseForward.next)
      (body := fun j (s : BinarySparseForward × List (List (K × K))) => do
        let score ← readAt (row n (sc e)) j
        let model ← addBin s.2 j (marginal j score, if s.1.deref then 1 else 0)
        return (s.1.next, model)) (BinarySparseForward.create (rel e) 0)
      (fun j => m j ++ (indices.take i).map (fun e => (marginal j (sc e j), indicator (decide (j ∈ rel e)))))
      (fun j => m j ++ (indices.take i ++ [e]).map (fun e => (marginal j (sc e j), indicator (decide (j ∈ rel e)))))
      (by
        intro j g hj hg
        simp only
        rw [readAt_row _ hj, ok_bind, addBin_row g hj, ok_bind, hg, forward_iterate (hsort e hm)]
        simp [indicator, pure_eq_ok])
    rw [h1, ok_bind, h2]
    rfl)
  simpa using this

/-! ### Sparse scores -/

theorem addFirstBins_ok [Field K] (n : Nat) : addFirstBins n (row n (fun _ => ([] : List (K × K)))) = .ok (row n (fun _ => [(0, 0)])) := by
  unfold addFirstBins
  refine loop_update _ _ (fun j g hj hg => ?_)
  rw [addBin_row g hj, hg]
  rfl

/-- The mean of the labels of the examples without a score; zero if there are none. -/
def missingMean [Field K] (rel : Nat → Nat → Bool) (sc : Nat → Nat → Option K) (indices : List Nat) (j : Nat) : K :=
  if (indices.filter (fun e => (sc e j).isNone)).length = 0 then 0
  else ((indices.filter (fun e => (sc e j).isNone)).map (fun e => (indicator (rel e j) : K))).sum
    / ((indices.filter (fun e => (sc e j).isNone)).length : K)

/-- The bins of the examples with a score. -/
def presentBins [Field K] (marginal : Nat → K → K) (rel : Nat → Nat → Bool) (sc : Nat → Nat → Option K) (indices : List Nat) (j : Nat) : List (K × K) :=
  indices.filterMap (fun e => (sc e j).map (fun v => (marginal j v, indicator (rel e j))))

theorem missingMean_some [Field K] {rel : Nat → Nat → Bool} {sc : Nat → Nat → Option K} {indices : List Nat} {j e : Nat} {v : K} (h : sc e j = some v) :
    missingMean rel sc (indices ++ [e]) j = missingMean rel sc indices j := by
  simp [missingMean, h]

theorem missingMean_none [Field K] [CharZero K] {rel : Nat → Nat → Bool} {sc : Nat → Nat → Option K} {indices : List Nat} {j e : Nat}
    (h : sc e j = none) :
    missingMean rel sc (indices ++ [e]) j =
      if (indices.filter (fun e => (sc e j).isNone)).length + 1 > 1 then
        iterativeArithmeticMean ((indices.filter (fun e => (sc e j).isNone)).length + 1) (indicator (rel e j)) (missingMean rel sc indices j)
      else indicator (rel e j) := by
  unfold missingMean
  rw [List.filter_append]
  simp only [List.filter_cons, h, Option.isNone_none, if_true, List.filter_nil, List.length_append, List.length_cons, List.length_nil, List.map_append,
    List.map_cons, List.map_nil, List.sum_append, List.sum_cons, List.sum_nil, add_zero]
  generalize (indices.filter (fun e => (sc e j).isNone)) = L
  rw [if_neg (by omega)]
  by_cases h0 : L.length = 0
  · have : L = [] := List.eq_nil_of_length_eq_zero h0
    subst this
    simp
  · rw [if_pos (by omega), if_neg h0]
    unfold iterativeArithmeticMean
    have h1 : ((L.length : Nat) : K) ≠ 0 := Nat.cast_ne_zero.2 h0
    have h2 : ((L.length + 1 : Nat) : K) ≠ 0 := Nat.cast_ne_zero.2 (by omega)
    push_cast at h2 ⊢
    field_simp
    ring

theorem setFirst_cons (b : K × K) (l : List (K × K)) (v : K) : setFirst (b :: l) v = .ok ((b.1, v) :: l) := by
  simp [setFirst, readAt, writeAt, Except.bind, bind]

/-- The state of the loops after the examples `done` have been processed. -/
def denseSparseState [Field K] (marginal : Nat → K → K) (rel : Nat → Nat → Bool) (sc : Nat → Nat → Option K) (n : Nat) (done : List Nat) :
    List (List (K × K)) × List Nat :=
  (row n (fun j => (0, missingMean rel sc done j) :: presentBins marginal rel sc done j),
    row n (fun j => (done.filter (fun e => (sc e j).isNone)).length))

theorem extractDenseSparse_ok [Field K] [CharZero K] (marginal : Nat → K → K) {indices : List Nat} {n : Nat} (hn : n ≤ SparseSet.maxIndex)
    {labels : List (List Bool)} {scores : List (SparseSet K)} {rel : Nat → Nat → Bool} {sc : Nat → Nat → Option K}
    (hl : ∀ e ∈ indices, labels[e]? = some (row n (rel e))) (hs : ∀ e ∈ indices, ∃ s, scores[e]? = some s ∧ SparseSet.Rep n s (sc e)) :
    extractDenseSparse marginal indices n labels scores (row n (fun _ => [])) =
      .ok (row n (fun j => (0, missingMean rel sc indices j) :: presentBins marginal rel sc indices j)) := by
  unfold extractDenseSparse
  rw [addFirstBins_ok, ok_bind]
  have hrep : List.replicate n 0 = row n (fun _ => 0) := by simp [row, List.map_const']
  have := loop_list (l := indices) (body := fun i s => do
    let exampleIndex ← readAt indices i
    let labelRow ← readAt labels exampleIndex
    let scoreRow ← readAt scores exampleIndex
    loop n (extractDenseSparseStep marginal labelRow scoreRow) s) (denseSparseState marginal rel sc n) (by
    intro i e he
    have hm := List.mem_of_getElem? he
    obtain ⟨s, hs1, hs2⟩ := hs e hm
    rw [readAt_of_getElem? he, ok_bind, readAt_of_getElem? (hl e hm), ok_bind, readAt_of_getElem? hs1, ok_bind]
    generalize indices.take i = done
    obtain ⟨r, h1, f, g, h2, h3⟩ := loop_rule (body := extractDenseSparseStep marginal (row n (rel e)) s)
      (fun i r => ∃ f g, r = (row n f, row n g) ∧
        ∀ c, f c = (if c < i then (0, missingMean rel sc (done ++ [e]) c) :: presentBins marginal rel sc (done ++ [e]) c
            else (0, missingMean rel sc done c) :: presentBins marginal rel sc done c) ∧
          g c = (if c < i then ((done ++ [e]).filter (fun e => (sc e c).isNone)).length else (done.filter (fun e => (sc e c).isNone)).length))
      n (denseSparseState marginal rel sc n done) ⟨_, _, rfl, by simp⟩ (by
        rintro j t hj ⟨f, g, rfl, hfg⟩
        have hf := (hfg j).1
        have hg := (hfg j).2
        rw [if_neg (by omega)] at hf hg
        unfold extractDenseSparseStep
        rw [readAt_row _ hj, ok_bind, hs2.get hn hj, ok_bind]
        cases hc : sc e j with
        | some v =>
          simp only [Option.map_some]
          rw [addBin_row f hj, ok_bind]
          refine ⟨_, rfl, _, _, rfl, fun c => ⟨?_, ?_⟩⟩
          · rw [Function.update_apply]
            by_cases e1 : c = j
            · subst e1
              rw [if_pos rfl, if_pos (Nat.lt_succ_self c), hf, missingMean_some hc]
              simp [presentBins, hc, indicator]
            · rw [if_neg e1, (hfg c).1]
              by_cases h : c < j
              · rw [if_pos h, if_pos (by omega)]
              · rw [if_neg h, if_neg (by omega)]
          · by_cases e1 : c = j
            · subst e1
              rw [hg, if_pos (by omega), List.filter_append]
              simp [hc]
            · rw [(hfg c).2]
              by_cases h : c < j
              · rw [if_pos h, if_pos (by omega)]
              · rw [if_neg h, if_neg (by omega)]
        | none =>
          simp only [Option.map_none]
          rw [readAt_row f hj, ok_bind, hf]
          rw [readAt_of_getElem? (x := (0, missingMean rel sc done j)) rfl, ok_bind, readAt_row g hj, ok_bind, hg]
          simp only
          rw [setFirst_cons, ok_bind, writeAt_row f hj, ok_bind, writeAt_row g hj, ok_bind]
          refine ⟨_, rfl, _, _, rfl, fun c => ⟨?_, ?_⟩⟩
          · rw [Function.update_apply]
            by_cases e1 : c = j
            · subst e1
              rw [if_pos rfl, if_pos (Nat.lt_succ_self c), missingMean_none hc]
              simp only [presentBins, List.filterMap_append, List.filterMap_cons, hc, Option.map_none, List.filterMap_nil, List.append_nil, indicator]
            · rw [if_neg e1, (hfg c).1]
              by_cases h : c < j
              · rw [if_pos h, if_pos (by omega)]
              · rw [if_neg h, if_neg (by omega)]
          · rw [Function.update_apply]
            by_cases e1 : c = j
            · subst e1
              rw [if_pos rfl, if_pos (by omega), List.filter_append]
              simp [hc]
            · rw [if_neg e1, (hfg c).2]
              by_cases h : c < j
              · rw [if_pos h, if_pos (by omega)]
              · rw [if_neg h, if_neg (by omega)])
    rw [h1, h2]
    congr 1
    unfold denseSparseState
    rw [row_congr (fun c hc => (h3 c).1.trans (if_pos hc)), row_congr (fun c hc => (h3 c).2.trans (if_pos hc))])
  have h0 : denseSparseState marginal rel sc n [] = (row n (fun _ => [(0, 0)]), List.replicate n 0) := by
    rw [hrep]
    simp [denseSparseState, missingMean, presentBins]
  rw [h0] at this
  rw [this, ok_bind]
  rfl

/-! ### Sparse labels and sparse scores -/

theorem countRelevant_ok {n : Nat} {labels : List Nat} (hnd : labels.Nodup) (hlt : ∀ c ∈ labels, c < n) (a : Nat → Nat) :
    countRelevant labels (row n a) = .ok (row n (fun c => a c + if c ∈ labels then 1 else 0)) := by
  unfold countRelevant
  have := loop_list (l := labels) (body := fun j counts => do
    let labelIndex ← readAt labels j
    let m ← readAt counts labelIndex
    writeAt counts labelIndex (m + 1)) (fun done => row n (fun c => a c + done.count c)) (by
    intro i c hc
    have hlt' := hlt c (List.mem_of_getElem? hc)
    rw [readAt_of_getElem? hc, ok_bind, readAt_row _ hlt', ok_bind, writeAt_row _ hlt']
    congr 1
    refine row_congr (fun d _ => ?_)
    rw [Function.update_apply, List.count_append]
    by_cases e : d = c
    · subst e
      simp [Nat.add_assoc]
    · have e' : c ≠ d := fun h => e h.symm
      rw [if_neg e]
      simp [e'])
  simp only [List.count_nil, Nat.add_zero] at this
  rw [this]
  congr 1
  refine row_congr (fun c _ => ?_)
  by_cases h : c ∈ labels
  · rw [if_pos h, List.count_eq_one_of_mem hnd h]
  · rw [if_neg h, List.count_eq_zero_of_not_mem h]

theorem decrement_row {n : Nat} (a : Nat → Nat) {c : Nat} (hc : c < n) (h : 1 ≤ a c) :
    decrement (row n a) c = .ok (row n (Function.update a c (a c - 1))) := by
  unfold decrement
  rw [readAt_row a hc, ok_bind, writeAt_row a hc, if_neg (by omega)]

theorem entries_ok [Field K] (marginal : Nat → K → K) (n : Nat) (labels : List Nat) :
    ∀ (es : List (Nat × K)), (es.map Prod.fst).Nodup → (∀ e ∈ es, e.1 < n) → ∀ (m : Nat → List (K × K)) (a r : Nat → Nat),
      (∀ e ∈ es, 1 ≤ a e.1) → (∀ e ∈ es, e.1 ∈ labels → 1 ≤ r e.1) →
      ∃ m' : Nat → List (K × K), extractCsrSparseEntries marginal labels es { model := row n m, numSparse := row n a, numSparseRelevant := row n r } =
        .ok { model := row n m', numSparse := row n (fun c => a c - if c ∈ es.map Prod.fst then 1 else 0),
              numSparseRelevant := row n (fun c => r c - if c ∈ es.map Prod.fst ∧ c ∈ labels then 1 else 0) } ∧
        (∀ c v, (c, v) ∈ es → m' c = m c ++ [(marginal c v, indicator (decide (c ∈ labels)))]) ∧
        (∀ c, c ∉ es.map Prod.fst → m' c = m c) := by
  intro es
  induction es with
  | nil =>
    intro _ _ m a r _ _
    exact ⟨m, by simp [extractCsrSparseEntries], by simp, by simp⟩
  | cons e es ih =>
    intro hnd hlt m a r ha hr
    have hlt' := hlt e (List.mem_cons_self ..)
    rw [List.map_cons, List.nodup_cons] at hnd
    have hne : ∀ x ∈ es, x.1 ≠ e.1 := fun x hx hh => hnd.1 (hh ▸ List.mem_map_of_mem hx)
    have step : extractCsrSparseEntry marginal labels e { model := row n m, numSparse := row n a, numSparseRelevant := row n r } =
        .ok { model := row n (Function.update m e.1 (m e.1 ++ [(marginal e.1 e.2, indicator (decide (e.1 ∈ labels)))])),
              numSparse := row n (Function.update a e.1 (a e.1 - 1)),
              numSparseRelevant := row n (if e.1 ∈ labels then Function.update r e.1 (r e.1 - 1) else r) } := by
      unfold extractCsrSparseEntry
      simp only
      rw [addBin_row m hlt', ok_bind, decrement_row a hlt' (ha e (List.mem_cons_self ..)), ok_bind]
      by_cases hl : e.1 ∈ labels
      · rw [if_pos (by simpa using hl), decrement_row r hlt' (hr e (List.mem_cons_self ..) hl), ok_bind, if_pos hl, pure_eq_ok]
        simp [indicator]
      · rw [if_neg (by simpa using hl), if_neg hl, pure_eq_ok]
        simp [indicator]
    obtain ⟨m', g1, g2, g3⟩ := ih hnd.2 (fun x hx => hlt x (List.mem_cons_of_mem _ hx))
      (Function.update m e.1 (m e.1 ++ [(marginal e.1 e.2, indicator (decide (e.1 ∈ labels)))]))
      (Function.update a e.1 (a e.1 - 1)) (if e.1 ∈ labels then Function.update r e.1 (r e.1 - 1) else r)
      (fun x hx => by
        rw [Function.update_of_ne (hne x hx)]
        exact ha x (List.mem_cons_of_mem _ hx))
      (fun x hx hl => by
        split_ifs
        · rw [Function.update_of_ne (hne x hx)]
          exact hr x (List.mem_cons_of_mem _ hx) hl
        · exact hr x (List.mem_cons_of_mem _ hx) hl)
    refine ⟨m', ?_, ?_, ?_⟩
    · simp only [extractCsrSparseEntries]
      rw [step, ok_bind, g1]
      congr 2
      · refine row_congr (fun c _ => ?_)
        rw [Function.update_apply]
        by_cases e1 : c = e.1
        · subst e1
          rw [if_pos rfl, if_neg hnd.1]
          simp
        · rw [if_neg e1]
          have hiff : c ∈ (e :: es).map Prod.fst ↔ c ∈ es.map Prod.fst := by
            rw [List.map_cons, List.mem_cons]
            exact ⟨fun h => h.resolve_left e1, Or.inr⟩
          by_cases hc : c ∈ es.map Prod.fst
          · rw [if_pos hc, if_pos (hiff.2 hc)]
          · rw [if_neg hc, if_neg (fun h => hc (hiff.1 h))]
      · refine row_congr (fun c _ => ?_)
        by_cases e1 : c = e.1
        · subst e1
          by_cases hl : e.1 ∈ labels
          · rw [if_pos hl, Function.update_self]
            simp [hl, hnd.1]
          · rw [if_neg hl]
            simp [hl]
        · have : (if e.1 ∈ labels then Function.update r e.1 (r e.1 - 1) else r) c = r c := by
            split_ifs
            · rw [Function.update_of_ne e1]
            · rfl
          rw [this]
          have hiff : c ∈ (e :: es).map Prod.fst ↔ c ∈ es.map Prod.fst := by
            rw [List.map_cons, List.mem_cons]
            exact ⟨fun h => h.resolve_left e1, Or.inr⟩
          by_cases hc : c ∈ es.map Prod.fst ∧ c ∈ labels
          · rw [if_pos hc, if_pos (show c ∈ (e :: es).map Prod.fst ∧ c ∈ labels from ⟨hiff.2 hc.1, hc.2⟩)]
          · rw [if_neg hc, if_neg (show ¬ (c ∈ (e :: es).map Prod.fst ∧ c ∈ labels) from fun h => hc ⟨hiff.1 h.1, h.2⟩)]
    · intro c v hcv
      rcases List.mem_cons.1 hcv with h | h
      · subst h
        rw [g3 _ hnd.1, Function.update_self]
      · rw [g2 c v h, Function.update_of_ne (hne _ h)]
    · intro c hc
      simp only [List.map_cons, List.mem_cons, not_or] at hc
      rw [g3 c hc.2, Function.update_of_ne hc.1]

theorem rep_mem [Field K] {n : Nat} {s : SparseSet K} {m : Nat → Option K} (h : SparseSet.Rep n s m) {c : Nat} (hc : c < n) (v : K) :
    (c, v) ∈ s.values ↔ m c = some v := by
  constructor
  · intro hm
    obtain ⟨k, hk⟩ := List.mem_iff_getElem?.1 hm
    exact (h.cols k c v hk).2.2
  · intro hm
    obtain ⟨k, -, hk⟩ := h.present c v hc hm
    exact List.mem_of_getElem? hk

theorem rep_mem_fst [Field K] {n : Nat} {s : SparseSet K} {m : Nat → Option K} (h : SparseSet.Rep n s m) {c : Nat} (hc : c < n) :
    c ∈ s.values.map Prod.fst ↔ (m c).isSome := by
  rw [List.mem_map, Option.isSome_iff_exists]
  constructor
  · rintro ⟨⟨c', v⟩, hv, rfl⟩
    exact ⟨v, (rep_mem h hc v).1 hv⟩
  · rintro ⟨v, hv⟩
    exact ⟨(c, v), (rep_mem h hc v).2 hv, rfl⟩

/-- The state of the loops after the examples `done` have been processed. -/
def csrSparseState [Field K] (marginal : Nat → K → K) (rel : Nat → List Nat) (sc : Nat → Nat → Option K) (n total : Nat) (done : List Nat) :
    SparseCounts K :=
  { model := row n (fun j => (0, 0) :: presentBins marginal (fun e j => decide (j ∈ rel e)) sc done j)
    numSparse := row n (fun j => total - (done.filter (fun e => (sc e j).isSome)).length)
    numSparseRelevant := row n (fun j => (done.filter (fun e => decide (j ∈ rel e) && (sc e j).isNone)).length) }

theorem extractCsrSparse_loop_ok [Field K] [DecidableEq K] (marginal : Nat → K → K) {indices : List Nat} {n : Nat}
    {labels : List (List Nat)} {scores : List (SparseSet K)} {rel : Nat → List Nat} {sc : Nat → Nat → Option K}
    (hl : ∀ e ∈ indices, labels[e]? = some (rel e)) (hsort : ∀ e ∈ indices, (rel e).Pairwise (· < ·)) (hlt : ∀ e ∈ indices, ∀ c ∈ rel e, c < n)
    (hs : ∀ e ∈ indices, ∃ s, scores[e]? = some s ∧ SparseSet.Rep n s (sc e)) :
    loop indices.length (fun i (s : SparseCounts K) => do
      let exampleIndex ← readAt indices i
      let labelRow ← readAt labels exampleIndex
      let scoreRow ← readAt scores exampleIndex
      let numSparseRelevant ← countRelevant labelRow s.numSparseRelevant
      extractCsrSparseEntries marginal labelRow scoreRow.values { s with numSparseRelevant := numSparseRelevant })
      (csrSparseState marginal rel sc n indices.length []) = .ok (csrSparseState marginal rel sc n indices.length indices) := by
  refine loop_list (csrSparseState marginal rel sc n indices.length) ?_
  intro i e he
  have hm := List.mem_of_getElem? he
  obtain ⟨s, hs1, hs2⟩ := hs e hm
  have hi := (List.getElem?_eq_some_iff.1 he).1
  have hlen : (indices.take i).length = i := by rw [List.length_take]; omega
  rw [readAt_of_getElem? he, ok_bind, readAt_of_getElem? (hl e hm), ok_bind, readAt_of_getElem? hs1, ok_bind]
  generalize indices.take i = done at hlen
  simp only [csrSparseState]
  rw [countRelevant_ok ((hsort e hm).imp Nat.ne_of_lt) (hlt e hm), ok_bind]
  have hsub : ∀ c, (done.filter (fun e => (sc e c).isSome)).length < indices.length := by
    intro c
    have := List.length_filter_le (fun e => (sc e c).isSome) done
    omega
  have hcol : ∀ x ∈ s.values, x.1 < n := by
    intro x hx
    obtain ⟨k, hk⟩ := List.mem_iff_getElem?.1 hx
    exact (hs2.cols k x.1 x.2 hk).1
  obtain ⟨m', g1, g2, g3⟩ := entries_ok marginal n (rel e) s.values hs2.nodup hcol
    (fun j => (0, 0) :: presentBins marginal (fun e j => decide (j ∈ rel e)) sc done j)
    (fun j => indices.length - (done.filter (fun e => (sc e j).isSome)).length)
    (fun c => (done.filter (fun e => decide (c ∈ rel e) && (sc e c).isNone)).length + if c ∈ rel e then 1 else 0)
    (fun x _ => by have := hsub x.1; show 1 ≤ indices.length - (done.filter (fun e => (sc e x.1).isSome)).length; omega)
    (fun x _ h => by simp [h])
  rw [g1]
  congr 2
  · refine row_congr (fun c hc => ?_)
    cases hv : sc e c with
    | some v =>
      rw [g2 c v ((rep_mem hs2 hc v).2 hv)]
      simp [presentBins, hv]
    | none =>
      rw [g3 c (fun h => by
        have := (rep_mem_fst hs2 hc).1 h
        rw [hv] at this
        cases this)]
      simp [presentBins, hv]
  · refine row_congr (fun c hc => ?_)
    rw [List.filter_append, List.length_append]
    have hsc := hsub c
    by_cases h : (sc e c).isSome
    · rw [if_pos ((rep_mem_fst hs2 hc).2 h)]
      simp only [List.filter_cons, h, if_true, List.filter_nil, List.length_cons, List.length_nil]
      omega
    · rw [if_neg (fun h' => h ((rep_mem_fst hs2 hc).1 h'))]
      simp [h]
  · refine row_congr (fun c hc => ?_)
    rw [List.filter_append, List.length_append]
    by_cases h : (sc e c).isSome
    · have h1 := (rep_mem_fst hs2 hc).2 h
      have h2 : (sc e c).isNone = false := by
        cases hh : sc e c with
        | none => rw [hh] at h; cases h
        | some v => rfl
      by_cases h3 : c ∈ rel e
      · rw [if_pos h3, if_pos (show c ∈ s.values.map Prod.fst ∧ c ∈ rel e from ⟨h1, h3⟩)]
        simp [h2]
      · rw [if_neg h3, if_neg (show ¬ (c ∈ s.values.map Prod.fst ∧ c ∈ rel e) from fun hh => h3 hh.2)]
        simp [h2]
    · have h1 : c ∉ s.values.map Prod.fst := fun h' => h ((rep_mem_fst hs2 hc).1 h')
      have h2 : (sc e c).isNone = true := by
        cases hh : sc e c with
        | none => rfl
        | some v => rw [hh] at h; simp at h
      rw [if_neg (show ¬ (c ∈ s.values.map Prod.fst ∧ c ∈ rel e) from fun hh => h1 hh.1)]
      by_cases h3 : c ∈ rel e <;> simp [h2, h3]

theorem filter_not_length {A : Type} (P : A → Bool) (l : List A) : l.length - (l.filter P).length = (l.filter (fun x => !P x)).length := by
  have := List.length_eq_length_filter_add (l := l) P
  omega

theorem sum_indicator [Field K] (l : List Nat) (P : Nat → Bool) : (l.map (fun e => (indicator (P e) : K))).sum = ((l.filter P).length : K) := by
  induction l with
  | nil => simp
  | cons a l ih =>
    by_cases h : P a = true
    · simp [indicator, h, List.filter_cons] at ih ⊢
      rw [ih]
      ring
    · simp [indicator, h, List.filter_cons] at ih ⊢
      rw [ih]

/-- If there is an example without a score for each label, the result does not depend on the format of the label matrix. -/
theorem extractCsrSparse_ok [Field K] [DecidableEq K] [CharZero K] (marginal : Nat → K → K) {indices : List Nat} {n : Nat}
    {labels : List (List Nat)} {scores : List (SparseSet K)} {rel : Nat → List Nat} {sc : Nat → Nat → Option K}
    (hl : ∀ e ∈ indices, labels[e]? = some (rel e)) (hsort : ∀ e ∈ indices, (rel e).Pairwise (· < ·)) (hlt : ∀ e ∈ indices, ∀ c ∈ rel e, c < n)
    (hs : ∀ e ∈ indices, ∃ s, scores[e]? = some s ∧ SparseSet.Rep n s (sc e)) (hmiss : ∀ c < n, ∃ e ∈ indices, sc e c = none) :
    extractCsrSparse marginal indices n labels scores (row n (fun _ => [])) =
      .ok (row n (fun j => (0, missingMean (fun e j => decide (j ∈ rel e)) sc indices j)
        :: presentBins marginal (fun e j => decide (j ∈ rel e)) sc indices j)) := by
  unfold extractCsrSparse
  rw [addFirstBins_ok, ok_bind]
  have h0 : ({ model := row n (fun _ => [(0, 0)]), numSparse := List.replicate n indices.length, numSparseRelevant := List.replicate n 0 } :
      SparseCounts K) = csrSparseState marginal rel sc n indices.length [] := by
    simp [csrSparseState, presentBins, row, List.map_const']
  rw [h0, extractCsrSparse_loop_ok marginal hl hsort hlt hs, ok_bind]
  simp only [csrSparseState]
  refine loop_update _ _ (fun j g hj hg => ?_)
  rw [readAt_row g hj, ok_bind, readAt_row _ hj, ok_bind, readAt_row _ hj, ok_bind, hg, filter_not_length]
  have hnone : (fun e => !(sc e j).isSome) = (fun e => (sc e j).isNone) := by
    funext e
    cases sc e j <;> rfl
  rw [hnone]
  obtain ⟨e, he, hse⟩ := hmiss j hj
  have hpos : 0 < (indices.filter (fun e => (sc e j).isNone)).length :=
    List.length_pos_of_mem (List.mem_filter.2 ⟨he, by simp [hse]⟩)
  have hcast : (((indices.filter (fun e => (sc e j).isNone)).length : Nat) : K) ≠ 0 := Nat.cast_ne_zero.2 (by omega)
  unfold divide
  rw [if_neg hcast, ok_bind, setFirst_cons, ok_bind, writeAt_row g hj]
  congr 3
  unfold missingMean
  rw [if_neg (by omega), sum_indicator, List.filter_filter]

end MLRL.Isotonic
