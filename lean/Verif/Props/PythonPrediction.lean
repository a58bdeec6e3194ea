import Verif.Model.PythonPrediction
import Verif.Props.Predictor
import Mathlib.Algebra.Order.Ring.Defs
import Mathlib.Tactic.Linarith

/-!
# C100, C101: predictions via the Python API, incremental evaluation
-/

namespace MLRL.PythonPrediction

open Predictor RuleList.Spec

/-! ### Auxiliary lemmas -/

theorem NonNative.applyAll_spec {P : Type} {predict : Nat → Res P} {f : Nat → P} {total : Nat}
    (hf : ∀ k ≤ total, 1 ≤ k ∨ total = 0 → predict k = .ok (f k)) : ∀ (steps : List Nat) (done : Nat), done ≤ total → (∀ s ∈ steps, 1 ≤ s) →
    ∃ results, NonNative.applyAll predict ⟨total, done⟩ (steps.map Int.ofNat) = .ok (⟨total, min total (done + steps.sum)⟩, results) ∧
      results.length = steps.length ∧ ∀ j < steps.length, results[j]? = some (f (min total (done + (steps.take (j + 1)).sum)))
  | [], done, hd, _ => by
    refine ⟨[], ?_, rfl, fun j hj => by simp at hj⟩
    simp only [List.map_nil, NonNative.applyAll, List.sum_nil, Nat.add_zero, Nat.min_eq_right hd]
  | s :: ss, done, hd, hs => by
    have h1 := hs s (by simp)
    obtain ⟨results, h2, h3, h4⟩ := NonNative.applyAll_spec hf ss (min total (done + s)) (by omega) (fun s' hs' => hs s' (List.mem_cons_of_mem _ hs'))
    have happ : NonNative.applyNext predict ⟨total, done⟩ (Int.ofNat s) = .ok (⟨total, min total (done + s)⟩, f (min total (done + s))) := by
      unfold NonNative.applyNext
      simp only
      rw [if_neg (by simp only [Int.ofNat_eq_natCast]; omega)]
      have : (Int.ofNat s).toNat = s := rfl
      rw [this, hf _ (by omega) (by omega), ok_bind]
      rfl
    refine ⟨f (min total (done + s)) :: results, ?_, by simp [h3], ?_⟩
    · rw [List.map_cons]
      unfold NonNative.applyAll
      rw [happ, ok_bind]
      simp only
      rw [h2, ok_bind]
      simp only [pure_eq_ok, List.sum_cons]
      rw [show min total (min total (done + s) + ss.sum) = min total (done + (s + ss.sum)) by omega]
    · intro j hj
      match j with
      | 0 => simp
      | j + 1 =>
        have := h4 j (by simpa using hj)
        rw [List.getElem?_cons_succ, this, List.take_succ_cons, List.sum_cons]
        rw [show min total (min total (done + s) + (ss.take (j + 1)).sum) = min total (done + (s + (ss.take (j + 1)).sum)) by omega]

/-- The number of used rules of a model. -/
theorem getNumUsedRules_eq {R : Type} (defaultFirst : Bool) (calls : List (RuleListCall R)) :
    (calls.foldl RuleListCall.apply (RuleList.init defaultFirst)).getNumUsedRules =
      if lastUsed calls = 0 then (allRules defaultFirst (lastDefault calls) (addedRules calls)).length else lastUsed calls := by
  rw [RuleList.foldl_apply]
  simp only [RuleList.init, Option.or_none, List.nil_append, RuleList.getNumUsedRules, RuleList.getNumRules]
  have : ((calls.filterMap usedOf).getLast?).getD 0 = lastUsed calls := rfl
  rw [this]
  by_cases h : lastUsed calls = 0
  · rw [if_pos h, if_neg (by omega)]
    unfold allRules
    cases defaultFirst <;> cases lastDefault calls <;> simp
  · rw [if_neg h, if_pos (by omega)]

theorem ok_of_bind' {α β : Type} {a : Res α} {f : α → Res β} {b : β} (h : (a >>= f) = .ok b) : ∃ x, a = .ok x ∧ f x = .ok b := by
  cases a with
  | error e => cases h
  | ok x => exact ⟨x, rfl, h⟩

theorem native_applyAll {R S : Type} (apply : R → S → Res S) : ∀ (steps : List Nat) (p q : Incremental R S), Incremental.applyAll apply steps p = .ok q →
    Native.applyAll apply (some p) steps = .ok (some q, List.replicate steps.length .view)
  | [], p, q, h => by
    cases h
    rfl
  | s :: ss, p, q, h => by
    unfold Incremental.applyAll at h
    unfold Native.applyAll Native.applyNext
    cases h1 : p.applyNext apply s with
    | error e =>
      rw [h1] at h
      cases h
    | ok p' =>
      rw [h1, ok_bind] at h
      have := native_applyAll apply ss p' q h
      simp only [h1, ok_bind, pure_eq_ok]
      rw [this]
      rfl

/-! ### C100: incremental prediction -/

/-- The rules of a model that are used for prediction, if their number is limited. -/
def total {R : Type} (defaultFirst : Bool) (calls : List (RuleListCall R)) (maxRules : Nat) : Nat :=
  let used := if lastUsed calls = 0 then (allRules defaultFirst (lastDefault calls) (addedRules calls)).length else lastUsed calls
  if maxRules = 0 then used else min used maxRules

/-- What is predicted by means of the first `k` rules of a model. -/
def Predicted {R S : Type} (apply : R → S → Res S) (defaultFirst : Bool) (calls : List (RuleListCall R)) (row : S) (k : Nat) (s : S) : Prop :=
  (firstRules defaultFirst (lastDefault calls) (addedRules calls) k).foldlM (fun s r => apply r s) row = .ok s

theorem oneShot_predicted {R S : Type} {apply : R → S → Res S} {defaultFirst : Bool} {calls : List (RuleListCall R)}
    (hlen : (addedRules calls).length + 1 < 2 ^ 32) (hused : lastUsed calls ≤ (allRules defaultFirst (lastDefault calls) (addedRules calls)).length)
    {row : S} {maxRules k : Nat} {s : S} (hk : k ≤ total defaultFirst calls maxRules) (hk1 : 1 ≤ k ∨ total defaultFirst calls maxRules = 0)
    (hs : Predicted apply defaultFirst calls row k s) :
    oneShot apply (calls.foldl RuleListCall.apply (RuleList.init defaultFirst)) k row = .ok s := by
  unfold oneShot
  have h := RuleList.iterate_used defaultFirst calls k hlen hused
  simp only at h
  rw [h, ok_bind]
  have : (if k = 0 then if lastUsed calls = 0 then (allRules defaultFirst (lastDefault calls) (addedRules calls)).length else lastUsed calls
      else min (if lastUsed calls = 0 then (allRules defaultFirst (lastDefault calls) (addedRules calls)).length else lastUsed calls) k) = k := by
    unfold total at hk hk1
    simp only at hk hk1
    generalize (if lastUsed calls = 0 then (allRules defaultFirst (lastDefault calls) (addedRules calls)).length else lastUsed calls) = used at hk hk1 ⊢
    split at hk <;> split <;> rename_i h1 h2 <;> simp only [h1, if_true, if_false] at hk1 <;> omega
  rw [this]
  exact hs

/-- **C100**, incremental prediction without native support, e.g., of the models of separate-and-conquer algorithms. For any model, any limit and any step sizes, the
predictions that are returned by the `j`-th call are those of the first rules of the model, the number of which is the sum of the step sizes so far (at most all rules), and the
remaining number of rules is reported correctly. In particular, arrays that have been returned before are not affected by a call. -/
theorem nonNative_correct {R S : Type} (apply : R → S → Res S) (defaultFirst : Bool) (calls : List (RuleListCall R))
    (hlen : (addedRules calls).length + 1 < 2 ^ 32) (hused : lastUsed calls ≤ (allRules defaultFirst (lastDefault calls) (addedRules calls)).length)
    (row : S) (predicted : Nat → S) (maxRules : Nat) (hp : ∀ k ≤ total defaultFirst calls maxRules, Predicted apply defaultFirst calls row k (predicted k))
    (steps : List Nat) (hsteps : ∀ s ∈ steps, 1 ≤ s) :
    let model := calls.foldl RuleListCall.apply (RuleList.init defaultFirst)
    ∃ p p' results, NonNative.create model.getNumUsedRules maxRules = .ok p ∧
      p.applyAll (fun k => oneShot apply model k row) (steps.map Int.ofNat) = .ok (p', results) ∧
      p'.getNumNext = total defaultFirst calls maxRules - min steps.sum (total defaultFirst calls maxRules) ∧ results.length = steps.length ∧
      ∀ j < steps.length, results[j]? = some (predicted (min (steps.take (j + 1)).sum (total defaultFirst calls maxRules))) := by
  intro model
  obtain ⟨results, h1, h2, h3⟩ := NonNative.applyAll_spec (predict := fun k => oneShot apply model k row) (f := predicted)
    (total := total defaultFirst calls maxRules) (fun k hk hk1 => oneShot_predicted hlen hused hk hk1 (hp k hk)) steps 0 (Nat.zero_le _) hsteps
  refine ⟨_, _, results, ?_, h1, ?_, h2, ?_⟩
  · unfold NonNative.create
    rw [if_neg (by omega)]
    congr 2
    rw [getNumUsedRules_eq]
    unfold total
    by_cases h : maxRules = 0
    · simp [h]
    · rw [if_pos (by omega), if_neg h]
      rfl
  · simp only [NonNative.getNumNext]
    omega
  · intro j hj
    rw [h3 j hj, Nat.zero_add, Nat.min_comm]

/-- **C100**, agreement: for the models of boosting algorithms, incremental prediction without native support returns what is predicted natively. -/
theorem nonNative_eq_native {R S : Type} (apply : R → S → Res S) (calls : List (RuleListCall R))
    (hlen : (addedRules calls).length + 1 < 2 ^ 32) (hused : lastUsed calls ≤ (allRules true (lastDefault calls) (addedRules calls)).length)
    (row : S) (predicted : Nat → S) (maxRules : Nat) (hp : ∀ k, Predicted apply true calls row k (predicted k))
    (steps : List Nat) (hsteps : ∀ s ∈ steps, 1 ≤ s) (hne : steps ≠ []) :
    let model := calls.foldl RuleListCall.apply (RuleList.init true)
    ∃ p p' q results, NonNative.create model.getNumUsedRules maxRules = .ok p ∧
      p.applyAll (fun k => oneShot apply model k row) (steps.map Int.ofNat) = .ok (p', results) ∧
      (Incremental.create model maxRules row).applyAll apply steps = .ok q ∧ q.getNumNext = p'.getNumNext ∧ results.getLast? = some q.row := by
  intro model
  obtain ⟨p, p', results, h1, h2, h3, h4, h5⟩ := nonNative_correct apply true calls hlen hused row predicted maxRules (fun k _ => hp k) steps hsteps
  have hall : ∀ k, firstRules true (lastDefault calls) (addedRules calls) k = (allRules true (lastDefault calls) (addedRules calls)).take k := by
    intro k
    simp [firstRules, allRules]
  obtain ⟨q, h6, h7, h8⟩ := incremental_eq_oneShot apply calls maxRules hlen hused row (fun k => ⟨predicted k, by rw [← hall]; exact hp k⟩) steps
  refine ⟨p, p', q, results, h1, h2, h6, ?_, ?_⟩
  · rw [h3, h7]
    rfl
  · have hl : 0 < steps.length := List.length_pos_iff.2 hne
    have h9 := h5 (steps.length - 1) (by omega)
    rw [List.getLast?_eq_getElem?, h4, h9, Nat.sub_add_cancel (by omega), List.take_length]
    congr 1
    by_cases ht : total true calls maxRules = 0
    · -- there are no rules
      have hrules := RuleList.iterate_used true calls maxRules hlen hused
      simp only at hrules
      have hempty : (firstRules true (lastDefault calls) (addedRules calls) (total true calls maxRules)) = [] := by rw [ht, hall, List.take_zero]
      have hr : (calls.foldl RuleListCall.apply (RuleList.init true)).usedToList maxRules = .ok [] := by
        rw [hrules]
        exact congrArg Except.ok hempty
      obtain ⟨q', h10, _, h11⟩ := incremental_eq_prefix apply model maxRules [] hr row (fun k _ => ⟨row, by rw [List.take_nil]; rfl⟩) steps
      rw [h6] at h10
      cases h10
      have h12 := hp 0
      unfold Predicted at h12
      rw [hall, List.take_zero] at h12
      rw [ht, Nat.min_zero]
      simp only [List.take_nil, List.foldlM_nil] at h11 h12
      injection h12.symm.trans h11
    · have hsum : 1 ≤ steps.sum := by
        cases steps with
        | nil => exact absurd rfl hne
        | cons s ss =>
          have := hsteps s (by simp)
          rw [List.sum_cons]
          omega
      have h10 := h8 (by
        show 1 ≤ min steps.sum (total true calls maxRules)
        omega)
      have h11 := oneShot_predicted hlen hused (maxRules := maxRules) (k := min steps.sum (total true calls maxRules)) (Nat.min_le_right _ _)
        (.inl (by omega)) (hp (min steps.sum (total true calls maxRules)))
      have h12 : (Except.ok (predicted (min steps.sum (total true calls maxRules))) : Res S) = .ok q.row := h11.symm.trans h10
      injection h12

/-- Step sizes less than one and negative limits are rejected. -/
theorem nonNative_rejects {P : Type} (predict : Nat → Res P) (p : NonNative) (numUsedRules : Nat) {step maxRules : Int} (hs : step < 1) (hm : maxRules < 0) :
    p.applyNext predict step = .error .exception ∧ NonNative.create numUsedRules maxRules = .error .exception := by
  constructor
  · unfold NonNative.applyNext
    rw [if_pos hs]
    rfl
  · exact if_pos ⟨by omega, by omega⟩

/-- **C100**, partial: immediately after a call of `apply_next`, an array that has been returned by a predictor with native support contains the predictions. Missing: the array is
not affected by later calls (`native_overwritten`) or the deallocation of the predictor (`native_dangling`). -/
theorem native_read_partial {R S : Type} (apply : R → S → Res S) (p q : Incremental R S) (step : Nat) (h : p.applyNext apply step = .ok q) :
    ∃ matrix, Native.applyNext apply (some p) step = .ok (some q, matrix) ∧ matrix.read (some q) = .ok q.row := by
  refine ⟨.view, ?_, rfl⟩
  simp only [Native.applyNext, h, ok_bind, pure_eq_ok]

/-- **C100** is violated: all arrays that have been returned by a predictor with native support contain the predictions of the last call. -/
theorem native_overwritten {R S : Type} (apply : R → S → Res S) (p q : Incremental R S) (steps : List Nat) (h : p.applyAll apply steps = .ok q) :
    ∃ matrices, Native.applyAll apply (some p) steps = .ok (some q, matrices) ∧ matrices.length = steps.length ∧
      ∀ m ∈ matrices, m.read (some q) = .ok q.row := by
  refine ⟨_, native_applyAll apply steps p q h, by simp, ?_⟩
  intro m hm
  rw [List.eq_of_mem_replicate hm]
  rfl

/-- **C100** is violated: after the predictor has been deallocated, accessing the predictions accesses invalid memory. -/
theorem native_dangling {R S : Type} (apply : R → S → Res S) (p q : Incremental R S) (steps : List Nat) (h : p.applyAll apply steps = .ok q) :
    ∃ matrices, Native.applyAll apply (some p) steps = .ok (some q, matrices) ∧ matrices.length = steps.length ∧
      ∀ m ∈ matrices, m.read (none : Native R S) = .error .outOfBounds := by
  refine ⟨_, native_applyAll apply steps p q h, by simp, ?_⟩
  intro m hm
  rw [List.eq_of_mem_replicate hm]
  rfl

/-- **C100**, probabilities: if there is a single label, the probabilities of the negative and the positive class are returned. They are probabilities and sum up to one. Otherwise, the
probabilities of the labels are returned as they are. -/
theorem toSklearn_correct {K : Type} [Ring K] [PartialOrder K] [IsOrderedRing K] (numCols : Nat) (rows : List (List K)) (hrows : ∀ row ∈ rows, row.length = numCols)
    (hp : ∀ row ∈ rows, ∀ p ∈ row, 0 ≤ p ∧ p ≤ 1) :
    (toSklearn numCols rows).length = rows.length ∧
    ∀ (i : Nat) (row : List K), rows[i]? = some row → ∃ row', (toSklearn numCols rows)[i]? = some row' ∧ (∀ p ∈ row', 0 ≤ p ∧ p ≤ 1) ∧
      if numCols = 1 then ∃ p, row = [p] ∧ row' = [1 - p, p] ∧ row'.sum = 1 else row' = row := by
  unfold toSklearn
  by_cases h : numCols = 1
  · rw [if_pos h]
    refine ⟨by simp, fun i row hi => ?_⟩
    have hm := List.mem_of_getElem? hi
    have hl := hrows row hm
    rw [h] at hl
    obtain ⟨p, rfl⟩ := List.length_eq_one_iff.1 hl
    have hpp := hp _ hm p (by simp)
    refine ⟨[1 - p, p], by simp [hi], ?_, ?_⟩
    · intro q hq
      rcases List.mem_cons.1 hq with rfl | hq
      · exact ⟨sub_nonneg.2 hpp.2, sub_le_self 1 hpp.1⟩
      · rw [List.mem_singleton] at hq
        rw [hq]
        exact hpp
    · rw [if_pos h]
      exact ⟨p, rfl, rfl, by simp⟩
  · rw [if_neg h]
    exact ⟨rfl, fun i row hi => ⟨row, hi, hp row (List.mem_of_getElem? hi), by rw [if_neg h]⟩⟩

/-- **C100**, partial: if a kind of prediction is not supported, an error is raised. Missing: `predict_proba_incrementally` (`unsupported_diverges`). -/
theorem unsupported_partial (supported : Prediction → Bool) (prediction : Prediction) (h : supported prediction = false) :
    predict supported prediction = .error .exception ∧
    (prediction ≠ .probabilities → ∀ depth, predictIncrementally supported (depth + 1) prediction = Run.lift (.error .exception)) := by
  refine ⟨by simp [predict, h], fun hp depth => ?_⟩
  unfold predictIncrementally
  rw [h]
  cases prediction with
  | probabilities => exact absurd rfl hp
  | binary => rfl
  | scores => rfl

/-- **C100** is violated: if probabilities cannot be predicted, `predict_proba_incrementally` never returns, whatever the depth of the recursion (in practice, a `RecursionError` is
raised). -/
theorem unsupported_diverges (supported : Prediction → Bool) (h : supported .probabilities = false) (depth : Nat) :
    predictIncrementally supported depth .probabilities = Run.unfinished := by
  induction depth with
  | zero => rfl
  | succ depth ih =>
    unfold predictIncrementally
    rw [h]
    exact ih

/-! ### C101: evaluation -/

/-- The predictions of a predictor are `f k` after `k` rules have been used, and there are `T` rules. -/
structure Behaves {St P : Type} (predictor : IncrementalPredictor St P) (state : Nat → St) (f : Nat → P) (T : Nat) : Prop where
  numNext : ∀ k ≤ T, predictor.getNumNext (state k) = T - k
  applyNext : ∀ k < T, ∀ s, 1 ≤ s → predictor.applyNext (state k) s = .ok (state (min T (k + s)), f (min T (k + s)))

theorem loop_spec {St P : Type} {predictor : IncrementalPredictor St P} {state : Nat → St} {f : Nat → P} {T : Nat} (hb : Behaves predictor state f T)
    {step size : Nat} (hstep : 1 ≤ step) (hsize : size ≤ T) : ∀ (fuel k next current : Nat), T - k < fuel → k ≤ T → 1 ≤ next → (k < T → current = min (k + next) size) →
    ∃ used : List Nat, evaluateLoop predictor step size fuel (state k) next current = Run.done (used.map (fun s => (min s size, f s))) ∧
      used.Pairwise (· < ·) ∧ ∀ s, s ∈ used ↔ k < T ∧ (s = T ∨ s < T ∧ ∃ i, s = k + next + i * step)
  | 0, _, _, _, h, _, _, _ => by omega
  | fuel + 1, k, next, current, hf, hk, hn, hc => by
    unfold evaluateLoop
    rw [hb.numNext k hk]
    by_cases hkT : k < T
    · rw [if_pos (by omega), hb.applyNext k hkT next hn, Run.lift_ok, Run.done_bind]
      simp only
      obtain ⟨used, h1, h2, h3⟩ := loop_spec hb hstep hsize fuel (min T (k + next)) step (min (current + step) size) (by omega) (by omega) hstep (by
        intro h
        have := hc hkT
        omega)
      refine ⟨min T (k + next) :: used, ?_, ?_, ?_⟩
      · rw [h1, Run.done_bind, Run.pure_eq, List.map_cons]
        have := hc hkT
        rw [show min (min T (k + next)) size = current by omega]
      · rw [List.pairwise_cons]
        refine ⟨fun s hs => ?_, h2⟩
        obtain ⟨h4, h5⟩ := (h3 s).1 hs
        rcases h5 with rfl | ⟨_, i, h6⟩
        · exact h4
        · omega
      · intro s
        rw [List.mem_cons, h3 s]
        by_cases hle : T ≤ k + next
        · rw [Nat.min_eq_left hle]
          constructor
          · rintro (rfl | ⟨h, _⟩)
            · exact ⟨hkT, .inl rfl⟩
            · omega
          · rintro ⟨_, rfl | ⟨h, i, rfl⟩⟩
            · exact .inl rfl
            · omega
        · rw [Nat.min_eq_right (by omega)]
          constructor
          · rintro (rfl | ⟨_, rfl | ⟨h, i, rfl⟩⟩)
            · exact ⟨hkT, .inr ⟨by omega, 0, by omega⟩⟩
            · exact ⟨hkT, .inl rfl⟩
            · exact ⟨hkT, .inr ⟨h, i + 1, by rw [Nat.add_mul]; omega⟩⟩
          · rintro ⟨_, rfl | ⟨h, i, rfl⟩⟩
            · exact .inr ⟨by omega, .inl rfl⟩
            · match i with
              | 0 => exact .inl (by omega)
              | i + 1 => exact .inr ⟨by omega, .inr ⟨h, i, by rw [Nat.add_mul]; omega⟩⟩
    · rw [if_neg (by omega)]
      exact ⟨[], rfl, List.Pairwise.nil, fun s => by simp [hkT]⟩

/-- The numbers of rules that are to be evaluated, except for the maximum: the first one (`min_size`, or `step_size` if `min_size` is zero) and all that are reached by taking steps, as long
as they are less than `T`, and `T`. -/
def Sizes (minSize stepSize T : Nat) (used : List Nat) : Prop :=
  used.Pairwise (· < ·) ∧ ∀ s, s ∈ used ↔ 0 < T ∧ (s = T ∨ s < T ∧ ∃ i, s = (if minSize > 0 then minSize else stepSize) + i * stepSize)

theorem evaluate_spec {St P : Type} {predictor : IncrementalPredictor St P} {state : Nat → St} {f : Nat → P} {T : Nat} (hb : Behaves predictor state f T)
    (minSize maxSize : Nat) {stepSize : Nat} (hstep : 1 ≤ stepSize) {fuel : Nat} (hfuel : T < fuel) :
    ∃ used, Sizes minSize stepSize T used ∧
      evaluate predictor minSize maxSize stepSize fuel (state 0) = Run.done (used.map (fun s => (min s (if maxSize > 0 then min maxSize T else T), f s))) := by
  unfold evaluate
  simp only [hb.numNext 0 (Nat.zero_le _), Nat.sub_zero]
  have hsize : (if maxSize > 0 then min maxSize T else T) ≤ T := by split <;> omega
  have hnext : 1 ≤ (if minSize > 0 then minSize else stepSize) := by split <;> omega
  generalize (if maxSize > 0 then min maxSize T else T) = size at hsize ⊢
  obtain ⟨used, h1, h2, h3⟩ := loop_spec hb hstep hsize fuel 0 (if minSize > 0 then minSize else stepSize)
    (min (if minSize > 0 then minSize else stepSize) size) (by omega) (Nat.zero_le _) hnext (fun _ => by rw [Nat.zero_add])
  refine ⟨used, ⟨h2, fun s => ?_⟩, h1⟩
  rw [h3 s, Nat.zero_add]

/-- **C101**, partial. The incremental evaluation of a model terminates, evaluates models of exactly the requested sizes, and what is reported for a certain size are the predictions of a model
of this size, if the number of rules is not limited (or the model does not have more rules). Missing: `evaluate_exceeds`. -/
theorem evaluate_partial {St P : Type} {predictor : IncrementalPredictor St P} {state : Nat → St} {f : Nat → P} {T : Nat} (hb : Behaves predictor state f T)
    (minSize maxSize : Nat) {stepSize : Nat} (hstep : 1 ≤ stepSize) {fuel : Nat} (hfuel : T < fuel) (hmax : maxSize = 0 ∨ T ≤ maxSize) :
    ∃ used, Sizes minSize stepSize T used ∧ evaluate predictor minSize maxSize stepSize fuel (state 0) = Run.done (used.map (fun s => (s, f s))) := by
  obtain ⟨used, h1, h2⟩ := evaluate_spec hb minSize maxSize hstep hfuel
  refine ⟨used, h1, ?_⟩
  rw [h2]
  congr 1
  refine List.map_congr_left (fun s hs => ?_)
  have hle : s ≤ T := by
    rcases (h1.2 s).1 hs with ⟨_, rfl | ⟨h, _⟩⟩ <;> omega
  rw [show min s (if maxSize > 0 then min maxSize T else T) = s by split <;> omega]

/-- **C101** is violated: if a model has more rules than the maximum, the evaluation does not end when the maximum is reached. Instead, all rules of the model are used, but the maximum
is reported as the number of rules. In particular, the last result that is reported for the maximum are the predictions of the whole model. -/
theorem evaluate_exceeds {St P : Type} {predictor : IncrementalPredictor St P} {state : Nat → St} {f : Nat → P} {T : Nat} (hb : Behaves predictor state f T)
    (minSize : Nat) {maxSize stepSize : Nat} (hstep : 1 ≤ stepSize) {fuel : Nat} (hfuel : T < fuel) (hmax : 0 < maxSize) (hT : maxSize < T) :
    ∃ used, Sizes minSize stepSize T used ∧
      evaluate predictor minSize maxSize stepSize fuel (state 0) = Run.done (used.map (fun s => (min s maxSize, f s))) ∧
      (used.map (fun s => (min s maxSize, f s))).getLast? = some (maxSize, f T) := by
  obtain ⟨used, h1, h2⟩ := evaluate_spec hb minSize maxSize hstep hfuel
  rw [if_pos hmax, Nat.min_eq_left (by omega)] at h2
  refine ⟨used, h1, h2, ?_⟩
  have hT' : T ∈ used := (h1.2 T).2 ⟨by omega, .inl rfl⟩
  have hlast : used.getLast? = some T := by
    have hne : used ≠ [] := List.ne_nil_of_mem hT'
    rw [List.getLast?_eq_some_getLast hne]
    congr 1
    have hm := List.getLast_mem hne
    have hle : used.getLast hne ≤ T := by
      rcases (h1.2 _).1 hm with ⟨_, h | ⟨h, _⟩⟩ <;> omega
    have hge : T ≤ used.getLast hne := by
      have hsplit := List.dropLast_append_getLast hne
      rw [← hsplit] at hT'
      rcases List.mem_append.1 hT' with h | h
      · have hpw := h1.1
        rw [← hsplit, List.pairwise_append] at hpw
        exact Nat.le_of_lt (hpw.2.2 T h _ (by simp))
      · rw [List.mem_singleton] at h
        omega
    omega
  rw [List.getLast?_map, hlast, Option.map_some, Nat.min_eq_right (by omega)]

/-! ### The predictors behave as assumed -/

/-- Predictors without native support. -/
theorem nonNative_behaves {R S : Type} (apply : R → S → Res S) (defaultFirst : Bool) (calls : List (RuleListCall R))
    (hlen : (addedRules calls).length + 1 < 2 ^ 32) (hused : lastUsed calls ≤ (allRules defaultFirst (lastDefault calls) (addedRules calls)).length)
    (row : S) (predicted : Nat → S) (maxRules : Nat) (hp : ∀ k ≤ total defaultFirst calls maxRules, Predicted apply defaultFirst calls row k (predicted k)) :
    Behaves { getNumNext := NonNative.getNumNext, applyNext := fun p s =>
        p.applyNext (fun k => oneShot apply (calls.foldl RuleListCall.apply (RuleList.init defaultFirst)) k row) (s : Int) }
      (fun k => ⟨total defaultFirst calls maxRules, k⟩) predicted (total defaultFirst calls maxRules) where
  numNext _ _ := rfl
  applyNext k hk s hs := by
    have h : oneShot apply (calls.foldl RuleListCall.apply (RuleList.init defaultFirst)) (min (total defaultFirst calls maxRules) (k + s)) row =
        .ok (predicted (min (total defaultFirst calls maxRules) (k + s))) :=
      oneShot_predicted hlen hused (Nat.min_le_left _ _) (.inl (by omega)) (hp _ (Nat.min_le_left _ _))
    unfold NonNative.applyNext
    simp only
    rw [if_neg (by omega)]
    simp only [Int.toNat_natCast]
    rw [h]
    rfl

/-- The effect of a call of `apply_next`, if the predictor has native support. -/
theorem native_applyNext {R S : Type} {apply : R → S → Res S} {rules : List R} {row : S} {b e : RuleList.ConstIterator R}
    (hb : RuleList.collect (e.index - b.index) b = .ok rules) (hbe : b.index ≤ e.index) {predicted : Nat → S}
    (hp : ∀ k ≤ rules.length, (rules.take k).foldlM (fun s r => apply r s) row = .ok (predicted k)) {k : Nat} (hk : k ≤ rules.length) (s : Nat) :
    Incremental.applyNext apply ⟨b.add k, e, predicted k⟩ s =
      .ok ⟨b.add (min rules.length (k + s)), e, predicted (min rules.length (k + s))⟩ := by
  have hlen := collect_length _ _ _ hb
  obtain ⟨q, h1, _, h3⟩ := Incremental.applyAll_spec apply rules row b e hb hbe [s] k (predicted k) hk (hp k hk) (fun k hk => ⟨_, hp k hk⟩)
  have h4 : Incremental.applyNext apply ⟨b.add k, e, predicted k⟩ s = .ok q := by
    unfold Incremental.applyAll Incremental.applyAll at h1
    cases h : Incremental.applyNext apply ⟨b.add k, e, predicted k⟩ s with
    | error f =>
      rw [h] at h1
      cases h1
    | ok q' =>
      rw [h, ok_bind] at h1
      exact h1
  rw [h4]
  have hrow : q.row = predicted (min rules.length (k + s)) := by
    rw [List.sum_singleton, Nat.min_comm, hp _ (Nat.min_le_left _ _)] at h3
    injection h3 with h3
    exact h3.symm
  unfold Incremental.applyNext at h4
  simp only at h4
  obtain ⟨rs, _, h5⟩ := ok_of_bind' h4
  obtain ⟨r, _, h6⟩ := ok_of_bind' h5
  rw [pure_eq_ok] at h6
  injection h6 with h6
  subst h6
  simp only at hrow
  rw [hrow]
  have hnn : Incremental.getNumNext (⟨b.add k, e, predicted k⟩ : Incremental R S) = rules.length - k := by
    simp only [Incremental.getNumNext, RuleList.ConstIterator.add]
    omega
  rw [hnn]
  simp only [RuleList.ConstIterator.add]
  rw [show b.index + k + min s (rules.length - k) = b.index + min rules.length (k + s) by omega]

/-- Predictors with native support. -/
theorem native_behaves {R S : Type} (apply : R → S → Res S) (model : RuleList R) (maxRules : Nat) (rules : List R)
    (hr : model.usedToList maxRules = .ok rules) (row : S) (predicted : Nat → S)
    (hp : ∀ k ≤ rules.length, (rules.take k).foldlM (fun s r => apply r s) row = .ok (predicted k)) :
    Behaves { getNumNext := Incremental.getNumNext, applyNext := fun p s => do
        let p ← p.applyNext apply s
        return (p, p.row) }
      (fun k => ⟨(model.usedCbegin maxRules).add k, model.usedCend maxRules, predicted k⟩) predicted rules.length where
  numNext k hk := by
    have hlen := collect_length _ _ _ hr
    simp only [Incremental.getNumNext, RuleList.ConstIterator.add]
    omega
  applyNext k hk s _ := by
    simp only
    rw [native_applyNext hr (by simp [RuleList.usedCbegin, RuleList.usedCend, RuleList.ConstIterator.create]) hp (Nat.le_of_lt hk) s]
    rfl

/-! ### C101: arguments of the command line API -/

/-- **C101**, partial: the value of sparse features that is specified by the user is used for prediction. Missing: probabilities (`probabilities_ignore_value`). -/
theorem invoke_value_partial {K : Type} [Zero K] (v : K) (prediction : Prediction) (h : prediction ≠ .probabilities) :
    invokePredictionFunction (fun kwargs => .ok kwargs.sparseValue) (fun kwargs => .ok kwargs.sparseValue) prediction { sparseFeatureValue := some v } = .ok v := by
  cases prediction with
  | probabilities => exact absurd rfl h
  | binary => rfl
  | scores => rfl

/-- **C101** is violated: when predicting probabilities, the value of sparse features that is specified by the user (and has been used for training) is ignored. -/
theorem probabilities_ignore_value {K : Type} [Zero K] (v : K) :
    invokePredictionFunction (fun kwargs => .ok kwargs.sparseValue) (fun kwargs => .ok kwargs.sparseValue) .probabilities { sparseFeatureValue := some v } = .ok 0 := rfl

/-! ### Concrete cases -/

/-- Rules that add their number; a default rule. -/
def exCalls : List (RuleListCall Nat) := [.addDefaultRule 1, .addRule 10, .addRule 100, .addRule 1000, .addRule 10000, .setNumUsedRules 4]

def exApply : Nat → Nat → Res Nat := fun r s => .ok (s + r)

/-- What is predicted by the first rules: the default rule is the last rule that is applied. -/
def exPredicted (k : Nat) : Nat := ([10, 100, 1000, 10000].take (k - 1)).sum + 1

theorem exPredicted_ok : ∀ k ≤ total false exCalls 0, Predicted exApply false exCalls 0 k (exPredicted k) := by
  show ∀ k ≤ 4, _
  intro k hk
  match k with
  | 0 | 1 | 2 | 3 | 4 => rfl
  | _ + 5 => omega

/-- A predictor without native support. -/
def exPredictor : IncrementalPredictor NonNative Nat where
  getNumNext := NonNative.getNumNext
  applyNext := fun p s => p.applyNext (fun k => oneShot exApply (exCalls.foldl RuleListCall.apply (RuleList.init false)) k 0) (s : Int)

/-- Three calls with different step sizes. -/
example : ∃ p p' results, NonNative.create 4 0 = .ok p ∧
    p.applyAll (fun k => oneShot exApply (exCalls.foldl RuleListCall.apply (RuleList.init false)) k 0) [2, 1, 5] = .ok (p', results) ∧
    p'.getNumNext = 0 ∧ results[0]? = some 11 ∧ results[1]? = some 111 ∧ results[2]? = some 1111 := by
  obtain ⟨p, p', results, h1, h2, h3, _, h5⟩ := nonNative_correct exApply false exCalls (by decide) (by decide) 0 exPredicted 0 exPredicted_ok [2, 1, 5] (by decide)
  exact ⟨p, p', results, h1, h2, h3, h5 0 (by decide), h5 1 (by decide), h5 2 (by decide)⟩

/-- The array that has been returned first contains 11, but 1111 after the next call. -/
example : (do
    let p := Incremental.create (exCalls.foldl RuleListCall.apply (RuleList.init true)) 0 0
    let (p, m) ← Native.applyNext exApply (some p) 2
    let x ← m.read p
    let (p, m') ← Native.applyNext exApply p 2
    let y ← m.read p
    let z ← m'.read p
    return (x, y, z)) = (.ok (11, 1111, 1111) : Res _) := by decide +kernel

/-- Models with two, three and four rules are evaluated, although the maximum is three. -/
example : evaluate exPredictor 2 3 1 10 ⟨4, 0⟩ =
    Run.done [(2, 11), (3, 111), (3, 1111)] := by decide +kernel

example : ∃ used, Sizes 2 1 4 used ∧ evaluate exPredictor 2 0 1 5 ⟨4, 0⟩ =
    Run.done (used.map (fun s => (s, exPredicted s))) :=
  evaluate_partial (nonNative_behaves exApply false exCalls (by decide) (by decide) 0 exPredicted 0 exPredicted_ok) 2 0 (by decide) (by decide) (.inl rfl)

example : toSklearn 1 [[(2 : Int)], [5]] = [[-1, 2], [-4, 5]] := by decide +kernel

end MLRL.PythonPrediction
