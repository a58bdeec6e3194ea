import Verif.Spec.ProbabilityPrediction
import Verif.Props.Predictor
import Verif.Lemma.Parallel
import Verif.Lemma.TabularData
import Verif.Props.LabelVectors
import Verif.Props.Isotonic

/-!
# Lemmas about the prediction of probabilities
-/

namespace MLRL.Probability

open Predictor LabelVectors Isotonic

variable {K : Type}

/-! ### Executions by several threads -/

theorem execute_ok {σ : Type} (steps : List (Nat × (σ → Res σ))) (mem : List σ) (result : Nat → σ) (hlt : ∀ p ∈ steps, p.1 < mem.length)
    (h : ∀ e r, mem[e]? = some r → ((steps.filter (fun p => decide (p.1 = e))).map Prod.snd).foldlM (fun s f => f s) r = .ok (result e)) :
    execute steps mem = .ok ((List.range mem.length).map result) := by
  induction steps generalizing mem with
  | nil =>
    simp only [execute]
    congr 1
    refine List.ext_getElem? (fun e => ?_)
    by_cases he : e < mem.length
    · have h1 := h e _ (List.getElem?_eq_getElem he)
      simp only [List.filter_nil, List.map_nil, List.foldlM_nil, pure_eq_ok, Except.ok.injEq] at h1
      rw [List.getElem?_eq_getElem he, h1]
      simp [he]
    · rw [List.getElem?_eq_none (by omega), List.getElem?_eq_none (by simp; omega)]
  | cons p steps ih =>
    obtain ⟨e, f⟩ := p
    have he : e < mem.length := hlt (e, f) (by simp)
    have h1 := h e _ (List.getElem?_eq_getElem he)
    simp only [List.filter_cons, decide_true, if_true, List.map_cons, List.foldlM_cons] at h1
    cases hf : f mem[e] with
    | error x => rw [hf] at h1; cases h1
    | ok r =>
      rw [hf, ok_bind] at h1
      unfold execute
      rw [readAt_of_lt he, ok_bind, hf, ok_bind, writeAt_of_lt he, ok_bind]
      have := ih (mem.set e r) (fun q hq => by rw [List.length_set]; exact hlt q (List.mem_cons_of_mem _ hq)) (fun e' r' hr' => by
        by_cases hee : e = e'
        · subst hee
          rw [List.getElem?_set_self he, Option.some.injEq] at hr'
          rw [← hr']
          exact h1
        · rw [List.getElem?_set_ne hee] at hr'
          have h2 := h e' r' hr'
          rw [List.filter_cons, if_neg (by simpa using hee)] at h2
          exact h2)
      rw [this, List.length_set]

theorem filter_flatMap_task {σ : Type} (task : Nat → List σ) (examples : List Nat) (h : examples.Nodup) (e : Nat) :
    (((examples.flatMap (fun e => (task e).map (fun f => (e, f)))).filter (fun p => decide (p.1 = e))).map Prod.snd) =
      if e ∈ examples then task e else [] := by
  induction examples with
  | nil => rfl
  | cons x xs ih =>
    rw [List.flatMap_cons, List.filter_append, List.map_append, ih h.of_cons]
    have hx := (List.nodup_cons.1 h).1
    by_cases hxe : x = e
    · subst hxe
      rw [if_neg hx, List.append_nil, if_pos (by simp), List.filter_eq_self.2 (by simp)]
      simp [List.map_map, Function.comp_def]
    · rw [List.filter_eq_nil_iff.2 (by simp [hxe])]
      simp [List.mem_cons, Ne.symm hxe]

theorem schedule_ok {σ : Type} {n : Nat} {schedule : Schedule σ} (h : schedule.Ok n) (task : Nat → List (σ → Res σ)) :
    (∀ p ∈ schedule task, p.1 < n) ∧
      ∀ e < n, ((schedule task).filter (fun p => decide (p.1 = e))).map Prod.snd = task e := by
  obtain ⟨assignment, trace, ha, ⟨ht, hx⟩, hs⟩ := h task
  have hnd : assignment.flatten.Nodup := ha.symm.nodup List.nodup_range
  have hlt : ∀ (t : Nat) (examples : List Nat), assignment[t]? = some examples → ∀ e ∈ examples, e < n := by
    intro t examples hte e he
    have h1 : e ∈ assignment.flatten := List.mem_flatten.2 ⟨examples, List.mem_of_getElem? hte, he⟩
    simpa using ha.subset h1
  have hin : ∀ p ∈ trace, ∃ examples, assignment[p.1]? = some examples ∧ p.2.1 ∈ examples := by
    intro p hp
    have h1 := List.getElem?_eq_getElem (ht p hp)
    have h2 : p.2 ∈ (trace.filter (fun q => decide (q.1 = p.1))).map Prod.snd :=
      List.mem_map.2 ⟨p, List.mem_filter.2 ⟨hp, by simp⟩, rfl⟩
    rw [hx _ _ h1] at h2
    obtain ⟨e, he, h3⟩ := List.mem_flatMap.1 h2
    obtain ⟨f, _, h4⟩ := List.mem_map.1 h3
    exact ⟨_, h1, by rw [← h4]; exact he⟩
  rw [hs]
  refine ⟨fun p hp => ?_, fun e he => ?_⟩
  · obtain ⟨q, hq, rfl⟩ := List.mem_map.1 hp
    obtain ⟨examples, h1, h2⟩ := hin q hq
    exact hlt _ _ h1 _ h2
  · have h1 : e ∈ assignment.flatten := ha.symm.subset (by simpa using he)
    obtain ⟨examples, h2, h3⟩ := List.mem_flatten.1 h1
    obtain ⟨t, h4⟩ := List.mem_iff_getElem?.1 h2
    have h5 : trace.filter (fun p => decide (p.2.1 = e)) = (trace.filter (fun p => decide (p.1 = t))).filter (fun p => decide (p.2.1 = e)) := by
      rw [List.filter_filter]
      refine List.filter_congr (fun p hp => ?_)
      by_cases hpe : p.2.1 = e
      · obtain ⟨examples', h6, h7⟩ := hin p hp
        have h8 : p.1 = t := by
          by_contra hne
          exact assignment_disjoint hnd hne h6 h4 (hpe ▸ h7) h3
        simp [hpe, h8]
      · simp [hpe]
    rw [List.filter_map, List.map_map, show ((fun p : Nat × (σ → Res σ) => decide (p.1 = e)) ∘ Prod.snd) =
      (fun p : Nat × (Nat × (σ → Res σ)) => decide (p.2.1 = e)) from rfl, h5]
    have h6 := filter_flatMap_task task examples ((List.nodup_flatten.1 hnd).1 examples h2) e
    rw [← hx t examples h4, if_pos h3, List.filter_map, List.map_map] at h6
    exact h6

/-! ### Scores -/

theorem applyRules_ok [AddCommMonoid K] {features : Features} (hf : features.Ok) {rules : List (Rule K)} {e n : Nat} (he : e < features.numRows)
    {covered : Rule K → Bool} (hc : ∀ r ∈ rules, r.body.coversDense (features.row e) = .ok (covered r))
    (hh : ∀ r ∈ rules, Spec.HeadFits n r.head) (s : Nat → K) :
    features.applyRules rules e (Loss.row n s) = .ok (Loss.row n (fun j => s j + score rules covered j)) := by
  have key : applyRulesDense (features.row e) rules (Loss.row n s) = .ok (Loss.row n (fun j => s j + score rules covered j)) := by
    have hlen : (Loss.row n s).length = n := by simp [Loss.row]
    obtain ⟨s', h1, h2, h3⟩ := applyRulesDense_sum (features.row e) rules (Loss.row n s) covered hc (fun r hr => by rw [hlen]; exact hh r hr)
    rw [h1]
    congr 1
    refine List.ext_getElem? (fun j => ?_)
    by_cases hj : j < n
    · rw [h3 j (s j) (by simp [Loss.row, hj])]
      simp [Loss.row, hj, score]
    · rw [List.getElem?_eq_none (by rw [h2, hlen]; omega), List.getElem?_eq_none (by simp [Loss.row]; omega)]
  cases features with
  | dense rows =>
    simp only [Features.numRows] at he
    simp only [Features.row, List.getElem?_eq_getElem he, Option.getD_some] at key
    simp only [Features.applyRules]
    rw [readAt_of_lt he, ok_bind, key]
  | csr numFeatures sparseValue rows =>
    simp only [Features.numRows] at he
    simp only [Features.row, List.getElem?_eq_getElem he, Option.getD_some] at key
    simp only [Features.applyRules]
    obtain ⟨h1, h2⟩ := hf _ (List.getElem_mem he)
    rw [readAt_of_lt he, ok_bind, applyRulesSparse_eq_dense _ _ _ h1 h2, key]

/-! ### Transformations -/

theorem setResult_result (r : Rows K) : r.setResult r.result = r := by
  obtain ⟨s, p⟩ := r
  cases p <;> rfl

theorem result_setResult (r : Rows K) (l : List K) : (r.setResult l).result = l := by
  obtain ⟨s, p⟩ := r
  cases p <;> rfl

theorem setResult_setResult (r : Rows K) (l l' : List K) : (r.setResult l).setResult l' = r.setResult l' := by
  obtain ⟨s, p⟩ := r
  cases p <;> rfl

/-- A loop that accesses the row of probabilities only. -/
theorem loop_setResult (n : Nat) (body : Nat → List K → Res (List K)) (body' : Nat → Rows K → Res (Rows K))
    (h : ∀ i r, body' i r = (body i r.result).map r.setResult) (r : Rows K) :
    loop n body' r = (loop n body r.result).map r.setResult := by
  unfold loop
  generalize 0 = start
  induction n generalizing r start with
  | zero => simp only [loopFrom_zero, Except.map, setResult_result]
  | succ k ih =>
    rw [loopFrom_succ, loopFrom_succ, h]
    cases hb : body start r.result with
    | error x => rfl
    | ok l =>
      show loopFrom body' (start + 1) k (r.setResult l) = _
      rw [ih, result_setResult]
      show _ = (loopFrom body (start + 1) k l).map r.setResult
      cases loopFrom body (start + 1) k l with
      | error x => rfl
      | ok l' =>
        show Except.ok ((r.setResult l).setResult l') = Except.ok (r.setResult l')
        rw [setResult_setResult]

theorem loop_zeros [Zero K] (l : List K) : loop l.length (fun i l => writeAt l i 0) l = .ok (List.replicate l.length (0 : K)) := by
  obtain ⟨r, h1, h2, h3⟩ := loop_rule (body := fun i (l : List K) => writeAt l i 0)
    (fun i (r : List K) => r.length = l.length ∧ ∀ k < i, r[k]? = some 0) l.length l ⟨rfl, fun k hk => absurd hk (by omega)⟩ (by
      rintro i r hi ⟨h1, h2⟩
      refine ⟨_, writeAt_of_lt (by omega) _, by rw [List.length_set, h1], fun k hk => ?_⟩
      by_cases hki : i = k
      · subst hki; exact List.getElem?_set_self (by omega)
      · rw [List.getElem?_set_ne hki]; exact h2 k (by omega))
  rw [h1]
  congr 1
  refine List.ext_getElem? (fun k => ?_)
  by_cases hk : k < l.length
  · rw [h3 k hk]; simp [hk]
  · rw [List.getElem?_eq_none (by omega), List.getElem?_eq_none (by simp; omega)]

/-- Marginalizing in place is the same as storing probabilities separately. -/
theorem marginalized_eq [Field K] [LinearOrder K] (joint : List K → Nat → List Nat → Res K) (vectors : List (List Nat)) (array : List K) (r : Rows K) :
    marginalized joint vectors array r = (marginalizedProbabilities (joint r.scores) vectors array r.result).map r.setResult := by
  unfold marginalized marginalizedProbabilities
  cases jointProbabilities (joint r.scores) vectors array with
  | error x => rfl
  | ok jp =>
    rw [ok_bind, ok_bind, loop_setResult _ (fun i l => writeAt l i 0) _ (fun i r => by
      unfold Rows.write
      cases writeAt r.result i 0 <;> rfl), loop_zeros]
    show loop _ _ (r.setResult _) = _
    rw [loop_setResult _ (fun i probabilities => do
        let labelVector ← readAt vectors i
        let p ← readAt jp i
        loop labelVector.length (fun j probabilities => do
          let labelIndex ← readAt labelVector j
          let x ← readAt probabilities labelIndex
          writeAt probabilities labelIndex (x + p)) probabilities) _ (fun i r => by
      cases readAt vectors i with
      | error x => rfl
      | ok labelVector =>
        rw [ok_bind, ok_bind]
        cases readAt jp i with
        | error x => rfl
        | ok p =>
          rw [ok_bind, ok_bind]
          refine loop_setResult _ _ _ (fun j r => ?_) r
          cases readAt labelVector j with
          | error x => rfl
          | ok labelIndex =>
            rw [ok_bind, ok_bind]
            cases readAt r.result labelIndex with
            | error x => rfl
            | ok x =>
              rw [ok_bind, ok_bind]
              unfold Rows.write
              cases writeAt r.result labelIndex (x + p) <;> rfl), result_setResult]
    unfold marginalize
    cases loop vectors.length _ (List.replicate r.result.length (0 : K)) with
    | error x => rfl
    | ok l =>
      show Except.ok ((r.setResult _).setResult l) = Except.ok (r.setResult l)
      rw [setResult_setResult]

theorem outputWise_transforms {n : Nat} {marginal : Nat → K → Res K} {m : Nat → K → K} (h : ∀ c < n, ∀ x, marginal c x = .ok (m c x)) :
    Transforms n (outputWise marginal) (fun s c => m c (s c)) := by
  constructor
  · intro s
    unfold outputWise
    obtain ⟨r, h1, h2⟩ := loop_rule (body := fun i (r : Rows K) => do
        let score ← readAt r.scores i
        let probability ← marginal i score
        r.write i probability)
      (fun i r => r = ⟨Loss.row n (fun c => if c < i then m c (s c) else s c), none⟩) n ⟨Loss.row n s, none⟩ (by simp) (by
        rintro i r hi rfl
        refine ⟨_, ?_, rfl⟩
        show (readAt (Loss.row n _) i >>= _) = _
        rw [Loss.readAt_row hi, ok_bind, if_neg (by omega), h i hi, ok_bind]
        unfold Rows.write Rows.result
        simp only [Option.getD_none]
        rw [Isotonic.writeAt_row _ hi, ok_bind]
        show Except.ok (Rows.mk _ none) = _
        congr 3
        funext c
        simp only [Function.update_apply]
        by_cases hc : c = i
        · simp [hc]
        · rw [if_neg hc]
          by_cases hlt : c < i
          · rw [if_pos hlt, if_pos (by omega)]
          · rw [if_neg hlt, if_neg (by omega)])
    show loop (Loss.row n s).length _ _ = _
    rw [show (Loss.row n s).length = n by simp [Loss.row], h1, h2]
    congr 2
    unfold Loss.row
    refine List.map_congr_left (fun c hc => ?_)
    rw [if_pos (List.mem_range.1 hc)]
  · intro s l hl
    unfold outputWise
    obtain ⟨r, h1, q, h2, h3, h4⟩ := loop_rule (body := fun i (r : Rows K) => do
        let score ← readAt r.scores i
        let probability ← marginal i score
        r.write i probability)
      (fun i r => ∃ q, r = ⟨Loss.row n s, some q⟩ ∧ q.length = n ∧ ∀ k < i, q[k]? = some (m k (s k))) n ⟨Loss.row n s, some l⟩
      ⟨l, rfl, hl, fun k hk => absurd hk (by omega)⟩ (by
        rintro i r hi ⟨q, rfl, h3, h4⟩
        refine ⟨⟨Loss.row n s, some (q.set i (m i (s i)))⟩, ?_, _, rfl, by rw [List.length_set, h3], fun k hk => ?_⟩
        · show (readAt (Loss.row n _) i >>= _) = _
          rw [Loss.readAt_row hi, ok_bind, h i hi, ok_bind]
          unfold Rows.write Rows.result
          simp only [Option.getD_some]
          rw [writeAt_of_lt (by omega), ok_bind]
          rfl
        · by_cases hki : i = k
          · subst hki; exact List.getElem?_set_self (by omega)
          · rw [List.getElem?_set_ne hki]; exact h4 k (by omega))
    show loop (Loss.row n s).length _ _ = _
    rw [show (Loss.row n s).length = n by simp [Loss.row], h1, h2]
    congr 3
    refine List.ext_getElem? (fun k => ?_)
    by_cases hk : k < n
    · rw [h4 k hk]; simp [Loss.row, hk]
    · rw [List.getElem?_eq_none (by omega), List.getElem?_eq_none (by simp [Loss.row]; omega)]

theorem marginalized_transforms [Field K] [LinearOrder K] [IsStrictOrderedRing K] {n : Nat} {joint : List K → Nat → List Nat → Res K}
    {vectors : List (List Nat)} {array : List K} {p : (Nat → K) → Nat → K} (ha : array.length = vectors.length)
    (hp : ∀ s i v, vectors[i]? = some v → joint (Loss.row n s) i v = .ok (p s i)) (hnd : ∀ v ∈ vectors, v.Nodup)
    (hlt : ∀ v ∈ vectors, ∀ c ∈ v, c < n) :
    Transforms n (marginalized joint vectors array) (fun s => marginalProbability vectors (p s)) := by
  constructor
  · intro s
    rw [marginalized_eq]
    show (marginalizedProbabilities (joint (Loss.row n s)) vectors array (Loss.row n s)).map _ = _
    rw [(marginalized_spec (by simp [Loss.row]) ha (hp s) hnd hlt).1]
    rfl
  · intro s l hl
    rw [marginalized_eq]
    show (marginalizedProbabilities (joint (Loss.row n s)) vectors array l).map _ = _
    rw [(marginalized_spec hl ha (hp s) hnd hlt).1]
    rfl

/-! ### Probabilities -/

theorem loop_congr {σ : Type} {n : Nat} {body body' : Nat → σ → Res σ} (h : ∀ i < n, ∀ s, body i s = body' i s) (s : σ) :
    loop n body s = loop n body' s := by
  unfold loop
  have key : ∀ k start (s : σ), start + k ≤ n → loopFrom body start k s = loopFrom body' start k s := by
    intro k
    induction k with
    | zero => intro start s _; rfl
    | succ k ih =>
      intro start s hs
      rw [loopFrom_succ, loopFrom_succ, h start (by omega)]
      cases body' start s with
      | error x => rfl
      | ok s' => exact ih (start + 1) s' (by omega)
  exact key n 0 s (by omega)

theorem transformScores_ok [Field K] [LinearOrder K] {marginal : Nat → K → Res K} {m : Nat → K → K} {n : Nat}
    (h : ∀ c < n, ∀ x, marginal c x = .ok (m c x)) (model : CalibrationModel K) (s : Nat → K) (i : Nat) {labels : List Nat}
    (hl : labels.Pairwise (· < ·)) :
    transformScores marginal model (Loss.row n s) i labels = model.calibrate i (independent n (fun c => m c (s c)) (fun c => c ∈ labels)) := by
  unfold transformScores
  have hlen : (Loss.row n s).length = n := by simp [Loss.row]
  have h1 := chainRule_ok (fun c _ => m c (s c)) (score := readAt (Loss.row n s)) (s := s) hl (n := n) (fun i hi => Loss.readAt_row hi)
  unfold chainRule at h1
  rw [hlen, loop_congr (body' := fun i (t : Iterators.BinarySparseForward × K) => do
    let _ ← readAt (Loss.row n s) i
    let marginalProbability := m i (s i)
    let marginalProbability := if !t.1.deref then 1 - marginalProbability else marginalProbability
    return (t.1.next, t.2 * marginalProbability)) (fun i hi t => by
      rw [Loss.readAt_row hi, ok_bind, ok_bind, h i hi, ok_bind])]
  obtain ⟨r, h2, h3⟩ := TabularData.ok_of_bind h1
  rw [h2, ok_bind]
  have h4 : r.2 = independent n (fun c => m c (s c)) (fun c => c ∈ labels) := by
    exact Except.ok.inj h3
  rw [h4]

/-! ### Predictions for all examples -/

theorem predictForExample_ok [AddCommMonoid K] {features : Features} (hf : features.Ok) {rules : List (Rule K)} {e n : Nat} (he : e < features.numRows)
    {covered : Rule K → Bool} (hc : ∀ r ∈ rules, r.body.coversDense (features.row e) = .ok (covered r))
    (hh : ∀ r ∈ rules, Spec.HeadFits n r.head) {transformation : Rows K → Res (Rows K)} {t : (Nat → K) → Nat → K}
    (ht : Transforms n transformation t) (s : Nat → K) :
    (predictForExample features rules transformation e).foldlM (fun s f => f s) ⟨Loss.row n s, none⟩ =
        .ok ⟨Loss.row n (t (fun j => s j + score rules covered j)), none⟩ ∧
      ∀ l, l.length = n → (predictForExample features rules transformation e).foldlM (fun s f => f s) ⟨Loss.row n s, some l⟩ =
        .ok ⟨Loss.row n (fun j => s j + score rules covered j), some (Loss.row n (t (fun j => s j + score rules covered j)))⟩ := by
  have h1 := applyRules_ok hf he hc hh s
  constructor
  · simp only [predictForExample, List.foldlM_cons, List.foldlM_nil, h1, ok_bind, pure_bind, ht.inPlace]
    rfl
  · intro l hl
    simp only [predictForExample, List.foldlM_cons, List.foldlM_nil, h1, ok_bind, pure_bind, ht.separately _ l hl]
    rfl

theorem score_append [AddCommMonoid K] (a b : List (Rule K)) (covered : Rule K → Bool) (j : Nat) :
    score (a ++ b) covered j = score a covered j + score b covered j := by
  simp [score]

/-- What is stored by a predictor after some rules have been applied. -/
structure State [AddCommMonoid K] (features : Features) (n : Nat) (covered : Nat → Rule K → Bool) (rules : List (Rule K)) (mem : List (Rows K)) : Prop where
  len : mem.length = features.numRows
  rows : ∀ (e : Nat) (r : Rows K), mem[e]? = some r → ∃ l : List K, r = ⟨Loss.row n (score rules (covered e)), some l⟩ ∧ l.length = n

theorem step_ok [AddCommMonoid K] {features : Features} (hf : features.Ok) {done rules : List (Rule K)} {n : Nat} {covered : Nat → Rule K → Bool}
    (hc : ∀ e < features.numRows, ∀ r ∈ rules, r.body.coversDense (features.row e) = .ok (covered e r))
    (hh : ∀ r ∈ rules, Spec.HeadFits n r.head) {transformation : Rows K → Res (Rows K)} {t : (Nat → K) → Nat → K}
    (ht : Transforms n transformation t) {schedule : Schedule (Rows K)} (hs : schedule.Ok features.numRows) {mem : List (Rows K)}
    (hm : State features n covered done mem) :
    ∃ mem', execute (schedule (predictForExample features rules transformation)) mem = .ok mem' ∧ State features n covered (done ++ rules) mem' ∧
      mem'.map Rows.result = (List.range features.numRows).map (fun e => Loss.row n (t (score (done ++ rules) (covered e)))) := by
  obtain ⟨h1, h2⟩ := schedule_ok hs (predictForExample features rules transformation)
  have h3 := execute_ok _ mem (fun e => ⟨Loss.row n (score (done ++ rules) (covered e)), some (Loss.row n (t (score (done ++ rules) (covered e))))⟩)
    (by rw [hm.len]; exact h1) (fun e r hr => by
      obtain ⟨l, rfl, hl⟩ := hm.rows e r hr
      have he : e < features.numRows := by
        rw [← hm.len]
        exact (List.getElem?_eq_some_iff.1 hr).1
      rw [h2 e he, (predictForExample_ok hf he (hc e he) hh ht _).2 l hl]
      have : (fun j => score done (covered e) j + score rules (covered e) j) = score (done ++ rules) (covered e) := by
        funext j
        rw [score_append]
      rw [this])
  refine ⟨_, h3, ⟨by simp [hm.len], fun e r hr => ?_⟩, ?_⟩
  · rw [List.getElem?_map, hm.len] at hr
    by_cases he : e < features.numRows
    · rw [List.getElem?_range he, Option.map_some, Option.some.injEq] at hr
      exact ⟨_, hr.symm, by simp [Loss.row]⟩
    · rw [List.getElem?_eq_none (by simp; omega)] at hr
      cases hr
  · rw [List.map_map, hm.len]
    rfl

theorem Incremental.applyNext_ok [AddCommMonoid K] {features : Features} (hf : features.Ok) {rules : List (Rule K)} {n : Nat} {covered : Nat → Rule K → Bool}
    (hc : ∀ e < features.numRows, ∀ r ∈ rules, r.body.coversDense (features.row e) = .ok (covered e r))
    (hh : ∀ r ∈ rules, Spec.HeadFits n r.head) {transformation : Rows K → Res (Rows K)} {t : (Nat → K) → Nat → K}
    (ht : Transforms n transformation t) {b e : RuleList.ConstIterator (Rule K)} (hb : RuleList.collect (e.index - b.index) b = .ok rules)
    (hbe : b.index ≤ e.index) {schedule : Schedule (Rows K)} (hs : schedule.Ok features.numRows) {done : Nat} (hd : done ≤ rules.length)
    {mem : List (Rows K)} (hm : State features n covered (rules.take done) mem) (stepSize : Nat) :
    ∃ mem', Incremental.applyNext features (some transformation) ⟨b.add done, e, mem⟩ stepSize schedule =
        .ok ⟨b.add (done + min stepSize (rules.length - done)), e, mem'⟩ ∧
      State features n covered (rules.take (done + min stepSize (rules.length - done))) mem' ∧
      mem'.map Rows.result = (List.range features.numRows).map (fun e =>
        Loss.row n (t (score (rules.take (done + min stepSize (rules.length - done))) (covered e)))) := by
  have hlen := Predictor.collect_length _ _ _ hb
  have hnn : Incremental.getNumNext (⟨b.add done, e, mem⟩ : Incremental K) = rules.length - done := by
    simp only [Incremental.getNumNext, RuleList.ConstIterator.add]
    omega
  have hc1 : RuleList.collect (done + (rules.length - done)) b = .ok rules := by
    rw [show done + (rules.length - done) = e.index - b.index by omega]
    exact hb
  have hc2 := (Predictor.collect_add done (rules.length - done) b rules hc1).2
  generalize hk : min stepSize (rules.length - done) = k at *
  have hc3 := (Predictor.collect_add k (rules.length - done - k) (b.add done) (rules.drop done) (by
    rw [show k + (rules.length - done - k) = rules.length - done by omega]
    exact hc2)).1
  have hsub : ∀ r ∈ (rules.drop done).take k, r ∈ rules := fun r hr => List.mem_of_mem_drop (List.mem_of_mem_take hr)
  obtain ⟨mem', h1, h2, h3⟩ := step_ok hf (fun e he r hr => hc e he r (hsub r hr)) (fun r hr => hh r (hsub r hr)) ht hs hm
  rw [← List.take_add] at h2 h3
  refine ⟨mem', ?_, h2, h3⟩
  unfold Incremental.applyNext
  simp only [hnn, hk]
  unfold RuleList.iterate
  have : ((b.add done).add k).index - (b.add done).index = k := by simp [RuleList.ConstIterator.add]
  rw [this, hc3, ok_bind, h1, ok_bind]
  show Except.ok (Incremental.mk _ _ _) = _
  congr 2
  simp [RuleList.ConstIterator.add]
  omega

theorem Incremental.applyAll_ok [AddCommMonoid K] {features : Features} (hf : features.Ok) {rules : List (Rule K)} {n : Nat} {covered : Nat → Rule K → Bool}
    (hc : ∀ e < features.numRows, ∀ r ∈ rules, r.body.coversDense (features.row e) = .ok (covered e r))
    (hh : ∀ r ∈ rules, Spec.HeadFits n r.head) {transformation : Rows K → Res (Rows K)} {t : (Nat → K) → Nat → K}
    (ht : Transforms n transformation t) {b e : RuleList.ConstIterator (Rule K)} (hb : RuleList.collect (e.index - b.index) b = .ok rules)
    (hbe : b.index ≤ e.index) : ∀ (calls : List (Nat × Schedule (Rows K))), (∀ p ∈ calls, p.2.Ok features.numRows) → ∀ (done : Nat), done ≤ rules.length →
      ∀ (mem : List (Rows K)), State features n covered (rules.take done) mem →
      ∃ mem', Incremental.applyAll features (some transformation) calls ⟨b.add done, e, mem⟩ =
          .ok ⟨b.add (min (done + (calls.map Prod.fst).sum) rules.length), e, mem'⟩ ∧
        State features n covered (rules.take (min (done + (calls.map Prod.fst).sum) rules.length)) mem' ∧
        (calls = [] ∧ mem' = mem ∨ mem'.map Rows.result = (List.range features.numRows).map (fun e =>
          Loss.row n (t (score (rules.take (min (done + (calls.map Prod.fst).sum) rules.length)) (covered e))))) := by
  intro calls
  induction calls with
  | nil =>
    intro _ done hd mem hm
    have : min (done + 0) rules.length = done := by omega
    simp only [List.map_nil, List.sum_nil, this]
    exact ⟨mem, rfl, hm, Or.inl ⟨trivial, rfl⟩⟩
  | cons c calls ih =>
    intro hs done hd mem hm
    obtain ⟨mem1, h1, h2, h3⟩ := Incremental.applyNext_ok hf hc hh ht hb hbe (hs c (by simp)) hd hm c.1
    obtain ⟨mem2, g1, g2, g3⟩ := ih (fun p hp => hs p (List.mem_cons_of_mem _ hp)) (done + min c.1 (rules.length - done)) (by omega) mem1 h2
    have hsum : min (done + min c.1 (rules.length - done) + (calls.map Prod.fst).sum) rules.length =
        min (done + ((c :: calls).map Prod.fst).sum) rules.length := by
      rw [List.map_cons, List.sum_cons]
      omega
    rw [hsum] at g1 g2 g3
    refine ⟨mem2, ?_, g2, Or.inr ?_⟩
    · simp only [Incremental.applyAll]
      rw [h1, ok_bind, g1]
    · rcases g3 with ⟨rfl, rfl⟩ | g3
      · rw [h3]
        have : done + min c.1 (rules.length - done) = min (done + ([c].map Prod.fst).sum) rules.length := by simp; omega
        rw [this]
      · exact g3

end MLRL.Probability
