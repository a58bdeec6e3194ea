import Verif.Lemma.JointRates
import Mathlib.Data.List.Induction

/-!
# C75: Gradients and Hessians are those of the current scores
-/

namespace MLRL.Provider

open Update RuleEval
open Loss (row HasPartialDeriv partialDeriv jointLogisticLoss jointSquaredLoss jointHingeLoss expected)

variable {loss : JointLoss} {n m : Nat} {rates : Rates}

/-! ### Invariant -/

private theorem joint_cells {scores : Nat → Nat → ℝ} {cells : List JointCell} (h : UpToDate n m rates scores (.joint cells)) (laws : JointLaws loss n rates) :
    ∀ i c, cells[i]? = some c → CellOk (fun r : List ℝ => r.length = n) (JointOk n rates) i c := by
  intro i c hi
  obtain ⟨h1, h2⟩ := h.2 i c hi
  refine ⟨by rw [h1, row_length], by rw [h2.gradients, row_length], h2.length, fun s hs => ?_⟩
  obtain ⟨st, u1, u2⟩ := laws.update i (scores i) c.statistics.1 c.statistics.2 (by rw [h2.gradients, row_length]) h2.length
  obtain ⟨st', v1, v2⟩ := laws.update i s c.statistics.1 c.statistics.2 (by rw [h2.gradients, row_length]) h2.length
  rw [← hs, h1, u1] at v1
  cases v1
  have eg : ∀ k < n, rates.gradient i (scores i) k = rates.gradient i s k := by
    intro k hk
    have e := u2.gradients.symm.trans v2.gradients
    have e' := congrArg (fun l : List ℝ => l[k]?) e
    simp only [LossUpdate.row_getElem? hk] at e'
    exact Option.some.inj e'
  refine ⟨?_, h2.length, fun k hk r hr => ?_⟩
  · rw [h2.gradients]
    exact row_congr eg
  · rw [h2.hessians k hk r hr, ← v2.hessians k hk r hr, u2.hessians k hk r hr]

private theorem separate_cells {scores : Nat → Nat → ℝ} {cells : List SeparateCell} (h : UpToDate n m rates scores (.separate cells))
    (laws : JointLaws loss n rates) : ∀ i c, cells[i]? = some c → CellOk (fun r : List ℝ => r.length = n) (SeparateOk n rates) i c := by
  intro i c hi
  obtain ⟨h1, h2⟩ := h.2 i c hi
  have hl : c.statistics.length = n := by rw [h2]; unfold separateVals; rw [row_length]
  refine ⟨by rw [h1, row_length], hl, fun s hs => ?_⟩
  have u1 := laws.updateDecomposable i (scores i) c.statistics hl
  have v1 := laws.updateDecomposable i s c.statistics hl
  rw [← hs, h1, u1] at v1
  rw [h2]
  exact Except.ok.inj v1

private theorem scores_row {r : List ℝ} (hr : r.length = n) {s : Nat → ℝ} (h : ∀ j < n, denseValue r j = s j) : r = row n s := by
  rw [row_denseValue hr]
  exact row_congr h

/-- The statistics remain up to date, whatever happens. -/
theorem step_ok (laws : JointLaws loss n rates) (hn : n < 65536) {convertible : Bool} {p : Provider} {scores : Nat → Nat → ℝ}
    (hp : UpToDate n m rates scores p.statistics) {e : Event} (he : e.Fits n) {result : Res Provider} (h : Step loss n convertible p e result) :
    ∃ p', result = .ok p' ∧ UpToDate n m rates (fun i j => scores i j + e.effect i j) p'.statistics ∧ p'.evaluation = current p.evaluation [e] ∧
      p'.statistics.isSeparate = (p.statistics.isSeparate || (convertible && switched [e])) := by
  cases h with
  | @callJoint cells evaluation call trace ht =>
    obtain ⟨cells', h1, h2, h3⟩ := exec_exact (joint_laws laws) call he cells (joint_cells hp laws) trace ht
    rw [h1, ok_bind]
    refine ⟨_, rfl, ⟨by rw [h2]; exact hp.1, fun i c' hi' => ?_⟩, rfl, by simp [switched, Statistics.isSeparate]⟩
    obtain ⟨c, hi⟩ : ∃ c, cells[i]? = some c :=
      ⟨_, List.getElem?_eq_getElem (by rw [← h2]; exact (List.getElem?_eq_some_iff.1 hi').1)⟩
    obtain ⟨c'', g1, g2, -, g4⟩ := h3 i c hi
    rw [hi'] at g1
    obtain rfl := Option.some.inj g1
    have hs : c'.scores = row n (fun j => scores i j + (Event.call call).effect i j) := scores_row g2.valid (fun j hj => by
      rw [g4 j hj, (hp.2 i c hi).1, denseValue_row hj]; rfl)
    exact ⟨hs, g2.consistent.vals _ hs⟩
  | @callSeparate cells evaluation call trace ht =>
    obtain ⟨cells', h1, h2, h3⟩ := exec_exact (separate_laws laws) call he cells (separate_cells hp laws) trace ht
    rw [h1, ok_bind]
    refine ⟨_, rfl, ⟨by rw [h2]; exact hp.1, fun i c' hi' => ?_⟩, rfl, by simp [Statistics.isSeparate]⟩
    obtain ⟨c, hi⟩ : ∃ c, cells[i]? = some c :=
      ⟨_, List.getElem?_eq_getElem (by rw [← h2]; exact (List.getElem?_eq_some_iff.1 hi').1)⟩
    obtain ⟨c'', g1, g2, -, g4⟩ := h3 i c hi
    rw [hi'] at g1
    obtain rfl := Option.some.inj g1
    have hs : c'.scores = row n (fun j => scores i j + (Event.call call).effect i j) := scores_row g2.valid (fun j hj => by
      rw [g4 j hj, (hp.2 i c hi).1, denseValue_row hj]; rfl)
    exact ⟨hs, g2.consistent.2 _ hs⟩
  | @convert cells evaluation new result hcv hc =>
    obtain ⟨scratch, trace, s1, s2, ht, rfl⟩ := hc
    have hlen : (List.zipWith (fun (c : JointCell) (l : List (Stat ℝ)) => (⟨c.statistics, l⟩ : Cell (List ℝ × List ℝ) (List (Stat ℝ))))
        cells scratch).length = cells.length := by simp [s1]
    obtain ⟨converted, h1, h2, h3⟩ := exec_single (fun _ => convertStep n) (List.zipWith (fun (c : JointCell) (l : List (Stat ℝ)) =>
        (⟨c.statistics, l⟩ : Cell (List ℝ × List ℝ) (List (Stat ℝ)))) cells scratch) trace (by rw [hlen]; exact ht)
      (fun i _ d => d.statistics = separateVals n rates i (scores i)) (by
        intro i d hi
        rw [List.getElem?_zipWith] at hi
        cases hc : cells[i]? with
        | none => rw [hc] at hi; cases hi
        | some c =>
          cases hl : scratch[i]? with
          | none => rw [hc, hl] at hi; cases hi
          | some l =>
            rw [hc, hl] at hi
            obtain rfl := Option.some.inj hi
            unfold convertStep
            rw [convertRow_ok hn (hp.2 i c hc).2 (s2 l (List.mem_of_getElem? hl)), ok_bind]
            exact ⟨_, rfl, rfl⟩)
    rw [h1, ok_bind]
    refine ⟨_, rfl, ⟨?_, fun i c' hi' => ?_⟩, rfl, by simp [Statistics.isSeparate, switched, hcv]⟩
    · simp only [moveScores, List.length_zipWith, h2, s1]
      have := hp.1
      omega
    · simp only [moveScores, List.getElem?_zipWith] at hi'
      cases hc : cells[i]? with
      | none => rw [hc] at hi'; cases hi'
      | some c =>
        cases hd : converted[i]? with
        | none => rw [hc, hd] at hi'; cases hi'
        | some d =>
          rw [hc, hd] at hi'
          obtain rfl := Option.some.inj hi'
          obtain ⟨b, hb⟩ : ∃ b, (List.zipWith (fun (c : JointCell) (l : List (Stat ℝ)) =>
              (⟨c.statistics, l⟩ : Cell (List ℝ × List ℝ) (List (Stat ℝ)))) cells scratch)[i]? = some b :=
            ⟨_, List.getElem?_eq_getElem (by rw [hlen]; exact (List.getElem?_eq_some_iff.1 hc).1)⟩
          have := h3 i b d hb hd
          simp only [Event.effect, add_zero]
          exact ⟨(hp.2 i c hc).1, this⟩
  | keep hcv =>
    refine ⟨_, rfl, ?_, rfl, by simp [hcv, Statistics.isSeparate]⟩
    simpa [Event.effect] using hp
  | set =>
    refine ⟨_, rfl, ?_, rfl, by simp [Statistics.isSeparate]⟩
    simpa [Event.effect] using hp

private theorem current_cons (e : Event) (es : List Event) (ev : Evaluation) : current ev (e :: es) = current (current ev [e]) es := by
  cases e <;> rfl

/-- The statistics are up to date after any sequence of events. -/
theorem runs_ok (laws : JointLaws loss n rates) (hn : n < 65536) {convertible : Bool} {p : Provider} {events : List Event} {result : Res Provider}
    (h : Runs loss n convertible p events result) : ∀ {scores : Nat → Nat → ℝ}, UpToDate n m rates scores p.statistics →
    (∀ e ∈ events, e.Fits n) →
    ∃ p', result = .ok p' ∧ UpToDate n m rates (fun i j => scores i j + total events i j) p'.statistics ∧
      p'.evaluation = current p.evaluation events ∧
      p'.statistics.isSeparate = (p.statistics.isSeparate || (convertible && switched events)) := by
  induction h with
  | nil =>
    intro scores hp _
    refine ⟨_, rfl, ?_, rfl, by simp [switched]⟩
    simpa [total] using hp
  | @cons p e p1 es result hs _ ih =>
    intro scores hp hf
    obtain ⟨p2, h1, h2, h3, h4⟩ := step_ok laws hn hp (hf e List.mem_cons_self) hs
    cases h1
    obtain ⟨p3, k1, k2, k3, k4⟩ := ih h2 (fun e he => hf e (List.mem_cons_of_mem _ he))
    refine ⟨p3, k1, ?_, ?_, ?_⟩
    · simpa [total, add_assoc] using k2
    · rw [k3, h3, ← current_cons]
    · rw [k4, h4]
      simp only [switched, List.any_cons, List.any_nil, Bool.or_false]
      cases p.statistics.isSeparate <;> cases convertible <;> simp
  | @fault p e f es hs =>
    intro scores hp hf
    obtain ⟨p2, h1, -⟩ := step_ok laws hn hp (hf e List.mem_cons_self) hs
    cases h1

/-! ### C75 -/

/-- **C75**: after the statistics have been created and an arbitrary sequence of predictions has been applied or reverted, interrupted by switches
of the rule evaluation, the scores are the sums of the predictions and the gradients and Hessians are those of these scores. If the provider is
convertible, only the diagonal of the Hessian matrix is kept as soon as the rule evaluation has been switched. No undefined behaviour occurs, no
matter in which order the examples are processed.

What is missing: 65536 or more outputs (`create_overflow`) and losses whose functions do not agree (`regression_disagrees`). -/
theorem up_to_date_partial (laws : JointLaws loss n rates) (hn : n < 65536) {created : Res Provider} (hc : Creates loss n m created) :
    ∃ p, created = .ok p ∧ UpToDate n m rates (fun _ _ => 0) p.statistics ∧ p.evaluation = .default ∧
      ∀ convertible events result, (∀ e ∈ events, e.Fits n) → Runs loss n convertible p events result →
        ∃ p', result = .ok p' ∧ UpToDate n m rates (total events) p'.statistics ∧ p'.evaluation = current .default events ∧
          p'.statistics.isSeparate = (convertible && switched events) := by
  obtain ⟨cells, trace, ⟨hm, ha⟩, ht, rfl⟩ := hc
  subst hm
  obtain ⟨cells', h1, h2, h3⟩ := exec_single (createStep loss) cells trace ht
    (fun i c c' => c'.scores = row n (fun _ => 0) ∧ JointVals n rates i (fun _ => 0) c'.statistics) (by
      intro i c hi
      obtain ⟨a1, a2, a3⟩ := ha c (List.mem_of_getElem? hi)
      rw [row_zero] at a1
      obtain ⟨st, u1, u2⟩ := laws.update i (fun _ => 0) c.statistics.1 c.statistics.2 a2 (by rw [a3, triangular32_eq hn])
      unfold createStep
      rw [a1, u1, ok_bind]
      exact ⟨_, rfl, rfl, u2⟩)
  have hu : UpToDate n cells.length rates (fun _ _ => 0) (.joint cells') := by
    refine ⟨h2, fun i c' hi' => ?_⟩
    exact h3 i _ c' (List.getElem?_eq_getElem (by rw [← h2]; exact (List.getElem?_eq_some_iff.1 hi').1)) hi'
  rw [h1, ok_bind]
  refine ⟨_, rfl, hu, rfl, fun convertible events result hf hr => ?_⟩
  obtain ⟨p', k1, k2, k3, k4⟩ := runs_ok laws hn hr hu hf
  refine ⟨p', k1, ?_, k3, ?_⟩
  · simpa using k2
  · rw [k4]
    simp [Statistics.isSeparate]

/-- Steps may be executed one after the other. -/
theorem interleaving_exists {X : Type} (tasks : List (List X)) : ∃ trace, Refinement.Interleaving tasks trace := by
  induction tasks using List.reverseRecOn with
  | nil => exact ⟨[], by simp, by simp⟩
  | append_singleton tasks t ih =>
    obtain ⟨trace, h1, h2⟩ := ih
    refine ⟨trace ++ t.map (fun x => (tasks.length, x)), ?_, ?_⟩
    · intro p hp
      simp only [List.length_append, List.length_singleton]
      rcases List.mem_append.1 hp with hp | hp
      · have := h1 p hp
        omega
      · obtain ⟨x, -, rfl⟩ := List.mem_map.1 hp
        simp
    · intro i l hi
      rw [List.filter_append, List.map_append]
      by_cases hlt : i < tasks.length
      · rw [List.getElem?_append_left hlt] at hi
        rw [h2 i l hi]
        have : (t.map (fun x => (tasks.length, x))).filter (fun p => p.1 == i) = [] := by
          rw [List.filter_eq_nil_iff]
          intro p hp
          obtain ⟨x, -, rfl⟩ := List.mem_map.1 hp
          simp only [beq_iff_eq]
          omega
        rw [this, List.map_nil, List.append_nil]
      · have he : i = tasks.length := by
          have := (List.getElem?_eq_some_iff.1 hi).1
          simp only [List.length_append, List.length_singleton] at this
          omega
        subst he
        rw [List.getElem?_append_right (le_refl _), Nat.sub_self] at hi
        obtain rfl := Option.some.inj hi
        have e1 : trace.filter (fun p => p.1 == tasks.length) = [] := by
          rw [List.filter_eq_nil_iff]
          intro p hp
          have := h1 p hp
          simp only [beq_iff_eq]
          omega
        have e2 : (t.map (fun x => (tasks.length, x))).filter (fun p => p.1 == tasks.length) = t.map (fun x => (tasks.length, x)) := by
          rw [List.filter_eq_self]
          intro p hp
          obtain ⟨x, -, rfl⟩ := List.mem_map.1 hp
          simp
        rw [e1, e2, List.map_nil, List.nil_append, List.map_map]
        exact List.map_id t

/-- The executions `up_to_date_partial` refers to exist. -/
theorem executions_exist (loss : JointLoss) (n m : Nat) :
    (∃ created, Creates loss n m created) ∧ ∀ convertible p events, ∃ result, Runs loss n convertible p events result := by
  constructor
  · obtain ⟨trace, ht⟩ := interleaving_exists (createTasks loss m)
    refine ⟨_, List.replicate m ⟨List.replicate n 0, (List.replicate n 0, List.replicate (triangular32 n) 0)⟩, trace, ⟨by simp, ?_⟩, ht, rfl⟩
    intro c hc
    rw [List.eq_of_mem_replicate hc]
    simp
  · have hstep : ∀ convertible p e, ∃ result, Step loss n convertible p e result := by
      rintro convertible ⟨st, ev⟩ e
      cases st with
      | joint cells =>
        cases e with
        | call call =>
          obtain ⟨trace, ht⟩ := interleaving_exists (call.tasks loss.jointOps cells.length)
          exact ⟨_, .callJoint ht⟩
        | switch new =>
          cases convertible with
          | false => exact ⟨_, .keep rfl⟩
          | true =>
            obtain ⟨trace, ht⟩ := interleaving_exists (convertTasks n cells.length)
            exact ⟨_, .convert rfl ⟨List.replicate cells.length (List.replicate n ⟨0, 0⟩), trace, by simp, by
              intro l hl
              rw [List.eq_of_mem_replicate hl]
              simp, ht, rfl⟩⟩
      | separate cells =>
        cases e with
        | call call =>
          obtain ⟨trace, ht⟩ := interleaving_exists (call.tasks loss.separateOps cells.length)
          exact ⟨_, .callSeparate ht⟩
        | switch new => exact ⟨_, .set⟩
    intro convertible p events
    induction events generalizing p with
    | nil => exact ⟨_, .nil⟩
    | cons e es ih =>
      obtain ⟨result, hr⟩ := hstep convertible p e
      cases result with
      | error f => exact ⟨_, .fault hr⟩
      | ok p' =>
        obtain ⟨result, h⟩ := ih p'
        exact ⟨result, .cons hr h⟩

/-- **C75**, logistic loss: the gradients and Hessians that are kept are the first and second partial derivatives of the loss at the current
scores, throughout the training process. -/
theorem logistic_up_to_date (y : Nat → Nat → Bool) (hn : n < 65536) {created : Res Provider}
    (hc : Creates (logisticLoss n (fun i => row n (y i))) n m created) :
    ∃ p, created = .ok p ∧ ∀ convertible events result, (∀ e ∈ events, e.Fits n) →
      Runs (logisticLoss n (fun i => row n (y i))) n convertible p events result →
      ∃ p', result = .ok p' ∧ p'.statistics.isSeparate = (convertible && switched events) ∧
        (∀ cells, p'.statistics = .joint cells → cells.length = m ∧ ∀ i c, cells[i]? = some c →
          (∀ j < n, c.scores[j]? = some (total events i j)) ∧
          (∀ j < n, c.statistics.1[j]? = some (partialDeriv (jointLogisticLoss n (y i)) j (total events i))) ∧
          ∀ j < n, ∀ k ≤ j, c.statistics.2[j * (j + 1) / 2 + k]? =
            some (partialDeriv (partialDeriv (jointLogisticLoss n (y i)) j) k (total events i))) ∧
        ∀ cells, p'.statistics = .separate cells → cells.length = m ∧ ∀ i c, cells[i]? = some c →
          (∀ j < n, c.scores[j]? = some (total events i j)) ∧
          ∀ j < n, c.statistics[j]? = some ⟨partialDeriv (jointLogisticLoss n (y i)) j (total events i),
            partialDeriv (partialDeriv (jointLogisticLoss n (y i)) j) j (total events i)⟩ := by
  obtain ⟨p, h1, -, -, h2⟩ := up_to_date_partial (logistic_laws n y) hn hc
  refine ⟨p, h1, fun convertible events result hf hr => ?_⟩
  obtain ⟨p', k1, k2, -, k3⟩ := h2 convertible events result hf hr
  refine ⟨p', k1, k3, fun cells he => ?_, fun cells he => ?_⟩
  · rw [he] at k2
    refine ⟨k2.1, fun i c hi => ?_⟩
    obtain ⟨a, b⟩ := k2.2 i c hi
    refine ⟨fun j hj => ?_, fun j hj => ?_, b.hessians⟩
    · rw [a, LossUpdate.row_getElem? hj]
    · rw [b.gradients, LossUpdate.row_getElem? hj]; rfl
  · rw [he] at k2
    refine ⟨k2.1, fun i c hi => ?_⟩
    obtain ⟨a, b⟩ := k2.2 i c hi
    refine ⟨fun j hj => ?_, fun j hj => ?_⟩
    · rw [a, LossUpdate.row_getElem? hj]
    · rw [b]
      exact LossUpdate.row_getElem? hj

/-- **C75**, squared error loss for labels and squared hinge loss: `up_to_date_partial` applies to these losses as well, and the gradients and
Hessians it refers to are the partial derivatives of the loss, as far as this is true according to C33. -/
theorem other_losses (n : Nat) (y : Nat → Nat → Bool) :
    (∃ rates, JointLaws (squaredErrorLoss Loss.binaryConversion id n (fun i => row n (y i))) n rates ∧
      ∀ i s, jointSquaredLoss n (fun j => expected (y i j)) s ≠ 0 → ∀ c < n,
        HasPartialDeriv (jointSquaredLoss n (fun j => expected (y i j))) c s (rates.gradient i s c) ∧
        ∀ k ≤ c, HasPartialDeriv (partialDeriv (jointSquaredLoss n (fun j => expected (y i j))) c) k s (rates.hessian i s c k)) ∧
    ∀ isZero : ℝ → Bool, isZero 0 = true →
      ∃ rates, JointLaws (squaredHingeLoss isZero n (fun i => row n (y i))) n rates ∧
        ∀ i s, jointHingeLoss n (y i) s ≠ 0 → ∀ c < n, HasPartialDeriv (jointHingeLoss n (y i)) c s (rates.gradient i s c) ∧
          (Loss.hinge (y i c) (s c) ≠ 0 → HasPartialDeriv (partialDeriv (jointHingeLoss n (y i)) c) c s (rates.hessian i s c c)) := by
  constructor
  · have laws := squaredError_laws Loss.binaryConversion id (fun t => rfl) n y
    refine ⟨_, laws, fun i s hD c hc => ?_⟩
    obtain ⟨st, u1, u2⟩ := laws.update i s (List.replicate n 0) (List.replicate (n * (n + 1) / 2) 0) (by simp) (by simp)
    obtain ⟨G, H, g1, g2, g3, g4, g5⟩ := Loss.ndSquaredError_derivatives n (y i) s (gradients := List.replicate n 0)
      (hessians := List.replicate (n * (n + 1) / 2) 0) (by simp) (by simp) hD
    have e : st = (G, H) := Except.ok.inj (u1.symm.trans g1)
    subst e
    refine ⟨?_, fun k hk => ?_⟩
    · obtain ⟨g, a1, a2⟩ := g4 c hc
      rw [show G = _ from u2.gradients, LossUpdate.row_getElem? hc] at a1
      rw [Option.some.inj a1]
      exact a2
    · obtain ⟨h, a1, a2⟩ := g5 c hc k hk
      rw [u2.hessians c hc k hk] at a1
      rw [Option.some.inj a1]
      exact a2
  · intro isZero hz
    have laws := squaredHinge_laws isZero n y
    refine ⟨_, laws, fun i s hD c hc => ?_⟩
    obtain ⟨st, u1, u2⟩ := laws.update i s (List.replicate n 0) (List.replicate (n * (n + 1) / 2) 0) (by simp) (by simp)
    obtain ⟨G, H, g1, g2, g3, g4, g5, g6⟩ := Loss.ndSquaredHinge_derivatives_partial isZero n (y i) s (gradients := List.replicate n 0)
      (hessians := List.replicate (n * (n + 1) / 2) 0) (by simp) (by simp) hz hD
    have e : st = (G, H) := Except.ok.inj (u1.symm.trans g1)
    subst e
    refine ⟨?_, fun hne => ?_⟩
    · obtain ⟨g, a1, a2, -⟩ := g4 c hc
      rw [show G = _ from u2.gradients, LossUpdate.row_getElem? hc] at a1
      rw [Option.some.inj a1]
      exact a2
    · obtain ⟨h, a1, a2⟩ := g5 c hc hne
      rw [u2.hessians c hc c (le_refl _)] at a1
      rw [Option.some.inj a1]
      exact a2

/-- **C75** does not hold for 65536 or more outputs: the number of Hessians exceeds the range of the integers that are used for calculating it,
the memory that is allocated for them does not suffice and is left when the statistics are created. -/
theorem create_overflow (hl : NeedsSpace loss n) (hn : 65536 ≤ n) (hm : 0 < m) {created : Res Provider} (hc : Creates loss n m created) :
    ∃ f, created = .error f := by
  obtain ⟨cells, trace, ⟨h1, h2⟩, ht, rfl⟩ := hc
  cases he : exec trace cells with
  | error f => exact ⟨f, rfl⟩
  | ok cells' =>
    exfalso
    subst h1
    obtain ⟨c', hc'⟩ := exec_inv trace cells cells' he 0 cells[0] (List.getElem?_eq_getElem hm)
    have htask : (createTasks loss cells.length)[0]? = some [createStep loss 0] := by simp [createTasks, hm]
    rw [ht.2 0 _ htask, List.foldlM_cons] at hc'
    obtain ⟨d, hd, -⟩ := bind_ok hc'
    unfold createStep at hd
    obtain ⟨st, hst, -⟩ := bind_ok hd
    have := hl 0 _ _ _ st hst
    have h3 := (h2 cells[0] (List.getElem_mem hm)).2.2
    have h4 := triangular32_lt hn
    rw [h3] at this
    omega

/-- **C75** does not hold for the squared error loss if it is used for regression: there are no functions of the scores that are computed
whether the statistics are decomposable or not. The score `0` and the target `2` result in the gradient `-2` or `-1`. -/
theorem regression_disagrees :
    ¬ ∃ rates, JointLaws (squaredErrorLoss (fun x : ℝ => x) Loss.scoreToBool 1 (fun i => row 1 (fun _ => 2))) 1 rates := by
  rintro ⟨rates, laws⟩
  obtain ⟨st, u1, u2⟩ := laws.update 0 (fun _ => 0) [0] [0] rfl rfl
  have v1 := laws.updateDecomposable 0 (fun _ => 0) [⟨0, 0⟩] rfl
  have e1 : (squaredErrorLoss (fun x : ℝ => x) Loss.scoreToBool 1 (fun i => row 1 (fun _ => 2))).update 0 (row 1 (fun _ => 0)) ([0], [0]) =
      .ok ([-2], [0]) := Loss.ndSquaredError_regression_gradient.1
  rw [e1] at u1
  cases u1
  have g1 := u2.gradients
  simp only [row, List.range_one, List.map_cons, List.map_nil, List.cons.injEq, and_true] at g1
  rw [squaredError_updateDecomposable (fun x : ℝ => x) Loss.scoreToBool 1 (fun _ _ => 2) 0 (fun _ => 0) [⟨0, 0⟩] rfl] at v1
  have v2 := Except.ok.inj v1
  simp only [separateVals, row, List.range_one, List.map_cons, List.map_nil, List.cons.injEq, and_true, Stat.mk.injEq] at v2
  rw [← g1] at v2
  have v3 := v2.1
  simp [squaredErrorRates, difference, expected, Loss.scoreToBool, divideOrZero] at v3

/-! ### Decomposable losses -/

/-- Updates of decomposable statistics keep the gradients and Hessians of all outputs up to date. -/
theorem decomposable_laws {T : Type} (update : T → ℝ → Stat ℝ) (y : Nat → Nat → T) :
    Laws (decomposableOps update n (fun i => row n (y i))) n (fun r : List ℝ => r.length = n) denseValue
      (fun i r st => st = row n (fun j => update (y i j) (denseValue r j))) := by
  refine dense_laws n _ _ (fun i h r r' s hf hr hr' hs hch => ?_)
  have hl : s.length = n := by rw [hs, row_length]
  cases h with
  | complete values =>
    refine ⟨_, ?_, rfl⟩
    have := (LossUpdate.complete_update update n (denseValue r') s hl).1 (y i)
    rwa [← row_denseValue hr'] at this
  | partial_ entries =>
    obtain ⟨st', u1, u2, u3⟩ := LossUpdate.partial_update update n (y i) (denseValue r') s hl (indices := entries.map Prod.fst) (by
      intro c hc
      obtain ⟨e, he, rfl⟩ := List.mem_map.1 hc
      exact hf e he)
    rw [← row_denseValue hr'] at u1
    refine ⟨st', u1, row_ext' (by omega) (fun c hc => ?_)⟩
    rw [u3 c]
    split
    · rfl
    · rename_i hnot
      rw [hs, LossUpdate.row_getElem? hc, hch c hc]
      simp only [Predictor.Spec.contribution]
      rw [List.filter_eq_nil_iff.2, List.map_nil, List.sum_nil]
      intro e he h'
      exact hnot (List.mem_map.2 ⟨e, he, of_decide_eq_true h'⟩)

/-- **C75**, decomposable losses: after any sequence of predictions has been applied or reverted, the statistics are those of the current scores,
although only the statistics of outputs the predictions refer to have been recalculated. -/
theorem decomposable_up_to_date {T : Type} (update : T → ℝ → Stat ℝ) (y : Nat → Nat → T) {calls : List (Call ℝ)}
    {cells cells' : List SeparateCell} (h : Executes (decomposableOps update n (fun i => row n (y i))) m calls cells cells')
    (hm : cells.length = m) (hf : ∀ call ∈ calls, Update.Fits n call.head) {scores : Nat → Nat → ℝ}
    (hcells : ∀ i c, cells[i]? = some c → c.scores = row n (scores i) ∧ c.statistics = row n (fun j => update (y i j) (scores i j))) :
    cells'.length = m ∧ ∀ i c', cells'[i]? = some c' →
      c'.scores = row n (fun j => scores i j + (calls.map (fun call => call.effect i j)).sum) ∧
      c'.statistics = row n (fun j => update (y i j) (scores i j + (calls.map (fun call => call.effect i j)).sum)) := by
  have laws := decomposable_laws (n := n) update y
  obtain ⟨k1, k2⟩ := executes_sum laws h hm hf (by
    intro i c hi
    obtain ⟨a, b⟩ := hcells i c hi
    refine ⟨by rw [a, row_length], ?_⟩
    rw [b, a]
    exact row_congr (fun j hj => by rw [denseValue_row hj]))
  refine ⟨k1, fun i c' hi' => ?_⟩
  have hlt := (List.getElem?_eq_some_iff.1 hi').1
  have hi : cells[i]? = some cells[i] := List.getElem?_eq_getElem (by omega)
  obtain ⟨c'', g1, g2, g3⟩ := k2 i _ hi
  rw [hi'] at g1
  obtain rfl := Option.some.inj g1
  have hv : ∀ j < n, denseValue c'.scores j = scores i j + (calls.map (fun call => call.effect i j)).sum := fun j hj => by
    rw [g3 j hj, (hcells i _ hi).1, denseValue_row hj]
  refine ⟨scores_row g2.valid hv, ?_⟩
  rw [g2.consistent]
  exact row_congr (fun j hj => by rw [hv j hj])

/-! ### Concrete cases -/

/-- Two outputs, two examples; a prediction is applied before and after the rule evaluation is switched. -/
noncomputable def exEvents : List Event :=
  [.call ⟨fun _ => true, .complete [1, 2], false⟩, .switch .regular, .call ⟨fun i => i == 1, .partial_ [(1, 3)], false⟩, .switch .pruning]

example : (∀ e ∈ exEvents, e.Fits 2) ∧ current .default exEvents = .pruning ∧ switched exEvents = true ∧ total exEvents 1 1 = 5 ∧
    total exEvents 0 1 = 2 := by
  refine ⟨?_, rfl, rfl, ?_, ?_⟩
  · intro e he
    simp only [exEvents, List.mem_cons, List.not_mem_nil, or_false] at he
    rcases he with rfl | rfl | rfl | rfl <;> simp [Event.Fits, Update.Fits]
  · simp [total, exEvents, Event.effect, Call.effect, Predictor.Spec.contribution]
    norm_num
  · simp [total, exEvents, Event.effect, Call.effect, Predictor.Spec.contribution]

/-- 65536 outputs: less than 32769 Hessians are allocated. -/
example : triangular32 65536 = 32768 ∧ triangular32 65535 = 2147450880 := by decide

end MLRL.Provider
