import Verif.Lemma.JointEval

/-!
# C61: rule evaluation for non-decomposable loss functions
-/

namespace MLRL.JointEval

open Finset RuleEval Statistics

variable {K : Type} [Field K] [LinearOrder K]

/-- Complete heads: whatever the regularisation weights, the system that is solved has the Hessian matrix (plus the L2 regularisation
weight on its diagonal) as its coefficients, and no array is left. The result consists of the solution and the value of the objective; it
fails only if no solution is found. -/
theorem complete_system {dsysv : List K → List K → Nat → Res (List K)} (hd : DsysvSpec dsysv) {l1 l2 : K} (h1 : 0 ≤ l1) (h2 : 0 ≤ l2)
    (outputs : List Nat) (values : List K) (tmp : Tmp K) (g hs : List K) (hg : outputs.length ≤ g.length)
    (hh : triangularNumber outputs.length ≤ hs.length) (hv : outputs.length ≤ values.length)
    (hc : outputs.length * outputs.length ≤ tmp.coefficients.length) (hp : outputs.length ≤ tmp.product.length) :
    ∃ a b, (∀ r < outputs.length, ∀ c < outputs.length,
        vec a (max r c * outputs.length + min r c) = matrix hs r c + if r = c then l2 else 0) ∧
      (∀ r < outputs.length, vec b r = -vec g r + getL1RegularizationWeight (-vec g r) l1) ∧ b.length = values.length ∧
      (∀ x, dsysv a b outputs.length = .ok x → complete dsysv l1 l2 outputs values tmp g hs =
        .ok ⟨outputs, x, objective (vec g) (matrix hs) l1 l2 outputs.length (vec x)⟩) ∧
      (∀ e, dsysv a b outputs.length = .error e → complete dsysv l1 l2 outputs values tmp g hs = .error e) := by
  generalize hn : outputs.length = n at *
  obtain ⟨a1, p1, p2, p3⟩ := copyCoefficients_ok hh hc
  obtain ⟨a2, q1, q2, q3⟩ := addL2_ok h2 (a := a1) (n := n) (by omega)
  obtain ⟨b1, r1, r2, r3⟩ := copyOrdinates_ok hg hv
  obtain ⟨b2, s1, s2, s3⟩ := addL1_ok h1 (b := b1) (n := n) (by omega)
  have hunfold : complete dsysv l1 l2 outputs values tmp g hs =
      solveAndEvaluate dsysv l1 l2 g hs a2 b2 tmp.product n >>= fun r => .ok ⟨outputs, r.1, r.2⟩ := by
    unfold complete
    simp only [hn]
    rw [p1, ok_bind, q1, ok_bind, r1, ok_bind, s1, ok_bind]
    rfl
  refine ⟨a2, b2, ?_, ?_, by omega, ?_, ?_⟩
  · intro r hr c hc'
    rw [q3 (max r c) (by omega) (min r c) (by omega), p3 (max r c) (by omega) (min r c) (by omega)]
    have e : (min r c = max r c) ↔ (r = c) := by omega
    simp only [e]
    rfl
  · intro r hr
    rw [s3 r hr, r3 r hr]
  · intro x hx
    rw [hunfold, solveAndEvaluate_ok hh (by have := (hd _ _ _ _ hx (by omega)).1; omega) hg hp h1 h2 hx]
    rfl
  · intro e he
    rw [hunfold]
    unfold solveAndEvaluate
    rw [he]
    rfl

/-- **C61** for complete heads, what holds of it: without L1 regularisation and if the regularised Hessian matrix is positive
semi-definite, the scores minimise the objective and the quality is the minimum, which is not positive. Missing is L1 regularisation
(`l1_joint_not_minimal`). -/
theorem complete_minimises_joint_partial [IsStrictOrderedRing K] {dsysv : List K → List K → Nat → Res (List K)} (hd : DsysvSpec dsysv)
    {l2 : K} (h2 : 0 ≤ l2) (outputs : List Nat) (values : List K) (tmp : Tmp K) (g hs : List K) (hg : outputs.length ≤ g.length)
    (hh : triangularNumber outputs.length ≤ hs.length) (hv : outputs.length ≤ values.length)
    (hc : outputs.length * outputs.length ≤ tmp.coefficients.length) (hp : outputs.length ≤ tmp.product.length)
    (hpsd : ∀ v : Nat → K, 0 ≤ ∑ r ∈ range outputs.length, ∑ c ∈ range outputs.length,
      (matrix hs r c + if r = c then l2 else 0) * v r * v c) (result : ScoreVector K)
    (hr : complete dsysv 0 l2 outputs values tmp g hs = .ok result) :
    result.indices = outputs ∧ result.values.length = values.length ∧
      result.quality = objective (vec g) (matrix hs) 0 l2 outputs.length (vec result.values) ∧
      (∀ y, result.quality ≤ objective (vec g) (matrix hs) 0 l2 outputs.length y) ∧ result.quality ≤ 0 := by
  obtain ⟨a, b, k1, k2, k3, k4, k5⟩ := complete_system hd (le_refl 0) h2 outputs values tmp g hs hg hh hv hc hp
  cases hx : dsysv a b outputs.length with
  | error e => rw [k5 e hx] at hr; cases hr
  | ok x =>
    rw [k4 x hx] at hr
    cases hr
    obtain ⟨m1, m2⟩ := hd _ _ _ _ hx (by omega)
    have hsol := solution_minimises (g := vec g) (H := matrix hs) (l2 := l2) (n := outputs.length) (x := vec x) (matrix_symm hs) hpsd (by
      intro r hr'
      have h := m2 r hr'
      rw [k2 r hr'] at h
      have e : getL1RegularizationWeight (-vec g r) (0 : K) = 0 := by
        unfold getL1RegularizationWeight
        split_ifs <;> simp
      rw [e, add_zero] at h
      rw [← h]
      refine sum_congr rfl (fun c hc' => ?_)
      rw [k1 r hr' c (mem_range.1 hc')]
      rfl)
    exact ⟨rfl, by simp only; omega, rfl, hsol.1, hsol.2.2⟩

/-- The indices of the outputs to be predicted, as a function. -/
def idx (chosen : List Nat) (i : Nat) : Nat := chosen[i]?.getD 0

/-- **C61** for partial heads, what holds of it: if the outputs are given in increasing order (as it is the case for dynamic heads),
without L1 regularisation, the scores minimise the objective of these outputs. The quality, however, is the value of the objective of the
*first* outputs for these scores (`partial_quality_wrong`). -/
theorem predictFor_minimises_partial [IsStrictOrderedRing K] {dsysv : List K → List K → Nat → Res (List K)} (hd : DsysvSpec dsysv)
    {l2 : K} (h2 : 0 ≤ l2) (chosen : List Nat) (hinc : chosen.Pairwise (· < ·)) (tmp : Tmp K) (g hs : List K)
    (hm : ∀ i ∈ chosen, i < g.length) (hh : triangularNumber g.length ≤ hs.length)
    (hc : chosen.length * chosen.length ≤ tmp.coefficients.length) (hp : chosen.length ≤ tmp.product.length)
    (hpsd : ∀ v : Nat → K, 0 ≤ ∑ r ∈ range chosen.length, ∑ c ∈ range chosen.length,
      (matrix hs (idx chosen r) (idx chosen c) + if r = c then l2 else 0) * v r * v c) (result : ScoreVector K)
    (hr : predictFor dsysv 0 l2 chosen tmp g hs = .ok result) :
    result.indices = chosen ∧ result.values.length = chosen.length ∧
      (∀ y, objective (fun i => vec g (idx chosen i)) (fun r c => matrix hs (idx chosen r) (idx chosen c)) 0 l2 chosen.length
          (vec result.values) ≤
        objective (fun i => vec g (idx chosen i)) (fun r c => matrix hs (idx chosen r) (idx chosen c)) 0 l2 chosen.length y) ∧
      result.quality = objective (vec g) (matrix hs) 0 l2 chosen.length (vec result.values) := by
  have hle : chosen.length ≤ g.length := by
    have hnd : chosen.Nodup := hinc.imp (fun h => Nat.ne_of_lt h)
    have := (hnd.subperm (l₂ := List.range g.length) (fun i hi => List.mem_range.2 (hm i hi))).length_le
    simpa using this
  have hidx : ∀ (i : Nat) (hi : i < chosen.length), idx chosen i = chosen[i] := by
    intro i hi
    unfold idx
    rw [List.getElem?_eq_getElem hi]
    rfl
  obtain ⟨n, hn⟩ : ∃ n, chosen.length = n := ⟨_, rfl⟩
  rw [hn] at hc hp hpsd hle
  rw [hn]
  have hord : chosen.mapM (fun i => do
      let g ← readAt g i
      return -g) = .ok (chosen.map (fun i => -vec g i)) := by
    clear hinc hr hidx hn hpsd
    induction chosen with
    | nil => rfl
    | cons i chosen ih =>
      rw [List.mapM_cons, readAt_vec (hm i List.mem_cons_self), ok_bind, pure_eq_ok, ok_bind,
        ih (fun j hj => hm j (List.mem_cons_of_mem _ hj)), ok_bind]
      rfl
  obtain ⟨b, s1, s2, s3⟩ := addL1_ok (le_refl (0 : K)) (b := chosen.map (fun i => -vec g i)) (n := n) (by rw [List.length_map]; omega)
  obtain ⟨a1, p1, p2, p3⟩ := copyCoefficientsPartial_ok hinc hm hh hn hc
  obtain ⟨a2, q1, q2, q3⟩ := addL2_ok h2 (a := a1) (n := n) (by omega)
  unfold predictFor at hr
  simp only [hn] at hr
  rw [hord, ok_bind, s1, ok_bind, p1, ok_bind, q1, ok_bind] at hr
  rw [List.length_map] at s2
  cases hx : dsysv a2 b n with
  | error e =>
    unfold solveAndEvaluate at hr
    rw [hx] at hr
    cases hr
  | ok x =>
    obtain ⟨m1, m2⟩ := hd _ _ _ _ hx (by omega)
    rw [solveAndEvaluate_ok (le_trans (triangularNumber_mono hle) hh) (by omega) hle hp (le_refl 0) h2 hx] at hr
    cases hr
    refine ⟨rfl, by simp only; omega, ?_, rfl⟩
    refine (solution_minimises (g := fun i => vec g (idx chosen i)) (H := fun r c => matrix hs (idx chosen r) (idx chosen c)) (l2 := l2)
      (n := n) (x := vec x) (fun r c => matrix_symm hs _ _) hpsd ?_).1
    intro r hr'
    have h := m2 r hr'
    rw [s3 r hr'] at h
    have e : getL1RegularizationWeight (vec (chosen.map (fun i => -vec g i)) r) (0 : K) = 0 := by
      unfold getL1RegularizationWeight
      split_ifs <;> simp
    rw [e, add_zero, vec_of_lt (by rw [List.length_map]; omega), List.getElem_map] at h
    rw [hidx r (by omega), ← h]
    refine sum_congr rfl (fun c hc' => ?_)
    have hcn := mem_range.1 hc'
    rw [q3 (max r c) (by omega) (min r c) (by omega), p3 (max r c) (by omega) (min r c) (by omega)]
    have e2 : (min r c = max r c) ↔ (r = c) := by omega
    simp only [e2]
    unfold withL2
    congr 2
    simp only
    rw [hidx r (by omega), hidx c (by omega)]
    rcases le_total r c with hrc | hrc
    · simp only [min_eq_left hrc, max_eq_right hrc]
    · simp only [min_eq_right hrc, max_eq_left hrc]
      exact matrix_symm _ _ _

/-- The outputs of dynamic heads are given in increasing order and are exactly those whose weighted score reaches the threshold. -/
theorem dynamicPartial_chosen {dsysv : List K → List K → Nat → Res (List K)} {pow : K → K} {threshold l1 l2 : K} {tmp : Tmp K}
    {g hs : List K} {result : ScoreVector K} (hr : dynamicPartial dsysv pow threshold l1 l2 tmp g hs = .ok result) :
    ∃ stats m M chosen, diagonalStats g hs = .ok stats ∧ MinMax l1 l2 stats m M ∧ chosen.Pairwise (· < ·) ∧
      (∀ i, i ∈ chosen ↔ ∃ t, stats[i]? = some t ∧ pow (M - m) * (1 - threshold) ≤ pow (|t.score l1 l2| - m)) ∧
      predictFor dsysv l1 l2 chosen tmp g hs = .ok result := by
  unfold dynamicPartial at hr
  cases h1 : diagonalStats g hs with
  | error e => rw [h1] at hr; cases hr
  | ok stats =>
    rw [h1, ok_bind] at hr
    cases h2 : getMinAndMaxScore l1 l2 stats with
    | error e => rw [h2] at hr; cases hr
    | ok pair =>
      rw [h2, ok_bind] at hr
      have hne : stats ≠ [] := by
        rintro rfl
        cases h2
      obtain ⟨m, M, h3, h4⟩ := getMinAndMaxScore_ok l1 l2 stats hne
      rw [h2] at h3
      cases h3
      refine ⟨stats, m, M, _, rfl, h4, ?_, ?_, hr⟩
      · have : (stats.zipIdx.map Prod.snd).Pairwise (· < ·) := by
          rw [List.zipIdx_map_snd]
          exact List.pairwise_lt_range'
        exact this.sublist (List.filter_sublist.map _)
      · intro i
        simp only [List.mem_map, List.mem_filter, decide_eq_true_eq]
        constructor
        · rintro ⟨⟨t, j⟩, ⟨k1, k2⟩, rfl⟩
          rw [List.mk_mem_zipIdx_iff_getElem?] at k1
          exact ⟨t, k1, k2⟩
        · rintro ⟨t, k1, k2⟩
          exact ⟨(t, i), ⟨by rw [List.mk_mem_zipIdx_iff_getElem?]; exact k1, k2⟩, rfl⟩

/-! ### Examples and counterexamples -/

/-- A solver for systems with one or two unknowns. -/
def exSolve (a b : List Rat) (n : Nat) : Res (List Rat) :=
  if n = 1 then
    if vec a 0 = 0 then .error .exception else .ok (b.set 0 (vec b 0 / vec a 0))
  else if n = 2 then
    let det := vec a 0 * vec a 3 - vec a 2 * vec a 2
    if det = 0 then .error .exception
    else .ok ((b.set 0 ((vec b 0 * vec a 3 - vec b 1 * vec a 2) / det)).set 1 ((vec a 0 * vec b 1 - vec a 2 * vec b 0) / det))
  else .error .exception

theorem exSolve_spec : DsysvSpec exSolve := by
  intro a b n x hx hn
  unfold exSolve at hx
  split at hx
  · rename_i e
    subst e
    split at hx
    · cases hx
    · rename_i h0
      cases hx
      refine ⟨by simp, fun r hr => ?_⟩
      obtain rfl : r = 0 := by omega
      simp only [range_one, sum_singleton]
      rw [vec_set (by omega), if_pos rfl]
      simp only [max_self, min_self, Nat.mul_one, Nat.add_zero]
      field_simp
  · split at hx
    · rename_i e
      subst e
      simp only at hx
      split at hx
      · cases hx
      · rename_i h0
        cases hx
        refine ⟨by simp, fun r hr => ?_⟩
        have e0 : ∀ (u v : Rat), vec ((b.set 0 u).set 1 v) 0 = u := by
          intro u v
          rw [vec_set (by simp; omega), if_neg (by omega), vec_set (by omega), if_pos rfl]
        have e1 : ∀ (u v : Rat), vec ((b.set 0 u).set 1 v) 1 = v := by
          intro u v
          rw [vec_set (by simp; omega), if_pos rfl]
        have hr' : r = 0 ∨ r = 1 := by omega
        rw [sum_range_succ, sum_range_succ, sum_range_zero, e0, e1]
        rcases hr' with rfl | rfl
        · change 0 + vec a 0 * _ + vec a 2 * _ = _
          rw [mul_div_assoc', mul_div_assoc', zero_add, ← add_div, div_eq_iff h0]
          ring
        · change 0 + vec a 2 * _ + vec a 3 * _ = _
          rw [mul_div_assoc', mul_div_assoc', zero_add, ← add_div, div_eq_iff h0]
          ring
    · cases hx

/-- Two outputs with gradients 1 and -4 and the Hessian matrix with rows (1, 1/2) and (1/2, 2). -/
example : complete exSolve 0 0 [0, 1] [9, 9] ⟨[9, 9, 9, 9], [9, 9]⟩ [1, -4] [1, 1 / 2, 2] =
    .ok ⟨[0, 1], [-16 / 7, 18 / 7], -44 / 7⟩ := by decide +kernel

/-- Negation of **C61**: with L1 regularisation, the scores do not minimise the objective if a gradient does not exceed the weight. -/
theorem l1_joint_not_minimal : complete exSolve 1 0 [0] [9] ⟨[9], [9]⟩ [1 / 2] [1] = .ok ⟨[0], [-1 / 2], 3 / 8⟩ ∧
    objective (vec [1 / 2]) (matrix [1]) 1 0 1 (fun _ => (0 : Rat)) = 0 := by decide +kernel

/-- Negation of **C61**: the quality of a partial head is not the value of the objective of the outputs it predicts for. The second of
two outputs with gradients 1 and -4 and Hessians 1 and 2 is predicted, the objective is -4. -/
theorem partial_quality_wrong :
    dynamicPartial exSolve id (1 / 10) 0 0 ⟨[9, 9, 9, 9], [9, 9]⟩ [1, -4] [1, 0, 2] = .ok ⟨[1], [2], 4⟩ ∧
    objective (fun i => vec [1, -4] (idx [1] i)) (fun r c => matrix [1, 0, 2] (idx [1] r) (idx [1] c)) 0 0 1 (vec [2]) = (-4 : Rat) := by
  decide +kernel

/-- Negation of **C61**: if a head of a fixed size predicts for the third and the first output, the Hessian of the second output is used
in place of the one of the first and third. The scores 8/3 and 2/3 would be better. -/
theorem fixed_coefficients_wrong :
    fixedPartial exSolve (fun _ _ => [(2, 3), (0, 2), (1, 0)]) 0 0 2 ⟨[9, 9, 9, 9], [9, 9]⟩ [-2, 0, -3] [1, 0, 1 / 4, 1 / 2, 0, 1] =
      .ok ⟨[2, 0], [8 / 3, 4 / 3], -14 / 9⟩ ∧
    PartiallySorted 2 [(0, (2 : Rat)), (1, 0), (2, 3)] [(2, 3), (0, 2), (1, 0)] ∧
    objective (fun i => vec [-2, 0, -3] (idx [2, 0] i)) (fun r c => matrix [1, 0, 1 / 4, 1 / 2, 0, 1] (idx [2, 0] r) (idx [2, 0] c)) 0 0 2
        (vec [8 / 3, 2 / 3]) <
      objective (fun i => vec [-2, 0, -3] (idx [2, 0] i)) (fun r c => matrix [1, 0, 1 / 4, 1 / 2, 0, 1] (idx [2, 0] r) (idx [2, 0] c)) 0 0 2
        (vec [8 / 3, (4 / 3 : Rat)]) :=
  ⟨by decide +kernel, ⟨by decide, by decide +kernel, by decide +kernel⟩, by decide +kernel⟩

end MLRL.JointEval
