import Verif.Props.Loss

/-!
# C33: losses that are norms of vectors of differences
-/

namespace MLRL.Loss

open Finset MLRL.RuleEval MLRL.Statistics

theorem divideOrZero_ne {a b : ℝ} (h : b ≠ 0) : divideOrZero a b = a / b := by
  unfold divideOrZero
  rw [if_neg h]

theorem divideOrZero_zero (a : ℝ) : divideOrZero a 0 = 0 := by
  unfold divideOrZero
  rw [if_pos rfl]

theorem pow15_ne {D : ℝ} (h : Real.sqrt D ≠ 0) : pow15 D ≠ 0 := by
  unfold pow15
  refine mul_ne_zero ?_ h
  rintro rfl
  exact h Real.sqrt_zero

theorem pow15_zero {D : ℝ} (h : Real.sqrt D = 0) : pow15 D = 0 := by
  unfold pow15
  rw [h, mul_zero]

theorem sumSq_ne {ψ : Nat → ℝ → ℝ} {n : Nat} {s : Nat → ℝ} (h : Real.sqrt (sumSq ψ n s) ≠ 0) : sumSq ψ n s ≠ 0 := by
  intro h'
  exact h (by rw [h', Real.sqrt_zero])

/-! ### Non-decomposable squared error loss -/

theorem hasDerivAt_diff_sq (e : Nat → ℝ) (i : Nat) (x : ℝ) : HasDerivAt (fun u => (u - e i) ^ 2) (2 * (x - e i)) x := by
  refine (((hasDerivAt_id x).sub_const (e i)).pow 2).congr_deriv ?_
  simp

/-- **C33**, non-decomposable squared error loss. If the expected scores are `1` or `-1`, gradients and Hessians are the partial derivatives of
the loss, unless all scores are equal to the expected scores. In this case, where the loss is not differentiable, they are zero. The restriction
of the expected scores is what is missing for regression data. -/
theorem ndSquaredError_derivatives_partial {T : Type} (convert : T → ℝ) (n : Nat) (t : Nat → T) (s : Nat → ℝ)
    (h1 : ∀ i < n, convert (t i) ^ 2 = 1) {gradients hessians : List ℝ} (hg : gradients.length = n) (hh : hessians.length = n * (n + 1) / 2) :
    ∃ G H, ndSquaredErrorUpdate convert (row n s) (row n t) gradients hessians n = .ok (G, H) ∧ G.length = n ∧ H.length = n * (n + 1) / 2 ∧
      (jointSquaredLoss n (fun i => convert (t i)) s ≠ 0 →
        (∀ c < n, ∃ g, G[c]? = some g ∧ HasPartialDeriv (jointSquaredLoss n (fun i => convert (t i))) c s g) ∧
        ∀ c < n, ∀ r ≤ c, ∃ h, H[c * (c + 1) / 2 + r]? = some h ∧
          HasPartialDeriv (partialDeriv (jointSquaredLoss n (fun i => convert (t i))) c) r s h) ∧
      (jointSquaredLoss n (fun i => convert (t i)) s = 0 →
        (∀ c < n, G[c]? = some 0) ∧ ∀ c < n, ∀ r ≤ c, H[c * (c + 1) / 2 + r]? = some 0) := by
  let ψ : Nat → ℝ → ℝ := fun i x => x - convert (t i)
  have hψ : ∀ i x, HasDerivAt (fun u => ψ i u ^ 2) (2 * ψ i x) x := hasDerivAt_diff_sq (fun i => convert (t i))
  obtain ⟨g', l1, l2, l3⟩ := loop_store (body := fun i (st : ℝ × List ℝ) => do
      let predictedScore ← readAt (row n s) i
      let y ← readAt (row n t) i
      let expectedScore := convert y
      let x := predictedScore * predictedScore + -2 * expectedScore * predictedScore + 1
      let gradients ← writeAt st.2 i x
      return (st.1 + x, gradients)) (φ := fun i => ψ i (s i) ^ 2) (by
      intro i hi st
      have hx : s i * s i + -2 * convert (t i) * s i + 1 = ψ i (s i) ^ 2 := by
        simp only [ψ]
        linear_combination -h1 i hi
      rw [readAt_row hi, ok_bind, readAt_row hi, ok_bind]
      simp only
      rw [hx]) hg
  obtain ⟨G, H, t1, t2, t3, t4, t5⟩ := triangle_ok (column := fun gradients i => do
      let predictedScore ← readAt (row n s) i
      let y ← readAt (row n t) i
      let expectedScore := convert y
      let x ← readAt gradients i
      return (divideOrZero (predictedScore - expectedScore) (Real.sqrt (sumSq ψ n s)),
        divideOrZero (sumSq ψ n s - x) (pow15 (sumSq ψ n s)), fun j => do
          let predictedScore2 ← readAt (row n s) j
          let y2 ← readAt (row n t) j
          let expectedScore2 := convert y2
          return divideOrZero (-(predictedScore - expectedScore) * (predictedScore2 - expectedScore2)) (pow15 (sumSq ψ n s))))
    (hs := hessians) l2 hh
    (fun c => divideOrZero (ψ c (s c)) (Real.sqrt (sumSq ψ n s)))
    (fun c => divideOrZero (sumSq ψ n s - ψ c (s c) ^ 2) (pow15 (sumSq ψ n s)))
    (fun c r => divideOrZero (-ψ c (s c) * ψ r (s r)) (pow15 (sumSq ψ n s))) (by
      intro c hc gs' hgs
      rw [readAt_row hc, ok_bind, readAt_row hc, ok_bind, readAt_of_getElem? (hgs.trans (l3 c hc)), ok_bind]
      refine ⟨_, rfl, fun r hr => ?_⟩
      rw [readAt_row (by omega), ok_bind, readAt_row (by omega), ok_bind]
      rfl)
  have hL : ∀ s, jointSquaredLoss n (fun i => convert (t i)) s = Real.sqrt (sumSq ψ n s) := fun _ => rfl
  have hL' : jointSquaredLoss n (fun i => convert (t i)) = fun s => Real.sqrt (sumSq ψ n s) := rfl
  refine ⟨G, H, ?_, t2, t3, fun hD => ?_, fun hD => ?_⟩
  · unfold ndSquaredErrorUpdate
    rw [l1, ok_bind]
    exact t1
  · rw [hL] at hD
    rw [hL']
    refine ⟨fun c hc => ⟨_, t4 c hc, ?_⟩, fun c hc r hr => ?_⟩
    · rw [divideOrZero_ne hD]
      exact hasDerivAt_sqrt_sumSq hψ s hc (sumSq_ne hD)
    · by_cases e : r = c
      · subst e
        refine ⟨_, (t5 r hc).1, ?_⟩
        rw [divideOrZero_ne (pow15_ne hD)]
        have := norm_hessian_self hψ s hc (sumSq_ne hD) (d := 1) ((hasDerivAt_id (s r)).sub_const _)
        rwa [one_mul] at this
      · refine ⟨_, (t5 c hc).2 r (by omega), ?_⟩
        rw [divideOrZero_ne (pow15_ne hD), neg_mul]
        exact norm_hessian_ne hψ s hc (by omega) (sumSq_ne hD) e
  · rw [hL] at hD
    refine ⟨fun c hc => ?_, fun c hc r hr => ?_⟩
    · rw [t4 c hc, hD, divideOrZero_zero]
    · by_cases e : r = c
      · subst e
        have := (t5 r hc).1
        rw [pow15_zero hD, divideOrZero_zero] at this
        exact this
      · have := (t5 c hc).2 r (by omega)
        rw [pow15_zero hD, divideOrZero_zero] at this
        exact this

theorem binaryConversion_eq (y : Bool) : binaryConversion y = expected y := rfl

theorem expected_sq (y : Bool) : expected y ^ 2 = 1 := by
  unfold expected
  cases y <;> norm_num

/-- **C33**, non-decomposable squared error loss, classification. -/
theorem ndSquaredError_derivatives (n : Nat) (y : Nat → Bool) (s : Nat → ℝ) {gradients hessians : List ℝ} (hg : gradients.length = n)
    (hh : hessians.length = n * (n + 1) / 2) (hD : jointSquaredLoss n (fun i => expected (y i)) s ≠ 0) :
    ∃ G H, ndSquaredErrorUpdate binaryConversion (row n s) (row n y) gradients hessians n = .ok (G, H) ∧ G.length = n ∧
      H.length = n * (n + 1) / 2 ∧
      (∀ c < n, ∃ g, G[c]? = some g ∧ HasPartialDeriv (jointSquaredLoss n (fun i => expected (y i))) c s g) ∧
      ∀ c < n, ∀ r ≤ c, ∃ h, H[c * (c + 1) / 2 + r]? = some h ∧
        HasPartialDeriv (partialDeriv (jointSquaredLoss n (fun i => expected (y i))) c) r s h := by
  obtain ⟨G, H, h1, h2, h3, h4, -⟩ := ndSquaredError_derivatives_partial binaryConversion n y s (fun i _ => expected_sq (y i)) hg hh
  exact ⟨G, H, h1, h2, h3, h4 hD⟩

/-- The function for rule heads that do not need the full Hessian matrix computes the same gradients and the diagonal of the Hessian matrix. -/
theorem ndSquaredErrorDecomposable_derivatives {T : Type} (toBool : T → Bool) (n : Nat) (t : Nat → T) (s : Nat → ℝ) {statistics : List (Stat ℝ)}
    (hst : statistics.length = n) (hD : jointSquaredLoss n (fun i => expected (toBool (t i))) s ≠ 0) :
    ∃ S, ndSquaredErrorUpdateDecomposable toBool (row n s) (row n t) statistics n = .ok S ∧ S.length = n ∧
      ∀ c < n, ∃ u, S[c]? = some u ∧ HasPartialDeriv (jointSquaredLoss n (fun i => expected (toBool (t i)))) c s u.gradient ∧
        HasPartialDeriv (partialDeriv (jointSquaredLoss n (fun i => expected (toBool (t i)))) c) c s u.hessian := by
  let ψ : Nat → ℝ → ℝ := fun i x => x - expected (toBool (t i))
  have hψ : ∀ i x, HasDerivAt (fun u => ψ i u ^ 2) (2 * ψ i x) x := hasDerivAt_diff_sq (fun i => expected (toBool (t i)))
  obtain ⟨g', l1, l2, l3⟩ := loop_store_stat (body := fun i (st : ℝ × List (Stat ℝ)) => do
      let predictedScore ← readAt (row n s) i
      let y ← readAt (row n t) i
      let expectedScore : ℝ := if toBool y then 1 else -1
      let x := predictedScore * predictedScore + -2 * expectedScore * predictedScore + 1
      let statistics ← storeTemporarily st.2 i x
      return (st.1 + x, statistics)) (φ := fun i => ψ i (s i) ^ 2) (by
      intro i hi st
      have hx : s i * s i + -2 * (if toBool (t i) = true then 1 else -1) * s i + 1 = ψ i (s i) ^ 2 := by
        simp only [ψ]
        have := expected_sq (toBool (t i))
        have he : (if toBool (t i) = true then (1 : ℝ) else -1) = expected (toBool (t i)) := rfl
        rw [he]
        linear_combination -this
      rw [readAt_row hi, ok_bind, readAt_row hi, ok_bind]
      simp only
      rw [hx]) hst
  obtain ⟨S, d1, d2, d3⟩ := diagonal_ok (entry := fun statistics i => do
      let predictedScore ← readAt (row n s) i
      let y ← readAt (row n t) i
      let expectedScore : ℝ := if toBool y then 1 else -1
      let u ← readAt statistics i
      return ⟨divideOrZero (predictedScore - expectedScore) (Real.sqrt (sumSq ψ n s)),
        divideOrZero (sumSq ψ n s - u.gradient) (pow15 (sumSq ψ n s))⟩) l2
    (fun c => ⟨divideOrZero (ψ c (s c)) (Real.sqrt (sumSq ψ n s)), divideOrZero (sumSq ψ n s - ψ c (s c) ^ 2) (pow15 (sumSq ψ n s))⟩) (by
      intro c hc st' hst'
      obtain ⟨u, u1, u2⟩ := l3 c hc
      rw [readAt_row hc, ok_bind, readAt_row hc, ok_bind, readAt_of_getElem? (hst'.trans u1), ok_bind, u2]
      rfl)
  have hL : ∀ s, jointSquaredLoss n (fun i => expected (toBool (t i))) s = Real.sqrt (sumSq ψ n s) := fun _ => rfl
  have hL' : jointSquaredLoss n (fun i => expected (toBool (t i))) = fun s => Real.sqrt (sumSq ψ n s) := rfl
  refine ⟨S, ?_, d2, fun c hc => ⟨_, d3 c hc, ?_⟩⟩
  · unfold ndSquaredErrorUpdateDecomposable
    rw [l1, ok_bind]
    exact d1
  · rw [hL] at hD
    rw [hL']
    simp only
    rw [divideOrZero_ne hD, divideOrZero_ne (pow15_ne hD)]
    refine ⟨hasDerivAt_sqrt_sumSq hψ s hc (sumSq_ne hD), ?_⟩
    have := norm_hessian_self hψ s hc (sumSq_ne hD) (d := 1) ((hasDerivAt_id (s c)).sub_const _)
    rwa [one_mul] at this

/-- The evaluation measure returns the distance from the scores `1` and `-1`. -/
theorem ndSquaredErrorEvaluate_eq {T : Type} (toBool : T → Bool) (n : Nat) (t : Nat → T) (s : Nat → ℝ) :
    ndSquaredErrorEvaluate toBool (row n s) (row n t) n = .ok (jointSquaredLoss n (fun i => expected (toBool (t i))) s) := by
  unfold ndSquaredErrorEvaluate
  rw [loop_sum (φ := fun i => (s i - expected (toBool (t i))) ^ 2) (by
    intro i hi acc
    rw [readAt_row hi, ok_bind, readAt_row hi, ok_bind]
    refine congrArg Except.ok ?_
    have he : (if toBool (t i) = true then (1 : ℝ) else -1) = expected (toBool (t i)) := rfl
    rw [he]
    ring), ok_bind, zero_add]
  rfl

theorem jointSquaredLoss_one (e s : Nat → ℝ) : jointSquaredLoss 1 e s = |s 0 - e 0| := by
  unfold jointSquaredLoss
  rw [sum_range_one, Real.sqrt_sq_eq_abs]

theorem jointSquaredLoss_one_deriv {e s : Nat → ℝ} (h : s 0 < e 0) : HasPartialDeriv (jointSquaredLoss 1 e) 0 s (-1) := by
  unfold HasPartialDeriv
  simp only [jointSquaredLoss_one, Function.update_self]
  have hev : (fun t => |t - e 0|) =ᶠ[nhds (s 0)] fun t => e 0 - t := by
    filter_upwards [gt_mem_nhds h] with t ht
    rw [abs_of_neg (by linarith)]
    ring
  refine HasDerivAt.congr_of_eventuallyEq ?_ hev
  exact ((hasDerivAt_id (s 0)).const_sub (e 0)).congr_deriv rfl

/-- **C33** does not hold for the non-decomposable squared error loss and regression data: the square of the expected score is taken to be one.
The score `0` and the target `2` result in the gradient `-2` rather than `-1`. -/
theorem ndSquaredError_regression_gradient :
    ndSquaredErrorUpdate id [0] [2] [0] [0] 1 = .ok ([-2], [0]) ∧ HasPartialDeriv (jointSquaredLoss 1 (fun _ => 2)) 0 (fun _ => 0) (-1) := by
  refine ⟨?_, jointSquaredLoss_one_deriv (by norm_num)⟩
  simp [ndSquaredErrorUpdate, triangle, loop, loopFrom, readAt, writeAt, divideOrZero, pow15, ok_bind, pure_eq_ok]

/-- **C33** does not hold for the non-decomposable squared error loss and regression data: the function for rule heads that do not need the full
Hessian matrix takes the target for a label. The gradient of the score `3` and the target `4` points into the wrong direction. -/
theorem ndSquaredError_regression_direction :
    ndSquaredErrorUpdateDecomposable scoreToBool [3] [4] [⟨0, 0⟩] 1 = .ok [⟨1, 0⟩] ∧
      HasPartialDeriv (jointSquaredLoss 1 (fun _ => 4)) 0 (fun _ => 3) (-1) := by
  refine ⟨?_, jointSquaredLoss_one_deriv (by norm_num)⟩
  have h4 : Real.sqrt 4 = 2 := by
    rw [show (4 : ℝ) = 2 ^ 2 by norm_num]
    exact Real.sqrt_sq (by norm_num)
  have h5 : (3 : ℝ) * 3 + -2 * 1 * 3 + 1 = 4 := by norm_num
  simp [ndSquaredErrorUpdateDecomposable, storeTemporarily, diagonal, loop, loopFrom, readAt, writeAt, divideOrZero, pow15, ok_bind,
    pure_eq_ok, scoreToBool]
  norm_num [h4]

/-- **C34** does not hold for the non-decomposable squared error loss and regression data: the loss of a perfect prediction is not zero. -/
theorem ndSquaredError_regression_evaluate :
    ndSquaredErrorEvaluate scoreToBool [3] [3] 1 = .ok 2 ∧ jointSquaredLoss 1 (fun _ => 3) (fun _ => 3) = 0 := by
  constructor
  · have := ndSquaredErrorEvaluate_eq scoreToBool 1 (fun _ => (3 : ℝ)) (fun _ => 3)
    have h : row 1 (fun _ => (3 : ℝ)) = [3] := rfl
    rw [h] at this
    rw [this, jointSquaredLoss_one]
    simp only [scoreToBool, expected]
    norm_num
  · rw [jointSquaredLoss_one]
    norm_num

/-! ### Non-decomposable squared hinge loss -/

theorem ndSquaredHingeTerm_eq (y : Bool) (x : ℝ) : ndSquaredHingeTerm y x = (squaredHingeUpdate y x).gradient ^ 2 := by
  unfold ndSquaredHingeTerm squaredHingeUpdate
  cases y
  · simp only [Bool.false_eq_true, if_false]
    split_ifs <;> ring
  · simp only [if_true]
    split_ifs <;> ring

theorem hinge_zero_iff (y : Bool) (x : ℝ) : hinge y x = 0 ↔ (squaredHingeUpdate y x).gradient = 0 := by
  have := squaredHinge_sq y x
  constructor
  · intro h
    rw [h] at this
    simpa using this
  · intro h
    rw [h] at this
    have := this.symm
    simpa using this

theorem ndSquaredHingeGradient_eq (y : Bool) (x D a b z : ℝ) :
    (ndSquaredHingeGradientAndHessian y x D a b z).gradient = divideOrZero (squaredHingeUpdate y x).gradient a := by
  have h0 : divideOrZero (0 : ℝ) a = 0 := by
    unfold divideOrZero
    split <;> simp
  unfold ndSquaredHingeGradientAndHessian squaredHingeUpdate
  cases y
  · simp only [Bool.false_eq_true, if_false]
    split_ifs
    · rfl
    · exact h0.symm
  · simp only [if_true]
    split_ifs
    · rfl
    · exact h0.symm

theorem ndSquaredHingeHessian_eq {y : Bool} {x : ℝ} (h : hinge y x ≠ 0) (D a b z : ℝ) :
    (ndSquaredHingeGradientAndHessian y x D a b z).hessian = divideOrZero (D - z) b := by
  unfold ndSquaredHingeGradientAndHessian
  unfold hinge at h
  cases y
  · simp only [Bool.false_eq_true, if_false] at h ⊢
    rw [if_pos]
    by_contra h'
    exact h (max_eq_left (not_lt.1 h'))
  · simp only [if_true] at h ⊢
    rw [if_pos]
    by_contra h'
    exact h (max_eq_left (by linarith [not_lt.1 h']))

theorem ndSquaredHingeHessian_flat {y : Bool} {x : ℝ} (h : hinge y x = 0) (D a b z : ℝ) :
    (ndSquaredHingeGradientAndHessian y x D a b z).hessian = 1 := by
  unfold ndSquaredHingeGradientAndHessian
  unfold hinge at h
  cases y
  · simp only [Bool.false_eq_true, if_false] at h ⊢
    rw [if_neg]
    intro h'
    rw [max_eq_right (le_of_lt h')] at h
    linarith
  · simp only [if_true] at h ⊢
    rw [if_neg]
    intro h'
    rw [max_eq_right (by linarith)] at h
    linarith

theorem ndSquaredHingeNumerator_eq {y : Bool} {x : ℝ} (h : hinge y x ≠ 0) (y2 : Bool) (x2 : ℝ) :
    ndSquaredHingeNumerator y y2 x x2 = -((squaredHingeUpdate y x).gradient * (squaredHingeUpdate y2 x2).gradient) := by
  have h2 : (if y2 = true then (if x2 < 1 then x2 - 1 else 0) else (if x2 > 0 then x2 else 0)) = (squaredHingeUpdate y2 x2).gradient := by
    unfold squaredHingeUpdate
    cases y2
    · simp only [Bool.false_eq_true, if_false]
    · simp only [if_true]
  unfold ndSquaredHingeNumerator
  simp only
  rw [h2]
  unfold hinge at h
  cases y
  · simp only [Bool.false_eq_true, if_false] at h ⊢
    have : 0 < x := by
      by_contra h'
      exact h (max_eq_left (not_lt.1 h'))
    have : (squaredHingeUpdate false x).gradient = x := by
      simp [squaredHingeUpdate, this]
    rw [this]
    ring
  · simp only [if_true] at h ⊢
    have : x < 1 := by
      by_contra h'
      exact h (max_eq_left (by linarith [not_lt.1 h']))
    have : (squaredHingeUpdate true x).gradient = x - 1 := by
      simp [squaredHingeUpdate, this]
    rw [this]
    ring

theorem jointHingeLoss_eq (n : Nat) (y : Nat → Bool) :
    jointHingeLoss n y = fun s => Real.sqrt (sumSq (fun i x => (squaredHingeUpdate (y i) x).gradient) n s) := by
  funext s
  unfold jointHingeLoss sumSq
  refine congrArg _ (sum_congr rfl (fun i _ => ?_))
  rw [squaredHinge_sq]

/-- **C33**, non-decomposable squared hinge loss, what holds: unless the loss is zero, gradients are the partial derivatives of the loss, the
Hessian of an output is right if its hinge is not zero, and the Hessian of two outputs is right unless a gradient that is not zero is taken for
zero. If the hinge of an output is zero, its Hessian is set to one. -/
theorem ndSquaredHinge_derivatives_partial (isZero : ℝ → Bool) (n : Nat) (y : Nat → Bool) (s : Nat → ℝ) {gradients hessians : List ℝ}
    (hg : gradients.length = n) (hh : hessians.length = n * (n + 1) / 2) (hz : isZero 0 = true) (hD : jointHingeLoss n y s ≠ 0) :
    ∃ G H, ndSquaredHingeUpdate isZero (row n s) (row n y) gradients hessians n = .ok (G, H) ∧ G.length = n ∧ H.length = n * (n + 1) / 2 ∧
      (∀ c < n, ∃ g, G[c]? = some g ∧ HasPartialDeriv (jointHingeLoss n y) c s g ∧
        ((isZero g = true → g = 0) → ∀ r < c, ∃ h, H[c * (c + 1) / 2 + r]? = some h ∧
          HasPartialDeriv (partialDeriv (jointHingeLoss n y) c) r s h)) ∧
      (∀ c < n, hinge (y c) (s c) ≠ 0 → ∃ h, H[c * (c + 1) / 2 + c]? = some h ∧
        HasPartialDeriv (partialDeriv (jointHingeLoss n y) c) c s h) ∧
      ∀ c < n, hinge (y c) (s c) = 0 → H[c * (c + 1) / 2 + c]? = some 1 := by
  let ψ : Nat → ℝ → ℝ := fun i x => (squaredHingeUpdate (y i) x).gradient
  have hψ : ∀ i x, HasDerivAt (fun u => ψ i u ^ 2) (2 * ψ i x) x := fun i x => hasDerivAt_hinge_sq (y i) x
  rw [jointHingeLoss_eq] at hD ⊢
  change Real.sqrt (sumSq ψ n s) ≠ 0 at hD
  change ∃ G H, _ ∧ _ ∧ _ ∧ (∀ c < n, ∃ g, _ ∧ HasPartialDeriv (fun s => Real.sqrt (sumSq ψ n s)) c s g ∧ (_ → ∀ r < c, ∃ h, _ ∧
    HasPartialDeriv (partialDeriv (fun s => Real.sqrt (sumSq ψ n s)) c) r s h)) ∧ (∀ c < n, _ → ∃ h, _ ∧
    HasPartialDeriv (partialDeriv (fun s => Real.sqrt (sumSq ψ n s)) c) c s h) ∧ _
  obtain ⟨g', l1, l2, l3⟩ := loop_store (body := fun i (st : ℝ × List ℝ) => do
      let predictedScore ← readAt (row n s) i
      let trueLabel ← readAt (row n y) i
      let x := ndSquaredHingeTerm trueLabel predictedScore
      let gradients ← writeAt st.2 i x
      return (st.1 + x, gradients)) (φ := fun i => ψ i (s i) ^ 2) (by
      intro i hi st
      rw [readAt_row hi, ok_bind, readAt_row hi, ok_bind]
      simp only
      rw [ndSquaredHingeTerm_eq]) hg
  obtain ⟨G, H, t1, t2, t3, t4, t5⟩ := triangle_ok (column := fun gradients i => do
      let predictedScore ← readAt (row n s) i
      let trueLabel ← readAt (row n y) i
      let x ← readAt gradients i
      let t := ndSquaredHingeGradientAndHessian trueLabel predictedScore (sumSq ψ n s) (Real.sqrt (sumSq ψ n s)) (pow15 (sumSq ψ n s)) x
      return (t.gradient, t.hessian, fun j =>
        if isZero t.gradient then .ok 0 else do
          let trueLabel2 ← readAt (row n y) j
          let predictedScore2 ← readAt (row n s) j
          return divideOrZero (ndSquaredHingeNumerator trueLabel trueLabel2 predictedScore predictedScore2) (pow15 (sumSq ψ n s))))
    (hs := hessians) l2 hh
    (fun c => ψ c (s c) / Real.sqrt (sumSq ψ n s))
    (fun c => (ndSquaredHingeGradientAndHessian (y c) (s c) (sumSq ψ n s) (Real.sqrt (sumSq ψ n s)) (pow15 (sumSq ψ n s))
      (ψ c (s c) ^ 2)).hessian)
    (fun c r => if isZero (ψ c (s c) / Real.sqrt (sumSq ψ n s)) then 0
      else divideOrZero (ndSquaredHingeNumerator (y c) (y r) (s c) (s r)) (pow15 (sumSq ψ n s))) (by
      intro c hc gs' hgs
      have hgr : (ndSquaredHingeGradientAndHessian (y c) (s c) (sumSq ψ n s) (Real.sqrt (sumSq ψ n s)) (pow15 (sumSq ψ n s))
          (ψ c (s c) ^ 2)).gradient = ψ c (s c) / Real.sqrt (sumSq ψ n s) := by
        rw [ndSquaredHingeGradient_eq, divideOrZero_ne hD]
      rw [readAt_row hc, ok_bind, readAt_row hc, ok_bind, readAt_of_getElem? (hgs.trans (l3 c hc)), ok_bind]
      refine ⟨_, congrArg Except.ok (Prod.ext hgr rfl), fun r hr => ?_⟩
      rw [hgr]
      split_ifs
      · rfl
      · rw [readAt_row (by omega), ok_bind, readAt_row (by omega), ok_bind]
        rfl)
  refine ⟨G, H, ?_, t2, t3, fun c hc => ⟨_, t4 c hc, hasDerivAt_sqrt_sumSq hψ s hc (sumSq_ne hD), fun hzero r hr => ⟨_, (t5 c hc).2 r hr, ?_⟩⟩,
    fun c hc hne => ⟨_, (t5 c hc).1, ?_⟩, fun c hc h0 => ?_⟩
  · unfold ndSquaredHingeUpdate
    rw [l1, ok_bind]
    exact t1
  · have key := norm_hessian_ne hψ s hc (r := r) (by omega) (sumSq_ne hD) (by omega)
    by_cases hne : hinge (y c) (s c) = 0
    · have h0 : ψ c (s c) = 0 := (hinge_zero_iff _ _).1 hne
      rw [h0, zero_div, if_pos hz]
      rw [h0, zero_mul, neg_zero, zero_div] at key
      exact key
    · have h0 : ψ c (s c) ≠ 0 := fun h => hne ((hinge_zero_iff _ _).2 h)
      rw [if_neg (fun h => div_ne_zero h0 hD (hzero h)), divideOrZero_ne (pow15_ne hD), ndSquaredHingeNumerator_eq hne]
      exact key
  · rw [ndSquaredHingeHessian_eq hne, divideOrZero_ne (pow15_ne hD)]
    have := norm_hessian_self hψ s hc (sumSq_ne hD) (d := 1) (hasDerivAt_hinge_active hne)
    rwa [one_mul] at this
  · rw [← ndSquaredHingeHessian_flat h0]
    exact (t5 c hc).1

/-- **C33** does not hold for the non-decomposable squared hinge loss: if the score of a relevant label is greater than one, its Hessian is set to
one, but the second derivative of the loss is zero. -/
theorem ndSquaredHinge_flat (isZero : ℝ → Bool) (n : Nat) (y : Nat → Bool) (s : Nat → ℝ) {gradients hessians : List ℝ}
    (hg : gradients.length = n) (hh : hessians.length = n * (n + 1) / 2) (hz : isZero 0 = true) (hD : jointHingeLoss n y s ≠ 0) {c : Nat}
    (hc : c < n) (hy : y c = true) (hs : 1 < s c) :
    ∃ G H, ndSquaredHingeUpdate isZero (row n s) (row n y) gradients hessians n = .ok (G, H) ∧ H[c * (c + 1) / 2 + c]? = some 1 ∧
      HasPartialDeriv (partialDeriv (jointHingeLoss n y) c) c s 0 := by
  obtain ⟨G, H, h1, -, -, -, -, h6⟩ := ndSquaredHinge_derivatives_partial isZero n y s hg hh hz hD
  have hh0 : hinge (y c) (s c) = 0 := by
    rw [hy]
    simp only [hinge, if_true]
    exact max_eq_left (by linarith)
  refine ⟨G, H, h1, h6 c hc hh0, ?_⟩
  rw [jointHingeLoss_eq] at hD ⊢
  have key := norm_hessian_self (ψ := fun i x => (squaredHingeUpdate (y i) x).gradient) (fun i x => hasDerivAt_hinge_sq (y i) x) s hc
    (sumSq_ne hD) (d := 0) (by
      refine (hasDerivAt_const (s c) (0 : ℝ)).congr_of_eventuallyEq ?_
      filter_upwards [lt_mem_nhds hs] with u hu
      rw [hy]
      simp only [squaredHingeUpdate, if_true]
      rw [if_neg (by linarith)])
  rw [(hinge_zero_iff _ _).1 hh0] at key
  simpa using key

/-- The function for rule heads that do not need the full Hessian matrix computes the same gradients and the diagonal of the Hessian matrix. -/
theorem ndSquaredHingeDecomposable_derivatives_partial (n : Nat) (y : Nat → Bool) (s : Nat → ℝ) {statistics : List (Stat ℝ)}
    (hst : statistics.length = n) (hD : jointHingeLoss n y s ≠ 0) :
    ∃ S, ndSquaredHingeUpdateDecomposable (row n s) (row n y) statistics n = .ok S ∧ S.length = n ∧
      ∀ c < n, ∃ u, S[c]? = some u ∧ HasPartialDeriv (jointHingeLoss n y) c s u.gradient ∧
        (hinge (y c) (s c) ≠ 0 → HasPartialDeriv (partialDeriv (jointHingeLoss n y) c) c s u.hessian) ∧
        (hinge (y c) (s c) = 0 → u.hessian = 1) := by
  let ψ : Nat → ℝ → ℝ := fun i x => (squaredHingeUpdate (y i) x).gradient
  have hψ : ∀ i x, HasDerivAt (fun u => ψ i u ^ 2) (2 * ψ i x) x := fun i x => hasDerivAt_hinge_sq (y i) x
  have hL : jointHingeLoss n y = fun s => Real.sqrt (sumSq ψ n s) := jointHingeLoss_eq n y
  rw [hL] at hD ⊢
  simp only at hD
  obtain ⟨g', l1, l2, l3⟩ := loop_store_stat (body := fun i (st : ℝ × List (Stat ℝ)) => do
      let predictedScore ← readAt (row n s) i
      let trueLabel ← readAt (row n y) i
      let x := ndSquaredHingeTerm trueLabel predictedScore
      let statistics ← storeTemporarily st.2 i x
      return (st.1 + x, statistics)) (φ := fun i => ψ i (s i) ^ 2) (by
      intro i hi st
      rw [readAt_row hi, ok_bind, readAt_row hi, ok_bind]
      simp only
      rw [ndSquaredHingeTerm_eq]) hst
  obtain ⟨S, d1, d2, d3⟩ := diagonal_ok (entry := fun statistics i => do
      let predictedScore ← readAt (row n s) i
      let trueLabel ← readAt (row n y) i
      let t ← readAt statistics i
      return ndSquaredHingeGradientAndHessian trueLabel predictedScore (sumSq ψ n s) (Real.sqrt (sumSq ψ n s)) (pow15 (sumSq ψ n s)) t.gradient) l2
    (fun c => ndSquaredHingeGradientAndHessian (y c) (s c) (sumSq ψ n s) (Real.sqrt (sumSq ψ n s)) (pow15 (sumSq ψ n s)) (ψ c (s c) ^ 2)) (by
      intro c hc st' hst'
      obtain ⟨u, u1, u2⟩ := l3 c hc
      rw [readAt_row hc, ok_bind, readAt_row hc, ok_bind, readAt_of_getElem? (hst'.trans u1), ok_bind, u2]
      rfl)
  refine ⟨S, ?_, d2, fun c hc => ⟨_, d3 c hc, ?_, fun hne => ?_, fun h0 => ndSquaredHingeHessian_flat h0 _ _ _ _⟩⟩
  · unfold ndSquaredHingeUpdateDecomposable
    rw [l1, ok_bind]
    exact d1
  · rw [ndSquaredHingeGradient_eq, divideOrZero_ne hD]
    exact hasDerivAt_sqrt_sumSq hψ s hc (sumSq_ne hD)
  · rw [ndSquaredHingeHessian_eq hne, divideOrZero_ne (pow15_ne hD)]
    have := norm_hessian_self hψ s hc (sumSq_ne hD) (d := 1) (hasDerivAt_hinge_active hne)
    rwa [one_mul] at this

/-- The evaluation measure returns the value of the loss. -/
theorem ndSquaredHingeEvaluate_eq (n : Nat) (y : Nat → Bool) (s : Nat → ℝ) :
    ndSquaredHingeEvaluate (row n s) (row n y) n = .ok (jointHingeLoss n y s) := by
  unfold ndSquaredHingeEvaluate
  rw [loop_sum (φ := fun i => hinge (y i) (s i) ^ 2) (by
    intro i hi acc
    rw [readAt_row hi, ok_bind, readAt_row hi, ok_bind]
    refine congrArg Except.ok ?_
    rw [← squaredHinge_sq]
    unfold squaredHingeUpdate
    cases y i
    · simp only [Bool.false_eq_true, if_false]
      split_ifs <;> ring
    · simp only [if_true]
      split_ifs <;> ring), ok_bind, zero_add]
  rfl

/-! ### Examples -/

/-- Two outputs, one of which is relevant; the loss is not zero. -/
example : jointHingeLoss 2 (fun i => i == 0) (fun i => if i = 0 then 2 else 1) ≠ 0 ∧
    jointSquaredLoss 2 (fun i => expected (i == 0)) (fun i => if i = 0 then 2 else 1) ≠ 0 := by
  constructor
  · unfold jointHingeLoss hinge
    rw [sum_range_succ, sum_range_one]
    norm_num
  · unfold jointSquaredLoss expected
    rw [sum_range_succ, sum_range_one]
    norm_num

end MLRL.Loss
