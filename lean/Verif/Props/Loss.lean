import Verif.Lemma.Loss

/-!
# C33: gradients and Hessians are the derivatives of the loss

The statements refer to the losses defined by formulas in `Verif.Spec.Loss`; the values returned by the evaluation measures are shown to be
the values of the same formulas.
-/

namespace MLRL.Loss

open RuleEval Finset
open Statistics (triangularNumber)

/-! ### Decomposable losses -/

/-- The implementation that avoids overflows computes the logistic function. -/
theorem logisticFunction_eq (x : ℝ) : logisticFunction x = Real.exp x / (1 + Real.exp x) := by
  unfold logisticFunction
  split
  · rfl
  · simp only [Real.exp_neg]
    have := Real.exp_pos x
    field_simp
    ring

theorem squaredLogisticFunction_eq (x : ℝ) : squaredLogisticFunction x = logisticFunction x ^ 2 := by
  rw [logisticFunction_eq]
  unfold squaredLogisticFunction
  have := Real.exp_pos x
  split
  · simp only
    rw [div_pow, sq, sq, add_comm]
  · simp only [Real.exp_neg]
    field_simp

theorem logSumExp_eq (x : ℝ) : logSumExp x = Real.log (1 + Real.exp x) := by
  unfold logSumExp
  split
  · have h := Real.exp_pos x
    rw [zero_sub, Real.exp_neg]
    have : 1 + Real.exp x = Real.exp x * ((Real.exp x)⁻¹ + 1) := by
      field_simp
    rw [this, Real.log_mul (ne_of_gt h) (by positivity), Real.log_exp]
  · rfl

/-- **C33**, logistic loss: gradient and Hessian are the first and second derivative of the loss for all scores. -/
theorem logistic_derivatives (y : Bool) (x : ℝ) :
    logisticEvaluate y x = logisticLoss y x ∧
    HasDerivAt (logisticEvaluate y) (logisticUpdate y x).gradient x ∧
    HasDerivAt (deriv (logisticEvaluate y)) (logisticUpdate y x).hessian x ∧ 0 < (logisticUpdate y x).hessian := by
  have he : ∀ x, logisticEvaluate y x = logisticLoss y x := by
    intro x
    unfold logisticEvaluate logisticLoss margin
    rw [logSumExp_eq]
  have hval : logisticEvaluate y = fun s => Real.log (1 + Real.exp (margin y s)) := by
    funext s
    rw [he]
    rfl
  have key : ∀ x, HasDerivAt (logisticEvaluate y) (logisticUpdate y x).gradient x := by
    intro x
    rw [hval]
    refine (((hasDerivAt_exp_margin y x).const_add 1).log (by positivity)).congr_deriv ?_
    unfold logisticUpdate
    simp only [logisticFunction_eq]
    have hx := Real.exp_pos x
    cases y
    · unfold sgn margin
      simp
    · unfold sgn margin
      simp only [if_true, Real.exp_neg]
      field_simp
      ring
  refine ⟨he x, key x, ?_, ?_⟩
  · have hd : deriv (logisticEvaluate y) = fun x => (logisticUpdate y x).gradient := by
      funext x
      exact (key x).deriv
    rw [hd]
    have hl : HasDerivAt logisticFunction (logisticFunction x - logisticFunction x ^ 2) x := by
      have e : logisticFunction = fun x => Real.exp x / (1 + Real.exp x) := by
        funext x
        exact logisticFunction_eq x
      rw [e]
      have hx := Real.exp_pos x
      refine ((Real.hasDerivAt_exp x).div ((Real.hasDerivAt_exp x).const_add 1) (by positivity)).congr_deriv ?_
      field_simp
    unfold logisticUpdate
    simp only [squaredLogisticFunction_eq]
    cases y
    · simpa using hl
    · simpa using hl.sub_const 1
  · unfold logisticUpdate
    simp only [squaredLogisticFunction_eq, logisticFunction_eq]
    have hx := Real.exp_pos x
    have : Real.exp x / (1 + Real.exp x) - (Real.exp x / (1 + Real.exp x)) ^ 2 = Real.exp x / (1 + Real.exp x) ^ 2 := by
      field_simp
      ring
    rw [this]
    positivity

/-- **C33**, squared error: gradient and Hessian are half the derivatives of the loss, for labels as well as for real-valued targets. -/
theorem squaredError_derivatives (e x : ℝ) (y : Bool) :
    squaredErrorEvaluateRegression e x = (x - e) ^ 2 ∧
    HasDerivAt (squaredErrorEvaluateRegression e) (2 * (squaredErrorUpdateRegression e x).gradient) x ∧
    HasDerivAt (deriv (squaredErrorEvaluateRegression e)) (2 * (squaredErrorUpdateRegression e x).hessian) x ∧
    squaredErrorUpdate y x = squaredErrorUpdateRegression (expected y) x ∧
    squaredErrorEvaluate y x = squaredErrorEvaluateRegression (expected y) x := by
  have hval : squaredErrorEvaluateRegression e = fun s => (s - e) ^ 2 := by
    funext s
    unfold squaredErrorEvaluateRegression
    ring
  have key : ∀ x, HasDerivAt (squaredErrorEvaluateRegression e) (2 * (x - e)) x := by
    intro x
    rw [hval]
    refine (((hasDerivAt_id x).sub_const e).pow 2).congr_deriv ?_
    simp
  refine ⟨by rw [hval], key x, ?_, rfl, rfl⟩
  have hd : deriv (squaredErrorEvaluateRegression e) = fun x => 2 * (x - e) := by
    funext x
    exact (key x).deriv
  rw [hd]
  unfold squaredErrorUpdateRegression
  simpa using ((hasDerivAt_id x).sub_const e).const_mul 2

/-- The square of `max 0 x` is differentiable everywhere. -/
theorem hasDerivAt_max_sq (x : ℝ) : HasDerivAt (fun u : ℝ => max 0 u ^ 2) (2 * max 0 x) x := by
  rcases lt_trichotomy x 0 with h | h | h
  · have e : (fun u : ℝ => max 0 u ^ 2) =ᶠ[nhds x] fun _ => 0 := by
      filter_upwards [gt_mem_nhds h] with u hu
      rw [max_eq_left (le_of_lt hu)]
      simp
    rw [max_eq_left (le_of_lt h)]
    simpa using (hasDerivAt_const x (0 : ℝ)).congr_of_eventuallyEq e
  · subst h
    rw [max_self, mul_zero, hasDerivAt_iff_isLittleO_nhds_zero]
    simp only [zero_add, max_self, smul_eq_mul, mul_zero, sub_zero]
    have : (fun h : ℝ => max 0 h ^ 2 - 0 ^ 2) =O[nhds 0] fun h : ℝ => h ^ 2 := by
      refine Asymptotics.IsBigO.of_bound 1 (Filter.Eventually.of_forall (fun h => ?_))
      rw [Real.norm_eq_abs, Real.norm_eq_abs, abs_of_nonneg (by simpa using sq_nonneg (max 0 h)), abs_of_nonneg (sq_nonneg h), one_mul]
      rcases le_total 0 h with hh | hh
      · rw [max_eq_right hh]
        simp
      · rw [max_eq_left hh]
        simpa using sq_nonneg h
    refine this.trans_isLittleO ?_
    simpa using Asymptotics.isLittleO_pow_id (𝕜 := ℝ) one_lt_two
  · have e : (fun u : ℝ => max 0 u ^ 2) =ᶠ[nhds x] fun u => u ^ 2 := by
      filter_upwards [lt_mem_nhds h] with u hu
      rw [max_eq_right (le_of_lt hu)]
    rw [max_eq_right (le_of_lt h)]
    refine HasDerivAt.congr_of_eventuallyEq ?_ e
    refine (hasDerivAt_pow 2 x).congr_deriv ?_
    simp

/-- The numerator that is used by the squared hinge losses: the derivative of half the squared hinge. -/
theorem squaredHinge_gradient_eq (y : Bool) (x : ℝ) :
    (squaredHingeUpdate y x).gradient = if y then -hinge y x else hinge y x := by
  unfold squaredHingeUpdate hinge
  cases y
  · simp only [Bool.false_eq_true, if_false, gt_iff_lt]
    split
    · rw [max_eq_right (by linarith)]
    · rw [max_eq_left (by linarith)]
  · simp only [if_true]
    split
    · rw [max_eq_right (by linarith)]
      ring
    · rw [max_eq_left (by linarith)]
      simp

theorem squaredHinge_sq (y : Bool) (x : ℝ) : (squaredHingeUpdate y x).gradient ^ 2 = hinge y x ^ 2 := by
  rw [squaredHinge_gradient_eq]
  split <;> ring

theorem hasDerivAt_hinge_sq (y : Bool) (x : ℝ) :
    HasDerivAt (fun u => (squaredHingeUpdate y u).gradient ^ 2) (2 * (squaredHingeUpdate y x).gradient) x := by
  simp only [squaredHinge_sq]
  rw [squaredHinge_gradient_eq]
  unfold hinge
  cases y
  · simpa using hasDerivAt_max_sq x
  · have h := (hasDerivAt_max_sq (1 - x)).comp x ((hasDerivAt_id x).const_sub 1)
    simpa [Function.comp_def] using h

theorem hasDerivAt_hinge_active {y : Bool} {x : ℝ} (hne : hinge y x ≠ 0) : HasDerivAt (fun u => (squaredHingeUpdate y u).gradient) 1 x := by
  unfold hinge at hne
  unfold squaredHingeUpdate
  cases y
  · simp only [Bool.false_eq_true, if_false, gt_iff_lt] at hne ⊢
    have hx : 0 < x := by
      by_contra h
      exact hne (max_eq_left (not_lt.1 h))
    refine (hasDerivAt_id x).congr_of_eventuallyEq ?_
    filter_upwards [lt_mem_nhds hx] with u hu
    rw [if_pos hu]
    rfl
  · simp only [if_true] at hne ⊢
    have hx : x < 1 := by
      by_contra h
      exact hne (max_eq_left (by linarith [not_lt.1 h]))
    refine ((hasDerivAt_id x).sub_const 1).congr_of_eventuallyEq ?_
    filter_upwards [gt_mem_nhds hx] with u hu
    rw [if_pos hu]
    rfl

/-- **C33**, squared hinge loss, what holds of it: the gradient is half the derivative of the loss for all scores. The Hessian is half the
second derivative if the loss is not zero; otherwise the second derivative is zero (`squaredHinge_flat`), whereas the Hessian is always one.
In any case, the quadratic approximation that is given by gradient and Hessian is an upper bound on the loss. -/
theorem squaredHinge_derivatives_partial (y : Bool) (x : ℝ) :
    squaredHingeEvaluate y x = hinge y x ^ 2 ∧
    HasDerivAt (squaredHingeEvaluate y) (2 * (squaredHingeUpdate y x).gradient) x ∧
    (squaredHingeEvaluate y x ≠ 0 → HasDerivAt (deriv (squaredHingeEvaluate y)) (2 * (squaredHingeUpdate y x).hessian) x) ∧
    ∀ d, squaredHingeEvaluate y (x + d) ≤
      squaredHingeEvaluate y x + 2 * ((squaredHingeUpdate y x).gradient * d + (squaredHingeUpdate y x).hessian * d ^ 2 / 2) := by
  have he : ∀ x, squaredHingeEvaluate y x = hinge y x ^ 2 := by
    intro x
    rw [← squaredHinge_sq]
    unfold squaredHingeEvaluate squaredHingeUpdate
    cases y <;> simp only [Bool.false_eq_true, if_false, if_true, gt_iff_lt] <;> split <;> ring
  have hval : squaredHingeEvaluate y = fun u => (squaredHingeUpdate y u).gradient ^ 2 := by
    funext u
    rw [he, squaredHinge_sq]
  refine ⟨he x, ?_, ?_, ?_⟩
  · rw [hval]
    exact hasDerivAt_hinge_sq y x
  · intro hne
    have hd : deriv (squaredHingeEvaluate y) = fun x => 2 * (squaredHingeUpdate y x).gradient := by
      funext x
      rw [hval]
      exact (hasDerivAt_hinge_sq y x).deriv
    rw [hd]
    have hh : (squaredHingeUpdate y x).hessian = 1 := rfl
    rw [hh]
    refine HasDerivAt.const_mul 2 ?_
    exact hasDerivAt_hinge_active (fun h => hne (by rw [he, h]; simp))
  · intro d
    unfold squaredHingeEvaluate squaredHingeUpdate
    cases y <;> simp only [Bool.false_eq_true, if_false, if_true, gt_iff_lt] <;> split <;> split <;> nlinarith [sq_nonneg d, sq_nonneg (x + d), sq_nonneg (1 - (x + d)), sq_nonneg (1 - x), sq_nonneg x]

/-- Negation of **C33** for the Hessian of the squared hinge loss: where the loss is constant, the second derivative is zero, but the Hessian
is one. -/
theorem squaredHinge_flat {x : ℝ} (hx : 1 < x) :
    HasDerivAt (deriv (squaredHingeEvaluate true)) 0 x ∧ (squaredHingeUpdate true x).hessian = 1 := by
  refine ⟨?_, rfl⟩
  have hd : deriv (squaredHingeEvaluate true) = fun x => 2 * (squaredHingeUpdate true x).gradient := by
    funext x
    exact (squaredHinge_derivatives_partial true x).2.1.deriv
  rw [hd]
  refine (hasDerivAt_const x (0 : ℝ)).congr_of_eventuallyEq ?_
  filter_upwards [lt_mem_nhds hx] with u hu
  unfold squaredHingeUpdate
  simp [not_lt.2 (le_of_lt hu)]

/-! ### Non-decomposable logistic loss -/

theorem shifted_sum (n : Nat) (y : Nat → Bool) (s : Nat → ℝ) (m : ℝ) :
    Real.exp (0 - m) + ∑ i ∈ range n, Real.exp (margin (y i) (s i) - m) = Real.exp (-m) * sumExp n y s := by
  unfold sumExp
  rw [mul_add, mul_one, mul_sum, zero_sub]
  congr 1
  refine sum_congr rfl (fun i _ => ?_)
  rw [← Real.exp_add]
  congr 1
  ring

theorem shifted_div (x m : ℝ) {S : ℝ} (hS : 0 < S) : divideOrZero (Real.exp (x - m)) (Real.exp (-m) * S) = Real.exp x / S := by
  unfold divideOrZero
  have h := Real.exp_pos (-m)
  rw [if_neg (ne_of_gt (mul_pos h hS)), sub_eq_add_neg, Real.exp_add, mul_comm, mul_div_mul_left _ _ (ne_of_gt h)]

/-- **C33**: the arguments of the exponential function that are used by the non-decomposable logistic loss are never positive: `max` is not
less than zero and the largest negated margin, `max2` is not less than zero, than any negated margin and than the sum of the negated margins of
any two outputs. -/
theorem ndLogisticMax2_spec (n : Nat) (y : Nat → Bool) (s : Nat → ℝ) {gradients : List ℝ} (hg : gradients.length = n) :
    ∃ max max2 G, ndLogisticMax2 (row n s) (row n y) gradients n = .ok (max, max2, G) ∧ G.length = n ∧
      (∀ c < n, G[c]? = some (margin (y c) (s c))) ∧ 0 ≤ max ∧ (∀ c < n, margin (y c) (s c) ≤ max) ∧ 0 ≤ max2 ∧
      (∀ c < n, margin (y c) (s c) ≤ max2) ∧ ∀ c < n, ∀ r < n, r ≠ c → margin (y c) (s c) + margin (y r) (s r) ≤ max2 := by
  obtain ⟨st, h1, h2, h3, h4, h5, h6, h7, h8⟩ := loop_rule (body := fun c (st : ℝ × ℝ × List ℝ) => do
      let predictedScore ← readAt (row n s) c
      let trueLabel ← readAt (row n y) c
      let x := if trueLabel then -predictedScore else predictedScore
      let gradients ← writeAt st.2.2 c x
      return if x > st.1 then (x, st.1, gradients) else if x > st.2.1 then (st.1, x, gradients) else (st.1, st.2.1, gradients))
    (fun c st => st.2.2.length = n ∧ (∀ c' < c, st.2.2[c']? = some (margin (y c') (s c'))) ∧ 0 ≤ st.2.1 ∧ st.2.1 ≤ st.1 ∧
      (∀ c' < c, margin (y c') (s c') ≤ st.1) ∧
      (∀ c' < c, ∀ r < c', margin (y c') (s c') + margin (y r) (s r) ≤ st.1 + st.2.1) ∧ True) n (0, 0, gradients)
    ⟨hg, by simp, le_refl _, le_refl _, by simp, by simp, trivial⟩ (by
      rintro c ⟨M, M2, G⟩ hc ⟨g1, g2, g3, g4, g5, g6, -⟩
      simp only at g1 g2 g3 g4 g5 g6
      have hG : ∀ c' < c + 1, (G.set c (margin (y c) (s c)))[c']? = some (margin (y c') (s c')) := by
        intro c' hc'
        by_cases e : c = c'
        · subst e
          rw [List.getElem?_set_self (by omega)]
        · rw [List.getElem?_set_ne e]
          exact g2 c' (by omega)
      have split1 : ∀ {p : Nat → Prop}, p c → (∀ c' < c, p c') → ∀ c' < c + 1, p c' := by
        intro p h0 h c' hc'
        rcases Nat.lt_succ_iff_lt_or_eq.1 hc' with h' | h'
        · exact h c' h'
        · subst h'
          exact h0
      have hrun : ∀ st : ℝ × ℝ × List ℝ, st = (M, M2, G) → (do
          let predictedScore ← readAt (row n s) c
          let trueLabel ← readAt (row n y) c
          let x := if trueLabel then -predictedScore else predictedScore
          let gradients ← writeAt st.2.2 c x
          return if x > st.1 then (x, st.1, gradients) else if x > st.2.1 then (st.1, x, gradients) else (st.1, st.2.1, gradients) : Res _) =
          .ok (if margin (y c) (s c) > M then (margin (y c) (s c), M, G.set c (margin (y c) (s c)))
            else if margin (y c) (s c) > M2 then (M, margin (y c) (s c), G.set c (margin (y c) (s c)))
            else (M, M2, G.set c (margin (y c) (s c)))) := by
        rintro _ rfl
        rw [readAt_row hc, ok_bind, readAt_row hc, ok_bind]
        simp only
        rw [writeAt_of_lt (by omega), ok_bind]
        rfl
      refine ⟨_, hrun _ rfl, ?_⟩
      generalize hx : margin (y c) (s c) = x at hG
      split_ifs with k1 k2
      · refine ⟨by simpa using g1, hG, by linarith, le_of_lt k1, split1 (le_of_eq hx) (fun c' h' => ?_),
          split1 (fun r hr => ?_) (fun c' h' r hr => ?_), trivial⟩
        · have := g5 c' h'
          simp only
          linarith
        · have := g5 r hr
          simp only
          linarith
        · have := g6 c' h' r hr
          simp only
          linarith
      · refine ⟨by simpa using g1, hG, by simp only; linarith, not_lt.1 k1, split1 (by simp only; linarith) g5,
          split1 (fun r hr => ?_) (fun c' h' r hr => ?_), trivial⟩
        · have := g5 r hr
          simp only
          linarith
        · have := g6 c' h' r hr
          simp only
          linarith
      · refine ⟨by simpa using g1, hG, g3, g4, split1 (by simp only; linarith) g5, split1 (fun r hr => ?_) g6, trivial⟩
        have := g5 r hr
        simp only
        linarith)
  refine ⟨st.1, st.2.1 + st.1, st.2.2, ?_, h2, h3, by linarith, h6, by linarith, fun c hc => ?_, fun c hc r hr hne => ?_⟩
  · unfold ndLogisticMax2
    rw [h1, ok_bind]
    rfl
  · have := h6 c hc
    linarith
  · rcases Nat.lt_or_gt_of_ne hne with h' | h'
    · have := h7 c hc r h'
      linarith
    · have := h7 r hr c h'
      linarith

/-- **C33**, non-decomposable logistic loss: for all scores, gradients and Hessians are the partial derivatives of the loss; the Hessian matrix
is given by the columns of its upper triangle. -/
theorem ndLogistic_derivatives (n : Nat) (y : Nat → Bool) (s : Nat → ℝ) {gradients hessians : List ℝ} (hg : gradients.length = n)
    (hh : hessians.length = n * (n + 1) / 2) :
    ∃ G H, ndLogisticUpdate (row n s) (row n y) gradients hessians n = .ok (G, H) ∧ G.length = n ∧ H.length = n * (n + 1) / 2 ∧
      (∀ c < n, ∃ g, G[c]? = some g ∧ HasPartialDeriv (jointLogisticLoss n y) c s g) ∧
      ∀ c < n, ∀ r ≤ c, ∃ h, H[c * (c + 1) / 2 + r]? = some h ∧ HasPartialDeriv (partialDeriv (jointLogisticLoss n y) c) r s h := by
  obtain ⟨max, max2, G, m1, m2, m3, -, -, -⟩ := ndLogisticMax2_spec n y s hg
  have hS := sumExp_pos n y s
  obtain ⟨G', H', t1, t2, t3, t4, t5⟩ := triangle_ok (column := fun _ c => do
      let predictedScore ← readAt (row n s) c
      let trueLabel ← readAt (row n y) c
      let invertedExpectedScore : ℝ := if trueLabel then -1 else 1
      let x := predictedScore * invertedExpectedScore
      let t := ndLogisticGradientAndHessian invertedExpectedScore x max (Real.exp (-max) * sumExp n y s)
      return (t.gradient, t.hessian, fun r => do
        let predictedScore2 ← readAt (row n s) r
        let trueLabel2 ← readAt (row n y) r
        let expectedScore2 : ℝ := if trueLabel2 then 1 else -1
        let x2 := predictedScore2 * -expectedScore2
        return invertedExpectedScore * expectedScore2 * divideOrZero (Real.exp (x + x2 - max2)) (Real.exp (-max2) * sumExp n y s) *
          divideOrZero (Real.exp (0 - max2)) (Real.exp (-max2) * sumExp n y s))) (gs := G) (hs := hessians) m2 hh
    (fun c => sgn (y c) * Real.exp (margin (y c) (s c)) / sumExp n y s)
    (fun c => Real.exp (margin (y c) (s c)) / sumExp n y s * (1 - Real.exp (margin (y c) (s c)) / sumExp n y s))
    (fun c r => -(sgn (y c) * sgn (y r) * Real.exp (margin (y c) (s c)) * Real.exp (margin (y r) (s r)) / sumExp n y s ^ 2)) (by
      intro c hc gs' _
      have hx : s c * (if y c = true then (-1 : ℝ) else 1) = margin (y c) (s c) := by
        rw [margin_eq, mul_comm]
        rfl
      rw [readAt_row hc, ok_bind, readAt_row hc, ok_bind]
      simp only
      rw [hx]
      unfold ndLogisticGradientAndHessian
      simp only
      rw [shifted_div _ _ hS]
      refine ⟨_, congrArg Except.ok (Prod.ext ?_ rfl), fun r hr => ?_⟩
      · simp only
        rw [mul_div_assoc]
        rfl
      · have hx2 : s r * -(if y r = true then (1 : ℝ) else -1) = margin (y r) (s r) := by
          rw [margin_eq, mul_comm]
          unfold sgn
          cases y r <;> simp
        have hsg : (if y r = true then (1 : ℝ) else -1) = -sgn (y r) := by
          unfold sgn
          cases y r <;> simp
        rw [readAt_row (by omega), ok_bind, readAt_row (by omega), ok_bind, hx2, hsg, shifted_div _ _ hS, shifted_div _ _ hS]
        refine congrArg Except.ok ?_
        have hsc : (if y c = true then (-1 : ℝ) else 1) = sgn (y c) := rfl
        rw [hsc, Real.exp_add, Real.exp_zero]
        field_simp)
  refine ⟨G', H', ?_, t2, t3, fun c hc => ⟨_, t4 c hc, jointLogistic_gradient y s hc⟩, fun c hc r hr => ?_⟩
  · unfold ndLogisticUpdate
    rw [m1, ok_bind]
    simp only
    obtain ⟨st, l1, l2⟩ := loop_rule (body := fun c (st : ℝ × ℝ) => do
        let x ← readAt G c
        return (st.1 + Real.exp (x - max), st.2 + Real.exp (x - max2)))
      (fun i st => st = (Real.exp (0 - max) + ∑ j ∈ range i, Real.exp (margin (y j) (s j) - max),
        Real.exp (0 - max2) + ∑ j ∈ range i, Real.exp (margin (y j) (s j) - max2))) n (Real.exp (0 - max), Real.exp (0 - max2)) (by simp) (by
        rintro i _ hi rfl
        refine ⟨_, by rw [readAt_of_getElem? (m3 i hi), ok_bind]; rfl, ?_⟩
        simp only
        rw [sum_range_succ, sum_range_succ, add_assoc, add_assoc])
    rw [l1, l2, ok_bind]
    simp only
    rw [shifted_sum, shifted_sum]
    exact t1
  · have := jointLogistic_hessian y s hc (r := r) (by omega)
    split at this
    · rename_i e
      subst e
      exact ⟨_, (t5 r hc).1, this⟩
    · exact ⟨_, (t5 c hc).2 r (by omega), this⟩

/-- The function that is used for rule heads that do not need the full Hessian matrix computes the same gradients and the diagonal of the
Hessian matrix. -/
theorem ndLogisticDecomposable_derivatives (n : Nat) (y : Nat → Bool) (s : Nat → ℝ) {statistics : List (Stat ℝ)} (hst : statistics.length = n) :
    ∃ S, ndLogisticUpdateDecomposable (row n s) (row n y) statistics n = .ok S ∧ S.length = n ∧
      ∀ c < n, ∃ t, S[c]? = some t ∧ HasPartialDeriv (jointLogisticLoss n y) c s t.gradient ∧
        HasPartialDeriv (partialDeriv (jointLogisticLoss n y) c) c s t.hessian := by
  have hS := sumExp_pos n y s
  obtain ⟨st, l1, l2, l3⟩ := loop_rule (body := fun c (st : ℝ × List (Stat ℝ)) => do
      let predictedScore ← readAt (row n s) c
      let trueLabel ← readAt (row n y) c
      let x := if trueLabel then -predictedScore else predictedScore
      let statistics ← storeTemporarily st.2 c x
      return (if x > st.1 then x else st.1, statistics))
    (fun i st => st.2.length = n ∧ ∀ j < i, ∃ t, st.2[j]? = some t ∧ t.gradient = margin (y j) (s j)) n (0, statistics) ⟨hst, by simp⟩ (by
      rintro i ⟨a, b⟩ hi ⟨g1, g2⟩
      simp only at g1 g2
      obtain ⟨hess, e1⟩ := storeTemporarily_ok (st := b) (i := i) (by omega) (margin (y i) (s i))
      refine ⟨(if margin (y i) (s i) > a then margin (y i) (s i) else a, b.set i ⟨margin (y i) (s i), hess⟩), ?_, by simpa using g1, ?_⟩
      · rw [readAt_row hi, ok_bind, readAt_row hi, ok_bind]
        simp only
        have hx : (if y i = true then -s i else s i) = margin (y i) (s i) := rfl
        rw [hx, e1]
        rfl
      · intro j hj
        simp only
        by_cases e : i = j
        · subst e
          exact ⟨_, List.getElem?_set_self (by omega), rfl⟩
        · rw [List.getElem?_set_ne e]
          exact g2 j (by omega))
  obtain ⟨S, d1, d2, d3⟩ := diagonal_ok (entry := fun _ c => do
      let predictedScore ← readAt (row n s) c
      let trueLabel ← readAt (row n y) c
      let invertedExpectedScore : ℝ := if trueLabel then -1 else 1
      let x := predictedScore * invertedExpectedScore
      return ndLogisticGradientAndHessian invertedExpectedScore x st.1 (Real.exp (-st.1) * sumExp n y s)) l2
    (fun c => ⟨sgn (y c) * Real.exp (margin (y c) (s c)) / sumExp n y s,
      Real.exp (margin (y c) (s c)) / sumExp n y s * (1 - Real.exp (margin (y c) (s c)) / sumExp n y s)⟩) (by
      intro c hc _ _
      have hx : s c * (if y c = true then (-1 : ℝ) else 1) = margin (y c) (s c) := by
        rw [margin_eq, mul_comm]
        rfl
      rw [readAt_row hc, ok_bind, readAt_row hc, ok_bind]
      simp only
      rw [hx]
      unfold ndLogisticGradientAndHessian
      simp only
      rw [shifted_div _ _ hS, mul_div_assoc]
      rfl)
  refine ⟨S, ?_, d2, fun c hc => ⟨_, d3 c hc, jointLogistic_gradient y s hc, ?_⟩⟩
  · unfold ndLogisticUpdateDecomposable ndLogisticMax
    rw [l1, ok_bind]
    simp only
    rw [loop_sum (φ := fun i => Real.exp (margin (y i) (s i) - st.1)) (by
      intro i hi acc
      obtain ⟨t, t1, t2⟩ := l3 i hi
      rw [readAt_of_getElem? t1, ok_bind, t2]
      rfl), ok_bind, shifted_sum]
    exact d1
  · have := jointLogistic_hessian y s hc hc
    rw [if_pos rfl] at this
    exact this

/-- The evaluation measure returns the value of the loss. -/
theorem ndLogisticEvaluate_eq (n : Nat) (y : Nat → Bool) (s : Nat → ℝ) :
    ndLogisticEvaluate (row n s) (row n y) n = .ok (jointLogisticLoss n y s) := by
  unfold ndLogisticEvaluate
  obtain ⟨m, l1, -⟩ := loop_rule (body := fun i max => do
      let trueLabel ← readAt (row n y) i
      let predictedScore ← readAt (row n s) i
      let x := if trueLabel then -predictedScore else predictedScore
      return if x > max then x else max) (fun _ _ => True) n (0 : ℝ) trivial (by
      intro i a hi _
      exact ⟨_, by rw [readAt_row hi, ok_bind, readAt_row hi, ok_bind]; rfl, trivial⟩)
  rw [l1, ok_bind, loop_sum (φ := fun i => Real.exp (margin (y i) (s i) - m)) (by
      intro i hi acc
      rw [readAt_row hi, ok_bind, readAt_row hi, ok_bind]
      rfl), ok_bind, shifted_sum]
  refine congrArg Except.ok ?_
  have hS := sumExp_pos n y s
  rw [Real.log_mul (Real.exp_ne_zero _) (ne_of_gt hS), Real.log_exp]
  unfold jointLogisticLoss sumExp
  ring

/-- Two outputs, one of which is relevant, and arrays that contain values of a previous call. -/
example : ∃ G H, ndLogisticUpdate [5, -1] [true, false] [7, 8] [1, 2, 3] 2 = .ok (G, H) ∧ G.length = 2 ∧ H.length = 3 := by
  obtain ⟨G, H, h1, h2, h3, -⟩ := ndLogistic_derivatives 2 (fun i => i == 0) (fun i => if i = 0 then 5 else -1) (gradients := [7, 8])
    (hessians := [1, 2, 3]) rfl rfl
  refine ⟨G, H, ?_, h2, h3⟩
  simpa [row, List.range_succ] using h1

/-- The loss is not zero, such that the Hessian of the squared hinge loss is right. -/
example : squaredHingeEvaluate true (-3) = 16 := by
  norm_num [squaredHingeEvaluate]

end MLRL.Loss
