import Verif.Lemma.StatisticsProvider
import Verif.Props.Loss
import Verif.Props.LossNorm

/-!
# The gradients and Hessians of the losses that are not decomposable
-/

namespace MLRL.Provider

open Update RuleEval Finset Loss

/-! ### Logistic loss -/

/-- The partial derivatives of the logistic loss. -/
noncomputable def logisticRates (n : Nat) (y : Nat → Nat → Bool) : Rates where
  gradient i s c := partialDeriv (jointLogisticLoss n (y i)) c s
  hessian i s c k := partialDeriv (partialDeriv (jointLogisticLoss n (y i)) c) k s

theorem logistic_laws (n : Nat) (y : Nat → Nat → Bool) : JointLaws (logisticLoss n (fun i => row n (y i))) n (logisticRates n y) where
  update i s gs hs hg hh := by
    obtain ⟨G, H, h1, h2, h3, h4, h5⟩ := ndLogistic_derivatives n (y i) s hg hh
    refine ⟨(G, H), h1, row_ext' h2 (fun c hc => ?_), h3, fun c hc k hk => ?_⟩
    · obtain ⟨g, g1, g2⟩ := h4 c hc
      rw [g1]
      exact congrArg some g2.deriv.symm
    · obtain ⟨g, g1, g2⟩ := h5 c hc k hk
      rw [g1]
      exact congrArg some g2.deriv.symm
  updateDecomposable i s st hst := by
    obtain ⟨S, h1, h2, h3⟩ := ndLogisticDecomposable_derivatives n (y i) s hst
    refine h1.trans (congrArg Except.ok (row_ext' h2 (fun c hc => ?_)))
    obtain ⟨t, t1, t2, t3⟩ := h3 c hc
    rw [t1]
    obtain ⟨a, b⟩ := t
    refine congrArg some ?_
    have e1 : a = partialDeriv (jointLogisticLoss n (y i)) c s := t2.deriv.symm
    have e2 : b = partialDeriv (partialDeriv (jointLogisticLoss n (y i)) c) c s := t3.deriv.symm
    rw [e1, e2]
    rfl

/-! ### Squared error loss -/

/-- The squared difference between a score and an expected score, if the latter is `1` or `-1`. -/
noncomputable def difference (e s : Nat → ℝ) (j : Nat) : ℝ := s j * s j + -2 * e j * s j + 1

/-- What is computed for the squared error loss. -/
noncomputable def squaredErrorRates (n : Nat) (e : Nat → Nat → ℝ) : Rates where
  gradient i s c := divideOrZero (s c - e i c) (Real.sqrt (∑ j ∈ range n, difference (e i) s j))
  hessian i s c k :=
    if k = c then divideOrZero ((∑ j ∈ range n, difference (e i) s j) - difference (e i) s c) (pow15 (∑ j ∈ range n, difference (e i) s j))
    else divideOrZero (-(s c - e i c) * (s k - e i k)) (pow15 (∑ j ∈ range n, difference (e i) s j))

theorem squaredError_update {T : Type} (convert : T → ℝ) (toBool : T → Bool) (n : Nat) (y : Nat → Nat → T) (i : Nat) (s : Nat → ℝ)
    (gs hs : List ℝ) (hg : gs.length = n) (hh : hs.length = n * (n + 1) / 2) :
    ∃ st, (squaredErrorLoss convert toBool n (fun i => row n (y i))).update i (row n s) (gs, hs) = .ok st ∧
      JointVals n (squaredErrorRates n (fun i j => convert (y i j))) i s st := by
  obtain ⟨g', l1, l2, l3⟩ := loop_store (body := fun j (st : ℝ × List ℝ) => do
      let predictedScore ← readAt (row n s) j
      let t ← readAt (row n (y i)) j
      let expectedScore := convert t
      let x := predictedScore * predictedScore + -2 * expectedScore * predictedScore + 1
      let gradients ← writeAt st.2 j x
      return (st.1 + x, gradients)) (φ := difference (fun j => convert (y i j)) s) (by
      intro j hj st
      rw [readAt_row hj, ok_bind, readAt_row hj, ok_bind]
      rfl) hg
  obtain ⟨G, H, t1, t2, t3, t4, t5⟩ := triangle_ok (column := fun gradients j => do
      let predictedScore ← readAt (row n s) j
      let t ← readAt (row n (y i)) j
      let expectedScore := convert t
      let x ← readAt gradients j
      return (divideOrZero (predictedScore - expectedScore) (Real.sqrt (∑ j ∈ range n, difference (fun j => convert (y i j)) s j)),
        divideOrZero ((∑ j ∈ range n, difference (fun j => convert (y i j)) s j) - x)
          (pow15 (∑ j ∈ range n, difference (fun j => convert (y i j)) s j)), fun k => do
          let predictedScore2 ← readAt (row n s) k
          let t2 ← readAt (row n (y i)) k
          let expectedScore2 := convert t2
          return divideOrZero (-(predictedScore - expectedScore) * (predictedScore2 - expectedScore2))
            (pow15 (∑ j ∈ range n, difference (fun j => convert (y i j)) s j))))
    (hs := hs) l2 hh
    (fun c => (squaredErrorRates n (fun i j => convert (y i j))).gradient i s c)
    (fun c => divideOrZero ((∑ j ∈ range n, difference (fun j => convert (y i j)) s j) - difference (fun j => convert (y i j)) s c)
      (pow15 (∑ j ∈ range n, difference (fun j => convert (y i j)) s j)))
    (fun c k => divideOrZero (-(s c - convert (y i c)) * (s k - convert (y i k)))
      (pow15 (∑ j ∈ range n, difference (fun j => convert (y i j)) s j))) (by
      intro c hc gs' hgs
      rw [readAt_row hc, ok_bind, readAt_row hc, ok_bind, readAt_of_getElem? (hgs.trans (l3 c hc)), ok_bind]
      refine ⟨_, rfl, fun r hr => ?_⟩
      rw [readAt_row (by omega), ok_bind, readAt_row (by omega), ok_bind]
      rfl)
  refine ⟨(G, H), ?_, row_ext' t2 t4, t3, fun c hc k hk => ?_⟩
  · simp only [squaredErrorLoss]
    unfold ndSquaredErrorUpdate
    rw [l1, ok_bind]
    exact t1
  · simp only [squaredErrorRates]
    split
    · rename_i e
      subst e
      exact (t5 k hc).1
    · exact (t5 c hc).2 k (by omega)

theorem squaredError_updateDecomposable {T : Type} (convert : T → ℝ) (toBool : T → Bool) (n : Nat) (y : Nat → Nat → T) (i : Nat) (s : Nat → ℝ)
    (st : List (Stat ℝ)) (hst : st.length = n) :
    (squaredErrorLoss convert toBool n (fun i => row n (y i))).updateDecomposable i (row n s) st =
      .ok (separateVals n (squaredErrorRates n (fun i j => expected (toBool (y i j)))) i s) := by
  obtain ⟨g', l1, l2, l3⟩ := loop_store_stat (body := fun j (st : ℝ × List (Stat ℝ)) => do
      let predictedScore ← readAt (row n s) j
      let t ← readAt (row n (y i)) j
      let expectedScore : ℝ := if toBool t then 1 else -1
      let x := predictedScore * predictedScore + -2 * expectedScore * predictedScore + 1
      let statistics ← storeTemporarily st.2 j x
      return (st.1 + x, statistics)) (φ := difference (fun j => expected (toBool (y i j))) s) (by
      intro j hj st
      rw [readAt_row hj, ok_bind, readAt_row hj, ok_bind]
      rfl) hst
  obtain ⟨S, d1, d2, d3⟩ := diagonal_ok (entry := fun statistics j => do
      let predictedScore ← readAt (row n s) j
      let t ← readAt (row n (y i)) j
      let expectedScore : ℝ := if toBool t then 1 else -1
      let u ← readAt statistics j
      return ⟨divideOrZero (predictedScore - expectedScore) (Real.sqrt (∑ j ∈ range n, difference (fun j => expected (toBool (y i j))) s j)),
        divideOrZero ((∑ j ∈ range n, difference (fun j => expected (toBool (y i j))) s j) - u.gradient)
          (pow15 (∑ j ∈ range n, difference (fun j => expected (toBool (y i j))) s j))⟩) l2
    (fun c => ⟨(squaredErrorRates n (fun i j => expected (toBool (y i j)))).gradient i s c,
      (squaredErrorRates n (fun i j => expected (toBool (y i j)))).hessian i s c c⟩) (by
      intro c hc st' hst'
      obtain ⟨u, u1, u2⟩ := l3 c hc
      rw [readAt_row hc, ok_bind, readAt_row hc, ok_bind, readAt_of_getElem? (hst'.trans u1), ok_bind, u2]
      simp only [squaredErrorRates, if_true]
      rfl)
  simp only [squaredErrorLoss]
  unfold ndSquaredErrorUpdateDecomposable
  rw [l1, ok_bind]
  exact d1.trans (congrArg Except.ok (row_ext' d2 d3))

/-- The squared error loss satisfies the laws, if both functions expect the same scores. -/
theorem squaredError_laws {T : Type} (convert : T → ℝ) (toBool : T → Bool) (hc : ∀ t, convert t = expected (toBool t)) (n : Nat)
    (y : Nat → Nat → T) :
    JointLaws (squaredErrorLoss convert toBool n (fun i => row n (y i))) n (squaredErrorRates n (fun i j => convert (y i j))) where
  update := squaredError_update convert toBool n y
  updateDecomposable i s st hst := by
    simp only [hc]
    exact squaredError_updateDecomposable convert toBool n y i s st hst

/-! ### Squared hinge loss -/

/-- The sum of the squared hinge losses of the outputs. -/
noncomputable def hingeSum (n : Nat) (y : Nat → Bool) (s : Nat → ℝ) : ℝ := ∑ j ∈ range n, ndSquaredHingeTerm (y j) (s j)

/-- What is computed for an output. -/
noncomputable def hingeStat (n : Nat) (y : Nat → Bool) (s : Nat → ℝ) (c : Nat) : Stat ℝ :=
  ndSquaredHingeGradientAndHessian (y c) (s c) (hingeSum n y s) (Real.sqrt (hingeSum n y s)) (pow15 (hingeSum n y s))
    (ndSquaredHingeTerm (y c) (s c))

/-- What is computed for the squared hinge loss. -/
noncomputable def squaredHingeRates (isZero : ℝ → Bool) (n : Nat) (y : Nat → Nat → Bool) : Rates where
  gradient i s c := (hingeStat n (y i) s c).gradient
  hessian i s c k :=
    if k = c then (hingeStat n (y i) s c).hessian
    else if isZero (hingeStat n (y i) s c).gradient then 0
    else divideOrZero (ndSquaredHingeNumerator (y i c) (y i k) (s c) (s k)) (pow15 (hingeSum n (y i) s))

theorem squaredHinge_laws (isZero : ℝ → Bool) (n : Nat) (y : Nat → Nat → Bool) :
    JointLaws (squaredHingeLoss isZero n (fun i => row n (y i))) n (squaredHingeRates isZero n y) where
  update i s gs hs hg hh := by
    obtain ⟨g', l1, l2, l3⟩ := loop_store (body := fun j (st : ℝ × List ℝ) => do
        let predictedScore ← readAt (row n s) j
        let trueLabel ← readAt (row n (y i)) j
        let x := ndSquaredHingeTerm trueLabel predictedScore
        let gradients ← writeAt st.2 j x
        return (st.1 + x, gradients)) (φ := fun j => ndSquaredHingeTerm (y i j) (s j)) (by
        intro j hj st
        rw [readAt_row hj, ok_bind, readAt_row hj, ok_bind]) hg
    obtain ⟨G, H, t1, t2, t3, t4, t5⟩ := triangle_ok (column := fun gradients j => do
        let predictedScore ← readAt (row n s) j
        let trueLabel ← readAt (row n (y i)) j
        let x ← readAt gradients j
        let t := ndSquaredHingeGradientAndHessian trueLabel predictedScore (hingeSum n (y i) s) (Real.sqrt (hingeSum n (y i) s))
          (pow15 (hingeSum n (y i) s)) x
        return (t.gradient, t.hessian, fun k =>
          if isZero t.gradient then .ok 0 else do
            let trueLabel2 ← readAt (row n (y i)) k
            let predictedScore2 ← readAt (row n s) k
            return divideOrZero (ndSquaredHingeNumerator trueLabel trueLabel2 predictedScore predictedScore2) (pow15 (hingeSum n (y i) s))))
      (hs := hs) l2 hh (fun c => (hingeStat n (y i) s c).gradient) (fun c => (hingeStat n (y i) s c).hessian)
      (fun c k => if isZero (hingeStat n (y i) s c).gradient then 0
        else divideOrZero (ndSquaredHingeNumerator (y i c) (y i k) (s c) (s k)) (pow15 (hingeSum n (y i) s))) (by
        intro c hc gs' hgs
        rw [readAt_row hc, ok_bind, readAt_row hc, ok_bind, readAt_of_getElem? (hgs.trans (l3 c hc)), ok_bind]
        refine ⟨_, rfl, fun r hr => ?_⟩
        show (if isZero (hingeStat n (y i) s c).gradient = true then _ else _) = _
        split
        · rfl
        · rw [readAt_row (by omega), ok_bind, readAt_row (by omega), ok_bind]
          rfl)
    refine ⟨(G, H), ?_, row_ext' t2 t4, t3, fun c hc k hk => ?_⟩
    · simp only [squaredHingeLoss]
      unfold ndSquaredHingeUpdate
      rw [l1, ok_bind]
      exact t1
    · simp only [squaredHingeRates]
      split
      · rename_i e
        subst e
        exact (t5 k hc).1
      · exact (t5 c hc).2 k (by omega)
  updateDecomposable i s st hst := by
    obtain ⟨g', l1, l2, l3⟩ := loop_store_stat (body := fun j (st : ℝ × List (Stat ℝ)) => do
        let predictedScore ← readAt (row n s) j
        let trueLabel ← readAt (row n (y i)) j
        let x := ndSquaredHingeTerm trueLabel predictedScore
        let statistics ← storeTemporarily st.2 j x
        return (st.1 + x, statistics)) (φ := fun j => ndSquaredHingeTerm (y i j) (s j)) (by
        intro j hj st
        rw [readAt_row hj, ok_bind, readAt_row hj, ok_bind]) hst
    obtain ⟨S, d1, d2, d3⟩ := diagonal_ok (entry := fun statistics j => do
        let predictedScore ← readAt (row n s) j
        let trueLabel ← readAt (row n (y i)) j
        let t ← readAt statistics j
        return ndSquaredHingeGradientAndHessian trueLabel predictedScore (hingeSum n (y i) s) (Real.sqrt (hingeSum n (y i) s))
          (pow15 (hingeSum n (y i) s)) t.gradient) l2
      (fun c => ⟨(squaredHingeRates isZero n y).gradient i s c, (squaredHingeRates isZero n y).hessian i s c c⟩) (by
        intro c hc st' hst'
        obtain ⟨u, u1, u2⟩ := l3 c hc
        rw [readAt_row hc, ok_bind, readAt_row hc, ok_bind, readAt_of_getElem? (hst'.trans u1), ok_bind, u2]
        simp only [squaredHingeRates, if_true]
        rfl)
    simp only [squaredHingeLoss]
    unfold ndSquaredHingeUpdateDecomposable
    rw [l1, ok_bind]
    exact d1.trans (congrArg Except.ok (row_ext' d2 d3))

/-! ### Space for the Hessian matrix -/

/-- A loss that fails if there is not enough space for the Hessian matrix. -/
def NeedsSpace (loss : JointLoss) (n : Nat) : Prop := ∀ i r gs hs st, loss.update i r (gs, hs) = .ok st → n * (n + 1) / 2 ≤ hs.length

theorem bind_ok {A B : Type} {x : Res A} {f : A → Res B} {b : B} (h : (x >>= f) = .ok b) : ∃ a, x = .ok a ∧ f a = .ok b := by
  cases x with
  | error e => cases h
  | ok a => exact ⟨a, rfl, h⟩

theorem needsSpace (n : Nat) :
    (∀ labels, NeedsSpace (logisticLoss n labels) n) ∧
    (∀ (T : Type) (convert : T → ℝ) (toBool : T → Bool) truth, NeedsSpace (squaredErrorLoss convert toBool n truth) n) ∧
    ∀ isZero labels, NeedsSpace (squaredHingeLoss isZero n labels) n := by
  refine ⟨fun labels i r gs hs st h => ?_, fun T convert toBool truth i r gs hs st h => ?_, fun isZero labels i r gs hs st h => ?_⟩
  · simp only [logisticLoss] at h
    unfold ndLogisticUpdate at h
    obtain ⟨a, -, h⟩ := bind_ok h
    obtain ⟨b, -, h⟩ := bind_ok h
    exact triangle_length h
  · simp only [squaredErrorLoss] at h
    unfold ndSquaredErrorUpdate at h
    obtain ⟨a, -, h⟩ := bind_ok h
    exact triangle_length h
  · simp only [squaredHingeLoss] at h
    unfold ndSquaredHingeUpdate at h
    obtain ⟨a, -, h⟩ := bind_ok h
    exact triangle_length h

end MLRL.Provider
