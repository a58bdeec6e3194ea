import Verif.Model.Loss
import Verif.Spec.Loss
import Verif.Lemma.JointEval
import Mathlib.Analysis.Calculus.Deriv.Inv
import Mathlib.Analysis.Calculus.Deriv.Mul
import Mathlib.Analysis.SpecialFunctions.ExpDeriv
import Mathlib.Analysis.SpecialFunctions.Log.Deriv

/-!
# Lemmas about the model of loss functions
-/

set_option linter.unusedSectionVars false

namespace MLRL.Loss

open RuleEval Finset
open Statistics (triangularNumber)

theorem readAt_row {T : Type} {n i : Nat} {f : Nat → T} (h : i < n) : readAt (row n f) i = .ok (f i) := by
  rw [readAt_of_getElem?]
  unfold row
  simp [h]

theorem loop_sum {n : Nat} {body : Nat → ℝ → Res ℝ} {φ : Nat → ℝ} (h : ∀ i < n, ∀ acc, body i acc = .ok (acc + φ i)) (a : ℝ) :
    loop n body a = .ok (a + ∑ i ∈ range n, φ i) := by
  obtain ⟨s, h1, h2⟩ := loop_rule (body := body) (fun i s => s = a + ∑ j ∈ range i, φ j) n a (by simp) (by
    intro i s hi hs
    refine ⟨_, h i hi s, ?_⟩
    rw [hs, sum_range_succ]
    ring)
  rw [h1, h2]

theorem loop_store {n : Nat} {body : Nat → ℝ × List ℝ → Res (ℝ × List ℝ)} {φ : Nat → ℝ}
    (h : ∀ i < n, ∀ s, body i s = (do let g ← writeAt s.2 i (φ i); return (s.1 + φ i, g))) {g : List ℝ} (hg : g.length = n) :
    ∃ g', loop n body (0, g) = .ok (∑ i ∈ range n, φ i, g') ∧ g'.length = n ∧ ∀ i < n, g'[i]? = some (φ i) := by
  obtain ⟨s, h1, h2, h3, h4⟩ := loop_rule (body := body)
    (fun i s => s.1 = ∑ j ∈ range i, φ j ∧ s.2.length = n ∧ ∀ j < i, s.2[j]? = some (φ j)) n (0, g) (by simp [hg]) (by
    rintro i ⟨a, b⟩ hi ⟨g1, g2, g3⟩
    simp only at g1 g2 g3
    refine ⟨(a + φ i, b.set i (φ i)), ?_, ?_, by simpa using g2, ?_⟩
    · rw [h i hi]
      simp only
      rw [writeAt_of_lt (by omega)]
      rfl
    · simp only
      rw [g1, sum_range_succ]
    · intro j hj
      simp only
      by_cases e : i = j
      · subst e
        rw [List.getElem?_set_self (by omega)]
      · rw [List.getElem?_set_ne e]
        exact g3 j (by omega))
  refine ⟨s.2, ?_, h3, h4⟩
  rw [h1, ← h2]

theorem storeTemporarily_ok {st : List (Stat ℝ)} {i : Nat} (h : i < st.length) (x : ℝ) :
    ∃ hess, storeTemporarily st i x = .ok (st.set i ⟨x, hess⟩) := by
  refine ⟨st[i].hessian, ?_⟩
  unfold storeTemporarily
  rw [readAt_of_lt h, ok_bind, writeAt_of_lt h]

theorem loop_store_stat {n : Nat} {body : Nat → ℝ × List (Stat ℝ) → Res (ℝ × List (Stat ℝ))} {φ : Nat → ℝ}
    (h : ∀ i < n, ∀ s, body i s = (do let g ← storeTemporarily s.2 i (φ i); return (s.1 + φ i, g))) {g : List (Stat ℝ)} (hg : g.length = n) :
    ∃ g', loop n body (0, g) = .ok (∑ i ∈ range n, φ i, g') ∧ g'.length = n ∧ ∀ i < n, ∃ t, g'[i]? = some t ∧ t.gradient = φ i := by
  obtain ⟨s, h1, h2, h3, h4⟩ := loop_rule (body := body)
    (fun i s => s.1 = ∑ j ∈ range i, φ j ∧ s.2.length = n ∧ ∀ j < i, ∃ t, s.2[j]? = some t ∧ t.gradient = φ j) n (0, g) (by simp [hg]) (by
    rintro i ⟨a, b⟩ hi ⟨g1, g2, g3⟩
    simp only at g1 g2 g3
    obtain ⟨hess, e1⟩ := storeTemporarily_ok (st := b) (i := i) (by omega) (φ i)
    refine ⟨(a + φ i, b.set i ⟨φ i, hess⟩), ?_, ?_, by simpa using g2, ?_⟩
    · rw [h i hi, e1]
      rfl
    · simp only
      rw [g1, sum_range_succ]
    · intro j hj
      simp only
      by_cases e : i = j
      · subst e
        exact ⟨_, List.getElem?_set_self (by omega), rfl⟩
      · rw [List.getElem?_set_ne e]
        exact g3 j (by omega))
  refine ⟨s.2, ?_, h3, h4⟩
  rw [h1, ← h2]

theorem diagonal_ok {n : Nat} {entry : List (Stat ℝ) → Nat → Res (Stat ℝ)} {st : List (Stat ℝ)} (hst : st.length = n) (τ : Nat → Stat ℝ)
    (h : ∀ c < n, ∀ st', st'[c]? = st[c]? → entry st' c = .ok (τ c)) :
    ∃ st', diagonal n entry st = .ok st' ∧ st'.length = n ∧ ∀ c < n, st'[c]? = some (τ c) := by
  obtain ⟨s, h1, h2, h3, h4⟩ := loop_rule (body := fun c st => do
      let t ← entry st c
      writeAt st c t)
    (fun i s => s.length = n ∧ (∀ c < i, s[c]? = some (τ c)) ∧ ∀ c, i ≤ c → s[c]? = st[c]?) n st ⟨hst, by simp, by simp⟩ (by
    rintro i b hi ⟨g1, g2, g3⟩
    refine ⟨b.set i (τ i), ?_, by simpa using g1, ?_, ?_⟩
    · rw [h i hi b (g3 i (le_refl _)), ok_bind, writeAt_of_lt (by omega)]
    · intro c hc
      by_cases e : i = c
      · subst e
        rw [List.getElem?_set_self (by omega)]
      · rw [List.getElem?_set_ne e]
        exact g2 c (by omega)
    · intro c hc
      rw [List.getElem?_set_ne (by omega)]
      exact g3 c (by omega))
  exact ⟨s, h1, h2, h3⟩

theorem tri_succ (c : Nat) : triangularNumber (c + 1) = triangularNumber c + c + 1 := Statistics.triangularNumber_succ c

theorem triangle_ok {n : Nat} {column : List ℝ → Nat → Res (ℝ × ℝ × (Nat → Res ℝ))} {gs hs : List ℝ} (hg : gs.length = n)
    (hh : hs.length = triangularNumber n) (γ δ : Nat → ℝ) (ω : Nat → Nat → ℝ)
    (h : ∀ c < n, ∀ gs', gs'[c]? = gs[c]? → ∃ o, column gs' c = .ok (γ c, δ c, o) ∧ ∀ r < c, o r = .ok (ω c r)) :
    ∃ G H, triangle n column gs hs = .ok (G, H) ∧ G.length = n ∧ H.length = triangularNumber n ∧ (∀ c < n, G[c]? = some (γ c)) ∧
      ∀ c < n, H[triangularNumber c + c]? = some (δ c) ∧ ∀ r < c, H[triangularNumber c + r]? = some (ω c r) := by
  have tri_le : ∀ {c}, c < n → triangularNumber c + c < triangularNumber n := fun hc => Statistics.triangular_lt (le_refl _) hc
  obtain ⟨s, h1, h2, h3, h4, h5, h6, h7⟩ := loop_rule (body := fun c (s : Nat × List ℝ × List ℝ) => do
      let col ← column s.2.1 c
      let s' ← loop c (fun r (s' : Nat × List ℝ) => do
        let x ← col.2.2 r
        let hessians ← writeAt s'.2 s'.1 x
        return (s'.1 + 1, hessians)) (s.1, s.2.2)
      let gradients ← writeAt s.2.1 c col.1
      let hessians ← writeAt s'.2 s'.1 col.2.1
      return (s'.1 + 1, gradients, hessians))
    (fun c s => s.1 = triangularNumber c ∧ s.2.1.length = n ∧ s.2.2.length = triangularNumber n ∧
      (∀ c' < c, s.2.1[c']? = some (γ c')) ∧ (∀ c', c ≤ c' → s.2.1[c']? = gs[c']?) ∧
      ∀ c' < c, s.2.2[triangularNumber c' + c']? = some (δ c') ∧ ∀ r < c', s.2.2[triangularNumber c' + r]? = some (ω c' r))
    n (0, gs, hs) ⟨by simp [triangularNumber], hg, hh, by simp, by simp, by simp⟩ (by
    rintro c ⟨p, g, H⟩ hc ⟨g1, g2, g3, g4, g5, g6⟩
    simp only at g1 g2 g3 g4 g5 g6
    obtain ⟨o, o1, o2⟩ := h c hc g (g5 c (le_refl _))
    have hlt := tri_le hc
    have hbelow : ∀ c' < c, ∀ r ≤ c', triangularNumber c' + r < triangularNumber c := fun c' h' r hr => Statistics.triangular_lt hr h'
    obtain ⟨s', k1, k2, k3, k4, k5⟩ := loop_rule (body := fun r (s' : Nat × List ℝ) => do
        let x ← o r
        let hessians ← writeAt s'.2 s'.1 x
        return (s'.1 + 1, hessians))
      (fun r s' => s'.1 = triangularNumber c + r ∧ s'.2.length = triangularNumber n ∧
        (∀ k < triangularNumber c, s'.2[k]? = H[k]?) ∧ ∀ r' < r, s'.2[triangularNumber c + r']? = some (ω c r'))
      c (p, H) ⟨by simpa using g1, g3, by simp, by simp⟩ (by
      rintro r ⟨q, B⟩ hr ⟨m1, m2, m3, m4⟩
      simp only at m1 m2 m3 m4
      subst m1
      refine ⟨(triangularNumber c + r + 1, B.set (triangularNumber c + r) (ω c r)), ?_, by simp only; omega, by simpa using m2, ?_, ?_⟩
      · simp only
        rw [o2 r hr, ok_bind, writeAt_of_lt (by omega)]
        rfl
      · intro k hk
        simp only
        rw [List.getElem?_set_ne (by omega)]
        exact m3 k hk
      · intro r' hr'
        simp only
        by_cases e : r = r'
        · subst e
          rw [List.getElem?_set_self (by omega)]
        · rw [List.getElem?_set_ne (by omega)]
          exact m4 r' (by omega))
    obtain ⟨q, B⟩ := s'
    simp only at k2 k3 k4 k5
    subst k2
    refine ⟨(triangularNumber c + c + 1, g.set c (γ c), B.set (triangularNumber c + c) (δ c)), ?_, (tri_succ c).symm, by simpa using g2,
      by simpa using k3, ?_, ?_, ?_⟩
    · simp only
      rw [o1, ok_bind]
      simp only
      rw [k1, ok_bind, writeAt_of_lt (by omega), ok_bind]
      simp only
      rw [writeAt_of_lt (by omega)]
      rfl
    · intro c' hc'
      simp only
      by_cases e : c = c'
      · subst e
        rw [List.getElem?_set_self (by omega)]
      · rw [List.getElem?_set_ne e]
        exact g4 c' (by omega)
    · intro c' hc'
      simp only
      rw [List.getElem?_set_ne (by omega)]
      exact g5 c' (by omega)
    · intro c' hc'
      simp only
      by_cases e : c' = c
      · subst e
        refine ⟨List.getElem?_set_self (by omega), fun r hr => ?_⟩
        rw [List.getElem?_set_ne (by omega)]
        exact k5 r hr
      · have hb := hbelow c' (by omega)
        have hb1 := hb c' (le_refl _)
        refine ⟨?_, fun r hr => ?_⟩
        · rw [List.getElem?_set_ne (by omega), k4 _ hb1]
          exact (g6 c' (by omega)).1
        · have hb2 := hb r (by omega)
          rw [List.getElem?_set_ne (by omega), k4 _ hb2]
          exact (g6 c' (by omega)).2 r hr)
  refine ⟨s.2.1, s.2.2, ?_, h3, h4, h5, h7⟩
  unfold triangle
  rw [h1, ok_bind]
  rfl

/-! ### Derivatives -/

theorem hasDerivAt_sum_update (f : Nat → ℝ → ℝ) (s : Nat → ℝ) {n c : Nat} (hc : c < n) {d : ℝ} (h : HasDerivAt (f c) d (s c)) :
    HasDerivAt (fun t => ∑ i ∈ range n, f i (Function.update s c t i)) d (s c) := by
  have e : (fun t => ∑ i ∈ range n, f i (Function.update s c t i)) = fun t => f c t + ∑ i ∈ (range n).erase c, f i (s i) := by
    funext t
    rw [← add_sum_erase _ _ (mem_range.2 hc)]
    congr 1
    · rw [Function.update_self]
    · refine sum_congr rfl (fun i hi => ?_)
      rw [Function.update_of_ne (ne_of_mem_erase hi)]
  rw [e]
  exact h.add_const _

/-- The factor by which a score is multiplied. -/
noncomputable def sgn (y : Bool) : ℝ := if y then -1 else 1

theorem margin_eq (y : Bool) (x : ℝ) : margin y x = sgn y * x := by
  unfold margin sgn
  cases y <;> simp

theorem sgn_sq (y : Bool) : sgn y * sgn y = 1 := by
  unfold sgn
  cases y <;> norm_num

theorem hasDerivAt_exp_margin (y : Bool) (x : ℝ) : HasDerivAt (fun t => Real.exp (margin y t)) (sgn y * Real.exp (margin y x)) x := by
  simp only [margin_eq]
  have := ((hasDerivAt_id x).const_mul (sgn y)).exp
  simp only [id, mul_one] at this
  rw [mul_comm]
  exact this

/-- The sum in the logistic loss. -/
noncomputable def sumExp (n : Nat) (y : Nat → Bool) (s : Nat → ℝ) : ℝ := 1 + ∑ i ∈ range n, Real.exp (margin (y i) (s i))

theorem sumExp_pos (n : Nat) (y : Nat → Bool) (s : Nat → ℝ) : 0 < sumExp n y s := by
  unfold sumExp
  have : 0 ≤ ∑ i ∈ range n, Real.exp (margin (y i) (s i)) := sum_nonneg (fun i _ => le_of_lt (Real.exp_pos _))
  linarith

theorem hasDerivAt_sumExp {n : Nat} (y : Nat → Bool) (s : Nat → ℝ) {c : Nat} (hc : c < n) :
    HasDerivAt (fun t => sumExp n y (Function.update s c t)) (sgn (y c) * Real.exp (margin (y c) (s c))) (s c) := by
  unfold sumExp
  exact (hasDerivAt_sum_update (fun i x => Real.exp (margin (y i) x)) s hc (hasDerivAt_exp_margin (y c) (s c))).const_add 1

theorem jointLogistic_gradient {n : Nat} (y : Nat → Bool) (s : Nat → ℝ) {c : Nat} (hc : c < n) :
    HasPartialDeriv (jointLogisticLoss n y) c s (sgn (y c) * Real.exp (margin (y c) (s c)) / sumExp n y s) := by
  have h := (hasDerivAt_sumExp y s hc).log (by
    simp only [Function.update_eq_self]
    exact ne_of_gt (sumExp_pos n y s))
  simp only [Function.update_eq_self] at h
  exact h

theorem jointLogistic_hessian {n : Nat} (y : Nat → Bool) (s : Nat → ℝ) {c r : Nat} (hc : c < n) (hr : r < n) :
    HasPartialDeriv (partialDeriv (jointLogisticLoss n y) c) r s
      (if r = c then Real.exp (margin (y c) (s c)) / sumExp n y s * (1 - Real.exp (margin (y c) (s c)) / sumExp n y s)
        else -(sgn (y c) * sgn (y r) * Real.exp (margin (y c) (s c)) * Real.exp (margin (y r) (s r)) / sumExp n y s ^ 2)) := by
  have e : partialDeriv (jointLogisticLoss n y) c = fun s => sgn (y c) * Real.exp (margin (y c) (s c)) / sumExp n y s := by
    funext s
    exact (jointLogistic_gradient y s hc).deriv
  rw [e]
  unfold HasPartialDeriv
  have hS := sumExp_pos n y s
  have hS' : sumExp n y (Function.update s r (s r)) ≠ 0 := by
    rw [Function.update_eq_self]
    exact ne_of_gt hS
  have hden := hasDerivAt_sumExp y s hr
  split
  · rename_i hrc
    subst hrc
    have hnum : HasDerivAt (fun t => sgn (y r) * Real.exp (margin (y r) (Function.update s r t r)))
        (sgn (y r) * (sgn (y r) * Real.exp (margin (y r) (s r)))) (s r) := by
      simp only [Function.update_self]
      exact (hasDerivAt_exp_margin (y r) (s r)).const_mul _
    have h := hnum.div hden hS'
    simp only [Function.update_eq_self, Function.update_self] at h
    simp only [Function.update_self]
    refine h.congr_deriv ?_
    have h2 := sgn_sq (y r)
    generalize sgn (y r) = a at h2
    have hne := ne_of_gt hS
    generalize sumExp n y s = S at hne
    generalize Real.exp (margin (y r) (s r)) = E
    rw [div_eq_iff (pow_ne_zero 2 hne)]
    field_simp
    linear_combination (E * S - E ^ 2) * h2
  · rename_i hrc
    have hnum : HasDerivAt (fun t => sgn (y c) * Real.exp (margin (y c) (Function.update s r t c))) 0 (s r) := by
      simp only [Function.update_of_ne (Ne.symm hrc)]
      exact hasDerivAt_const _ _
    have h := hnum.div hden hS'
    simp only [Function.update_eq_self] at h
    refine h.congr_deriv ?_
    ring

/-! Losses that are the square root of a sum of squares -/

section Norm

variable (ψ : Nat → ℝ → ℝ)

/-- The sum of squares. -/
def sumSq (n : Nat) (s : Nat → ℝ) : ℝ := ∑ i ∈ range n, ψ i (s i) ^ 2

theorem sumSq_nonneg (n : Nat) (s : Nat → ℝ) : 0 ≤ sumSq ψ n s := sum_nonneg (fun _ _ => sq_nonneg _)

variable {ψ}

theorem hasDerivAt_sumSq (hψ : ∀ i x, HasDerivAt (fun u => ψ i u ^ 2) (2 * ψ i x) x) {n : Nat} (s : Nat → ℝ) {c : Nat} (hc : c < n) :
    HasDerivAt (fun t => sumSq ψ n (Function.update s c t)) (2 * ψ c (s c)) (s c) := by
  unfold sumSq
  exact hasDerivAt_sum_update (fun i x => ψ i x ^ 2) s hc (hψ c (s c))

theorem hasDerivAt_sqrt_sumSq (hψ : ∀ i x, HasDerivAt (fun u => ψ i u ^ 2) (2 * ψ i x) x) {n : Nat} (s : Nat → ℝ) {c : Nat} (hc : c < n)
    (hD : sumSq ψ n s ≠ 0) :
    HasDerivAt (fun t => Real.sqrt (sumSq ψ n (Function.update s c t))) (ψ c (s c) / Real.sqrt (sumSq ψ n s)) (s c) := by
  have h := (hasDerivAt_sumSq hψ s hc).sqrt (by rwa [Function.update_eq_self])
  rw [Function.update_eq_self] at h
  refine h.congr_deriv ?_
  rw [mul_div_mul_left _ _ two_ne_zero]

theorem partialDeriv_sqrt (hψ : ∀ i x, HasDerivAt (fun u => ψ i u ^ 2) (2 * ψ i x) x) {n : Nat} (s : Nat → ℝ) {c : Nat} (hc : c < n)
    (hD : sumSq ψ n s ≠ 0) :
    partialDeriv (fun s => Real.sqrt (sumSq ψ n s)) c s = ψ c (s c) / Real.sqrt (sumSq ψ n s) :=
  (hasDerivAt_sqrt_sumSq hψ s hc hD).deriv

theorem norm_hessian_ne (hψ : ∀ i x, HasDerivAt (fun u => ψ i u ^ 2) (2 * ψ i x) x) {n : Nat} (s : Nat → ℝ) {c r : Nat} (hc : c < n)
    (hr : r < n) (hD : sumSq ψ n s ≠ 0) (hcr : r ≠ c) :
    HasPartialDeriv (partialDeriv (fun s => Real.sqrt (sumSq ψ n s)) c) r s (-(ψ c (s c) * ψ r (s r)) / pow15 (sumSq ψ n s)) := by
  have hev : ∀ᶠ t in nhds (s r), sumSq ψ n (Function.update s r t) ≠ 0 :=
    (hasDerivAt_sumSq hψ s hr).continuousAt.eventually_ne (by rwa [Function.update_eq_self])
  have hpos : 0 < sumSq ψ n s := lt_of_le_of_ne (sumSq_nonneg ψ n s) (Ne.symm hD)
  have hsq : Real.sqrt (sumSq ψ n s) ≠ 0 := Real.sqrt_ne_zero'.2 hpos
  have hnum : HasDerivAt (fun t => ψ c (Function.update s r t c)) 0 (s r) := by
    simp only [Function.update_of_ne (Ne.symm hcr)]
    exact hasDerivAt_const _ _
  have h := hnum.div (hasDerivAt_sqrt_sumSq hψ s hr hD) (by rwa [Function.update_eq_self])
  simp only [Function.update_eq_self] at h
  unfold HasPartialDeriv
  refine HasDerivAt.congr_of_eventuallyEq (f := fun t => ψ c (Function.update s r t c) / Real.sqrt (sumSq ψ n (Function.update s r t))) ?_
    (hev.mono (fun t ht => partialDeriv_sqrt hψ _ hc ht))
  refine h.congr_deriv ?_
  unfold pow15
  have h2 := Real.sq_sqrt (le_of_lt hpos)
  generalize Real.sqrt (sumSq ψ n s) = q at hsq h2
  rw [← h2]
  field_simp
  ring

theorem norm_hessian_self (hψ : ∀ i x, HasDerivAt (fun u => ψ i u ^ 2) (2 * ψ i x) x) {n : Nat} (s : Nat → ℝ) {c : Nat} (hc : c < n)
    (hD : sumSq ψ n s ≠ 0) {d : ℝ} (h1 : HasDerivAt (ψ c) d (s c)) :
    HasPartialDeriv (partialDeriv (fun s => Real.sqrt (sumSq ψ n s)) c) c s
      ((d * sumSq ψ n s - ψ c (s c) ^ 2) / pow15 (sumSq ψ n s)) := by
  have hev : ∀ᶠ t in nhds (s c), sumSq ψ n (Function.update s c t) ≠ 0 :=
    (hasDerivAt_sumSq hψ s hc).continuousAt.eventually_ne (by rwa [Function.update_eq_self])
  have hpos : 0 < sumSq ψ n s := lt_of_le_of_ne (sumSq_nonneg ψ n s) (Ne.symm hD)
  have hsq : Real.sqrt (sumSq ψ n s) ≠ 0 := Real.sqrt_ne_zero'.2 hpos
  have hnum : HasDerivAt (fun t => ψ c (Function.update s c t c)) d (s c) := by
    simp only [Function.update_self]
    exact h1
  have h := hnum.div (hasDerivAt_sqrt_sumSq hψ s hc hD) (by rwa [Function.update_eq_self])
  simp only [Function.update_eq_self] at h
  unfold HasPartialDeriv
  refine HasDerivAt.congr_of_eventuallyEq (f := fun t => ψ c (Function.update s c t c) / Real.sqrt (sumSq ψ n (Function.update s c t))) ?_
    (hev.mono (fun t ht => partialDeriv_sqrt hψ _ hc ht))
  refine h.congr_deriv ?_
  unfold pow15
  have h2 := Real.sq_sqrt (le_of_lt hpos)
  generalize Real.sqrt (sumSq ψ n s) = q at hsq h2
  rw [← h2]
  field_simp

end Norm

end MLRL.Loss
