import Verif.Spec.JointEval
import Verif.Lemma.StatisticVector
import Verif.Lemma.RuleEval
import Mathlib.Algebra.BigOperators.Ring.Finset
import Mathlib.Algebra.Order.BigOperators.Group.Finset

/-!
# Lemmas about rule evaluations for non-decomposable loss functions
-/

namespace MLRL.JointEval

open Finset RuleEval Statistics

set_option linter.unusedSectionVars false

variable {K : Type} [Field K] [LinearOrder K]

theorem vec_of_lt {x : List K} {i : Nat} (h : i < x.length) : vec x i = x[i] := by
  unfold vec
  rw [List.getElem?_eq_getElem h]
  rfl

theorem readAt_vec {x : List K} {i : Nat} (h : i < x.length) : readAt x i = .ok (vec x i) := by
  rw [readAt_of_lt h, vec_of_lt h]

theorem vec_set {x : List K} {i j : Nat} {v : K} (h : i < x.length) : vec (x.set i v) j = if j = i then v else vec x j := by
  unfold vec
  rw [List.getElem?_set]
  by_cases hji : j = i
  · subst hji
    rw [if_pos rfl, if_pos rfl, if_pos h]
    rfl
  · rw [if_neg (fun h => hji h.symm), if_neg hji]

theorem matrix_symm (hs : List K) (r c : Nat) : matrix hs r c = matrix hs c r := by
  unfold matrix
  rw [max_comm, min_comm]

theorem sum_loop {f : Nat → K} {body : Nat → K → Res K} {n : Nat} (h : ∀ i r, i < n → body i r = .ok (r + f i)) :
    loop n body 0 = .ok (∑ i ∈ range n, f i) := by
  obtain ⟨s, h1, h2⟩ := loop_rule (body := body) (fun i r => r = ∑ j ∈ range i, f j) n 0 (by simp) (by
    rintro i r hi rfl
    exact ⟨_, h i _ hi, by rw [sum_range_succ]⟩)
  rw [h1, h2]

theorem ddot_ok {x y : List K} {n : Nat} (hx : n ≤ x.length) (hy : n ≤ y.length) :
    ddot x y n = .ok (∑ i ∈ range n, vec x i * vec y i) := by
  unfold ddot
  apply sum_loop
  intro i r hi
  rw [readAt_vec (by omega), ok_bind, readAt_vec (by omega), ok_bind]
  rfl

theorem l1Norm_ok {x : List K} {n : Nat} (hx : n ≤ x.length) : l1Norm x n = .ok (∑ i ∈ range n, |vec x i|) := by
  unfold l1Norm
  apply sum_loop
  intro i r hi
  rw [readAt_vec (by omega), ok_bind]
  rfl

theorem l2NormPow_ok {x : List K} {n : Nat} (hx : n ≤ x.length) : l2NormPow x n = .ok (∑ i ∈ range n, vec x i * vec x i) := by
  unfold l2NormPow
  apply sum_loop
  intro i r hi
  rw [readAt_vec (by omega), ok_bind]
  rfl

theorem index_lt {r c n m : Nat} (hr : r < m) (hc : c < m) (hm : triangularNumber m ≤ n) :
    triangularNumber (max r c) + min r c < n :=
  lt_of_lt_of_le (triangular_lt (by omega) (by omega)) hm

theorem dspmv_ok {a x output : List K} {n : Nat} (ha : triangularNumber n ≤ a.length) (hx : n ≤ x.length) (ho : n ≤ output.length) :
    ∃ y, dspmv a x output n = .ok y ∧ y.length = output.length ∧
      ∀ r < n, vec y r = ∑ c ∈ range n, matrix a r c * vec x c := by
  obtain ⟨y, h1, h2, h3⟩ := loop_rule (body := fun r (output : List K) => do
      let y ← loop n (fun c y => do
        let coefficient ← readAt a (triangularNumber (max r c) + min r c)
        let v ← readAt x c
        return y + coefficient * v) 0
      writeAt output r y)
    (fun i y => y.length = output.length ∧ ∀ r < i, vec y r = ∑ c ∈ range n, matrix a r c * vec x c) n output
    ⟨rfl, by simp⟩ (by
      rintro i y hi ⟨g1, g2⟩
      rw [sum_loop (f := fun c => matrix a i c * vec x c) (by
        intro c r hc
        rw [readAt_vec (index_lt hi hc ha), ok_bind, readAt_vec (by omega), ok_bind]
        rfl), ok_bind, writeAt_of_lt (by omega)]
      refine ⟨_, rfl, by simpa using g1, fun r hr => ?_⟩
      rw [vec_set (by omega)]
      split
      · rename_i e; rw [e]
      · exact g2 r (by omega))
  exact ⟨y, h1, h2, h3⟩

theorem overallQuality_ok {x g hs product : List K} {n : Nat} (ha : triangularNumber n ≤ hs.length) (hx : n ≤ x.length)
    (hg : n ≤ g.length) (hp : n ≤ product.length) :
    overallQuality x g hs product n = .ok ((∑ i ∈ range n, vec x i * vec g i) +
      1 / 2 * ∑ r ∈ range n, vec x r * ∑ c ∈ range n, matrix hs r c * vec x c) := by
  obtain ⟨y, h1, h2, h3⟩ := dspmv_ok ha hx hp
  unfold overallQuality
  rw [h1, ok_bind, ddot_ok hx hg, ok_bind, ddot_ok hx (by omega), ok_bind]
  have e : ∑ i ∈ range n, vec x i * vec y i = ∑ r ∈ range n, vec x r * ∑ c ∈ range n, matrix hs r c * vec x c :=
    sum_congr rfl (fun r hr => by rw [h3 r (mem_range.1 hr)])
  rw [e]
  rfl

theorem l1Term_ok {x : List K} {n : Nat} {l1 : K} (h : 0 ≤ l1) (hx : n ≤ x.length) :
    l1Term x n l1 = .ok (l1 * ∑ i ∈ range n, |vec x i|) := by
  unfold l1Term
  split
  · rw [l1Norm_ok hx, ok_bind]; rfl
  · rename_i hn
    have : l1 = 0 := le_antisymm (not_lt.1 hn) h
    rw [this, zero_mul]

theorem l2Term_ok {x : List K} {n : Nat} {l2 : K} (h : 0 ≤ l2) (hx : n ≤ x.length) :
    l2Term x n l2 = .ok (1 / 2 * l2 * ∑ i ∈ range n, vec x i * vec x i) := by
  unfold l2Term
  split
  · rw [l2NormPow_ok hx, ok_bind]; rfl
  · rename_i hn
    have : l2 = 0 := le_antisymm (not_lt.1 hn) h
    rw [this, mul_zero, zero_mul]

/-- The quality that is computed is the value of the objective for the *first* `n` outputs. -/
theorem solveAndEvaluate_ok {dsysv : List K → List K → Nat → Res (List K)} {l1 l2 : K} {g hs a b product x : List K} {n : Nat}
    (hs1 : triangularNumber n ≤ hs.length) (hx : n ≤ x.length) (hg : n ≤ g.length) (hp : n ≤ product.length) (h1 : 0 ≤ l1)
    (h2 : 0 ≤ l2) (hd : dsysv a b n = .ok x) :
    solveAndEvaluate dsysv l1 l2 g hs a b product n = .ok (x, objective (vec g) (matrix hs) l1 l2 n (vec x)) := by
  unfold solveAndEvaluate regularizationTerm
  rw [hd, ok_bind, overallQuality_ok hs1 hx hg hp, ok_bind, l1Term_ok h1 hx, l2Term_ok h2 hx]
  simp only [ok_bind, pure_eq_ok]
  congr 2
  unfold objective
  have e1 : ∑ i ∈ range n, vec x i * vec g i = ∑ i ∈ range n, vec g i * vec x i := sum_congr rfl (fun i _ => mul_comm _ _)
  have e2 : ∑ r ∈ range n, vec x r * ∑ c ∈ range n, matrix hs r c * vec x c =
      ∑ r ∈ range n, ∑ c ∈ range n, matrix hs r c * vec x r * vec x c := by
    refine sum_congr rfl (fun r _ => ?_)
    rw [mul_sum]
    refine sum_congr rfl (fun c _ => by ring)
  have e3 : ∑ i ∈ range n, vec x i * vec x i = ∑ i ∈ range n, vec x i ^ 2 := sum_congr rfl (fun i _ => by ring)
  rw [e1, e2, e3]
  ring

theorem idx_inj {n r r' c c' : Nat} (hr : r < n) (hr' : r' < n) (h : c * n + r = c' * n + r') : c = c' ∧ r = r' := by
  have hn : 0 < n := by omega
  have e1 : (c * n + r) / n = c := by
    rw [Nat.mul_comm, Nat.mul_add_div hn, Nat.div_eq_of_lt hr, Nat.add_zero]
  have e2 : (c' * n + r') / n = c' := by
    rw [Nat.mul_comm, Nat.mul_add_div hn, Nat.div_eq_of_lt hr', Nat.add_zero]
  rw [h, e2] at e1
  subst e1
  exact ⟨rfl, by omega⟩

theorem idx_lt {n r c : Nat} (hr : r < n) (hc : c < n) : c * n + r < n * n := by
  have : (c + 1) * n ≤ n * n := Nat.mul_le_mul_right n (by omega)
  rw [Nat.add_mul, Nat.one_mul] at this
  omega

theorem copyCoefficients_ok {hs a : List K} {n : Nat} (hh : triangularNumber n ≤ hs.length) (ha : n * n ≤ a.length) :
    ∃ a', copyCoefficients hs a n = .ok a' ∧ a'.length = a.length ∧
      ∀ c < n, ∀ r ≤ c, vec a' (c * n + r) = vec hs (triangularNumber c + r) := by
  obtain ⟨s, h1, h2, h3, h4⟩ := loop_rule (body := fun c (r : Nat × List K) =>
      loop (c + 1) (fun row (r : Nat × List K) => do
        let x ← readAt hs r.1
        let coefficients ← writeAt r.2 (c * n + row) x
        return (r.1 + 1, coefficients)) r)
    (fun c s => s.1 = triangularNumber c ∧ s.2.length = a.length ∧
      ∀ c' < c, ∀ r ≤ c', vec s.2 (c' * n + r) = vec hs (triangularNumber c' + r)) n (0, a) ⟨by simp [triangularNumber], rfl, by simp⟩ (by
      rintro c ⟨p, b⟩ hc ⟨g1, g2, g3⟩
      simp only at g1 g2 g3
      obtain ⟨s', k1, k2, k3, k4, k5⟩ := loop_rule (body := fun row (r : Nat × List K) => do
          let x ← readAt hs r.1
          let coefficients ← writeAt r.2 (c * n + row) x
          return (r.1 + 1, coefficients))
        (fun row s => s.1 = triangularNumber c + row ∧ s.2.length = a.length ∧
          (∀ c' < c, ∀ r ≤ c', vec s.2 (c' * n + r) = vec hs (triangularNumber c' + r)) ∧
          ∀ r < row, vec s.2 (c * n + r) = vec hs (triangularNumber c + r)) (c + 1) (p, b) ⟨by simpa using g1, g2, g3, by simp⟩ (by
          rintro row ⟨p, b⟩ hrow ⟨m1, m2, m3, m4⟩
          simp only at m1 m2 m3 m4 ⊢
          have hlt : triangularNumber c + row < hs.length := lt_of_lt_of_le (triangular_lt (by omega) hc) hh
          have hi : c * n + row < a.length := lt_of_lt_of_le (idx_lt (by omega) hc) ha
          subst m1
          rw [readAt_vec hlt, ok_bind, writeAt_of_lt (by omega), ok_bind]
          refine ⟨_, rfl, by simp only; omega, by simpa using m2, ?_, ?_⟩
          · intro c' hc' r hr
            simp only
            rw [vec_set (by omega), if_neg (fun h => by
              have := (idx_inj (by omega) (by omega) h).1
              omega)]
            exact m3 c' hc' r hr
          · intro r hr
            simp only
            rw [vec_set (by omega)]
            split
            · rename_i e
              obtain rfl : r = row := by omega
              rfl
            · rename_i e
              exact m4 r (by
                have : r ≠ row := fun h => e (by rw [h])
                omega))
      refine ⟨s', k1, by rw [k2, triangularNumber_succ], k3, ?_⟩
      intro c' hc' r hr
      by_cases e : c' = c
      · subst e
        exact k5 r (by omega)
      · exact k4 c' (by omega) r hr)
  refine ⟨s.2, ?_, h3, h4⟩
  unfold copyCoefficients
  rw [h1, ok_bind]
  rfl

theorem addL2_ok {a : List K} {n : Nat} {l2 : K} (hl : 0 ≤ l2) (ha : n * n ≤ a.length) :
    ∃ a', addL2 a n l2 = .ok a' ∧ a'.length = a.length ∧
      ∀ c < n, ∀ r ≤ c, vec a' (c * n + r) = vec a (c * n + r) + if r = c then l2 else 0 := by
  unfold addL2
  split
  · obtain ⟨s, h1, h2, h3⟩ := loop_rule (body := fun i (a : List K) => do
        let x ← readAt a (i * n + i)
        writeAt a (i * n + i) (x + l2))
      (fun i s => s.length = a.length ∧
        ∀ c < n, ∀ r ≤ c, vec s (c * n + r) = vec a (c * n + r) + if r = c ∧ c < i then l2 else 0) n a ⟨rfl, by simp⟩ (by
        rintro i s hi ⟨g1, g2⟩
        have hlt : i * n + i < s.length := by rw [g1]; exact lt_of_lt_of_le (idx_lt hi hi) ha
        rw [readAt_vec hlt, ok_bind, writeAt_of_lt hlt]
        refine ⟨_, rfl, by simpa using g1, ?_⟩
        intro c hc r hr
        rw [vec_set hlt]
        split
        · rename_i e
          obtain ⟨rfl, rfl⟩ := idx_inj (by omega) (by omega) e
          rw [g2 r hc r (le_refl _), if_neg (by omega), if_pos (by omega), add_zero]
        · rename_i e
          rw [g2 c hc r hr]
          by_cases hrc : r = c
          · subst hrc
            have : r ≠ i := fun h => e (by rw [h])
            have e2 : r < i + 1 ↔ r < i := by omega
            simp only [true_and, e2]
          · rw [if_neg (fun h => hrc h.1), if_neg (fun h => hrc h.1)])
    refine ⟨s, h1, h2, ?_⟩
    intro c hc r hr
    rw [h3 c hc r hr]
    have e2 : (r = c ∧ c < n) ↔ r = c := by omega
    simp only [e2]
  · rename_i hn
    have : l2 = 0 := le_antisymm (not_lt.1 hn) hl
    refine ⟨a, rfl, rfl, ?_⟩
    intro c hc r hr
    rw [this]
    simp

theorem copyOrdinates_ok {g b : List K} {n : Nat} (hg : n ≤ g.length) (hb : n ≤ b.length) :
    ∃ b', copyOrdinates g b n = .ok b' ∧ b'.length = b.length ∧ ∀ i < n, vec b' i = -vec g i := by
  obtain ⟨s, h1, h2, h3⟩ := loop_rule (body := fun i (b : List K) => do
      let x ← readAt g i
      writeAt b i (-x)) (fun i s => s.length = b.length ∧ ∀ j < i, vec s j = -vec g j) n b ⟨rfl, by simp⟩ (by
      rintro i s hi ⟨g1, g2⟩
      rw [readAt_vec (by omega), ok_bind, writeAt_of_lt (by omega)]
      refine ⟨_, rfl, by simpa using g1, fun j hj => ?_⟩
      rw [vec_set (by omega)]
      split
      · rename_i e; rw [e]
      · exact g2 j (by omega))
  exact ⟨s, h1, h2, h3⟩

theorem addL1_ok {b : List K} {n : Nat} {l1 : K} (hl : 0 ≤ l1) (hb : n ≤ b.length) :
    ∃ b', addL1 b n l1 = .ok b' ∧ b'.length = b.length ∧ ∀ i < n, vec b' i = vec b i + getL1RegularizationWeight (vec b i) l1 := by
  unfold addL1
  split
  · obtain ⟨s, h1, h2, h3, _⟩ := loop_rule (body := fun i (b : List K) => do
        let g ← readAt b i
        writeAt b i (g + getL1RegularizationWeight g l1))
      (fun i s => s.length = b.length ∧ (∀ j < i, vec s j = vec b j + getL1RegularizationWeight (vec b j) l1) ∧
        ∀ j, i ≤ j → vec s j = vec b j) n b ⟨rfl, by simp, fun _ _ => rfl⟩ (by
        rintro i s hi ⟨g1, g2, g3⟩
        rw [readAt_vec (by omega), ok_bind, writeAt_of_lt (by omega)]
        refine ⟨_, rfl, by simpa using g1, fun j hj => ?_, fun j hj => ?_⟩
        · rw [vec_set (by omega)]
          split
          · rename_i e; rw [e, g3 i (le_refl _)]
          · exact g2 j (by omega)
        · rw [vec_set (by omega), if_neg (by omega)]
          exact g3 j (by omega))
    exact ⟨s, h1, h2, h3⟩
  · rename_i hn
    have : l1 = 0 := le_antisymm (not_lt.1 hn) hl
    refine ⟨b, rfl, rfl, fun i _ => ?_⟩
    subst this
    unfold getL1RegularizationWeight
    split_ifs <;> simp

theorem copyCoefficientsPartial_ok {hs a : List K} {chosen : List Nat} (hinc : chosen.Pairwise (· < ·)) {m : Nat}
    (hm : ∀ i ∈ chosen, i < m) (hh : triangularNumber m ≤ hs.length) {n : Nat} (hn : chosen.length = n) (ha : n * n ≤ a.length) :
    ∃ a', copyCoefficientsPartial hs chosen a n = .ok a' ∧ a'.length = a.length ∧
      ∀ (c : Nat) (hc : c < chosen.length), ∀ (r : Nat) (hr : r ≤ c), vec a' (c * n + r) = matrix hs chosen[r] chosen[c] := by
  have hidx : ∀ (c : Nat) (hc : c < chosen.length) (r : Nat) (hr : r ≤ c),
      triangularNumber chosen[c] + chosen[r] < hs.length ∧ vec hs (triangularNumber chosen[c] + chosen[r]) = matrix hs chosen[r] chosen[c] := by
    intro c hc r hr
    have hle : chosen[r] ≤ chosen[c] := by
      rcases Nat.lt_or_ge r c with h | h
      · exact le_of_lt (List.pairwise_iff_getElem.1 hinc r c (by omega) hc h)
      · obtain rfl : r = c := by omega
        exact le_refl _
    refine ⟨lt_of_lt_of_le (triangular_lt hle (hm _ (List.getElem_mem hc))) hh, ?_⟩
    unfold matrix
    rw [max_eq_right hle, min_eq_left hle]
    rfl
  obtain ⟨s, h2, h3, h4⟩ := loop_rule (body := fun c (a : List K) =>
      loop (c + 1) (fun r (a : List K) => do
        let column ← readAt chosen c
        let row ← readAt chosen r
        let x ← readAt hs (triangularNumber column + row)
        writeAt a (c * n + r) x) a)
    (fun c s => s.length = a.length ∧ ∀ (c' : Nat) (hc' : c' < chosen.length), c' < c → ∀ (r : Nat) (hr : r ≤ c'),
      vec s (c' * n + r) = matrix hs chosen[r] chosen[c']) n a ⟨rfl, by simp⟩ (by
      rintro c b hc ⟨g2, g3⟩
      obtain ⟨s', k1, k3, k4, k5⟩ := loop_rule (body := fun r (a : List K) => do
          let column ← readAt chosen c
          let row ← readAt chosen r
          let x ← readAt hs (triangularNumber column + row)
          writeAt a (c * n + r) x)
        (fun row s => s.length = a.length ∧
          (∀ (c' : Nat) (hc' : c' < chosen.length), c' < c → ∀ (r : Nat) (hr : r ≤ c'), vec s (c' * n + r) = matrix hs chosen[r] chosen[c']) ∧
          ∀ (r : Nat) (hr : r < chosen.length), r < row → vec s (c * n + r) = matrix hs chosen[r] chosen[c]) (c + 1) b ⟨g2, g3, by simp⟩ (by
          rintro row b hrow ⟨m2, m3, m4⟩
          have hi : c * n + row < b.length := by rw [m2]; exact lt_of_lt_of_le (idx_lt (by omega) hc) ha
          obtain ⟨q1, q2⟩ := hidx c (by omega) row (by omega)
          rw [readAt_of_lt (by omega : c < chosen.length), ok_bind, readAt_of_lt (by omega : row < chosen.length), ok_bind, readAt_vec q1,
            ok_bind, writeAt_of_lt hi]
          refine ⟨_, rfl, by simpa using m2, ?_, ?_⟩
          · intro c' hc1 hc' r hr
            rw [vec_set hi, if_neg (fun h => by
              have := (idx_inj (by omega) (by omega) h).1
              omega)]
            exact m3 c' hc1 hc' r hr
          · intro r hr1 hr
            rw [vec_set hi]
            split
            · rename_i e
              obtain rfl : r = row := by omega
              exact q2
            · rename_i e
              exact m4 r hr1 (by
                have : r ≠ row := fun h => e (by rw [h])
                omega))
      refine ⟨s', k1, k3, ?_⟩
      intro c' hc1 hc' r hr
      by_cases e : c' = c
      · subst e
        exact k5 r (by omega) (by omega)
      · exact k4 c' hc1 (by omega) r hr)
  exact ⟨s, h2, h3, fun c hc r hr => h4 c hc (by omega) r hr⟩

/-! ### Minimising quadratic functions -/

/-- The bilinear form given by a matrix. -/
def form (B : Nat → Nat → K) (n : Nat) (u v : Nat → K) : K := ∑ r ∈ range n, ∑ c ∈ range n, B r c * u r * v c

theorem form_add_left (B : Nat → Nat → K) (n : Nat) (u u' v : Nat → K) :
    form B n (fun i => u i + u' i) v = form B n u v + form B n u' v := by
  unfold form
  rw [← sum_add_distrib]
  refine sum_congr rfl (fun r _ => ?_)
  rw [← sum_add_distrib]
  exact sum_congr rfl (fun c _ => by ring)

theorem form_symm {B : Nat → Nat → K} (hB : ∀ r c, B r c = B c r) (n : Nat) (u v : Nat → K) : form B n u v = form B n v u := by
  unfold form
  rw [sum_comm]
  refine sum_congr rfl (fun r _ => sum_congr rfl (fun c _ => ?_))
  rw [hB]
  ring

theorem form_add_self {B : Nat → Nat → K} (hB : ∀ r c, B r c = B c r) (n : Nat) (x d : Nat → K) :
    form B n (fun i => x i + d i) (fun i => x i + d i) = form B n x x + 2 * form B n d x + form B n d d := by
  rw [form_add_left, form_symm hB n x, form_symm hB n d, form_add_left, form_add_left, form_symm hB n x d]
  ring

/-- Adding the L2 regularisation weight to the diagonal. -/
def withL2 (B : Nat → Nat → K) (l2 : K) (r c : Nat) : K := B r c + if r = c then l2 else 0

theorem form_withL2 (B : Nat → Nat → K) (l2 : K) (n : Nat) (x : Nat → K) :
    form (withL2 B l2) n x x = form B n x x + l2 * ∑ i ∈ range n, x i ^ 2 := by
  unfold form withL2
  rw [mul_sum, ← sum_add_distrib]
  refine sum_congr rfl (fun r hr => ?_)
  have : ∀ c ∈ range n, (B r c + if r = c then l2 else 0) * x r * x c = B r c * x r * x c + if r = c then l2 * x r * x c else 0 := by
    intro c _
    split <;> ring
  rw [sum_congr rfl this, sum_add_distrib, sum_ite_eq, if_pos hr]
  ring

/-- A solution of the system minimises the objective, and the minimum is half of the dot product of gradients and scores. -/
theorem solution_minimises [IsStrictOrderedRing K] {g : Nat → K} {H : Nat → Nat → K} {l2 : K} {n : Nat} {x : Nat → K}
    (hH : ∀ r c, H r c = H c r) (hpsd : ∀ v : Nat → K, 0 ≤ form (withL2 H l2) n v v)
    (hx : ∀ r < n, ∑ c ∈ range n, withL2 H l2 r c * x c = -g r) :
    (∀ y, objective g H 0 l2 n x ≤ objective g H 0 l2 n y) ∧ objective g H 0 l2 n x = (∑ i ∈ range n, g i * x i) / 2 ∧
      objective g H 0 l2 n x ≤ 0 := by
  have hobj : ∀ y, objective g H 0 l2 n y = (∑ i ∈ range n, g i * y i) + form (withL2 H l2) n y y / 2 := by
    intro y
    rw [form_withL2]
    unfold objective form
    ring
  have hform : ∀ d, form (withL2 H l2) n d x = -∑ i ∈ range n, g i * d i := by
    intro d
    unfold form
    rw [← sum_neg_distrib]
    refine sum_congr rfl (fun r hr => ?_)
    have := hx r (mem_range.1 hr)
    have e : ∑ c ∈ range n, withL2 H l2 r c * d r * x c = d r * ∑ c ∈ range n, withL2 H l2 r c * x c := by
      rw [mul_sum]
      exact sum_congr rfl (fun c _ => by ring)
    rw [e, this]
    ring
  have hsymm : ∀ r c, withL2 H l2 r c = withL2 H l2 c r := by
    intro r c
    unfold withL2
    rw [hH r c]
    congr 1
    simp only [eq_comm]
  have hval : objective g H 0 l2 n x = (∑ i ∈ range n, g i * x i) / 2 := by
    rw [hobj, hform]
    ring
  refine ⟨fun y => ?_, hval, ?_⟩
  · have e : y = fun i => x i + (y i - x i) := by funext i; ring
    have h1 := form_add_self hsymm n x (fun i => y i - x i)
    rw [← e, hform (fun i => y i - x i)] at h1
    have h2 := hpsd (fun i => y i - x i)
    have h3 : ∑ i ∈ range n, g i * (y i - x i) = (∑ i ∈ range n, g i * y i) - ∑ i ∈ range n, g i * x i := by
      rw [← sum_sub_distrib]
      exact sum_congr rfl (fun i _ => by ring)
    rw [hobj, hobj, h1, h3]
    linarith
  · have h1 := hform x
    have h2 := hpsd x
    rw [hval]
    linarith

end MLRL.JointEval
