import Verif.Spec.StatisticsProvider
import Verif.Lemma.Loss
import Verif.Props.Update
import Verif.Props.LossUpdate

/-!
# Lemmas about the statistics that are kept by the boosting algorithm
-/

namespace MLRL.Provider

open Update RuleEval
open Loss (row)

/-! ### Triangular numbers -/

theorem triangular32_eq {n : Nat} (h : n < 65536) : triangular32 n = n * (n + 1) / 2 := by
  unfold triangular32
  rw [Nat.mod_eq_of_lt (a := n + 1) (by omega), Nat.mod_eq_of_lt]
  calc n * (n + 1) ≤ 65535 * 65536 := Nat.mul_le_mul (by omega) (by omega)
    _ < 2 ^ 32 := by decide

theorem triangular32_lt {n : Nat} (h : 65536 ≤ n) : triangular32 n < n * (n + 1) / 2 := by
  have h1 : triangular32 n < 2147483648 := by
    unfold triangular32
    rw [Nat.div_lt_iff_lt_mul (by decide)]
    exact Nat.mod_lt _ (by decide)
  have h2 : 65536 * 65536 ≤ n * (n + 1) := Nat.mul_le_mul h (by omega)
  omega

theorem diagonalPosition_eq {c : Nat} (h : c < 65535) : diagonalPosition c = c * (c + 1) / 2 + c := by
  unfold diagonalPosition
  rw [triangular32_eq (by omega)]
  have h1 : (c + 1) * (c + 1 + 1) / 2 = c * (c + 1) / 2 + c + 1 := Loss.tri_succ c
  have h2 : c * (c + 1) ≤ 65534 * 65535 := Nat.mul_le_mul (by omega) (by omega)
  rw [h1]
  omega

/-! ### Rows -/

theorem row_length {A : Type} (n : Nat) (f : Nat → A) : (row n f).length = n := by simp [row]

theorem row_congr {A : Type} {n : Nat} {f g : Nat → A} (h : ∀ c < n, f c = g c) : row n f = row n g := by
  unfold row
  refine List.map_congr_left (fun c hc => h c (List.mem_range.1 hc))

theorem row_denseValue {n : Nat} {r : List ℝ} (h : r.length = n) : r = row n (denseValue r) := by
  refine List.ext_getElem? (fun c => ?_)
  by_cases hc : c < n
  · rw [LossUpdate.row_getElem? hc, List.getElem?_eq_getElem (by omega)]
    simp [denseValue, (by omega : c < r.length)]
  · rw [List.getElem?_eq_none (by omega), List.getElem?_eq_none (by rw [row_length]; omega)]

theorem denseValue_row {n : Nat} {s : Nat → ℝ} {c : Nat} (h : c < n) : denseValue (row n s) c = s c := by
  unfold denseValue
  rw [LossUpdate.row_getElem? h]
  rfl

theorem row_zero (n : Nat) : List.replicate n (0 : ℝ) = row n (fun _ => 0) := by
  unfold row
  simp

theorem row_ext' {A : Type} {n : Nat} {f : Nat → A} {l : List A} (hl : l.length = n) (h : ∀ c < n, l[c]? = some (f c)) : l = row n f := by
  refine List.ext_getElem? (fun c => ?_)
  by_cases hc : c < n
  · rw [h c hc, LossUpdate.row_getElem? hc]
  · rw [List.getElem?_eq_none (by omega), List.getElem?_eq_none (by rw [row_length]; omega)]

/-! ### Interleaved steps -/

section
variable {R S : Type}

/-- Steps, one for each cell, that succeed. -/
theorem exec_single (step : Nat → Cell R S → Res (Cell R S)) (cells : List (Cell R S)) (trace : List (Nat × (Cell R S → Res (Cell R S))))
    (ht : Refinement.Interleaving ((List.range cells.length).map (fun i => [step i])) trace) (P : Nat → Cell R S → Cell R S → Prop)
    (h : ∀ i c, cells[i]? = some c → ∃ c', step i c = .ok c' ∧ P i c c') :
    ∃ cells', exec trace cells = .ok cells' ∧ cells'.length = cells.length ∧ ∀ i c c', cells[i]? = some c → cells'[i]? = some c' → P i c c' := by
  have hstep : ∀ i (hi : i < cells.length), ∃ c', step i cells[i] = .ok c' ∧ P i cells[i] c' :=
    fun i hi => h i _ (List.getElem?_eq_getElem hi)
  choose final hfinal using hstep
  refine ⟨List.ofFn (fun i : Fin cells.length => final i.1 i.2), ?_, by simp, ?_⟩
  · unfold exec
    apply Refinement.execTrace_spec
    · simp
    · simpa using ht.1
    · intro i c c' hi hi'
      obtain ⟨hlt, rfl⟩ := List.getElem?_eq_some_iff.1 hi
      have htask : ((List.range cells.length).map (fun i => [step i]))[i]? = some [step i] := by simp [hlt]
      rw [ht.2 i _ htask]
      rw [List.getElem?_ofFn, dif_pos hlt] at hi'
      have e := Option.some.inj hi'
      simp only at e
      simp only [List.foldlM_cons, List.foldlM_nil, cellOps]
      rw [(hfinal i hlt).1, ok_bind, e]
      rfl
  · intro i c c' hi hi'
    obtain ⟨hlt, rfl⟩ := List.getElem?_eq_some_iff.1 hi
    rw [List.getElem?_ofFn, dif_pos hlt] at hi'
    have e := Option.some.inj hi'
    simp only at e
    rw [← e]
    exact (hfinal i hlt).2

/-- If steps succeed, the steps for each cell succeed. -/
theorem exec_inv (trace : List (Nat × (Cell R S → Res (Cell R S)))) : ∀ (cells cells' : List (Cell R S)), exec trace cells = .ok cells' →
    ∀ (i : Nat) c, cells[i]? = some c → ∃ c', ((trace.filter (fun p => p.1 == i)).map Prod.snd).foldlM (fun c f => f c) c = .ok c' := by
  induction trace with
  | nil => intro cells cells' _ i c _; exact ⟨c, rfl⟩
  | cons p trace ih =>
    intro cells cells' h i c hi
    unfold exec Refinement.execTrace at h
    obtain ⟨k, f⟩ := p
    simp only [cellOps] at h
    cases hk : readAt cells k with
    | error e => rw [hk] at h; cases h
    | ok d =>
      rw [hk, ok_bind] at h
      rw [readAt_eq_ok_iff] at hk
      have hlt := (List.getElem?_eq_some_iff.1 hk).1
      cases hf : f d with
      | error e => rw [hf] at h; cases h
      | ok d' =>
        rw [hf, ok_bind, writeAt_of_lt hlt, ok_bind] at h
        by_cases e : k = i
        · subst e
          rw [hk] at hi
          obtain rfl := Option.some.inj hi
          obtain ⟨c', hc'⟩ := ih _ _ h k d' (List.getElem?_set_self hlt)
          refine ⟨c', ?_⟩
          simp only [List.filter_cons, beq_self_eq_true, if_true, List.map_cons, List.foldlM_cons]
          rw [hf, ok_bind, hc']
        · obtain ⟨c', hc'⟩ := ih _ _ h i c (by rw [List.getElem?_set_ne e, hi])
          refine ⟨c', ?_⟩
          simp only [List.filter_cons, beq_iff_eq, e, if_false]
          exact hc'

end

/-! ### Statistics that are not decomposable -/

variable {loss : JointLoss} {n : Nat} {rates : Rates}

/-- Statistics of the scores in a row. -/
structure JointOk (n : Nat) (rates : Rates) (i : Nat) (r : List ℝ) (st : List ℝ × List ℝ) : Prop where
  gradients : st.1.length = n
  hessians : st.2.length = n * (n + 1) / 2
  vals : ∀ s, r = row n s → JointVals n rates i s st

def SeparateOk (n : Nat) (rates : Rates) (i : Nat) (r : List ℝ) (st : List (Stat ℝ)) : Prop :=
  st.length = n ∧ ∀ s, r = row n s → st = separateVals n rates i s

theorem update_ok (laws : JointLaws loss n rates) (i : Nat) {r : List ℝ} (hr : r.length = n) {st : List ℝ × List ℝ} (h1 : st.1.length = n)
    (h2 : st.2.length = n * (n + 1) / 2) : ∃ st', loss.update i r st = .ok st' ∧ JointOk n rates i r st' := by
  obtain ⟨st', u1, u2⟩ := laws.update i (denseValue r) st.1 st.2 h1 h2
  rw [← row_denseValue hr] at u1
  refine ⟨st', u1, by rw [u2.gradients, row_length], u2.length, fun s hs => ?_⟩
  obtain ⟨st'', v1, v2⟩ := laws.update i s st.1 st.2 h1 h2
  rw [← hs, u1] at v1
  cases v1
  exact v2

theorem updateDecomposable_ok (laws : JointLaws loss n rates) (i : Nat) {r : List ℝ} (hr : r.length = n) {st : List (Stat ℝ)}
    (h : st.length = n) : ∃ st', loss.updateDecomposable i r st = .ok st' ∧ SeparateOk n rates i r st' := by
  have u1 := laws.updateDecomposable i (denseValue r) st h
  rw [← row_denseValue hr] at u1
  refine ⟨_, u1, by unfold separateVals; rw [row_length], fun s hs => ?_⟩
  have v1 := laws.updateDecomposable i s st h
  rw [← hs, u1] at v1
  exact Except.ok.inj v1

theorem joint_laws (laws : JointLaws loss n rates) :
    Laws loss.jointOps n (fun r : List ℝ => r.length = n) denseValue (JointOk n rates) :=
  dense_laws n _ _ (fun i _ _ r' s _ _ hr' hc _ => update_ok laws i hr' hc.gradients hc.hessians)

theorem separate_laws (laws : JointLaws loss n rates) :
    Laws loss.separateOps n (fun r : List ℝ => r.length = n) denseValue (SeparateOk n rates) :=
  dense_laws n _ _ (fun i _ _ r' s _ _ hr' hc _ => updateDecomposable_ok laws i hr' hc.1)

theorem convertRow_ok (hn : n < 65536) {i : Nat} {s : Nat → ℝ} {source : List ℝ × List ℝ} (h : JointVals n rates i s source)
    {target : List (Stat ℝ)} (ht : target.length = n) : convertRow n source target = .ok (separateVals n rates i s) := by
  unfold convertRow
  obtain ⟨t, h1, h2, h3⟩ := loop_rule (body := fun j target => do
      let gradient ← readAt source.1 j
      let hessian ← readAt source.2 (diagonalPosition j)
      writeAt target j ⟨gradient, hessian⟩)
    (fun j t => t.length = n ∧ ∀ c < j, t[c]? = some (⟨rates.gradient i s c, rates.hessian i s c c⟩ : Stat ℝ)) n target ⟨ht, by omega⟩ (by
      rintro j t hj ⟨g1, g2⟩
      refine ⟨t.set j ⟨rates.gradient i s j, rates.hessian i s j j⟩, ?_, by simpa using g1, ?_⟩
      · rw [h.gradients, Loss.readAt_row hj, ok_bind, diagonalPosition_eq (by omega), readAt_of_getElem? (h.hessians j hj j (le_refl _)), ok_bind,
          writeAt_of_lt (by omega)]
      · intro c hc
        by_cases e : j = c
        · subst e; rw [List.getElem?_set_self (by omega)]
        · rw [List.getElem?_set_ne e, g2 c (by omega)])
  rw [h1]
  exact congrArg Except.ok (row_ext' h2 h3)

/-! ### The length of the Hessian matrix -/

/-- Whatever a loop writes, an array does not change its length. -/
theorem loop_inv {σ : Type} {body : Nat → σ → Res σ} (P : Nat → σ → Prop) (hb : ∀ i s s', P i s → body i s = .ok s' → P (i + 1) s') :
    ∀ k i s s', P i s → loopFrom body i k s = .ok s' → P (i + k) s' := by
  intro k
  induction k with
  | zero => intro i s s' hp h; rw [loopFrom_zero] at h; cases h; exact hp
  | succ k ih =>
    intro i s s' hp h
    rw [loopFrom_succ] at h
    cases hs : body i s with
    | error e => rw [hs] at h; cases h
    | ok t =>
      rw [hs, ok_bind] at h
      have := ih (i + 1) t s' (hb i s t hp hs) h
      rwa [Nat.add_assoc, Nat.add_comm 1 k] at this

theorem writeAt_ok {α : Type} {a b : List α} {i : Nat} {v : α} (h : writeAt a i v = .ok b) : i < a.length ∧ b.length = a.length := by
  by_cases hi : i < a.length
  · rw [writeAt_of_lt hi] at h; cases h; exact ⟨hi, by simp⟩
  · rw [writeAt_of_le (by omega)] at h; cases h

/-- The loop that computes gradients and Hessians succeeds only if there is enough space for the Hessian matrix. -/
theorem triangle_length {column : List ℝ → Nat → Res (ℝ × ℝ × (Nat → Res ℝ))} {gs hs : List ℝ} {result : List ℝ × List ℝ}
    (h : Loss.triangle n column gs hs = .ok result) : n * (n + 1) / 2 ≤ hs.length := by
  unfold Loss.triangle at h
  cases hl : loop n (fun c (s : Nat × List ℝ × List ℝ) => do
    let col ← column s.2.1 c
    let s' ← loop c (fun r (s' : Nat × List ℝ) => do
      let x ← col.2.2 r
      let hessians ← writeAt s'.2 s'.1 x
      return (s'.1 + 1, hessians)) (s.1, s.2.2)
    let gradients ← writeAt s.2.1 c col.1
    let hessians ← writeAt s'.2 s'.1 col.2.1
    return (s'.1 + 1, gradients, hessians)) (0, gs, hs) with
  | error e => rw [hl] at h; cases h
  | ok final =>
    have key := loop_inv (fun c (s : Nat × List ℝ × List ℝ) => s.1 = c * (c + 1) / 2 ∧ s.1 ≤ s.2.2.length ∧ s.2.2.length = hs.length) (by
      rintro c ⟨p, g, hh⟩ s' ⟨h1, h2, h3⟩ hb
      simp only at h1 h2 h3 hb
      cases hcol : column g c with
      | error e => rw [hcol] at hb; cases hb
      | ok col =>
        rw [hcol, ok_bind] at hb
        cases hin : loop c (fun r (s' : Nat × List ℝ) => do
            let x ← col.2.2 r
            let hessians ← writeAt s'.2 s'.1 x
            return (s'.1 + 1, hessians)) (p, hh) with
        | error e => rw [hin] at hb; cases hb
        | ok t =>
          rw [hin, ok_bind] at hb
          have inner := loop_inv (fun r (s' : Nat × List ℝ) => s'.1 = p + r ∧ s'.2.length = hs.length) (by
            rintro r ⟨q, l⟩ s' ⟨i1, i2⟩ hb'
            simp only at i1 i2 hb'
            cases hx : col.2.2 r with
            | error e => rw [hx] at hb'; cases hb'
            | ok x =>
              rw [hx, ok_bind] at hb'
              cases hw : writeAt l q x with
              | error e => rw [hw] at hb'; cases hb'
              | ok l' =>
                rw [hw, ok_bind] at hb'
                cases hb'
                have := writeAt_ok hw
                exact ⟨by simp only; omega, by simp only; omega⟩) c 0 (p, hh) t ⟨rfl, h3⟩ hin
          cases hw : writeAt g c col.1 with
          | error e => rw [hw] at hb; cases hb
          | ok g' =>
            rw [hw, ok_bind] at hb
            cases hw' : writeAt t.2 t.1 col.2.1 with
            | error e => rw [hw'] at hb; cases hb
            | ok l' =>
              rw [hw', ok_bind] at hb
              cases hb
              have h5 := writeAt_ok hw'
              have h6 : (c + 1) * (c + 1 + 1) / 2 = c * (c + 1) / 2 + c + 1 := Loss.tri_succ c
              refine ⟨?_, ?_, ?_⟩
              · simp only; omega
              · simp only; omega
              · simp only; omega) n 0 (0, gs, hs) final ⟨rfl, Nat.zero_le _, rfl⟩ hl
    rw [Nat.zero_add] at key
    omega

end MLRL.Provider
