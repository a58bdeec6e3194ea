import Verif.Spec.JointBinned
import Verif.Lemma.JointEval
import Verif.Lemma.LabelBinning
import Verif.Lemma.Confusion

/-!
# Lemmas about rule evaluations for non-decomposable loss functions that assign labels to bins
-/

namespace MLRL.JointBinned

open Finset RuleEval Statistics JointEval
open LabelBinning (Config LabelInfo setZeros setZeros_ok)

theorem addAt_ok {a : List Rat} {i : Nat} (h : i < a.length) (v : Rat) : addAt a i v = .ok (a.set i (vec a i + v)) := by
  unfold addAt
  rw [readAt_vec h, ok_bind, writeAt_of_lt h]

theorem vec_addAt {a : List Rat} {i : Nat} (h : i < a.length) (v : Rat) (k : Nat) :
    vec (a.set i (vec a i + v)) k = vec a k + if i = k then v else 0 := by
  rw [vec_set h]
  by_cases hk : k = i
  · subst hk
    rw [if_pos rfl, if_pos rfl]
  · rw [if_neg hk, if_neg (fun e => hk e.symm), add_zero]

/-- A loop whose body adds something to the elements of an array. -/
theorem accumulate {body : Nat → List Rat → Res (List Rat)} (f : Nat → Nat → Rat) (start count : Nat) (s : List Rat)
    (h : ∀ i t, start ≤ i → i < start + count → t.length = s.length → ∃ t', body i t = .ok t' ∧ t'.length = t.length ∧ ∀ k, vec t' k = vec t k + f i k) :
    ∃ s', loopFrom body start count s = .ok s' ∧ s'.length = s.length ∧ ∀ k, vec s' k = vec s k + ∑ i ∈ range count, f (start + i) k := by
  obtain ⟨s', h1, h2, h3⟩ := loopFrom_rule (body := body)
    (fun n t => t.length = s.length ∧ ∀ k, vec t k = vec s k + ∑ i ∈ range (n - start), f (start + i) k) start count s ⟨rfl, by simp⟩ (by
      rintro i t hi1 hi2 ⟨t1, t2⟩
      obtain ⟨t', g1, g2, g3⟩ := h i t hi1 hi2 t1
      refine ⟨t', g1, by omega, fun k => ?_⟩
      rw [g3, t2, show i + 1 - start = i - start + 1 by omega, sum_range_succ, show start + (i - start) = i by omega, add_assoc])
  refine ⟨s', h1, h2, fun k => ?_⟩
  rw [h3, show start + count - start = count by omega]

theorem accumulate0 {body : Nat → List Rat → Res (List Rat)} (f : Nat → Nat → Rat) (n : Nat) (s : List Rat)
    (h : ∀ i t, i < n → t.length = s.length → ∃ t', body i t = .ok t' ∧ t'.length = t.length ∧ ∀ k, vec t' k = vec t k + f i k) :
    ∃ s', loop n body s = .ok s' ∧ s'.length = s.length ∧ ∀ k, vec s' k = vec s k + ∑ i ∈ range n, f i k := by
  obtain ⟨s', h1, h2, h3⟩ := accumulate f 0 n s (fun i t _ hi => h i t (by omega))
  refine ⟨s', h1, h2, fun k => ?_⟩
  rw [h3]
  simp only [Nat.zero_add]

/-! ### Removal of empty bins -/

/-- The number of the first bins that are not empty. -/
def rank (W : Nat → Nat) (b : Nat) : Nat := ∑ j ∈ range b, if W j > 0 then 1 else 0

theorem rank_succ (W : Nat → Nat) (b : Nat) : rank W (b + 1) = rank W b + if W b > 0 then 1 else 0 := by
  unfold rank
  rw [sum_range_succ]

theorem rank_le (W : Nat → Nat) (b : Nat) : rank W b ≤ b := by
  induction b with
  | zero => simp [rank]
  | succ b ih => rw [rank_succ]; split <;> omega

theorem rank_mono (W : Nat → Nat) {b c : Nat} (h : b ≤ c) : rank W b ≤ rank W c := by
  induction c with
  | zero => rw [Nat.le_zero.1 h]
  | succ c ih =>
    rcases Nat.lt_or_ge c b with hc | hc
    · rw [show b = c + 1 by omega]
    · rw [rank_succ]; have := ih hc; omega

theorem rank_lt {W : Nat → Nat} {b c : Nat} (h : b < c) (hb : W b > 0) : rank W b < rank W c := by
  have h1 := rank_mono W (show b + 1 ≤ c from h)
  rw [rank_succ, if_pos hb] at h1
  omega

theorem rank_inj {W : Nat → Nat} {b c : Nat} (hb : W b > 0) (hc : W c > 0) (h : rank W b = rank W c) : b = c := by
  rcases Nat.lt_trichotomy b c with h' | h' | h'
  · have := rank_lt h' hb; omega
  · exact h'
  · have := rank_lt h' hc; omega

theorem rank_surj (W : Nat → Nat) {n k : Nat} (h : k < rank W n) : ∃ b < n, W b > 0 ∧ rank W b = k := by
  induction n with
  | zero => simp [rank] at h
  | succ n ih =>
    rw [rank_succ] at h
    by_cases hk : k < rank W n
    · obtain ⟨b, h1, h2⟩ := ih hk
      exact ⟨b, by omega, h2⟩
    · split at h
      · exact ⟨n, by omega, by assumption, by omega⟩
      · omega

theorem removeEmptyBins_ok {W : Nat → Nat} {w b : List Nat} {numBins : Nat} (hw : ∀ i < numBins, w[i]? = some (W i)) (hb : numBins ≤ b.length) :
    ∃ r, removeEmptyBins w b numBins = .ok r ∧ r.n = rank W numBins ∧ r.numElementsPerBin.length = w.length ∧ r.binIndices.length = b.length ∧
      (∀ i < numBins, r.binIndices[i]? = some (rank W i)) ∧ (∀ i < numBins, W i > 0 → r.numElementsPerBin[rank W i]? = some (W i)) := by
  have hwl : ∀ i < numBins, i < w.length := fun i hi => (List.getElem?_eq_some_iff.1 (hw i hi)).1
  obtain ⟨r, h1, h2, h3, h4, h5, h6, _⟩ := loop_rule (body := removeStep)
    (fun n (r : Remaining) => r.n = rank W n ∧ r.numElementsPerBin.length = w.length ∧ r.binIndices.length = b.length ∧
      (∀ i < n, r.binIndices[i]? = some (rank W i)) ∧ (∀ i < n, W i > 0 → r.numElementsPerBin[rank W i]? = some (W i)) ∧
      (∀ i, n ≤ i → i < numBins → r.numElementsPerBin[i]? = some (W i))) numBins ⟨0, w, b⟩
    ⟨rfl, rfl, rfl, by simp, by simp, fun i _ hi => hw i hi⟩ (by
      rintro n ⟨m, w', b'⟩ hn ⟨g1, g2, g3, g4, g5, g6⟩
      simp only at g1 g2 g3 g4 g5 g6
      subst g1
      have hle := rank_le W n
      have hlt := hwl n hn
      have hbi : ∀ i < n + 1, (b'.set n (rank W n))[i]? = some (rank W i) := by
        intro i hi
        rw [List.getElem?_set]
        split
        · rename_i e; subst e; rw [if_pos (by omega)]
        · exact g4 i (by omega)
      unfold removeStep
      simp only
      rw [writeAt_of_lt (by omega), ok_bind, readAt_of_getElem? (g6 n (le_refl _) hn), ok_bind]
      by_cases hp : W n > 0
      · simp only [hp, decide_true]
        rw [writeAt_of_lt (by omega), ok_bind]
        refine ⟨_, rfl, by rw [rank_succ, if_pos hp], by simpa using g2, by simpa using g3, hbi, ?_, ?_⟩
        · intro i hi hpi
          simp only [List.getElem?_set]
          by_cases hin : i = n
          · subst hin
            rw [if_pos rfl, if_pos (by omega)]
          · have := rank_lt (show i < n by omega) hpi
            rw [if_neg (by omega)]
            exact g5 i (by omega) hpi
        · intro i hi1 hi2
          simp only [List.getElem?_set]
          rw [if_neg (by omega)]
          exact g6 i (by omega) hi2
      · simp only [hp, decide_false]
        refine ⟨_, rfl, by rw [rank_succ, if_neg hp, add_zero], g2, by simpa using g3, hbi, ?_, ?_⟩
        · intro i hi hpi
          by_cases hin : i = n
          · subst hin; exact absurd hpi hp
          · exact g5 i (by omega) hpi
        · intro i hi1 hi2
          exact g6 i (by omega) hi2)
  exact ⟨r, h1, h2, h3, h4, h5, h6⟩

/-! ### Aggregation -/

/-- The position of an entry of a symmetric matrix. -/
def position (r c : Nat) : Nat := triangularNumber (max r c) + min r c

theorem position_inj {r c r' c' : Nat} (h : position r c = position r' c') : (r = r' ∧ c = c') ∨ (r = c' ∧ c = r') := by
  unfold position at h
  have h1 : max r c = max r' c' := by
    have h2 := triangularNumber_succ (max r c)
    have h3 := triangularNumber_succ (max r' c')
    rcases Nat.lt_trichotomy (max r c) (max r' c') with hlt | heq | hlt
    · have := triangularNumber_mono (show max r c + 1 ≤ max r' c' from hlt)
      omega
    · exact heq
    · have := triangularNumber_mono (show max r' c' + 1 ≤ max r c from hlt)
      omega
  rw [h1] at h
  omega

theorem matrix_position (h : List Rat) (r c : Nat) : matrix h r c = vec h (position r c) := rfl

theorem position_lt {r c m : Nat} (hr : r < m) (hc : c < m) : position r c < triangularNumber m :=
  triangular_lt (by omega) (by omega)

theorem diagonal_position (b : Nat) : triangularNumber (b + 1) - 1 = position b b := by
  unfold position
  rw [triangularNumber_succ, max_self, min_self]
  omega

/-- Labels are assigned to bins, bins without labels have been removed. -/
structure Assigned (n m maxBins : Nat) (γ : Nat → Option Nat) (labelBins : List Nat) : Prop where
  lt : ∀ i < n, ∀ b, γ i = some b → b < m
  bins : ∀ i < n, labelBins[i]? = some ((γ i).getD maxBins)

theorem aggregateDiagonal_ok {gr he : List Rat} {n numBins m maxBins : Nat} {β : Nat → Option Nat} {ρ : Nat → Nat}
    {binIndices labelBins : List Nat} {ag ah : List Rat} (hbins : numBins ≤ maxBins)
    (hβ : ∀ i < n, ∀ b, β i = some b → b < numBins ∧ ρ b < m)
    (hbi : ∀ b < numBins, binIndices[b]? = some (ρ b)) (hlb : ∀ i < n, labelBins[i]? = some ((β i).getD maxBins))
    (hgr : n ≤ gr.length) (hhe : triangularNumber n ≤ he.length) (hag : m ≤ ag.length) (hah : triangularNumber m ≤ ah.length) :
    ∃ s, loop n (aggregateDiagonal gr he binIndices maxBins) ⟨labelBins, ag, ah⟩ = .ok s ∧ s.labelBins.length = labelBins.length ∧
      s.gradients.length = ag.length ∧ s.hessians.length = ah.length ∧
      (∀ i < n, s.labelBins[i]? = some (((β i).map ρ).getD maxBins)) ∧
      (∀ k, vec s.gradients k = vec ag k + ∑ i ∈ range n, if (β i).map ρ = some k then vec gr i else 0) ∧
      (∀ k, vec s.hessians k = vec ah k + ∑ i ∈ range n, if ((β i).map ρ).map (fun b => position b b) = some k then matrix he i i else 0) := by
  obtain ⟨s, h1, h2, h3, h4, h5, _, h6, h7⟩ := loop_rule (body := aggregateDiagonal gr he binIndices maxBins)
    (fun i (s : Aggregated) => s.labelBins.length = labelBins.length ∧ s.gradients.length = ag.length ∧ s.hessians.length = ah.length ∧
      (∀ j < i, s.labelBins[j]? = some (((β j).map ρ).getD maxBins)) ∧ (∀ j, i ≤ j → s.labelBins[j]? = labelBins[j]?) ∧
      (∀ k, vec s.gradients k = vec ag k + ∑ j ∈ range i, if (β j).map ρ = some k then vec gr j else 0) ∧
      (∀ k, vec s.hessians k = vec ah k + ∑ j ∈ range i, if ((β j).map ρ).map (fun b => position b b) = some k then matrix he j j else 0))
    n ⟨labelBins, ag, ah⟩ ⟨rfl, rfl, rfl, by simp, fun _ _ => rfl, by simp, by simp⟩ (by
      rintro i ⟨lb, g, h⟩ hi ⟨k1, k2, k3, k4, k5, k6, k7⟩
      simp only at k1 k2 k3 k4 k5 k6 k7
      have hread : readAt lb i = .ok ((β i).getD maxBins) := readAt_of_getElem? (by rw [k5 i (le_refl _), hlb i hi])
      have hlt : i < lb.length := by
        have := (List.getElem?_eq_some_iff.1 (hlb i hi)).1
        omega
      unfold aggregateDiagonal
      simp only
      rw [hread, ok_bind]
      cases hbi' : β i with
      | none =>
        simp only [Option.getD_none, decide_true]
        refine ⟨_, rfl, k1, k2, k3, fun j hj => ?_, fun j hj => k5 j (by omega), fun k => ?_, fun k => ?_⟩
        · by_cases hji : j = i
          · subst hji
            simp only
            rw [k5 j (le_refl _), hlb j hi, hbi']
            rfl
          · exact k4 j (by omega)
        · rw [sum_range_succ, hbi', k6 k]
          simp
        · rw [sum_range_succ, hbi', k7 k]
          simp
      | some b =>
        obtain ⟨hb1, hb2⟩ := hβ i hi b hbi'
        have hne : ¬ (b = maxBins) := by omega
        simp only [Option.getD_some, hne, decide_false]
        have hpos : position (ρ b) (ρ b) < h.length := by
          have := position_lt hb2 hb2
          omega
        have hdiag : triangularNumber (i + 1) - 1 < he.length := by
          rw [diagonal_position]
          have := position_lt hi hi
          omega
        rw [readAt_of_getElem? (hbi b hb1), ok_bind, writeAt_of_lt hlt, ok_bind, readAt_vec (by omega), ok_bind, addAt_ok (by omega), ok_bind,
          readAt_vec hdiag, ok_bind, diagonal_position, addAt_ok hpos, ok_bind]
        refine ⟨_, rfl, by simpa using k1, by simpa using k2, by simpa using k3, fun j hj => ?_, fun j hj => ?_, fun k => ?_, fun k => ?_⟩
        · simp only [List.getElem?_set]
          split
          · rename_i e; subst e; rw [hbi']; simp [hlt]
          · exact k4 j (by omega)
        · simp only [List.getElem?_set]
          rw [if_neg (by omega)]
          exact k5 j (by omega)
        · simp only
          rw [vec_addAt (by omega), k6 k, sum_range_succ, hbi', add_assoc]
          simp only [Option.map_some, Option.some.injEq]
        · simp only
          rw [vec_addAt hpos, k7 k, sum_range_succ, hbi', add_assoc]
          simp only [Option.map_some, Option.some.injEq, diagonal_position, matrix_position])
  exact ⟨s, h1, h2, h3, h4, h5, h6, h7⟩

/-- The position, the Hessian of two labels is added to. -/
def pairPosition (γ : Nat → Option Nat) (i j : Nat) : Option Nat :=
  match γ i, γ j with
  | some a, some b => if a = b then none else some (position a b)
  | _, _ => none

theorem aggregateRows_ok {he ah : List Rat} {n m maxBins : Nat} {γ : Nat → Option Nat} {labelBins : List Nat} (ha : Assigned n m maxBins γ labelBins)
    (hm : m ≤ maxBins) (hhe : triangularNumber n ≤ he.length) (hah : triangularNumber m ≤ ah.length) :
    ∃ h, loopFrom (aggregateRow he labelBins maxBins) 1 (n - 1) ah = .ok h ∧ h.length = ah.length ∧
      ∀ k, vec h k = vec ah k + ∑ i ∈ range n, ∑ j ∈ range i, if pairPosition γ i j = some k then matrix he i j else 0 := by
  obtain ⟨h, h1, h2, h3⟩ := accumulate (body := aggregateRow he labelBins maxBins)
    (fun i k => ∑ j ∈ range i, if pairPosition γ i j = some k then matrix he i j else 0) 1 (n - 1) ah (by
      intro i t hi1 hi2 ht
      unfold aggregateRow
      have hi : i < n := by omega
      rw [readAt_of_getElem? (ha.bins i hi), ok_bind]
      cases hg : γ i with
      | none =>
        simp only [Option.getD_none, decide_true]
        refine ⟨t, rfl, rfl, fun k => ?_⟩
        have : ∀ j ∈ range i, (if pairPosition γ i j = some k then matrix he i j else 0) = 0 := by
          intro j _
          unfold pairPosition
          rw [hg]
          simp
        rw [sum_congr rfl this]
        simp
      | some a =>
        have ham := ha.lt i hi a hg
        have hne : ¬ (a = maxBins) := by omega
        simp only [Option.getD_some, hne, decide_false]
        refine accumulate0 (fun j k => if pairPosition γ i j = some k then matrix he i j else 0) i t (fun j u hj hu => ?_)
        unfold aggregateEntry
        rw [readAt_of_getElem? (ha.bins j (by omega)), ok_bind]
        cases hgj : γ j with
        | none =>
          simp only [Option.getD_none, ne_eq, not_true_eq_false, false_and, decide_false]
          refine ⟨u, rfl, rfl, fun k => ?_⟩
          unfold pairPosition
          rw [hg, hgj]
          simp
        | some b =>
          have hbm := ha.lt j (by omega) b hgj
          have hneb : ¬ (b = maxBins) := by omega
          simp only [Option.getD_some, ne_eq, hneb, not_false_eq_true, true_and]
          by_cases hab : a = b
          · simp only [hab, not_true_eq_false, decide_false]
            refine ⟨u, rfl, rfl, fun k => ?_⟩
            unfold pairPosition
            rw [hg, hgj]
            simp [hab]
          · simp only [hab, not_false_eq_true, decide_true]
            have hpos : (triangularNumber (if a < b then b else a) + if a < b then a else b) = position a b := by
              unfold position
              split
              · rw [max_eq_right (by omega), min_eq_left (by omega)]
              · rw [max_eq_left (by omega), min_eq_right (by omega)]
            have hlt := position_lt ham hbm
            have hij : triangularNumber i + j = position i j := by
              unfold position
              rw [max_eq_left (by omega), min_eq_right (by omega)]
            have hijlt := position_lt hi (show j < n by omega)
            rw [hpos, hij, readAt_vec (by omega), ok_bind, addAt_ok (by omega)]
            refine ⟨_, rfl, by simp, fun k => ?_⟩
            rw [vec_addAt (by omega)]
            unfold pairPosition
            rw [hg, hgj]
            simp only [hab, if_false, Option.some.injEq, matrix_position])
  refine ⟨h, h1, h2, fun k => ?_⟩
  rw [h3]
  congr 1
  cases n with
  | zero => simp
  | succ n =>
    rw [sum_range_succ' _ n]
    simp [Nat.add_comm]

/-- The entries of the aggregated Hessian matrix. -/
theorem pairs_sum {he : List Rat} {n : Nat} {γ : Nat → Option Nat} (r c : Nat) :
    (∑ i ∈ range n, if (γ i).map (fun b => position b b) = some (position r c) then matrix he i i else 0) +
        (∑ i ∈ range n, ∑ j ∈ range i, if pairPosition γ i j = some (position r c) then matrix he i j else 0) =
      ∑ i ∈ range n, ∑ j ∈ range n, if γ i = some r ∧ γ j = some c ∧ (i = j ∨ r ≠ c) then matrix he i j else 0 := by
  by_cases hrc : r = c
  · subst hrc
    have e1 : ∀ i, ((γ i).map (fun b => position b b) = some (position r r)) ↔ γ i = some r := by
      intro i
      cases γ i with
      | none => simp
      | some b =>
        simp only [Option.map_some, Option.some.injEq]
        refine ⟨fun h => ?_, fun h => by rw [h]⟩
        rcases position_inj h with h | h <;> exact h.1
    have e2 : ∀ i j, ¬ (pairPosition γ i j = some (position r r)) := by
      intro i j h
      unfold pairPosition at h
      cases hi : γ i with
      | none => rw [hi] at h; cases h
      | some a =>
        cases hj : γ j with
        | none => rw [hi, hj] at h; cases h
        | some b =>
          rw [hi, hj] at h
          simp only at h
          split at h
          · cases h
          · rename_i hab
            rcases position_inj (Option.some.inj h) with h | h
            · exact hab (h.1.trans h.2.symm)
            · exact hab (h.1.trans h.2.symm)
    simp only [e1, e2, if_false, sum_const_zero, add_zero]
    refine sum_congr rfl (fun i hi => ?_)
    have e3 : ∀ j ∈ range n, (if γ i = some r ∧ γ j = some r ∧ (i = j ∨ r ≠ r) then matrix he i j else 0) =
        if i = j then (if γ i = some r then matrix he i i else 0) else 0 := by
      intro j _
      by_cases hij : i = j
      · subst hij
        simp
      · simp [hij]
    rw [sum_congr rfl e3, sum_ite_eq, if_pos hi]
  · have e1 : ∀ i, ¬ ((γ i).map (fun b => position b b) = some (position r c)) := by
      intro i h
      cases hg : γ i with
      | none => rw [hg] at h; cases h
      | some b =>
        rw [hg] at h
        rcases position_inj (Option.some.inj h) with h | h
        · exact hrc (h.1.symm.trans h.2)
        · exact hrc (h.2.symm.trans h.1)
    have e2 : ∀ i j, (if pairPosition γ i j = some (position r c) then matrix he i j else 0) =
        (if γ i = some r ∧ γ j = some c then matrix he i j else 0) + if γ j = some r ∧ γ i = some c then matrix he j i else 0 := by
      intro i j
      rw [matrix_symm he j i]
      unfold pairPosition
      cases hi : γ i with
      | none => simp
      | some a =>
        cases hj : γ j with
        | none => simp
        | some b =>
          simp only [Option.some.injEq]
          by_cases hab : a = b
          · subst hab
            have h1 : ¬ (a = r ∧ a = c) := fun h => hrc (h.1.symm.trans h.2)
            simp [h1]
          · simp only [hab, if_false, Option.some.injEq]
            have h1 : position a b = position r c ↔ (a = r ∧ b = c) ∨ (b = r ∧ a = c) := by
              refine ⟨fun h => ?_, ?_⟩
              · rcases position_inj h with h | h
                · exact Or.inl h
                · exact Or.inr ⟨h.2, h.1⟩
              · rintro (⟨rfl, rfl⟩ | ⟨rfl, rfl⟩)
                · rfl
                · unfold position
                  rw [max_comm, min_comm]
            by_cases hx : a = r ∧ b = c
            · have hy : ¬ (b = r ∧ a = c) := fun h => hab (hx.1.trans h.1.symm)
              rw [if_pos (h1.2 (Or.inl hx)), if_pos hx, if_neg hy, add_zero]
            · by_cases hy : b = r ∧ a = c
              · rw [if_pos (h1.2 (Or.inr hy)), if_neg hx, if_pos hy, zero_add]
              · rw [if_neg (fun h => (h1.1 h).elim hx hy), if_neg hx, if_neg hy, add_zero]
    simp only [e1, if_false, sum_const_zero, zero_add, e2, sum_add_distrib, hrc, ne_eq, not_false_eq_true, or_true, and_true]
    -- the sum over all pairs consists of the pairs below, on and above the diagonal
    have e3 : ∀ F : Nat → Nat → Rat, (∀ i, F i i = 0) →
        ∑ i ∈ range n, ∑ j ∈ range n, F i j = (∑ i ∈ range n, ∑ j ∈ range i, F i j) + ∑ i ∈ range n, ∑ j ∈ range i, F j i := by
      intro F hF
      induction n with
      | zero => simp
      | succ n ih =>
        rw [sum_range_succ, sum_range_succ (fun i => ∑ j ∈ range i, F i j), sum_range_succ (fun i => ∑ j ∈ range i, F j i),
          sum_range_succ (fun j => F n j), hF n]
        have : ∑ i ∈ range n, ∑ j ∈ range (n + 1), F i j = (∑ i ∈ range n, ∑ j ∈ range n, F i j) + ∑ i ∈ range n, F i n := by
          rw [← sum_add_distrib]
          exact sum_congr rfl (fun i _ => sum_range_succ _ _)
        rw [this, ih]
        ring
    rw [e3 (fun i j => if γ i = some r ∧ γ j = some c then matrix he i j else 0) (fun i => by
      rw [if_neg]
      rintro ⟨h1, h2⟩
      rw [h1] at h2
      exact hrc (Option.some.inj h2))]

/-! ### Objectives -/

/-- The score of a label, given the scores of bins. -/
def scoreOf (γ : Nat → Option Nat) (v : Nat → Rat) (i : Nat) : Rat :=
  match γ i with
  | some b => v b
  | none => 0

theorem sum_bin {γ : Nat → Option Nat} {n m : Nat} (hγ : ∀ i < n, ∀ b, γ i = some b → b < m) (F : Nat → Nat → Rat) :
    ∑ b ∈ range m, ∑ i ∈ range n, (if γ i = some b then F i b else 0) = ∑ i ∈ range n, match γ i with | some b => F i b | none => 0 := by
  rw [sum_comm]
  refine sum_congr rfl (fun i hi => ?_)
  cases hg : γ i with
  | none => simp
  | some b =>
    simp only [Option.some.injEq]
    rw [sum_ite_eq, if_pos (mem_range.2 (hγ i (mem_range.1 hi) b hg))]

theorem linear_bins {γ : Nat → Option Nat} {n m : Nat} (hγ : ∀ i < n, ∀ b, γ i = some b → b < m) (g v : Nat → Rat) :
    ∑ b ∈ range m, (∑ i ∈ range n, if γ i = some b then g i else 0) * v b = ∑ i ∈ range n, g i * scoreOf γ v i := by
  have e := sum_bin hγ (fun i b => g i * v b)
  have e2 : ∀ b, (∑ i ∈ range n, if γ i = some b then g i else 0) * v b = ∑ i ∈ range n, if γ i = some b then g i * v b else 0 := by
    intro b
    rw [sum_mul]
    refine sum_congr rfl (fun i _ => ?_)
    split <;> simp
  simp only [e2]
  rw [e]
  refine sum_congr rfl (fun i _ => ?_)
  unfold scoreOf
  cases γ i <;> simp

theorem quadratic_bins {γ : Nat → Option Nat} {n m maxBins : Nat} (hγ : ∀ i < n, ∀ b, γ i = some b → b < m) (hm : m ≤ maxBins) (H : Nat → Nat → Rat)
    (v : Nat → Rat) :
    ∑ r ∈ range m, ∑ c ∈ range m, (∑ i ∈ range n, ∑ j ∈ range n, if γ i = some r ∧ γ j = some c ∧ (i = j ∨ r ≠ c) then H i j else 0) * v r * v c =
      ∑ i ∈ range n, ∑ j ∈ range n, withoutPairs H (fun i => (γ i).getD maxBins) i j * scoreOf γ v i * scoreOf γ v j := by
  have e1 : ∀ r c, (∑ i ∈ range n, ∑ j ∈ range n, if γ i = some r ∧ γ j = some c ∧ (i = j ∨ r ≠ c) then H i j else 0) * v r * v c =
      ∑ i ∈ range n, if γ i = some r then (∑ j ∈ range n, if γ j = some c then (if i = j ∨ r ≠ c then H i j else 0) * v r * v c else 0) else 0 := by
    intro r c
    rw [sum_mul, sum_mul]
    refine sum_congr rfl (fun i _ => ?_)
    by_cases hi : γ i = some r
    · simp only [hi, true_and, if_true]
      rw [sum_mul, sum_mul]
      refine sum_congr rfl (fun j _ => ?_)
      by_cases hj : γ j = some c
      · simp [hj]
      · simp [hj]
    · simp [hi]
  simp only [e1]
  have e2 : ∀ r, ∑ c ∈ range m, ∑ i ∈ range n, (if γ i = some r then
        (∑ j ∈ range n, if γ j = some c then (if i = j ∨ r ≠ c then H i j else 0) * v r * v c else 0) else 0) =
      ∑ i ∈ range n, if γ i = some r then (∑ j ∈ range n, match γ j with
        | some c => (if i = j ∨ r ≠ c then H i j else 0) * v r * v c
        | none => 0) else 0 := by
    intro r
    rw [sum_comm]
    refine sum_congr rfl (fun i _ => ?_)
    by_cases hi : γ i = some r
    · simp only [hi, if_true]
      exact sum_bin hγ (fun j c => (if i = j ∨ r ≠ c then H i j else 0) * v r * v c)
    · simp [hi]
  simp only [e2]
  rw [sum_bin hγ (fun i r => ∑ j ∈ range n, match γ j with
        | some c => (if i = j ∨ r ≠ c then H i j else 0) * v r * v c
        | none => 0)]
  refine sum_congr rfl (fun i hi => ?_)
  unfold scoreOf
  cases hg : γ i with
  | none => simp
  | some r =>
    simp only
    refine sum_congr rfl (fun j hj => ?_)
    cases hgj : γ j with
    | none => simp
    | some c =>
      simp only
      unfold withoutPairs
      simp only [hg, hgj, Option.getD_some]
      by_cases hij : i = j
      · simp [hij]
      · by_cases hrc : r = c
        · simp [hij, hrc]
        · simp [hrc]

/-- The objective of the bins is the objective of the labels. -/
theorem objective_bins {γ : Nat → Option Nat} {n m maxBins : Nat} (hγ : ∀ i < n, ∀ b, γ i = some b → b < m) (hm : m ≤ maxBins) {g G v : Nat → Rat}
    {H A : Nat → Nat → Rat} {W : Nat → Nat} {l1 l2 : Rat} (hG : ∀ b < m, G b = ∑ i ∈ range n, if γ i = some b then g i else 0)
    (hA : ∀ r < m, ∀ c < m, A r c = ∑ i ∈ range n, ∑ j ∈ range n, if γ i = some r ∧ γ j = some c ∧ (i = j ∨ r ≠ c) then H i j else 0)
    (hW : ∀ b < m, W b = ∑ i ∈ range n, if γ i = some b then 1 else 0) :
    (∑ b ∈ range m, G b * v b) + (∑ r ∈ range m, ∑ c ∈ range m, A r c * v r * v c) / 2 + l1 * (∑ b ∈ range m, W b * |v b|) +
        l2 * (∑ b ∈ range m, W b * v b ^ 2) / 2 =
      JointEval.objective g (withoutPairs H (fun i => (γ i).getD maxBins)) l1 l2 n (scoreOf γ v) := by
  unfold JointEval.objective
  rw [← quadratic_bins hγ hm H v, ← linear_bins hγ g v]
  have e1 : ∑ b ∈ range m, G b * v b = ∑ b ∈ range m, (∑ i ∈ range n, if γ i = some b then g i else 0) * v b :=
    sum_congr rfl (fun b hb => by rw [hG b (mem_range.1 hb)])
  have e2 : ∑ r ∈ range m, ∑ c ∈ range m, A r c * v r * v c = ∑ r ∈ range m, ∑ c ∈ range m,
      (∑ i ∈ range n, ∑ j ∈ range n, if γ i = some r ∧ γ j = some c ∧ (i = j ∨ r ≠ c) then H i j else 0) * v r * v c :=
    sum_congr rfl (fun r hr => sum_congr rfl (fun c hc => by rw [hA r (mem_range.1 hr) c (mem_range.1 hc)]))
  have e3 : ∀ f : Rat → Rat, f 0 = 0 → ∑ b ∈ range m, (W b : Rat) * f (v b) = ∑ i ∈ range n, f (scoreOf γ v i) := by
    intro f hf
    have h1 : ∀ b ∈ range m, (W b : Rat) * f (v b) = (∑ i ∈ range n, if γ i = some b then (1 : Rat) else 0) * f (v b) := by
      intro b hb
      rw [hW b (mem_range.1 hb)]
      push_cast
      rfl
    rw [sum_congr rfl h1, linear_bins hγ (fun _ => 1) (fun b => f (v b))]
    refine sum_congr rfl (fun i _ => ?_)
    unfold scoreOf
    cases γ i with
    | none => simp [hf]
    | some b => simp
  rw [e1, e2, e3 (fun x => |x|) (by simp), e3 (fun x => x ^ 2) (by simp)]

/-! ### The system of equations -/

theorem addL2_ok {a : List Rat} {n : Nat} {l2 : Rat} {weights : List Nat} {W : Nat → Nat} (hW : ∀ i < n, weights[i]? = some (W i)) (ha : n * n ≤ a.length) :
    ∃ a', loop n (addL2Step weights n l2) a = .ok a' ∧ a'.length = a.length ∧
      ∀ c < n, ∀ r ≤ c, vec a' (c * n + r) = vec a (c * n + r) + if r = c then W c * l2 else 0 := by
  obtain ⟨a', h1, h2, h3⟩ := accumulate0 (body := addL2Step weights n l2) (fun i k => if i * n + i = k then W i * l2 else 0) n a (by
    intro i t hi ht
    unfold addL2Step
    have hlt := lt_of_lt_of_le (idx_lt hi hi) ha
    rw [readAt_of_getElem? (hW i hi), ok_bind, addAt_ok (by omega)]
    exact ⟨_, rfl, by simp, fun k => vec_addAt (by omega) _ k⟩)
  refine ⟨a', h1, h2, fun c hc r hr => ?_⟩
  rw [h3]
  congr 1
  by_cases hrc : r = c
  · subst hrc
    have : ∀ i ∈ range n, (if i * n + i = r * n + r then (W i : Rat) * l2 else 0) = if r = i then (W i : Rat) * l2 else 0 := by
      intro i hi
      by_cases hri : r = i
      · subst hri; simp
      · rw [if_neg hri, if_neg]
        intro h
        exact hri (idx_inj (mem_range.1 hi) hc h).1.symm
    rw [sum_congr rfl this, sum_ite_eq, if_pos (mem_range.2 hc), if_pos rfl]
  · rw [if_neg hrc]
    refine sum_eq_zero (fun i hi => ?_)
    rw [if_neg]
    intro h
    obtain ⟨h1, h2⟩ := idx_inj (mem_range.1 hi) (by omega) h
    omega

theorem addL1_ok {b : List Rat} {n : Nat} {l1 : Rat} {weights : List Nat} {W : Nat → Nat} (hW : ∀ i < n, weights[i]? = some (W i)) (hb : n ≤ b.length) :
    ∃ b', loop n (addL1Step weights l1) b = .ok b' ∧ b'.length = b.length ∧ (∀ i < n, vec b' i = vec b i + W i * getL1RegularizationWeight (vec b i) l1) := by
  obtain ⟨s, h1, h2, h3, _⟩ := loop_rule (body := addL1Step weights l1)
    (fun i s => s.length = b.length ∧ (∀ j < i, vec s j = vec b j + W j * getL1RegularizationWeight (vec b j) l1) ∧ ∀ j, i ≤ j → vec s j = vec b j) n b
    ⟨rfl, by simp, fun _ _ => rfl⟩ (by
      rintro i s hi ⟨g1, g2, g3⟩
      unfold addL1Step
      rw [readAt_of_getElem? (hW i hi), ok_bind, readAt_vec (by omega), ok_bind, writeAt_of_lt (by omega)]
      refine ⟨_, rfl, by simpa using g1, fun j hj => ?_, fun j hj => ?_⟩
      · rw [vec_set (by omega)]
        split
        · rename_i e; rw [e, g3 i (le_refl _)]
        · exact g2 j (by omega)
      · rw [vec_set (by omega), if_neg (by omega)]
        exact g3 j (by omega))
  exact ⟨s, h1, h2, h3⟩

theorem l1Term_ok {x : List Rat} {n : Nat} {l1 : Rat} {weights : List Nat} {W : Nat → Nat} (hW : ∀ i < n, weights[i]? = some (W i)) (h : 0 ≤ l1)
    (hx : n ≤ x.length) : l1Term x weights n l1 = .ok (l1 * ∑ i ∈ range n, W i * |vec x i|) := by
  unfold l1Term l1Norm
  split
  · rw [sum_loop (f := fun i => W i * |vec x i|) (by
      intro i r hi
      rw [readAt_vec (by omega), ok_bind, readAt_of_getElem? (hW i hi), ok_bind, mul_comm]
      rfl), ok_bind]
    rfl
  · rename_i hn
    have : l1 = 0 := le_antisymm (not_lt.1 hn) h
    rw [this, zero_mul]

theorem l2Term_ok {x : List Rat} {n : Nat} {l2 : Rat} {weights : List Nat} {W : Nat → Nat} (hW : ∀ i < n, weights[i]? = some (W i)) (h : 0 ≤ l2)
    (hx : n ≤ x.length) : l2Term x weights n l2 = .ok (1 / 2 * l2 * ∑ i ∈ range n, W i * vec x i ^ 2) := by
  unfold l2Term l2NormPow
  split
  · rw [sum_loop (f := fun i => W i * vec x i ^ 2) (by
      intro i r hi
      rw [readAt_vec (by omega), ok_bind, readAt_of_getElem? (hW i hi), ok_bind, mul_comm, pow_two]
      rfl), ok_bind]
    rfl
  · rename_i hn
    have : l2 = 0 := le_antisymm (not_lt.1 hn) h
    rw [this, mul_zero, zero_mul]

theorem writeAt_frame {α : Type} {a b : List α} {k i : Nat} {v : α} (h : writeAt a k v = .ok b) (hi : k ≠ i) : b[i]? = a[i]? := by
  by_cases hk : k < a.length
  · rw [writeAt_of_lt hk] at h
    cases h
    rw [List.getElem?_set, if_neg hi]
  · rw [writeAt_of_le (by omega)] at h
    cases h

theorem copyOrdinates_frame {g b b' : List Rat} {n : Nat} (h : copyOrdinates g b n = .ok b') : ∀ i, n ≤ i → b'[i]? = b[i]? := by
  unfold copyOrdinates at h
  refine Seco.loop_inv (fun k (t : List Rat) => ∀ i, n ≤ i → t[i]? = b[i]?) h (fun _ _ => rfl) ?_
  intro k t t' hk ht hs i hi
  obtain ⟨x, _, hs⟩ := Seco.bind_ok hs
  rw [writeAt_frame hs (by omega)]
  exact ht i hi

theorem addL1_frame {weights : List Nat} {l1 : Rat} {b b' : List Rat} {n : Nat} (h : loop n (addL1Step weights l1) b = .ok b') :
    ∀ i, n ≤ i → b'[i]? = b[i]? := by
  refine Seco.loop_inv (fun k (t : List Rat) => ∀ i, n ≤ i → t[i]? = b[i]?) h (fun _ _ => rfl) ?_
  intro k t t' hk ht hs i hi
  unfold addL1Step at hs
  obtain ⟨x, _, hs⟩ := Seco.bind_ok hs
  obtain ⟨y, _, hs⟩ := Seco.bind_ok hs
  rw [writeAt_frame hs (by omega)]
  exact ht i hi

/-- The system that is solved, and the quality of its solution. -/
theorem solve_ok {dsysv : List Rat → List Rat → Nat → Res (List Rat)} (hd : DsysvSpec dsysv) {l1 l2 : Rat} (h1 : 0 ≤ l1) (h2 : 0 ≤ l2) {m : Nat} {a : Arrays}
    {W : Nat → Nat} (hW : ∀ i < m, a.numElementsPerBin[i]? = some (W i)) (hg : m ≤ a.gradients.length) (hh : triangularNumber m ≤ a.hessians.length)
    (hc : m * m ≤ a.coefficients.length) (hv : m ≤ a.binValues.length) (hp : m ≤ a.product.length) :
    ∃ A b, (∀ i, m ≤ i → b[i]? = a.binValues[i]?) ∧
      (∀ r < m, ∀ c < m, vec A (max r c * m + min r c) = matrix a.hessians r c + if r = c then W r * l2 else 0) ∧
      (∀ r < m, vec b r = -vec a.gradients r + W r * getL1RegularizationWeight (-vec a.gradients r) l1) ∧ A.length = a.coefficients.length ∧
      b.length = a.binValues.length ∧
      (∀ x, dsysv A b m = .ok x → solve dsysv l1 l2 m a = .ok ({ a with binValues := x, coefficients := A },
        (∑ i ∈ range m, vec a.gradients i * vec x i) + (∑ r ∈ range m, ∑ c ∈ range m, matrix a.hessians r c * vec x r * vec x c) / 2 +
          l1 * (∑ i ∈ range m, W i * |vec x i|) + l2 * (∑ i ∈ range m, W i * vec x i ^ 2) / 2)) ∧
      (∀ e, dsysv A b m = .error e → solve dsysv l1 l2 m a = .error e) := by
  obtain ⟨a1, p1, p2, p3⟩ := copyCoefficients_ok hh hc
  obtain ⟨a2, q1, q2, q3⟩ := addL2_ok (l2 := l2) hW (a := a1) (n := m) (by omega)
  obtain ⟨b1, r1, r2, r3⟩ := copyOrdinates_ok hg hv
  obtain ⟨b2, s1, s2, s3⟩ := addL1_ok (l1 := l1) hW (b := b1) (n := m) (by omega)
  refine ⟨a2, b2, fun i hi => ?_, ?_, ?_, by omega, by omega, ?_, ?_⟩
  · rw [addL1_frame s1 i hi, copyOrdinates_frame r1 i hi]
  · intro r hr c hc'
    rw [q3 (max r c) (by omega) (min r c) (by omega), p3 (max r c) (by omega) (min r c) (by omega)]
    by_cases hrc : r = c
    · subst hrc
      rw [matrix_position]
      unfold position
      simp only [max_self, min_self, if_true]
    · rw [if_neg hrc, if_neg (by omega)]
      rfl
  · intro r hr
    rw [s3 r hr, r3 r hr]
  · intro x hx
    have hxl : m ≤ x.length := by
      have := (hd _ _ _ _ hx (by omega)).1
      omega
    unfold solve
    rw [p1, ok_bind, q1, ok_bind, r1, ok_bind, s1, ok_bind, hx, ok_bind, overallQuality_ok hh hxl hg hp, ok_bind, l1Term_ok hW h1 hxl, ok_bind,
      l2Term_ok hW h2 hxl, ok_bind]
    simp only [pure_eq_ok]
    congr 2
    have e1 : ∑ i ∈ range m, vec x i * vec a.gradients i = ∑ i ∈ range m, vec a.gradients i * vec x i := sum_congr rfl (fun i _ => mul_comm _ _)
    have e2 : ∑ r ∈ range m, vec x r * ∑ c ∈ range m, matrix a.hessians r c * vec x c =
        ∑ r ∈ range m, ∑ c ∈ range m, matrix a.hessians r c * vec x r * vec x c := by
      refine sum_congr rfl (fun r _ => ?_)
      rw [mul_sum]
      exact sum_congr rfl (fun c _ => by ring)
    rw [e1, e2]
    ring
  · intro e he
    unfold solve
    rw [p1, ok_bind, q1, ok_bind, r1, ok_bind, s1, ok_bind, he]
    rfl

/-! ### Rule evaluation -/

open LabelBinning (countIn)

theorem createBins_ok {info : LabelInfo} {criteria : List Rat} {β : Nat → Option Nat} {numBins maxBins : Nat} {a : Arrays} (hr : info.ranges ≠ none)
    (hβ : ∀ (i : Nat) (hi : i < criteria.length), info.binOf criteria[i] = .ok (β i)) (hb : ∀ i < criteria.length, ∀ b, β i = some b → b < numBins)
    (h2 : numBins ≤ a.numElementsPerBin.length) (h3 : criteria.length ≤ a.labelBins.length) (z2 : ∀ b < numBins, a.numElementsPerBin[b]? = some 0) :
    ∃ w l, info.createBins criteria onBin (onZero maxBins) a = .ok { a with numElementsPerBin := w, labelBins := l } ∧
      w.length = a.numElementsPerBin.length ∧ l.length = a.labelBins.length ∧ (∀ b < numBins, w[b]? = some (countIn β criteria.length b)) ∧
      (∀ i < criteria.length, l[i]? = some ((β i).getD maxBins)) := by
  unfold LabelInfo.createBins
  obtain ⟨r, hr⟩ := Option.ne_none_iff_exists'.1 hr
  rw [hr]
  simp only [useInit]
  rw [ok_bind]
  obtain ⟨a', h, ⟨w, l, rfl, k1, k2, k3, k4⟩⟩ := loop_rule (body := fun i s => do
      let criterion ← readAt criteria i
      let index ← info.binOf criterion
      match index with
      | some b => onBin b i s
      | none => onZero maxBins i s)
    (fun n (s : Arrays) => ∃ w l, s = { a with numElementsPerBin := w, labelBins := l } ∧
      w.length = a.numElementsPerBin.length ∧ l.length = a.labelBins.length ∧ (∀ b < numBins, w[b]? = some (countIn β n b)) ∧
      (∀ i < n, l[i]? = some ((β i).getD maxBins))) criteria.length a
    ⟨a.numElementsPerBin, a.labelBins, rfl, rfl, rfl, fun b hb => by rw [z2 b hb]; simp [countIn], by simp⟩ (by
      rintro i s hi ⟨w, l, rfl, p3, p4, p6, p7⟩
      rw [readAt_of_lt hi, ok_bind, hβ i hi, ok_bind]
      have hcount : ∀ b, countIn β (i + 1) b = countIn β i b + if β i = some b then 1 else 0 := by
        intro b
        unfold countIn
        rw [sum_range_succ]
      cases hbi : β i with
      | none =>
        simp only [hbi] at hcount
        refine ⟨{ a with numElementsPerBin := w, labelBins := l.set i maxBins }, by
          simp only [onZero]
          rw [writeAt_of_lt (by omega), ok_bind]
          rfl, w, _, rfl, p3, by simp [p4], fun b hb' => ?_, fun j hj => ?_⟩
        · rw [hcount]; simp [p6 b hb']
        · simp only [List.getElem?_set]
          split
          · rename_i e; subst e; rw [if_pos (by omega), hbi]; rfl
          · exact p7 j (by omega)
      | some b0 =>
        simp only [hbi] at hcount
        have hb0 := hb i hi b0 hbi
        refine ⟨{ a with numElementsPerBin := w.set b0 (countIn β i b0 + 1), labelBins := l.set i b0 }, by
          simp only [onBin]
          rw [readAt_of_getElem? (p6 b0 hb0), ok_bind, writeAt_of_lt (by omega), ok_bind, writeAt_of_lt (by omega), ok_bind]
          rfl, _, _, rfl, by simp [p3], by simp [p4], fun b hb' => ?_, fun j hj => ?_⟩
        · simp only [List.getElem?_set]
          rw [hcount]
          split
          · rename_i e; subst e; rw [if_pos (by omega)]; simp
          · rename_i e
            have : ¬ (some b0 = some b) := fun h => e (Option.some.inj h)
            rw [if_neg this, add_zero]
            exact p6 b hb'
        · simp only [List.getElem?_set]
          split
          · rename_i e; subst e; rw [if_pos (by omega), hbi]; rfl
          · exact p7 j (by omega))
  exact ⟨w, l, h, k1, k2, k3, k4⟩

/-- Labels are assigned to bins without gaps. -/
structure Compact (n m : Nat) (β γ : Nat → Option Nat) : Prop where
  lt : ∀ i < n, ∀ b, γ i = some b → b < m
  onto : ∀ b < m, ∃ i < n, γ i = some b
  none : ∀ i < n, γ i = none ↔ β i = none
  same : ∀ i < n, ∀ j < n, γ i = γ j ↔ β i = β j

theorem countIn_pos {β : Nat → Option Nat} {n i b : Nat} (hi : i < n) (h : β i = some b) : countIn β n b > 0 := by
  unfold countIn
  exact Finset.sum_pos' (fun _ _ => Nat.zero_le _) ⟨i, mem_range.2 hi, by simp [h]⟩

theorem countIn_exists {β : Nat → Option Nat} {n b : Nat} (h : countIn β n b > 0) : ∃ i < n, β i = some b := by
  by_contra hn
  push Not at hn
  have : countIn β n b = 0 := by
    unfold countIn
    exact sum_eq_zero (fun i hi => by rw [if_neg (hn i (mem_range.1 hi))])
  omega

theorem compact {n numBins : Nat} {β : Nat → Option Nat} (hb : ∀ i < n, ∀ b, β i = some b → b < numBins) :
    Compact n (rank (countIn β n) numBins) β (fun i => (β i).map (rank (countIn β n))) where
  lt i hi b hib := by
    simp only [Option.map_eq_some_iff] at hib
    obtain ⟨c, h1, rfl⟩ := hib
    exact rank_lt (hb i hi c h1) (countIn_pos hi h1)
  onto b hb' := by
    obtain ⟨c, h1, h2, h3⟩ := rank_surj _ hb'
    obtain ⟨i, hi, h4⟩ := countIn_exists h2
    exact ⟨i, hi, by simp [h4, h3]⟩
  none i hi := by simp
  same i hi j hj := by
    refine ⟨fun h => ?_, fun h => by simp only [h]⟩
    cases h1 : β i with
    | none => cases h2 : β j with
      | none => rfl
      | some b => simp [h1, h2] at h
    | some a => cases h2 : β j with
      | none => simp [h1, h2] at h
      | some b =>
        simp only [h1, h2, Option.map_some, Option.some.injEq] at h
        rw [rank_inj (countIn_pos hi h1) (countIn_pos hj h2) h]

theorem row_bins {γ : Nat → Option Nat} {n m maxBins : Nat} (hγ : ∀ i < n, ∀ b, γ i = some b → b < m) (hm : m ≤ maxBins) (H : Nat → Nat → Rat) (v : Nat → Rat)
    (r : Nat) (hr : r < m) :
    ∑ c ∈ range m, (∑ i ∈ range n, ∑ j ∈ range n, if γ i = some r ∧ γ j = some c ∧ (i = j ∨ r ≠ c) then H i j else 0) * v c =
      ∑ i ∈ range n, if γ i = some r then ∑ j ∈ range n, withoutPairs H (fun i => (γ i).getD maxBins) i j * scoreOf γ v j else 0 := by
  have e1 : ∀ c ∈ range m, (∑ i ∈ range n, ∑ j ∈ range n, if γ i = some r ∧ γ j = some c ∧ (i = j ∨ r ≠ c) then H i j else 0) * v c =
      ∑ i ∈ range n, ∑ j ∈ range n, (if γ i = some r ∧ γ j = some c ∧ (i = j ∨ r ≠ c) then H i j else 0) * v c := by
    intro c _
    rw [sum_mul]
    exact sum_congr rfl (fun i _ => by rw [sum_mul])
  rw [sum_congr rfl e1, sum_comm]
  refine sum_congr rfl (fun i hi => ?_)
  rw [sum_comm]
  split
  · rename_i hir
    refine sum_congr rfl (fun j hj => ?_)
    unfold scoreOf
    cases hgj : γ j with
    | none => simp
    | some c0 =>
      have hc0 := hγ j (mem_range.1 hj) c0 hgj
      rw [sum_eq_single c0 (fun c _ hc => by rw [if_neg (fun e => hc (Option.some.inj e.2.1).symm), zero_mul]) (fun h => absurd (mem_range.2 hc0) h)]
      congr 1
      unfold withoutPairs
      simp only [hir, hgj, true_and, Option.getD_some, ne_eq]
      by_cases h1 : i = j
      · simp [h1]
      · by_cases h2 : r = c0
        · simp [h1, h2]
        · simp [h1, h2]
  · rename_i hir
    refine sum_eq_zero (fun j _ => sum_eq_zero (fun c _ => ?_))
    rw [if_neg (fun e => hir e.1), zero_mul]

/-- The result of a rule evaluation, if it does not fail. -/
structure Result (n maxBins : Nat) (β γ : Nat → Option Nat) (m : Nat) (g h : List Rat) (l1 l2 : Rat) (a' : Arrays) (quality : Rat) : Prop where
  compact : Compact n m β γ
  le : m ≤ maxBins
  labelBins : ∀ i < n, a'.labelBins[i]? = some ((γ i).getD maxBins)
  value : quality = JointEval.objective (vec g) (withoutPairs (matrix h) (fun i => (γ i).getD maxBins)) l1 l2 n (scoreOf γ (vec a'.binValues))
  stationary : ∀ b < m, (∑ i ∈ range n, if γ i = some b then vec g i + (∑ j ∈ range n, withoutPairs (matrix h) (fun i => (γ i).getD maxBins) i j *
      scoreOf γ (vec a'.binValues) j) + l2 * scoreOf γ (vec a'.binValues) i else 0) =
    (∑ i ∈ range n, if γ i = some b then 1 else 0 : Nat) * getL1RegularizationWeight (-∑ i ∈ range n, if γ i = some b then vec g i else 0) l1
  minimal : l1 = 0 → (∀ v : Nat → Rat, 0 ≤ form (withL2 (withoutPairs (matrix h) (fun i => (γ i).getD maxBins)) l2) n v v) →
    ∀ v, quality ≤ JointEval.objective (vec g) (withoutPairs (matrix h) (fun i => (γ i).getD maxBins)) l1 l2 n (scoreOf γ v)

theorem aggregateBins_eq {gr he : List Rat} {n numBins maxBins : Nat} {a : Arrays} {r : Remaining}
    {ag ah h : List Rat} {u : Aggregated}
    (r1 : removeEmptyBins a.numElementsPerBin a.binIndices numBins = .ok r) (s1 : setZeros 0 a.gradients r.n = .ok ag)
    (t1 : setZeros 0 a.hessians (triangularNumber r.n) = .ok ah)
    (u1 : loop n (aggregateDiagonal gr he r.binIndices maxBins) ⟨a.labelBins, ag, ah⟩ = .ok u)
    (v1 : loopFrom (aggregateRow he u.labelBins maxBins) 1 (n - 1) u.hessians = .ok h) :
    aggregateBins gr he n maxBins numBins a = .ok
      (⟨u.gradients, h, r.binIndices, r.numElementsPerBin, u.labelBins, a.binValues, a.coefficients, a.product⟩, r.n) := by
  unfold aggregateBins aggregate
  rw [r1, ok_bind, s1, ok_bind, t1, ok_bind, u1, ok_bind, v1]
  rfl

theorem aggregateBins_ok {gr he : List Rat} {n numBins maxBins numLabels : Nat} {β : Nat → Option Nat} {a : Arrays} (ha : a.Valid numLabels maxBins)
    (hn : n ≤ numLabels) (hbins : numBins ≤ maxBins) (hgr : n ≤ gr.length) (hhe : triangularNumber n ≤ he.length)
    (hb : ∀ i < n, ∀ b, β i = some b → b < numBins) (hw : ∀ b < numBins, a.numElementsPerBin[b]? = some (countIn β n b))
    (hl : ∀ i < n, a.labelBins[i]? = some ((β i).getD maxBins)) :
    ∃ a' m γ, aggregateBins gr he n maxBins numBins a = .ok (a', m) ∧ a'.Valid numLabels maxBins ∧ Compact n m β γ ∧ m ≤ maxBins ∧
      (∀ i < n, a'.labelBins[i]? = some ((γ i).getD maxBins)) ∧
      (∀ b < m, vec a'.gradients b = ∑ i ∈ range n, if γ i = some b then vec gr i else 0) ∧
      (∀ r < m, ∀ c < m, matrix a'.hessians r c =
        ∑ i ∈ range n, ∑ j ∈ range n, if γ i = some r ∧ γ j = some c ∧ (i = j ∨ r ≠ c) then matrix he i j else 0) ∧
      (∀ b < m, a'.numElementsPerBin[b]? = some (∑ i ∈ range n, if γ i = some b then 1 else 0)) := by
  have hc := compact hb
  obtain ⟨r, r1, r2, r3, r4, r5, r6⟩ := removeEmptyBins_ok (W := countIn β n) (w := a.numElementsPerBin) (b := a.binIndices) (numBins := numBins) hw
    (by rw [ha.binIndices]; exact hbins)
  have hm : r.n ≤ maxBins := by
    rw [r2]
    exact le_trans (rank_le _ _) hbins
  have hmt := triangularNumber_mono hm
  obtain ⟨ag, s1, s2, s3⟩ := setZeros_ok (0 : Rat) (a := a.gradients) (n := r.n) (by rw [ha.gradients]; exact hm)
  obtain ⟨ah, t1, t2, t3⟩ := setZeros_ok (0 : Rat) (a := a.hessians) (n := triangularNumber r.n) (by rw [ha.hessians]; exact hmt)
  have hag := ha.gradients
  have hah := ha.hessians
  rw [← r2] at hc
  obtain ⟨u, u1, u2, u3, u4, u5, u6, u7⟩ := aggregateDiagonal_ok (gr := gr) (he := he) (n := n) (numBins := numBins) (m := r.n) (maxBins := maxBins) (β := β)
    (ρ := rank (countIn β n)) (binIndices := r.binIndices) (labelBins := a.labelBins) (ag := ag) (ah := ah) hbins
    (fun i hi b hib => ⟨hb i hi b hib, hc.lt i hi _ (by simp [hib])⟩) r5 hl hgr hhe (by omega) (by omega)
  obtain ⟨h, v1, v2, v3⟩ := aggregateRows_ok (he := he) (ah := u.hessians) (n := n) (m := r.n) (maxBins := maxBins) (labelBins := u.labelBins) ⟨hc.lt, u5⟩ hm hhe
    (by omega)
  have heq := aggregateBins_eq r1 s1 t1 u1 v1
  refine ⟨_, r.n, fun i => (β i).map (rank (countIn β n)), heq, ?_, hc, hm, u5, ?_, ?_, ?_⟩
  rotate_left 1
  · intro b hb'
    have z : vec ag b = 0 := by
      unfold vec
      rw [s3 b hb']
      rfl
    simp only
    rw [u6 b, z, zero_add]
  · intro x hx c hc'
    have z : vec ah (position x c) = 0 := by
      unfold vec
      rw [t3 _ (position_lt hx hc')]
      rfl
    simp only
    rw [matrix_position, v3, u7, z, zero_add]
    exact pairs_sum x c
  · intro b hb'
    rw [r2] at hb'
    obtain ⟨c, c1, c2, c3⟩ := rank_surj _ hb'
    have h1 := r6 c c1 c2
    rw [c3] at h1
    simp only
    rw [h1]
    congr 1
    rw [show countIn β n c = ∑ i ∈ range n, (if β i = some c then 1 else 0) from rfl]
    refine sum_congr rfl (fun i hi => ?_)
    have hiff : (β i).map (rank (countIn β n)) = some b ↔ β i = some c := by
      refine ⟨fun h => ?_, fun h => by simp [h, c3]⟩
      simp only [Option.map_eq_some_iff] at h
      obtain ⟨d, d1, d2⟩ := h
      rw [d1, rank_inj (countIn_pos (mem_range.1 hi) d1) c2 (d2.trans c3.symm)]
    by_cases hic : β i = some c
    · rw [if_pos hic, if_pos (hiff.2 hic)]
    · rw [if_neg hic, if_neg (fun e => hic (hiff.1 e))]
  · exact ⟨by simp only; omega, by simp only; omega, by simp only; rw [r4]; exact ha.binIndices, by simp only; rw [r3]; exact ha.numElementsPerBin,
      by simp only; rw [u2]; exact ha.labelBins, ha.binValues, ha.zero, ha.coefficients, ha.product⟩

theorem scoreOf_none {γ : Nat → Option Nat} {n : Nat} (h : ∀ i < n, γ i = none) (v : Nat → Rat) : ∀ i < n, scoreOf γ v i = 0 := by
  intro i hi
  unfold scoreOf
  rw [h i hi]

theorem objective_zero {g x : Nat → Rat} {H : Nat → Nat → Rat} {l1 l2 : Rat} {n : Nat} (hx : ∀ i < n, x i = 0) : JointEval.objective g H l1 l2 n x = 0 := by
  unfold JointEval.objective
  have e1 : ∑ i ∈ range n, g i * x i = 0 := sum_eq_zero (fun i hi => by rw [hx i (mem_range.1 hi), mul_zero])
  have e2 : ∑ r ∈ range n, ∑ c ∈ range n, H r c * x r * x c = 0 :=
    sum_eq_zero (fun r _ => sum_eq_zero (fun c hc => by rw [hx c (mem_range.1 hc), mul_zero]))
  have e3 : ∑ i ∈ range n, |x i| = 0 := sum_eq_zero (fun i hi => by rw [hx i (mem_range.1 hi), abs_zero])
  have e4 : ∑ i ∈ range n, x i ^ 2 = 0 := sum_eq_zero (fun i hi => by rw [hx i (mem_range.1 hi)]; ring)
  rw [e1, e2, e3, e4]
  ring

/-- Adding a weight to the diagonal of a matrix. -/
theorem form_diagonal (B : Nat → Nat → Rat) (w : Nat → Rat) (n : Nat) (x : Nat → Rat) :
    form (fun r c => B r c + if r = c then w r else 0) n x x = form B n x x + ∑ i ∈ range n, w i * x i ^ 2 := by
  unfold form
  rw [← sum_add_distrib]
  refine sum_congr rfl (fun r hr => ?_)
  have : ∀ c ∈ range n, (B r c + if r = c then w r else 0) * x r * x c = B r c * x r * x c + if r = c then w r * x r * x c else 0 := by
    intro c _
    split <;> ring
  rw [sum_congr rfl this, sum_add_distrib, sum_ite_eq, if_pos hr]
  ring

theorem binnedScores_ok {dsysv : List Rat → List Rat → Nat → Res (List Rat)} (hd : DsysvSpec dsysv) (hf : DsysvFrame dsysv) {cfg : Config}
    {maxBins numLabels : Nat} {l1 l2 : Rat} (h1 : 0 ≤ l1) (h2 : 0 ≤ l2) {criteria g h : List Rat} {a : Arrays} (ha : a.Valid numLabels maxBins)
    (hlen : criteria.length ≤ numLabels) (hg : criteria.length ≤ g.length) (hh : triangularNumber criteria.length ≤ h.length) (hne : criteria ≠ [])
    {β : Nat → Option Nat} {numBins : Nat}
    (hnum : (cfg.getLabelInfo criteria).numPositiveBins + (cfg.getLabelInfo criteria).numNegativeBins = numBins)
    (hβ : ∀ (i : Nat) (hi : i < criteria.length), (cfg.getLabelInfo criteria).binOf criteria[i] = .ok (β i))
    (hb : ∀ i < criteria.length, ∀ b, β i = some b → b < numBins) (hm : numBins ≤ maxBins) :
    (∃ A b m e, dsysv A b m = .error e ∧ binnedScores dsysv cfg maxBins l1 l2 criteria g h a = .error e) ∨
    ∃ a' quality m γ, binnedScores dsysv cfg maxBins l1 l2 criteria g h a = .ok (a', quality) ∧ a'.Valid numLabels maxBins ∧
      Result criteria.length maxBins β γ m g h l1 l2 a' quality := by
  unfold binnedScores
  rw [hnum]
  by_cases hpos : numBins > 0
  · rw [if_pos hpos]
    obtain ⟨w, w1, w2, w3⟩ := setZeros_ok (0 : Nat) (a := a.numElementsPerBin) (n := numBins) (by rw [ha.numElementsPerBin]; exact hm)
    obtain ⟨w', l, c1, c2, c3, c4, c5⟩ := createBins_ok (info := cfg.getLabelInfo criteria) (numBins := numBins) (maxBins := maxBins)
      (a := { a with numElementsPerBin := w })
      (by
        unfold Config.getLabelInfo
        rw [if_pos (List.length_pos_iff.2 hne)]
        simp) hβ hb (by simp only; rw [w2, ha.numElementsPerBin]; exact hm) (by simp only; rw [ha.labelBins]; exact hlen) w3
    have hav : Arrays.Valid { a with numElementsPerBin := w', labelBins := l } numLabels maxBins :=
      ⟨ha.gradients, ha.hessians, ha.binIndices, by simp only; rw [c2, w2]; exact ha.numElementsPerBin, by simp only; rw [c3]; exact ha.labelBins, ha.binValues,
        ha.zero, ha.coefficients, ha.product⟩
    obtain ⟨a', m, γ, k1, k2, k3, k4, k5, k6, k7, k8⟩ := aggregateBins_ok (gr := g) (he := h) hav hlen hm hg hh hb c4 c5
    rw [w1, ok_bind, c1, ok_bind, k1, ok_bind]
    have hmt := triangularNumber_mono k4
    obtain ⟨A, b, p0, p1, p2, p3, p4, p5, p6⟩ := solve_ok hd h1 h2 (m := m) (a := a') k8 (by rw [k2.gradients]; exact k4) (by rw [k2.hessians]; exact hmt)
      (by rw [k2.coefficients]; exact Nat.mul_le_mul k4 k4) (by rw [k2.binValues]; omega) (by rw [k2.product]; exact k4)
    cases hx : dsysv A b m with
    | error e => exact Or.inl ⟨A, b, m, e, hx, p6 e hx⟩
    | ok x =>
      right
      obtain ⟨x1, x2⟩ := hd _ _ _ _ hx (by rw [p4, k2.binValues]; omega)
      refine ⟨_, _, m, γ, p5 x hx, ⟨k2.gradients, k2.hessians, k2.binIndices, k2.numElementsPerBin, k2.labelBins, ?_, ?_, ?_, k2.product⟩,
        k3, k4, k5, ?_, ?_, ?_⟩
      · simp only
        rw [x1, p4]
        exact k2.binValues
      · simp only
        rw [hf _ _ _ _ hx maxBins k4, p0 maxBins k4]
        exact k2.zero
      · simp only
        rw [p3]
        exact k2.coefficients
      · exact objective_bins k3.lt k4 k6 k7 (fun b _ => rfl)
      · intro b hb'
        have e := x2 b hb'
        rw [p2 b hb', k6 b hb'] at e
        have e1 : ∑ c ∈ range m, vec A (max b c * m + min b c) * vec x c =
            (∑ c ∈ range m, (∑ i ∈ range criteria.length, ∑ j ∈ range criteria.length,
              if γ i = some b ∧ γ j = some c ∧ (i = j ∨ b ≠ c) then matrix h i j else 0) * vec x c) +
            (∑ i ∈ range criteria.length, if γ i = some b then 1 else 0 : Nat) * l2 * vec x b := by
          have : ∀ c ∈ range m, vec A (max b c * m + min b c) * vec x c =
              (∑ i ∈ range criteria.length, ∑ j ∈ range criteria.length, if γ i = some b ∧ γ j = some c ∧ (i = j ∨ b ≠ c) then matrix h i j else 0) * vec x c +
                if b = c then (∑ i ∈ range criteria.length, if γ i = some b then 1 else 0 : Nat) * l2 * vec x c else 0 := by
            intro c hc
            rw [p1 b hb' c (mem_range.1 hc), k7 b hb' c (mem_range.1 hc)]
            split <;> ring
          rw [sum_congr rfl this, sum_add_distrib, sum_ite_eq, if_pos (mem_range.2 hb')]
        rw [e1, row_bins k3.lt k4 _ _ b hb'] at e
        have e2 : ((∑ i ∈ range criteria.length, if γ i = some b then 1 else 0 : Nat) : Rat) * l2 * vec x b =
            ∑ i ∈ range criteria.length, if γ i = some b then l2 * scoreOf γ (vec x) i else 0 := by
          push_cast
          rw [sum_mul, sum_mul]
          refine sum_congr rfl (fun i _ => ?_)
          by_cases hi : γ i = some b
          · rw [if_pos hi, if_pos hi]
            unfold scoreOf
            rw [hi, one_mul]
          · rw [if_neg hi, if_neg hi]
            ring
        rw [e2] at e
        have e3 : (∑ i ∈ range criteria.length, if γ i = some b then vec g i + (∑ j ∈ range criteria.length,
            withoutPairs (matrix h) (fun i => (γ i).getD maxBins) i j * scoreOf γ (vec x) j) + l2 * scoreOf γ (vec x) i else 0) =
            (∑ i ∈ range criteria.length, if γ i = some b then vec g i else 0) +
            (∑ i ∈ range criteria.length, if γ i = some b then ∑ j ∈ range criteria.length,
              withoutPairs (matrix h) (fun i => (γ i).getD maxBins) i j * scoreOf γ (vec x) j else 0) +
            (∑ i ∈ range criteria.length, if γ i = some b then l2 * scoreOf γ (vec x) i else 0) := by
          rw [← sum_add_distrib, ← sum_add_distrib]
          refine sum_congr rfl (fun i _ => ?_)
          split <;> simp
        simp only
        rw [e3]
        linarith
      · rintro rfl hpsd v
        rw [objective_bins k3.lt k4 k6 k7 (fun b _ => rfl)]
        -- the minimum of the objective of the bins
        let W : Nat → Rat := fun b => ((∑ i ∈ range criteria.length, if γ i = some b then 1 else 0 : Nat) : Rat) * l2
        let B : Nat → Nat → Rat := fun r c => matrix a'.hessians r c + if r = c then W r else 0
        have hobj : ∀ y, JointEval.objective (vec a'.gradients) B 0 0 m y =
            JointEval.objective (vec g) (withoutPairs (matrix h) (fun i => (γ i).getD maxBins)) 0 l2 criteria.length (scoreOf γ y) := by
          intro y
          rw [← objective_bins k3.lt k4 k6 k7 (fun b _ => rfl)]
          have := form_diagonal (matrix a'.hessians) W m y
          unfold form at this
          unfold JointEval.objective
          rw [this]
          have e : ∑ i ∈ range m, W i * y i ^ 2 = l2 * ∑ b ∈ range m, ((∑ i ∈ range criteria.length, if γ i = some b then 1 else 0 : Nat) : Rat) * y b ^ 2 := by
            rw [mul_sum]
            refine sum_congr rfl (fun i _ => ?_)
            simp only [W]
            ring
          rw [e]
          ring
        have hform : ∀ y, form (withL2 B 0) m y y =
            form (withL2 (withoutPairs (matrix h) (fun i => (γ i).getD maxBins)) l2) criteria.length (scoreOf γ y) (scoreOf γ y) := by
          intro y
          have q1 := quadratic_bins k3.lt k4 (matrix h) y
          have q2 : form (matrix a'.hessians) m y y = ∑ r ∈ range m, ∑ c ∈ range m,
              (∑ i ∈ range criteria.length, ∑ j ∈ range criteria.length, if γ i = some r ∧ γ j = some c ∧ (i = j ∨ r ≠ c) then matrix h i j else 0) * y r * y c := by
            unfold form
            exact sum_congr rfl (fun r hr => sum_congr rfl (fun c hc => by rw [k7 r (mem_range.1 hr) c (mem_range.1 hc)]))
          have q3 := linear_bins k3.lt (fun _ => l2) (fun b => y b ^ 2)
          rw [form_withL2, form_withL2, form_diagonal, q2, q1]
          unfold form
          rw [zero_mul, add_zero]
          congr 1
          have e1 : ∑ i ∈ range m, W i * y i ^ 2 = ∑ b ∈ range m, (∑ i ∈ range criteria.length, if γ i = some b then l2 else 0) * y b ^ 2 := by
            refine sum_congr rfl (fun b _ => ?_)
            simp only [W]
            push_cast
            rw [sum_mul]
            congr 1
            refine sum_congr rfl (fun i _ => ?_)
            split <;> simp
          rw [e1, q3, mul_sum]
          refine sum_congr rfl (fun i _ => ?_)
          unfold scoreOf
          cases γ i <;> simp
        have hsol := (solution_minimises (g := vec a'.gradients) (H := B) (l2 := 0) (n := m) (x := vec x) (by
            intro r c
            simp only [B]
            rw [matrix_symm a'.hessians r c]
            congr 1
            by_cases hrc : r = c
            · simp [hrc]
            · rw [if_neg hrc, if_neg (fun e => hrc e.symm)]) (fun y => by rw [hform]; exact hpsd _) (by
            intro r hr
            have e := x2 r hr
            rw [p2 r hr] at e
            have e0 : getL1RegularizationWeight (-vec a'.gradients r) (0 : Rat) = 0 := by
              unfold getL1RegularizationWeight
              split_ifs <;> simp
            rw [e0, mul_zero, add_zero] at e
            rw [← e]
            refine sum_congr rfl (fun c hc => ?_)
            rw [p1 r hr c (mem_range.1 hc)]
            unfold withL2
            simp only [B, W]
            congr 1
            split <;> simp)).1 v
        rw [hobj, hobj] at hsol
        exact hsol
  · rw [if_neg hpos]
    right
    have hnone : ∀ i < criteria.length, β i = none := by
      intro i hi
      cases hbi : β i with
      | none => rfl
      | some b => have := hb i hi b hbi; omega
    obtain ⟨l, l1', l2', l3⟩ := setZeros_ok maxBins (a := a.labelBins) (n := criteria.length) (by rw [ha.labelBins]; exact hlen)
    unfold setZeros at l1'
    rw [l1', ok_bind]
    refine ⟨_, _, 0, β, rfl, ⟨ha.gradients, ha.hessians, ha.binIndices, ha.numElementsPerBin, by simp only; rw [l2']; exact ha.labelBins, ha.binValues, ha.zero,
      ha.coefficients, ha.product⟩, ⟨fun i hi b hib => (by rw [hnone i hi] at hib; cases hib), by simp, fun _ _ => Iff.rfl, fun _ _ _ _ => Iff.rfl⟩,
      Nat.zero_le _, fun i hi => by rw [hnone i hi]; exact l3 i hi, ?_, by simp, ?_⟩
    · rw [objective_zero (scoreOf_none hnone _)]
    · intro _ _ v
      rw [objective_zero (scoreOf_none hnone _)]

end MLRL.JointBinned
