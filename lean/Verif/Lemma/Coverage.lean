import Verif.Spec.Coverage
import Verif.Lemma.LabelVectors
import Verif.Lemma.IsotonicExtract
import Mathlib.Algebra.Order.BigOperators.Group.Finset
import Mathlib.Tactic.Ring
import Mathlib.Tactic.Linarith

/-! # Lemmas about the coverage of labels -/

namespace MLRL.Seco

set_option linter.unusedSectionVars false

open Predictor Finset Iterators

variable {K V : Type}

theorem position_inj {c i j i' j' : Nat} (hj : j < c) (hj' : j' < c) (h : i * c + j = i' * c + j') : i = i' ∧ j = j' := by
  have h1 : (i * c + j) / c = i := by
    rw [Nat.mul_comm, Nat.mul_add_div (by omega), Nat.div_eq_of_lt hj, Nat.add_zero]
  have h2 : (i' * c + j') / c = i' := by
    rw [Nat.mul_comm, Nat.mul_add_div (by omega), Nat.div_eq_of_lt hj', Nat.add_zero]
  have : i = i' := by rw [← h1, h, h2]
  subst this
  exact ⟨rfl, by omega⟩

theorem position_lt {n c i j : Nat} (hi : i < n) (hj : j < c) : i * c + j < n * c := by
  have : (i + 1) * c ≤ n * c := Nat.mul_le_mul_right c hi
  have : (i + 1) * c = i * c + c := by ring
  omega

/-- A matrix of coverages with one element changed. -/
def updateCell (cov : Nat → Nat → Nat) (i j x : Nat) : Nat → Nat → Nat := fun a b => if a = i ∧ b = j then x else cov a b

theorem numCells_congr {n c : Nat} {p q : Nat → Nat → Prop} [∀ i j, Decidable (p i j)] [∀ i j, Decidable (q i j)]
    (h : ∀ i < n, ∀ j < c, p i j ↔ q i j) : numCells n c p = numCells n c q := by
  unfold numCells
  refine Finset.sum_congr rfl (fun i hi => Finset.sum_congr rfl (fun j hj => ?_))
  have := h i (Finset.mem_range.1 hi) j (Finset.mem_range.1 hj)
  by_cases hp : p i j
  · rw [if_pos hp, if_pos (this.1 hp)]
  · rw [if_neg hp, if_neg (fun hq => hp (this.2 hq))]

theorem sum_change {n k : Nat} (hk : k < n) {f g : Nat → Nat} (h : ∀ a < n, a ≠ k → f a = g a) :
    ∑ a ∈ range n, f a + g k = ∑ a ∈ range n, g a + f k := by
  have e : ∑ a ∈ (range n).erase k, f a = ∑ a ∈ (range n).erase k, g a :=
    Finset.sum_congr rfl (fun a ha => h a (Finset.mem_range.1 (Finset.mem_of_mem_erase ha)) (Finset.ne_of_mem_erase ha))
  rw [← Finset.sum_erase_add (range n) f (Finset.mem_range.2 hk), ← Finset.sum_erase_add (range n) g (Finset.mem_range.2 hk), e]
  ring

theorem numCells_updateCell {n c i j : Nat} (hi : i < n) (hj : j < c) (cov : Nat → Nat → Nat) (x : Nat) :
    numCells n c (fun a b => 0 < updateCell cov i j x a b) + (if 0 < cov i j then 1 else 0) =
      numCells n c (fun a b => 0 < cov a b) + (if 0 < x then 1 else 0) := by
  unfold numCells
  have h1 := sum_change hi (f := fun a => ∑ b ∈ range c, if 0 < updateCell cov i j x a b then 1 else 0)
    (g := fun a => ∑ b ∈ range c, if 0 < cov a b then 1 else 0) (fun a _ ha => Finset.sum_congr rfl (fun b _ => by
      simp [updateCell, ha]))
  have h2 := sum_change hj (f := fun b => if 0 < updateCell cov i j x i b then 1 else 0)
    (g := fun b => if 0 < cov i b then 1 else 0) (fun b _ hb => by simp [updateCell, hb])
  have h3 : updateCell cov i j x i j = x := by simp [updateCell]
  rw [h3] at h2
  beta_reduce at h1 h2 ⊢
  omega

/-- The matrix holds the coverages `cov` of `n` examples and `c` labels, and the sum of the weights of uncovered labels is `S` minus the number of
covered ones. -/
structure Rep [Ring K] (n c : Nat) (m : CoverageMatrix K) (cov : Nat → Nat → Nat) (S : K) : Prop where
  numCols : m.numCols = c
  length : m.cells.length = n * c
  get : ∀ i < n, ∀ j < c, m.cells[i * c + j]? = some (cov i j)
  sum : m.sumOfUncoveredWeights + (numCells n c (fun i j => 0 < cov i j) : K) = S

theorem Rep.congr [Ring K] {n c : Nat} {m : CoverageMatrix K} {cov cov' : Nat → Nat → Nat} {S : K} (h : Rep n c m cov S)
    (he : ∀ i < n, ∀ j < c, cov' i j = cov i j) : Rep n c m cov' S := by
  refine ⟨h.numCols, h.length, fun i hi j hj => by rw [he i hi j hj]; exact h.get i hi j hj, ?_⟩
  rw [numCells_congr (q := fun i j => 0 < cov i j) (fun i hi j hj => by rw [he i hi j hj])]
  exact h.sum

theorem Rep.set [Ring K] {n c i j : Nat} {m : CoverageMatrix K} {cov : Nat → Nat → Nat} {S : K} (h : Rep n c m cov S) (hi : i < n)
    (hj : j < c) (x : Nat) (s : K) (hs : s + (if 0 < x then 1 else 0) = m.sumOfUncoveredWeights + (if 0 < cov i j then 1 else 0)) :
    Rep n c { m with cells := m.cells.set (i * c + j) x, sumOfUncoveredWeights := s } (updateCell cov i j x) S := by
  have hlt : i * c + j < m.cells.length := by rw [h.length]; exact position_lt hi hj
  refine ⟨h.numCols, by simp [h.length], fun a ha b hb => ?_, ?_⟩
  · rw [List.getElem?_set]
    by_cases e : i * c + j = a * c + b
    · obtain ⟨rfl, rfl⟩ := position_inj hj hb e
      rw [if_pos rfl, if_pos hlt]
      simp [updateCell]
    · rw [if_neg e, h.get a ha b hb]
      unfold updateCell
      rw [if_neg]
      rintro ⟨rfl, rfl⟩
      exact e rfl
  · have h1 := numCells_updateCell hi hj cov x
    have h2 := h.sum
    have h3 : (numCells n c (fun a b => 0 < updateCell cov i j x a b) : K) + (if 0 < cov i j then 1 else 0) =
        (numCells n c (fun a b => 0 < cov a b) : K) + (if 0 < x then 1 else 0) := by
      exact_mod_cast congrArg (Nat.cast (R := K)) h1
    have h4 : s + (numCells n c (fun a b => 0 < updateCell cov i j x a b) : K) =
        s + (if 0 < x then 1 else 0) + (numCells n c (fun a b => 0 < cov a b) : K) - (if 0 < cov i j then 1 else 0) := by
      rw [add_assoc, add_comm (if 0 < x then (1 : K) else 0), ← h3]
      abel
    show s + _ = S
    rw [h4, hs, ← h2]
    abel

/-- What is required of the update of a cell: the coverage `x` becomes `g x`, if `pre x` holds. -/
def CellLaw [Ring K] (change : CoverageMatrix K → Nat → Res (CoverageMatrix K)) (g : Nat → Nat) (pre : Nat → Prop) : Prop :=
  ∀ n c m cov S i j, Rep n c m cov S → i < n → j < c → pre (cov i j) →
    ∃ m', change m (i * c + j) = .ok m' ∧ Rep n c m' (updateCell cov i j (g (cov i j))) S

theorem increase_law [Ring K] : CellLaw (K := K) increaseCell (fun x => x + 1) (fun x => x + 1 < uint32Size) := by
  intro n c m cov S i j h hi hj hp
  have hlt : i * c + j < m.cells.length := by rw [h.length]; exact position_lt hi hj
  refine ⟨_, ?_, h.set hi hj (cov i j + 1) (if cov i j = 0 then m.sumOfUncoveredWeights - 1 else m.sumOfUncoveredWeights) ?_⟩
  · unfold increaseCell
    rw [readAt_of_getElem? (h.get i hi j hj), ok_bind]
    simp only
    rw [writeAt_of_lt hlt, ok_bind, Nat.mod_eq_of_lt hp]
    rfl
  · by_cases e : cov i j = 0
    · simp [e]
    · rw [if_neg e, if_pos (by omega), if_pos (by omega)]

theorem decrease_law [Ring K] : CellLaw (K := K) decreaseCell (fun x => x - 1) (fun x => 0 < x ∧ x < uint32Size) := by
  intro n c m cov S i j h hi hj hp
  have hlt : i * c + j < m.cells.length := by rw [h.length]; exact position_lt hi hj
  have hx : (cov i j + uint32Size - 1) % uint32Size = cov i j - 1 := by
    have : cov i j + uint32Size - 1 = (cov i j - 1) + uint32Size := by have := hp.1; omega
    rw [this, Nat.add_mod_right, Nat.mod_eq_of_lt (by have := hp.2; omega)]
  refine ⟨_, ?_, h.set hi hj (cov i j - 1) (if cov i j - 1 = 0 then m.sumOfUncoveredWeights + 1 else m.sumOfUncoveredWeights) ?_⟩
  · unfold decreaseCell
    rw [readAt_of_getElem? (h.get i hi j hj), ok_bind]
    simp only
    rw [hx, writeAt_of_lt hlt, ok_bind]
    rfl
  · rw [if_pos hp.1]
    by_cases e : cov i j - 1 = 0
    · simp [e]
    · rw [if_neg e, if_pos (by omega)]

/-- The coverages after changing those of row `i` and of all columns in `hit`. -/
def changeCells (cov : Nat → Nat → Nat) (g : Nat → Nat) (i : Nat) (hit : Nat → Prop) [DecidablePred hit] : Nat → Nat → Nat :=
  fun a b => if a = i ∧ hit b then g (cov a b) else cov a b

theorem changeIf_ok [Ring K] {change : CoverageMatrix K → Nat → Res (CoverageMatrix K)} {g : Nat → Nat} {pre : Nat → Prop}
    (law : CellLaw change g pre) {n c i j : Nat} {m : CoverageMatrix K} {cov : Nat → Nat → Nat} {S : K} (h : Rep n c m cov S) (hi : i < n)
    (hj : j < c) (predicted majority : Bool) (hp : predicted ≠ majority → pre (cov i j)) :
    ∃ m', changeIf change predicted majority m (i * c + j) = .ok m' ∧
      Rep n c m' (changeCells cov g i (fun b => b = j ∧ predicted ≠ majority)) S := by
  unfold changeIf
  by_cases e : predicted = majority
  · subst e
    refine ⟨m, by simp, h.congr (fun a _ b _ => by simp [changeCells])⟩
  · rw [if_pos (by simpa using e)]
    obtain ⟨m', h1, h2⟩ := law n c m cov S i j h hi hj (hp e)
    refine ⟨m', h1, h2.congr (fun a _ b _ => ?_)⟩
    unfold changeCells updateCell
    by_cases e' : a = i ∧ b = j
    · obtain ⟨rfl, rfl⟩ := e'
      simp [e]
    · rw [if_neg (fun h => e' ⟨h.1, h.2.1⟩), if_neg e']

theorem iterate_eq {A : Type} (f : A → A) (n : Nat) (a : A) : Nat.iterate f n a = iterate f n a := by
  induction n generalizing a with
  | zero => rfl
  | succ k ih =>
    rw [Function.iterate_succ_apply', ih]
    rfl

theorem advance_ok {majority : List Nat} {previous index : Nat} (h : previous ≤ index) :
    advance (iterate BinarySparseForward.next previous (BinarySparseForward.create majority 0)) previous index =
      .ok (iterate BinarySparseForward.next index (BinarySparseForward.create majority 0)) := by
  unfold advance
  rw [if_pos h, ← iterate_eq, ← iterate_eq, ← Function.iterate_add_apply]
  congr 3
  omega

theorem changeComplete_ok [Ring K] [Zero V] [DecidableEq V] {change : CoverageMatrix K → Nat → Res (CoverageMatrix K)} {g : Nat → Nat}
    {pre : Nat → Prop} (law : CellLaw change g pre) {n c i : Nat} {m : CoverageMatrix K} {cov : Nat → Nat → Nat} {S : K} (h : Rep n c m cov S)
    (hi : i < n) {majority : List Nat} (hm : majority.Pairwise (· < ·)) {values : List V} (hv : values.length = c)
    (hp : ∀ j < c, predictsMinority majority (.complete values) j = true → pre (cov i j)) :
    ∃ m', changeComplete change i majority values m = .ok m' ∧
      Rep n c m' (changeCells cov g i (fun j => predictsMinority majority (.complete values) j = true)) S := by
  unfold changeComplete
  rw [h.numCols]
  obtain ⟨r, h1, h2, h3⟩ := loop_rule (body := fun j (s : BinarySparseForward × CoverageMatrix K) => do
      let value ← readAt values j
      let m ← changeIf change (decide (value ≠ 0)) s.1.deref s.2 (i * c + j)
      return (s.1.next, m))
    (fun j s => s.1 = iterate BinarySparseForward.next j (BinarySparseForward.create majority 0) ∧
      Rep n c s.2 (changeCells cov g i (fun b => b < j ∧ predictsMinority majority (.complete values) b = true)) S)
    c (BinarySparseForward.create majority 0, m) ⟨rfl, h.congr (fun a _ b _ => by simp [changeCells])⟩ (by
    rintro j ⟨it, m⟩ hj ⟨g1, g2⟩
    simp only at g1 g2
    have hjv : j < values.length := by omega
    have hpm : predictsMinority majority (.complete values) j = decide ((values[j] ≠ 0) ≠ (j ∈ majority)) := by
      simp only [predictsMinority, predictedValue]
      rw [List.getElem?_eq_getElem hjv]
    have hd : it.deref = decide (j ∈ majority) := by rw [g1, LabelVectors.forward_iterate hm]
    have hiff : (decide (values[j] ≠ 0) ≠ it.deref) ↔ predictsMinority majority (.complete values) j = true := by
      rw [hpm, hd]
      simp only [ne_eq, decide_eq_true_eq, decide_eq_decide, eq_iff_iff]
    have hc : changeCells cov g i (fun b => b < j ∧ predictsMinority majority (.complete values) b = true) i j = cov i j := by
      simp [changeCells]
    obtain ⟨m', k1, k2⟩ := changeIf_ok law g2 hi hj (decide (values[j] ≠ 0)) it.deref (fun e => by rw [hc]; exact hp j hj (hiff.1 e))
    refine ⟨(it.next, m'), ?_, by rw [g1]; rfl, k2.congr (fun a _ b _ => ?_)⟩
    · rw [readAt_of_lt hjv, ok_bind]
      simp only
      rw [k1, ok_bind]
      rfl
    · unfold changeCells
      by_cases e : a = i
      · subst e
        by_cases e' : b = j
        · subst e'
          by_cases e'' : predictsMinority majority (.complete values) b = true
          · rw [if_pos ⟨rfl, Nat.lt_succ_self _, e''⟩, if_pos ⟨rfl, rfl, hiff.2 e''⟩]
            simp
          · rw [if_neg (fun h => e'' h.2.2), if_neg (fun h => e'' (hiff.1 h.2.2))]
            simp
        · have : (b < j + 1) ↔ b < j := by omega
          simp [e', this]
      · simp [e])
  rw [h1, ok_bind]
  refine ⟨r.2, rfl, h3.congr (fun a _ b hb => ?_)⟩
  simp [changeCells, hb]

theorem predicted_partial {entries : List (Nat × V)} (hs : (entries.map Prod.fst).Pairwise (· < ·)) {k : Nat} {e : Nat × V}
    (h : entries[k]? = some e) : predictedValue (.partial_ entries) e.1 = some e.2 := by
  simp only [predictedValue]
  have : entries.find? (fun x => decide (x.1 = e.1)) = some e := by
    rw [List.find?_eq_some_iff_getElem]
    obtain ⟨hk, he⟩ := List.getElem?_eq_some_iff.1 h
    refine ⟨by simp, k, hk, he, fun j hj => ?_⟩
    have := List.pairwise_iff_getElem.1 hs j k (by simp; omega) (by simpa using hk) hj
    simp only [List.getElem_map] at this
    rw [he] at this
    simp only [Bool.not_eq_true', decide_eq_false_iff_not]
    omega
  rw [this]
  rfl

theorem changePartial_ok [Ring K] [Zero V] [DecidableEq V] {change : CoverageMatrix K → Nat → Res (CoverageMatrix K)} {g : Nat → Nat}
    {pre : Nat → Prop} (law : CellLaw change g pre) {n c i : Nat} {m : CoverageMatrix K} {cov : Nat → Nat → Nat} {S : K} (h : Rep n c m cov S)
    (hi : i < n) {majority : List Nat} (hm : majority.Pairwise (· < ·)) {entries : List (Nat × V)}
    (hs : (entries.map Prod.fst).Pairwise (· < ·)) (hv : ∀ e ∈ entries, e.1 < c)
    (hp : ∀ j < c, predictsMinority majority (.partial_ entries) j = true → pre (cov i j)) :
    ∃ m', changePartial change i majority entries m = .ok m' ∧
      Rep n c m' (changeCells cov g i (fun j => predictsMinority majority (.partial_ entries) j = true)) S := by
  unfold changePartial
  rw [h.numCols]
  obtain ⟨r, h1, h2, h3⟩ := loop_rule (body := fun k (s : (BinarySparseForward × Nat) × CoverageMatrix K) => do
      let e ← readAt entries k
      let it ← advance s.1.1 s.1.2 e.1
      let m ← changeIf change (decide (e.2 ≠ 0)) it.deref s.2 (i * c + e.1)
      return ((it, e.1), m))
    (fun k s => (s.1.1 = iterate BinarySparseForward.next s.1.2 (BinarySparseForward.create majority 0) ∧
        ∀ q e, k ≤ q → entries[q]? = some e → s.1.2 ≤ e.1) ∧
      Rep n c s.2 (changeCells cov g i (fun b => b ∈ (entries.map Prod.fst).take k ∧ predictsMinority majority (.partial_ entries) b = true)) S)
    entries.length ((BinarySparseForward.create majority 0, 0), m) ⟨⟨rfl, fun _ _ _ _ => Nat.zero_le _⟩,
      h.congr (fun a _ b _ => by simp [changeCells])⟩ (by
    rintro k ⟨⟨it, prev⟩, m⟩ hk ⟨⟨g1, g1'⟩, g2⟩
    simp only at g1 g1' g2
    have hek := List.getElem?_eq_getElem hk
    have hpos := g1' k _ (Nat.le_refl _) hek
    have hidx : (entries.map Prod.fst)[k]? = some entries[k].1 := by rw [List.getElem?_map, hek]; rfl
    have hec : entries[k].1 < c := hv _ (List.getElem_mem hk)
    have hpm : predictsMinority majority (.partial_ entries) entries[k].1 = decide ((entries[k].2 ≠ 0) ≠ (entries[k].1 ∈ majority)) := by
      unfold predictsMinority
      rw [predicted_partial hs hek]
    have hd := LabelVectors.forward_iterate hm entries[k].1
    have hiff : (decide (entries[k].2 ≠ 0) ≠ (iterate BinarySparseForward.next entries[k].1 (BinarySparseForward.create majority 0)).deref) ↔
        predictsMinority majority (.partial_ entries) entries[k].1 = true := by
      rw [hpm, hd]
      simp only [ne_eq, decide_eq_true_eq, decide_eq_decide, eq_iff_iff]
    have hnot : entries[k].1 ∉ (entries.map Prod.fst).take k := by
      intro hmem
      obtain ⟨q, hq, he⟩ := List.mem_iff_getElem.1 hmem
      rw [List.getElem_take] at he
      have hq' : q < k := by simp at hq; omega
      have := List.pairwise_iff_getElem.1 hs q k (by simp; omega) (by simpa using hk) hq'
      rw [he] at this
      simp at this
    have hc : changeCells cov g i (fun b => b ∈ (entries.map Prod.fst).take k ∧ predictsMinority majority (.partial_ entries) b = true) i
        entries[k].1 = cov i entries[k].1 := by
      unfold changeCells
      rw [if_neg (fun h => hnot h.2.1)]
    obtain ⟨m', k1, k2⟩ := changeIf_ok law g2 hi hec (decide (entries[k].2 ≠ 0))
      (iterate BinarySparseForward.next entries[k].1 (BinarySparseForward.create majority 0)).deref
      (fun e => by rw [hc]; exact hp _ hec (hiff.1 e))
    refine ⟨((iterate BinarySparseForward.next entries[k].1 (BinarySparseForward.create majority 0), entries[k].1), m'), ?_, ⟨rfl, ?_⟩,
      k2.congr (fun a _ b _ => ?_)⟩
    · rw [readAt_of_lt hk, ok_bind]
      simp only
      rw [g1, advance_ok hpos, ok_bind, k1, ok_bind]
      rfl
    · intro q e hq he
      obtain ⟨hql, rfl⟩ := List.getElem?_eq_some_iff.1 he
      have := List.pairwise_iff_getElem.1 hs k q (by simpa using hk) (by simpa using hql) hq
      simp only [List.getElem_map] at this
      exact Nat.le_of_lt this
    · unfold changeCells
      by_cases e : a = i
      · subst e
        by_cases e' : b = entries[k].1
        · subst e'
          have hmem : entries[k].1 ∈ (entries.map Prod.fst).take (k + 1) := (LossUpdate.mem_take_succ hidx _).2 (Or.inr rfl)
          by_cases e'' : predictsMinority majority (.partial_ entries) entries[k].1 = true
          · rw [if_pos ⟨rfl, hmem, e''⟩, if_pos ⟨rfl, rfl, hiff.2 e''⟩, if_neg (fun h => hnot h.2.1)]
          · rw [if_neg (fun h => e'' h.2.2), if_neg (fun h => e'' (hiff.1 h.2.2)), if_neg (fun h => hnot h.2.1)]
        · have hiff' : (b ∈ (entries.map Prod.fst).take (k + 1)) ↔ b ∈ (entries.map Prod.fst).take k := by
            rw [LossUpdate.mem_take_succ hidx]
            exact ⟨fun h => h.resolve_right e', Or.inl⟩
          simp only [hiff', e', false_and, and_false, if_false]
      · simp [e])
  rw [h1, ok_bind]
  refine ⟨r.2, rfl, h3.congr (fun a _ b hb => ?_)⟩
  have : ∀ b, predictsMinority majority (.partial_ entries) b = true → b ∈ (entries.map Prod.fst).take entries.length := by
    intro b hb
    rw [List.take_of_length_le (by simp)]
    simp only [predictsMinority, predictedValue] at hb
    cases hf : entries.find? (fun e => decide (e.1 = b)) with
    | none => rw [hf] at hb; cases hb
    | some e =>
      have h1 := List.find?_some hf
      have h2 := List.mem_of_find?_eq_some hf
      simp only [decide_eq_true_eq] at h1
      exact List.mem_map.2 ⟨e, h2, h1⟩
  unfold changeCells
  by_cases e : predictsMinority majority (.partial_ entries) b = true
  · simp [e, this b e]
  · simp [e]

theorem changeRow_ok [Ring K] [Zero V] [DecidableEq V] {n c i : Nat} {m : CoverageMatrix K} {cov : Nat → Nat → Nat} {S : K} (h : Rep n c m cov S)
    (hi : i < n) {majority : List Nat} (hm : majority.Pairwise (· < ·)) {head : Head V} (hh : HeadOk c head) (revert : Bool)
    (hp : ∀ j < c, predictsMinority majority head j = true →
      if revert then 0 < cov i j ∧ cov i j < uint32Size else cov i j + 1 < uint32Size) :
    ∃ m', changeRow majority head revert i m = .ok m' ∧
      Rep n c m' (changeCells cov (fun x => if revert then x - 1 else x + 1) i (fun j => predictsMinority majority head j = true)) S := by
  cases revert with
  | false =>
    cases head with
    | complete values => exact changeComplete_ok increase_law h hi hm hh hp
    | partial_ entries => exact changePartial_ok increase_law h hi hm hh.1 hh.2 hp
  | true =>
    cases head with
    | complete values => exact changeComplete_ok decrease_law h hi hm hh hp
    | partial_ entries => exact changePartial_ok decrease_law h hi hm hh.1 hh.2 hp

/-- The coverages after a call. -/
def afterCall [Zero V] [DecidableEq V] (majority : List Nat) (call : Update.Call V) (cov : Nat → Nat → Nat) : Nat → Nat → Nat := fun i j =>
  if call.mask i ∧ predictsMinority majority call.head j = true then (if call.revert then cov i j - 1 else cov i j + 1) else cov i j

theorem execCall_ok [Ring K] [Zero V] [DecidableEq V] {n c : Nat} {m : CoverageMatrix K} {cov : Nat → Nat → Nat} {S : K} (h : Rep n c m cov S)
    {majority : List Nat} (hm : majority.Pairwise (· < ·)) {call : Update.Call V} (hh : HeadOk c call.head)
    (hp : ∀ i < n, ∀ j < c, call.mask i = true → predictsMinority majority call.head j = true →
      if call.revert then 0 < cov i j ∧ cov i j < uint32Size else cov i j + 1 < uint32Size) :
    ∃ m', execCall majority n call m = .ok m' ∧ Rep n c m' (afterCall majority call cov) S := by
  unfold execCall
  obtain ⟨m', h1, h2⟩ := loop_rule (body := fun i (m : CoverageMatrix K) =>
      if call.mask i then changeRow majority call.head call.revert i m else .ok m)
    (fun k m => Rep n c m (fun i j => if i < k then afterCall majority call cov i j else cov i j) S) n m
    (h.congr (fun i _ j _ => by simp)) (by
    intro i m hi g
    by_cases e : call.mask i = true
    · obtain ⟨m', k1, k2⟩ := changeRow_ok g hi hm hh call.revert (fun j hj hit => by
        simp only [Nat.lt_irrefl, if_false]
        exact hp i hi j hj e hit)
      refine ⟨m', by rw [if_pos e]; exact k1, k2.congr (fun a _ b _ => ?_)⟩
      unfold changeCells
      by_cases ha : a = i
      · subst ha
        rw [if_pos (Nat.lt_succ_self a)]
        unfold afterCall
        simp only [e, true_and, Nat.lt_irrefl, if_false]
      · have : (a < i + 1) ↔ a < i := by omega
        simp [ha, this]
    · refine ⟨m, by rw [if_neg e], g.congr (fun a _ b _ => ?_)⟩
      by_cases ha : a = i
      · subst ha
        simp [afterCall, e]
      · have : (a < i + 1) ↔ a < i := by omega
        simp [this])
  exact ⟨m', h1, h2.congr (fun i hi j _ => by simp [hi])⟩

theorem net_nil [Zero V] [DecidableEq V] (majority : List Nat) (i j : Nat) : net (V := V) majority [] i j = 0 := rfl

theorem net_append [Zero V] [DecidableEq V] (majority : List Nat) (a b : List (Update.Call V)) (i j : Nat) :
    net majority (a ++ b) i j = net majority a i j + net majority b i j := by
  simp [net]

theorem execCalls_ok [Ring K] [Zero V] [DecidableEq V] {n c : Nat} {S : K} {majority : List Nat} (hm : majority.Pairwise (· < ·)) :
    ∀ (calls done : List (Update.Call V)) (m : CoverageMatrix K), Admissible majority (done ++ calls) → (∀ call ∈ calls, HeadOk c call.head) →
      Rep n c m (fun i j => (net majority done i j).toNat) S →
      ∃ m', execCalls majority n calls m = .ok m' ∧ Rep n c m' (fun i j => (net majority (done ++ calls) i j).toNat) S := by
  intro calls
  induction calls with
  | nil => intro done m _ _ h; exact ⟨m, rfl, by simpa using h⟩
  | cons call calls ih =>
    intro done m hadm hh h
    have h0 : ∀ i j, 0 ≤ net majority done i j ∧ net majority done i j < 2 ^ 32 := fun i j => hadm done (call :: calls) rfl i j
    have h1 : ∀ i j, 0 ≤ net majority (done ++ [call]) i j ∧ net majority (done ++ [call]) i j < 2 ^ 32 :=
      fun i j => hadm (done ++ [call]) calls (by simp) i j
    have hstep : ∀ i j, net majority (done ++ [call]) i j = net majority done i j +
        (if call.mask i ∧ predictsMinority majority call.head j = true then (if call.revert then -1 else 1) else 0) := by
      intro i j
      rw [net_append]
      simp [net]
    obtain ⟨m', k1, k2⟩ := execCall_ok h hm (hh call (by simp)) (fun i _ j _ e hit => by
      have a := h0 i j
      have b := h1 i j
      rw [hstep, if_pos ⟨e, hit⟩] at b
      unfold uint32Size
      cases hr : call.revert <;> rw [hr] at b
      · simp only [Bool.false_eq_true, if_false] at b ⊢
        omega
      · simp only [if_true] at b ⊢
        omega)
    obtain ⟨m'', g1, g2⟩ := ih (done ++ [call]) m' (by simpa using hadm) (fun c hc => hh c (by simp [hc])) (k2.congr (fun i _ j _ => by
      have a := h0 i j
      have b := h1 i j
      rw [hstep] at b ⊢
      unfold afterCall
      by_cases e : call.mask i = true ∧ predictsMinority majority call.head j = true
      · rw [if_pos e] at b ⊢
        rw [if_pos e]
        cases hr : call.revert <;> rw [hr] at b
        · simp only [Bool.false_eq_true, if_false] at b ⊢
          omega
        · simp only [if_true] at b ⊢
          omega
      · rw [if_neg e, if_neg e, Int.add_zero]))
    refine ⟨m'', ?_, by simpa using g2⟩
    show (execCall majority n call m >>= fun m => execCalls majority n calls m) = _
    rw [k1, ok_bind, g1]

/-! ### Initialisation -/

/-- The labels that are relevant to the majority of the examples. -/
def majorityLabels (n c : Nat) (label : Nat → Nat → Bool) : List Nat := (List.range c).filter (isMajority n label)

theorem majorityLabels_sorted (n c : Nat) (label : Nat → Nat → Bool) : (majorityLabels n c label).Pairwise (· < ·) :=
  List.pairwise_lt_range.filter _

theorem numRelevant_le (n : Nat) (label : Nat → Nat → Bool) (j : Nat) : numRelevant n label j ≤ n := by
  unfold numRelevant
  calc ∑ i ∈ range n, (if label i j then 1 else 0) ≤ ∑ _i ∈ range n, 1 := Finset.sum_le_sum (fun i _ => by split <;> omega)
    _ = n := by simp

/-- The number of examples for which a label does not have the value of the majority. -/
def numMinority (n : Nat) (label : Nat → Nat → Bool) (j : Nat) : Nat :=
  if isMajority n label j then n - numRelevant n label j else numRelevant n label j

theorem numMinority_eq (n : Nat) (label : Nat → Nat → Bool) (j : Nat) :
    numMinority n label j = ∑ i ∈ range n, if label i j ≠ isMajority n label j then 1 else 0 := by
  unfold numMinority
  cases isMajority n label j with
  | false => simp [numRelevant]
  | true =>
    have : numRelevant n label j + ∑ i ∈ range n, (if label i j ≠ true then 1 else 0) = n := by
      unfold numRelevant
      rw [← Finset.sum_add_distrib]
      calc _ = ∑ _i ∈ range n, 1 := Finset.sum_congr rfl (fun i _ => by cases label i j <;> rfl)
        _ = n := by simp
    rw [if_pos rfl]
    omega

theorem considerLabel_ok [Field K] [LinearOrder K] [IsStrictOrderedRing K] {n : Nat} (label : Nat → Nat → Bool) {j : Nat} {s : Majority K}
    (h : s.n < s.labels.length) : considerLabel n j (numRelevant n label j) s = .ok
      { labels := if isMajority n label j then s.labels.set s.n j else s.labels,
        n := if isMajority n label j then s.n + 1 else s.n, sum := s.sum + (numMinority n label j : K) } := by
  unfold considerLabel numMinority
  have hiff : ((numRelevant n label j : K) > (n : K) / 2) ↔ isMajority n label j = true := by
    unfold isMajority
    rw [decide_eq_true_eq, gt_iff_lt, div_lt_iff₀ (by norm_num : (0 : K) < 2), gt_iff_lt, Nat.mul_comm 2]
    exact_mod_cast Iff.rfl
  by_cases e : isMajority n label j = true
  · rw [if_pos (hiff.2 e), writeAt_of_lt h, ok_bind, if_pos e, if_pos e, if_pos e]
    rfl
  · rw [if_neg (fun h => e (hiff.1 h)), if_neg e, if_neg e, if_neg e]

theorem majority_loop [Field K] [LinearOrder K] [IsStrictOrderedRing K] {n c : Nat} {label : Nat → Nat → Bool} {array : List Nat} (ha : array.length = c)
    {count : Nat → Majority K → Res Nat}
    (hcount : ∀ j < c, ∀ s : Majority K, (∀ k, j ≤ k → s.labels[k]? = array[k]?) → count j s = .ok (numRelevant n label j)) :
    ∃ s, loop c (fun j (s : Majority K) => do
      let r ← count j s
      considerLabel n j r s) { labels := array, n := 0, sum := 0 } = .ok s ∧
      s.labels.take s.n = majorityLabels n c label ∧
      s.sum = (numCells n c (fun i j => label i j ≠ isMajority n label j) : K) := by
  obtain ⟨s, h1, h2, h3, h4, h5, h6⟩ := loop_rule (body := fun j (s : Majority K) => do
      let r ← count j s
      considerLabel n j r s)
    (fun j s => s.labels.length = c ∧ s.n = (majorityLabels n j label).length ∧ s.labels.take s.n = majorityLabels n j label ∧
      s.sum = ((∑ k ∈ range j, numMinority n label k : Nat) : K) ∧ ∀ k, j ≤ k → s.labels[k]? = array[k]?)
    c { labels := array, n := 0, sum := 0 } ⟨ha, rfl, rfl, by simp, fun _ _ => rfl⟩ (by
    rintro j s hj ⟨g1, g2, g3, g4, g5⟩
    have hle : (majorityLabels n j label).length ≤ j := by
      have := List.length_filter_le (isMajority n label) (List.range j)
      simpa [majorityLabels] using this
    have hsucc : majorityLabels n (j + 1) label = majorityLabels n j label ++ if isMajority n label j then [j] else [] := by
      unfold majorityLabels
      rw [List.range_succ, List.filter_append]
      by_cases e : isMajority n label j = true <;> simp [e]
    refine ⟨_, by rw [hcount j hj s g5, ok_bind, considerLabel_ok label (by omega)], ?_⟩
    by_cases e : isMajority n label j = true
    · rw [e] at hsucc
      simp only [e, if_true] at hsucc ⊢
      refine ⟨by simp [g1], by rw [hsucc, g2]; simp, ?_, ?_, ?_⟩
      · rw [hsucc, List.take_succ_eq_append_getElem (by simp; omega), List.take_set_of_le (Nat.le_refl _), g3]
        simp
      · rw [g4, Finset.sum_range_succ]
        push_cast
        rfl
      · intro k hk
        rw [List.getElem?_set_ne (by omega)]
        exact g5 k (by omega)
    · simp only [Bool.not_eq_true] at e
      rw [e] at hsucc
      simp only [Bool.false_eq_true, if_false, List.append_nil] at hsucc
      simp only [e, Bool.false_eq_true, if_false]
      refine ⟨g1, by rw [hsucc, g2], by rw [hsucc, g3], ?_, fun k hk => g5 k (by omega)⟩
      rw [g4, Finset.sum_range_succ]
      push_cast
      rfl)
  refine ⟨s, h1, h4, ?_⟩
  rw [h5]
  congr 1
  unfold numCells
  rw [Finset.sum_comm]
  exact Finset.sum_congr rfl (fun j _ => numMinority_eq n label j)

/-- The dense representation of a label matrix. -/
def denseLabels (n c : Nat) (label : Nat → Nat → Bool) : List (List Nat) := Loss.row n (fun i => Loss.row c (fun j => if label i j then 1 else 0))

theorem countDense_ok (n c : Nat) (label : Nat → Nat → Bool) {j : Nat} (hj : j < c) :
    countDense (denseLabels n c label) j = .ok (numRelevant n label j) := by
  unfold countDense denseLabels
  rw [Isotonic.length_row]
  obtain ⟨r, h1, h2⟩ := loop_rule (body := fun i (r : Nat) => do
      let row ← readAt (Loss.row n (fun i => Loss.row c (fun j => if label i j then 1 else 0))) i
      let trueLabel ← readAt row j
      return r + trueLabel) (fun i r => r = numRelevant i label j) n 0 rfl (by
    rintro i r hi rfl
    refine ⟨_, ?_, rfl⟩
    rw [Isotonic.readAt_row _ hi, ok_bind, Isotonic.readAt_row _ hj, ok_bind]
    show Except.ok _ = _
    unfold numRelevant
    rw [Finset.sum_range_succ])
  rw [h1, h2]

theorem createStatisticsDense_ok [Field K] [LinearOrder K] [IsStrictOrderedRing K] (n c : Nat) (label : Nat → Nat → Bool) {array : List Nat}
    (ha : array.length = c) : createStatisticsDense (K := K) (denseLabels n c label) c array = .ok (majorityLabels n c label,
      { numCols := c, cells := List.replicate (n * c) 0,
        sumOfUncoveredWeights := (numCells n c (fun i j => label i j ≠ isMajority n label j) : K) }) := by
  unfold createStatisticsDense
  have hlen : (denseLabels n c label).length = n := Isotonic.length_row _ _
  rw [hlen]
  obtain ⟨s, h1, h2, h3⟩ := majority_loop (K := K) (n := n) (label := label) ha (count := fun j _ => countDense (denseLabels n c label) j)
    (fun j hj _ _ => countDense_ok n c label hj)
  rw [h1, ok_bind]
  unfold createMatrix
  rw [h2, h3]
  rfl

/-- A sparse representation of a label matrix: the indices of the relevant labels of each example, without duplicates. -/
structure CsrLabels (n c : Nat) (label : Nat → Nat → Bool) (rows : List (List Nat)) : Prop where
  length : rows.length = n
  nodup : ∀ row ∈ rows, row.Nodup
  mem : ∀ (i : Nat) row, rows[i]? = some row → ∀ j, j ∈ row ↔ j < c ∧ label i j = true

theorem addIndices_ok {c : Nat} (indices : List Nat) (hnd : indices.Nodup) (hlt : ∀ j ∈ indices, j < c) (f : Nat → Nat) :
    loop indices.length (fun j array => do
      let index ← readAt indices j
      let n ← readAt array index
      writeAt array index (n + 1)) (Loss.row c f) = .ok (Loss.row c (fun j => f j + if j ∈ indices then 1 else 0)) := by
  obtain ⟨r, h1, h2⟩ := loop_rule (body := fun j (array : List Nat) => do
      let index ← readAt indices j
      let n ← readAt array index
      writeAt array index (n + 1))
    (fun k array => array = Loss.row c (fun j => f j + if j ∈ indices.take k then 1 else 0)) indices.length (Loss.row c f)
    (by simp) (by
    rintro k array hk rfl
    have hki := List.getElem?_eq_getElem hk
    have hc := hlt _ (List.getElem_mem hk)
    have hnot : indices[k] ∉ indices.take k := by
      intro hmem
      obtain ⟨q, hq, he⟩ := List.mem_iff_getElem.1 hmem
      rw [List.getElem_take] at he
      have hq' : q < k := by simp at hq; omega
      have := (List.nodup_iff_injective_getElem.1 hnd) (a₁ := ⟨q, by omega⟩) (a₂ := ⟨k, hk⟩) he
      simp at this
      omega
    refine ⟨_, ?_, rfl⟩
    rw [readAt_of_lt hk, ok_bind, Isotonic.readAt_row _ hc, ok_bind, Isotonic.writeAt_row _ hc]
    congr 1
    refine Isotonic.row_congr (fun j _ => ?_)
    by_cases e : j = indices[k]
    · subst e
      rw [Function.update_self, if_neg hnot, if_pos ((LossUpdate.mem_take_succ hki _).2 (Or.inr rfl))]
    · rw [Function.update_of_ne e]
      have : (j ∈ indices.take (k + 1)) ↔ j ∈ indices.take k := by
        rw [LossUpdate.mem_take_succ hki]
        exact ⟨fun h => h.resolve_right e, Or.inl⟩
      simp only [this])
  rw [h1, h2, List.take_length]

theorem countCsr_ok {n c : Nat} {label : Nat → Nat → Bool} {rows : List (List Nat)} (h : CsrLabels n c label rows) :
    countCsr rows c = .ok (Loss.row c (numRelevant n label)) := by
  unfold countCsr
  rw [h.length]
  obtain ⟨r, h1, h2⟩ := loop_rule (body := fun i (array : List Nat) => do
      let indices ← readAt rows i
      loop indices.length (fun j array => do
        let index ← readAt indices j
        let n ← readAt array index
        writeAt array index (n + 1)) array)
    (fun i array => array = Loss.row c (numRelevant i label)) n (List.replicate c 0)
    (by
      have : numRelevant 0 label = fun _ => 0 := by
        funext j
        simp [numRelevant]
      rw [this]
      simp [Loss.row]) (by
    rintro i array hi rfl
    have hir := List.getElem?_eq_getElem (show i < rows.length by rw [h.length]; exact hi)
    refine ⟨_, ?_, rfl⟩
    rw [readAt_of_getElem? hir, ok_bind, addIndices_ok _ (h.nodup _ (List.getElem_mem _)) (fun j hj => ((h.mem i _ hir j).1 hj).1)]
    congr 1
    refine Isotonic.row_congr (fun j hj => ?_)
    unfold numRelevant
    rw [Finset.sum_range_succ]
    congr 1
    by_cases e : label i j = true
    · rw [if_pos ((h.mem i _ hir j).2 ⟨hj, e⟩), if_pos e]
    · rw [if_neg (fun hm => e ((h.mem i _ hir j).1 hm).2), if_neg e])
  rw [h1, h2]

theorem createStatisticsCsr_ok [Field K] [LinearOrder K] [IsStrictOrderedRing K] {n c : Nat} {label : Nat → Nat → Bool} {rows : List (List Nat)}
    (h : CsrLabels n c label rows) : createStatisticsCsr (K := K) rows c = .ok (majorityLabels n c label,
      { numCols := c, cells := List.replicate (n * c) 0,
        sumOfUncoveredWeights := (numCells n c (fun i j => label i j ≠ isMajority n label j) : K) }) := by
  unfold createStatisticsCsr
  rw [countCsr_ok h, ok_bind, h.length]
  obtain ⟨s, h1, h2, h3⟩ := majority_loop (K := K) (n := n) (label := label) (array := Loss.row c (numRelevant n label))
    (Isotonic.length_row _ _) (count := fun j s => readAt s.labels j) (fun j hj s hs => by
      have := Isotonic.readAt_row (numRelevant n label) hj
      unfold readAt at this ⊢
      rw [hs j (Nat.le_refl _)]
      exact this)
  rw [h1, ok_bind]
  unfold createMatrix
  rw [h2, h3]
  rfl

theorem rep_initial [Field K] [LinearOrder K] [IsStrictOrderedRing K] [Zero V] [DecidableEq V] (majority : List Nat) (n c : Nat) (S : K) :
    Rep n c { numCols := c, cells := List.replicate (n * c) 0, sumOfUncoveredWeights := S } (fun i j => (net (V := V) majority [] i j).toNat) S := by
  refine ⟨rfl, by simp, fun i hi j hj => ?_, ?_⟩
  · rw [List.getElem?_replicate, if_pos (position_lt hi hj)]
    rfl
  · have : numCells n c (fun i j => 0 < (net (V := V) majority [] i j).toNat) = 0 := by
      unfold numCells
      exact Finset.sum_eq_zero (fun i _ => Finset.sum_eq_zero (fun j _ => by simp [net_nil]))
    rw [this]
    simp

theorem numCells_split (n c : Nat) (p q : Nat → Nat → Prop) [∀ i j, Decidable (p i j)] [∀ i j, Decidable (q i j)] :
    numCells n c p = numCells n c (fun i j => p i j ∧ q i j) + numCells n c (fun i j => p i j ∧ ¬q i j) := by
  unfold numCells
  rw [← Finset.sum_add_distrib]
  refine Finset.sum_congr rfl (fun i _ => ?_)
  rw [← Finset.sum_add_distrib]
  refine Finset.sum_congr rfl (fun j _ => ?_)
  by_cases hp : p i j <;> by_cases hq : q i j <;> simp [hp, hq]

end MLRL.Seco
