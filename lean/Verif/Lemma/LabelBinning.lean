import Verif.Model.LabelBinning
import Verif.Spec.LabelBinning
import Verif.Lemma.RuleEval
import Mathlib.Tactic.Ring
import Mathlib.Tactic.Linarith
import Mathlib.Tactic.Positivity
import Mathlib.Tactic.FieldSimp
import Mathlib.Algebra.BigOperators.Ring.Finset
import Mathlib.Algebra.BigOperators.Field
import Mathlib.Algebra.Order.BigOperators.Group.Finset

set_option linter.unusedSectionVars false

namespace MLRL.LabelBinning

open RuleEval Sampling Finset

/-- What the ranges mean: negative criteria. -/
structure NegRange (l : List Rat) (r : Ranges) : Prop where
  allNot : (∀ c ∈ l, ¬ c < 0) → r.minNegative = 0
  exists_ : (∃ c ∈ l, c < 0) → r.minNegative ∈ l ∧ r.minNegative < 0 ∧ (∀ c ∈ l, c < 0 → r.minNegative ≤ c)
  maxNone : (∀ c ∈ l, ¬ c < 0) → r.maxNegative = none
  maxSome : (∃ c ∈ l, c < 0) → ∃ M ∈ l, M < 0 ∧ r.maxNegative = some M ∧ ∀ c ∈ l, c < 0 → c ≤ M

/-- What the ranges mean: positive criteria. -/
structure PosRange (l : List Rat) (r : Ranges) : Prop where
  allNot : (∀ c ∈ l, ¬ c > 0) → r.maxPositive = 0
  exists_ : (∃ c ∈ l, c > 0) → r.maxPositive ∈ l ∧ r.maxPositive > 0 ∧ (∀ c ∈ l, c > 0 → c ≤ r.maxPositive)
  minNone : (∀ c ∈ l, ¬ c > 0) → r.minPositive = none
  minSome : (∃ c ∈ l, c > 0) → ∃ M ∈ l, M > 0 ∧ r.minPositive = some M ∧ ∀ c ∈ l, c > 0 → M ≤ c

theorem NegRange.snoc {l : List Rat} {r : Ranges} (h : NegRange l r) {c : Rat} (hc : c < 0) (a : Option Rat) (b : Rat) :
    NegRange (l ++ [c]) ⟨if c < r.minNegative then c else r.minNegative, match r.maxNegative with
      | none => some c
      | some m => if c > m then some c else some m, a, b⟩ := by
  have hex : ∃ x ∈ l ++ [c], x < 0 := ⟨c, by simp, hc⟩
  have hno : ¬ ∀ x ∈ l ++ [c], ¬ x < 0 := fun h' => h' c (by simp) hc
  refine ⟨fun h' => absurd h' hno, fun _ => ?_, fun h' => absurd h' hno, fun _ => ?_⟩
  · by_cases hl : ∃ x ∈ l, x < 0
    · obtain ⟨k1, k2, k3⟩ := h.exists_ hl
      simp only
      split
      · rename_i hlt
        refine ⟨by simp, hc, fun x hx hx0 => ?_⟩
        rcases List.mem_append.1 hx with hx | hx
        · have := k3 x hx hx0; linarith
        · rw [List.mem_singleton.1 hx]
      · rename_i hlt
        refine ⟨by simp [k1], k2, fun x hx hx0 => ?_⟩
        rcases List.mem_append.1 hx with hx | hx
        · exact k3 x hx hx0
        · rw [List.mem_singleton.1 hx]; exact not_lt.1 hlt
    · have hl' : ∀ x ∈ l, ¬ x < 0 := fun x hx hx0 => hl ⟨x, hx, hx0⟩
      simp only [h.allNot hl', if_pos hc]
      refine ⟨by simp, hc, fun x hx hx0 => ?_⟩
      rcases List.mem_append.1 hx with hx | hx
      · exact absurd hx0 (hl' x hx)
      · rw [List.mem_singleton.1 hx]
  · by_cases hl : ∃ x ∈ l, x < 0
    · obtain ⟨M, k1, k2, k3, k4⟩ := h.maxSome hl
      simp only [k3]
      by_cases hM : c > M
      · rw [if_pos hM]
        refine ⟨c, by simp, hc, rfl, fun x hx hx0 => ?_⟩
        rcases List.mem_append.1 hx with hx | hx
        · have := k4 x hx hx0; linarith
        · rw [List.mem_singleton.1 hx]
      · rw [if_neg hM]
        refine ⟨M, by simp [k1], k2, rfl, fun x hx hx0 => ?_⟩
        rcases List.mem_append.1 hx with hx | hx
        · exact k4 x hx hx0
        · rw [List.mem_singleton.1 hx]; exact not_lt.1 hM
    · have hl' : ∀ x ∈ l, ¬ x < 0 := fun x hx hx0 => hl ⟨x, hx, hx0⟩
      simp only [h.maxNone hl']
      refine ⟨c, by simp, hc, rfl, fun x hx hx0 => ?_⟩
      rcases List.mem_append.1 hx with hx | hx
      · exact absurd hx0 (hl' x hx)
      · rw [List.mem_singleton.1 hx]

theorem PosRange.snoc {l : List Rat} {r : Ranges} (h : PosRange l r) {c : Rat} (hc : c > 0) (a : Rat) (b : Option Rat) :
    PosRange (l ++ [c]) ⟨a, b, match r.minPositive with
      | none => some c
      | some m => if c < m then some c else some m, if c > r.maxPositive then c else r.maxPositive⟩ := by
  have hex : ∃ x ∈ l ++ [c], x > 0 := ⟨c, by simp, hc⟩
  have hno : ¬ ∀ x ∈ l ++ [c], ¬ x > 0 := fun h' => h' c (by simp) hc
  refine ⟨fun h' => absurd h' hno, fun _ => ?_, fun h' => absurd h' hno, fun _ => ?_⟩
  · by_cases hl : ∃ x ∈ l, x > 0
    · obtain ⟨k1, k2, k3⟩ := h.exists_ hl
      simp only
      split
      · rename_i hlt
        refine ⟨by simp, hc, fun x hx hx0 => ?_⟩
        rcases List.mem_append.1 hx with hx | hx
        · have := k3 x hx hx0; linarith
        · rw [List.mem_singleton.1 hx]
      · rename_i hlt
        refine ⟨by simp [k1], k2, fun x hx hx0 => ?_⟩
        rcases List.mem_append.1 hx with hx | hx
        · exact k3 x hx hx0
        · rw [List.mem_singleton.1 hx]; exact not_lt.1 hlt
    · have hl' : ∀ x ∈ l, ¬ x > 0 := fun x hx hx0 => hl ⟨x, hx, hx0⟩
      simp only [h.allNot hl', if_pos hc]
      refine ⟨by simp, hc, fun x hx hx0 => ?_⟩
      rcases List.mem_append.1 hx with hx | hx
      · exact absurd hx0 (hl' x hx)
      · rw [List.mem_singleton.1 hx]
  · by_cases hl : ∃ x ∈ l, x > 0
    · obtain ⟨M, k1, k2, k3, k4⟩ := h.minSome hl
      simp only [k3]
      by_cases hM : c < M
      · rw [if_pos hM]
        refine ⟨c, by simp, hc, rfl, fun x hx hx0 => ?_⟩
        rcases List.mem_append.1 hx with hx | hx
        · have := k4 x hx hx0; linarith
        · rw [List.mem_singleton.1 hx]
      · rw [if_neg hM]
        refine ⟨M, by simp [k1], k2, rfl, fun x hx hx0 => ?_⟩
        rcases List.mem_append.1 hx with hx | hx
        · exact k4 x hx hx0
        · rw [List.mem_singleton.1 hx]; exact not_lt.1 hM
    · have hl' : ∀ x ∈ l, ¬ x > 0 := fun x hx hx0 => hl ⟨x, hx, hx0⟩
      simp only [h.minNone hl']
      refine ⟨c, by simp, hc, rfl, fun x hx hx0 => ?_⟩
      rcases List.mem_append.1 hx with hx | hx
      · exact absurd hx0 (hl' x hx)
      · rw [List.mem_singleton.1 hx]

theorem NegRange.congr {l l' : List Rat} {r r' : Ranges} (h : NegRange l r) (hl : ∀ c, c < 0 → (c ∈ l' ↔ c ∈ l))
    (h1 : r'.minNegative = r.minNegative) (h2 : r'.maxNegative = r.maxNegative) : NegRange l' r' := by
  have e1 : (∀ c ∈ l', ¬ c < 0) ↔ (∀ c ∈ l, ¬ c < 0) :=
    ⟨fun k c hc h0 => k c ((hl c h0).2 hc) h0, fun k c hc h0 => k c ((hl c h0).1 hc) h0⟩
  have e2 : (∃ c ∈ l', c < 0) ↔ (∃ c ∈ l, c < 0) :=
    ⟨fun ⟨c, hc, h0⟩ => ⟨c, (hl c h0).1 hc, h0⟩, fun ⟨c, hc, h0⟩ => ⟨c, (hl c h0).2 hc, h0⟩⟩
  refine ⟨fun k => by rw [h1]; exact h.allNot (e1.1 k), fun k => ?_, fun k => by rw [h2]; exact h.maxNone (e1.1 k), fun k => ?_⟩
  · obtain ⟨k1, k2, k3⟩ := h.exists_ (e2.1 k)
    rw [h1]
    exact ⟨(hl _ k2).2 k1, k2, fun c hc h0 => k3 c ((hl c h0).1 hc) h0⟩
  · obtain ⟨M, k1, k2, k3, k4⟩ := h.maxSome (e2.1 k)
    rw [h2]
    exact ⟨M, (hl _ k2).2 k1, k2, k3, fun c hc h0 => k4 c ((hl c h0).1 hc) h0⟩

theorem PosRange.congr {l l' : List Rat} {r r' : Ranges} (h : PosRange l r) (hl : ∀ c, c > 0 → (c ∈ l' ↔ c ∈ l))
    (h1 : r'.maxPositive = r.maxPositive) (h2 : r'.minPositive = r.minPositive) : PosRange l' r' := by
  have e1 : (∀ c ∈ l', ¬ c > 0) ↔ (∀ c ∈ l, ¬ c > 0) :=
    ⟨fun k c hc h0 => k c ((hl c h0).2 hc) h0, fun k c hc h0 => k c ((hl c h0).1 hc) h0⟩
  have e2 : (∃ c ∈ l', c > 0) ↔ (∃ c ∈ l, c > 0) :=
    ⟨fun ⟨c, hc, h0⟩ => ⟨c, (hl c h0).1 hc, h0⟩, fun ⟨c, hc, h0⟩ => ⟨c, (hl c h0).2 hc, h0⟩⟩
  refine ⟨fun k => by rw [h1]; exact h.allNot (e1.1 k), fun k => ?_, fun k => by rw [h2]; exact h.minNone (e1.1 k), fun k => ?_⟩
  · obtain ⟨k1, k2, k3⟩ := h.exists_ (e2.1 k)
    rw [h1]
    exact ⟨(hl _ k2).2 k1, k2, fun c hc h0 => k3 c ((hl c h0).1 hc) h0⟩
  · obtain ⟨M, k1, k2, k3, k4⟩ := h.minSome (e2.1 k)
    rw [h2]
    exact ⟨M, (hl _ k2).2 k1, k2, k3, fun c hc h0 => k4 c ((hl c h0).1 hc) h0⟩

/-- What is known after visiting some criteria. -/
theorem visit_all (l : List Rat) :
    (l.foldl visit (0, 0, ⟨0, none, none, 0⟩)).1 = l.countP (fun c => decide (c < 0)) ∧
    (l.foldl visit (0, 0, ⟨0, none, none, 0⟩)).2.1 = l.countP (fun c => decide (c > 0)) ∧
    NegRange l (l.foldl visit (0, 0, ⟨0, none, none, 0⟩)).2.2 ∧ PosRange l (l.foldl visit (0, 0, ⟨0, none, none, 0⟩)).2.2 := by
  induction l using List.reverseRecOn with
  | nil =>
    refine ⟨rfl, rfl, ⟨fun _ => rfl, ?_, fun _ => rfl, ?_⟩, ⟨fun _ => rfl, ?_, fun _ => rfl, ?_⟩⟩ <;> simp
  | append_singleton l c ih =>
    obtain ⟨h1, h2, h3, h4⟩ := ih
    rw [List.foldl_append]
    simp only [List.foldl_cons, List.foldl_nil]
    generalize l.foldl visit (0, 0, ⟨0, none, none, 0⟩) = s at *
    simp only [List.countP_append, List.countP_cons, List.countP_nil, Nat.zero_add]
    unfold visit
    rcases lt_trichotomy c 0 with hc | hc | hc
    · have hc' : ¬ c > 0 := not_lt.2 (le_of_lt hc)
      rw [if_pos hc]
      simp only [decide_eq_true hc, decide_eq_false hc', if_true, if_false, Bool.false_eq_true]
      refine ⟨by omega, by omega, h3.snoc hc _ _, h4.congr (fun x hx => ?_) rfl rfl⟩
      simp only [List.mem_append, List.mem_singleton, or_iff_left_iff_imp]
      intro e; subst e; exact absurd hx hc'
    · subst hc
      simp only [lt_self_iff_false, gt_iff_lt, if_false, decide_false, Bool.false_eq_true, Nat.add_zero]
      refine ⟨h1, h2, h3.congr (fun x hx => ?_) rfl rfl, h4.congr (fun x hx => ?_) rfl rfl⟩ <;>
        · simp only [List.mem_append, List.mem_singleton, or_iff_left_iff_imp]
          intro e; subst e; exact absurd hx (lt_irrefl _)
    · have hc' : ¬ c < 0 := not_lt.2 (le_of_lt hc)
      rw [if_neg hc', if_pos hc]
      simp only [decide_eq_true hc, decide_eq_false hc', if_true, if_false, Bool.false_eq_true]
      refine ⟨by omega, by omega, h3.congr (fun x hx => ?_) rfl rfl, h4.snoc hc _ _⟩
      simp only [List.mem_append, List.mem_singleton, or_iff_left_iff_imp]
      intro e; subst e; exact absurd hx hc'

theorem numBins_pos {cfg : Config} (hr : 0 < cfg.binRatio) (hm : 1 ≤ cfg.minBins) {n : Nat} (hn : 0 < n) : 0 < cfg.numBins n := by
  unfold Config.numBins calculateBoundedFraction
  rw [if_pos hn]
  simp only
  have : 0 < ⌈cfg.binRatio * n⌉₊ := Nat.ceil_pos.2 (by positivity)
  split_ifs <;> omega

theorem numBins_le {cfg : Config} (hr : cfg.binRatio ≤ 1) (n : Nat) : cfg.numBins n ≤ n := by
  unfold Config.numBins
  split
  · have hc : ⌈cfg.binRatio * n⌉₊ ≤ n := by
      apply Nat.ceil_le.mpr
      have : (0 : Rat) ≤ n := by positivity
      nlinarith
    unfold calculateBoundedFraction
    simp only
    split_ifs <;> omega
  · exact Nat.le_refl _

/-- The index of a bin if the bins have a positive width. -/
theorem binIndex_ok {c m M : Rat} {n : Nat} (hn : 0 < n) (hn' : n < 2 ^ 32) (hmM : m < M) (h1 : m ≤ c) (h2 : c ≤ M) :
    binIndex c (some m) (some ((M - m) / n)) n = .ok (min (n - 1) ⌊(c - m) / ((M - m) / n)⌋.toNat) := by
  have hn0 : (0 : Rat) < n := by exact_mod_cast hn
  have hpos : 0 < (M - m) / n := div_pos (by linarith) hn0
  have hx0 : 0 ≤ (c - m) / ((M - m) / n) := div_nonneg (by linarith) (le_of_lt hpos)
  have hx1 : (c - m) / ((M - m) / n) ≤ n := by
    rw [div_le_iff₀ hpos, mul_div_cancel₀ _ (ne_of_gt hn0)]
    linarith
  have hf0 : 0 ≤ ⌊(c - m) / ((M - m) / n)⌋ := Int.floor_nonneg.2 hx0
  have hf1 : ⌊(c - m) / ((M - m) / n)⌋ ≤ n := by
    have := le_trans (Int.floor_le ((c - m) / ((M - m) / n))) hx1
    exact_mod_cast this
  unfold binIndex floatDiv castFloor
  simp only [Option.map_some, if_neg (ne_of_gt hpos)]
  rw [if_pos ⟨hf0, by omega⟩, ok_bind]
  simp only [pure_eq_ok]
  congr 1
  split_ifs <;> omega

theorem floor_mono {c c' m M : Rat} {n : Nat} (hn : 0 < n) (hmM : m < M) (h : c ≤ c') :
    ⌊(c - m) / ((M - m) / n)⌋.toNat ≤ ⌊(c' - m) / ((M - m) / n)⌋.toNat := by
  have hn0 : (0 : Rat) < n := by exact_mod_cast hn
  have hpos : 0 < (M - m) / n := div_pos (by linarith) hn0
  exact Int.toNat_le_toNat (Int.floor_le_floor (div_le_div_of_nonneg_right (by linarith) (le_of_lt hpos)))

/-! ### Rule evaluation -/

theorem setZeros_ok {α : Type} (zero : α) {a : List α} {n : Nat} (hn : n ≤ a.length) :
    ∃ b, setZeros zero a n = .ok b ∧ b.length = a.length ∧ (∀ i < n, b[i]? = some zero) := by
  obtain ⟨b, h1, h2, h3⟩ := loop_rule (body := fun i a => writeAt a i zero)
    (fun i b => b.length = a.length ∧ ∀ j < i, b[j]? = some zero) n a ⟨rfl, by simp⟩ (by
      intro i t hi ⟨k1, k2⟩
      refine ⟨t.set i zero, writeAt_of_lt (by omega) _, by simp [k1], fun j hj => ?_⟩
      rw [List.getElem?_set]
      split
      · rename_i e; subst e; rw [if_pos (by omega)]
      · exact k2 j (by omega))
  exact ⟨b, h1, h2, h3⟩

/-- The sum of a quantity over the first outputs that are assigned to a bin. -/
def sumOver (β : Nat → Option Nat) (n b : Nat) (f : Nat → Rat) : Rat := ∑ j ∈ range n, if β j = some b then f j else 0

/-- The number of the first outputs that are assigned to a bin. -/
def countIn (β : Nat → Option Nat) (n b : Nat) : Nat := ∑ j ∈ range n, if β j = some b then 1 else 0

theorem createBins_ok {info : LabelInfo} {criteria : List Rat} {stats : List (Stat Rat)} {β : Nat → Option Nat} {numBins maxBins : Nat}
    {a : Arrays} (hr : info.ranges ≠ none) (hβ : ∀ (i : Nat) (hi : i < criteria.length), info.binOf criteria[i] = .ok (β i))
    (hb : ∀ i < criteria.length, ∀ b, β i = some b → b < numBins) (hs : criteria.length ≤ stats.length)
    (h1 : numBins ≤ a.statistics.length) (h2 : numBins ≤ a.numElementsPerBin.length) (h3 : criteria.length ≤ a.binIndices.length)
    (z1 : ∀ b < numBins, a.statistics[b]? = some ⟨0, 0⟩) (z2 : ∀ b < numBins, a.numElementsPerBin[b]? = some 0) :
    ∃ a', info.createBins criteria (onBin stats) (onZero maxBins) a = .ok a' ∧ a'.binValues = a.binValues ∧
      a'.statistics.length = a.statistics.length ∧ a'.numElementsPerBin.length = a.numElementsPerBin.length ∧
      a'.binIndices.length = a.binIndices.length ∧
      (∀ b < numBins, a'.statistics[b]? = some ⟨sumOver β criteria.length b (fun j => (statAt stats j).gradient),
        sumOver β criteria.length b (fun j => (statAt stats j).hessian)⟩) ∧
      (∀ b < numBins, a'.numElementsPerBin[b]? = some (countIn β criteria.length b)) ∧
      (∀ i < criteria.length, a'.binIndices[i]? = some ((β i).getD maxBins)) := by
  unfold LabelInfo.createBins
  obtain ⟨r, hr⟩ := Option.ne_none_iff_exists'.1 hr
  rw [hr]
  simp only [useInit]
  rw [ok_bind]
  obtain ⟨a', k⟩ := loop_rule (body := fun i s => do
      let criterion ← readAt criteria i
      let index ← info.binOf criterion
      match index with
      | some b => onBin stats b i s
      | none => onZero maxBins i s)
    (fun n (s : Arrays) => s.binValues = a.binValues ∧
      s.statistics.length = a.statistics.length ∧ s.numElementsPerBin.length = a.numElementsPerBin.length ∧
      s.binIndices.length = a.binIndices.length ∧
      (∀ b < numBins, s.statistics[b]? = some ⟨sumOver β n b (fun j => (statAt stats j).gradient),
        sumOver β n b (fun j => (statAt stats j).hessian)⟩) ∧
      (∀ b < numBins, s.numElementsPerBin[b]? = some (countIn β n b)) ∧
      (∀ i < n, s.binIndices[i]? = some ((β i).getD maxBins))) criteria.length a
    ⟨rfl, rfl, rfl, rfl, fun b hb => by rw [z1 b hb]; simp [sumOver], fun b hb => by rw [z2 b hb]; simp [countIn], by simp⟩ (by
      intro i s hi ⟨p1, p2, p3, p4, p5, p6, p7⟩
      rw [readAt_of_lt hi, ok_bind, hβ i hi, ok_bind]
      have hsucc : ∀ b f, sumOver β (i + 1) b f = sumOver β i b f + if β i = some b then f i else 0 := by
        intro b f
        unfold sumOver
        rw [sum_range_succ]
      have hcount : ∀ b, countIn β (i + 1) b = countIn β i b + if β i = some b then 1 else 0 := by
        intro b
        unfold countIn
        rw [sum_range_succ]
      cases hbi : β i with
      | none =>
        simp only [hbi] at hsucc hcount
        refine ⟨{ s with binIndices := s.binIndices.set i maxBins }, by
          simp only [onZero]
          rw [writeAt_of_lt (by omega), ok_bind]
          rfl, p1, p2, p3, by simp [p4], fun b hb' => ?_, fun b hb' => ?_, fun j hj => ?_⟩
        · rw [hsucc, hsucc]; simp [p5 b hb']
        · rw [hcount]; simp [p6 b hb']
        · simp only [List.getElem?_set]
          split
          · rename_i e; subst e; rw [if_pos (by omega), hbi]; rfl
          · exact p7 j (by omega)
      | some b0 =>
        simp only [hbi] at hsucc hcount
        have hb0 := hb i hi b0 hbi
        have hst : readAt stats i = .ok (statAt stats i) := by
          rw [readAt_of_lt (by omega)]
          unfold statAt
          rw [List.getElem?_eq_getElem (by omega)]
          rfl
        refine ⟨{ s with
            statistics := s.statistics.set b0 (addStat ⟨sumOver β i b0 (fun j => (statAt stats j).gradient),
              sumOver β i b0 (fun j => (statAt stats j).hessian)⟩ (statAt stats i))
            numElementsPerBin := s.numElementsPerBin.set b0 (countIn β i b0 + 1)
            binIndices := s.binIndices.set i b0 }, by
          simp only [onBin]
          rw [readAt_of_getElem? (p5 b0 hb0), ok_bind, hst, ok_bind, writeAt_of_lt (by omega), ok_bind,
            readAt_of_getElem? (p6 b0 hb0), ok_bind, writeAt_of_lt (by omega), ok_bind, writeAt_of_lt (by omega), ok_bind]
          rfl, p1, by simp [p2], by simp [p3], by simp [p4], fun b hb' => ?_, fun b hb' => ?_, fun j hj => ?_⟩
        · simp only [List.getElem?_set]
          rw [hsucc, hsucc]
          split
          · rename_i e; subst e; rw [if_pos (by omega)]; simp [addStat]
          · rename_i e
            have : ¬ (some b0 = some b) := fun h => e (Option.some.inj h)
            rw [if_neg this, if_neg this, add_zero, add_zero]
            exact p5 b hb'
        · simp only [List.getElem?_set]
          rw [hcount]
          split
          · rename_i e; subst e; rw [if_pos (by omega)]; simp
          · rename_i e
            have : ¬ (some b0 = some b) := fun h => e (Option.some.inj h)
            rw [if_neg this, add_zero]
            exact p6 b hb'
        · simp only [List.getElem?_set]
          split
          · rename_i e; subst e; rw [if_pos (by omega), hbi]; rfl
          · exact p7 j (by omega))
  exact ⟨a', k⟩

theorem calculateBinnedScores_ok {statistics : List (Stat Rat)} {weights : List Nat} {numBins : Nat} {l1 l2 : Rat} {values : List Rat}
    {S : Nat → Stat Rat} {W : Nat → Nat} (hS : ∀ b < numBins, statistics[b]? = some (S b)) (hW : ∀ b < numBins, weights[b]? = some (W b))
    (hv : numBins ≤ values.length) :
    ∃ v, calculateBinnedScores statistics weights numBins l1 l2 values =
        .ok (v, ∑ b ∈ range numBins, (S b).quality (W b * l1) (W b * l2) ((S b).score (W b * l1) (W b * l2))) ∧
      v.length = values.length ∧ (∀ b < numBins, v[b]? = some ((S b).score (W b * l1) (W b * l2))) ∧
      (∀ b ≥ numBins, v[b]? = values[b]?) := by
  obtain ⟨r, k1, k2, k3, k4, k5⟩ := loop_rule (body := fun i (r : List Rat × Rat) => do
      let weight ← readAt weights i
      let t ← readAt statistics i
      let score := t.score (weight * l1) (weight * l2)
      let values ← writeAt r.1 i score
      return (values, r.2 + t.quality (weight * l1) (weight * l2) score))
    (fun n (r : List Rat × Rat) => r.1.length = values.length ∧
      (∀ b < n, r.1[b]? = some ((S b).score (W b * l1) (W b * l2))) ∧ (∀ b ≥ n, r.1[b]? = values[b]?) ∧
      r.2 = ∑ b ∈ range n, (S b).quality (W b * l1) (W b * l2) ((S b).score (W b * l1) (W b * l2))) numBins (values, 0)
    ⟨rfl, by simp, fun _ _ => rfl, by simp⟩ (by
      intro i r hi ⟨p1, p2, p3, p4⟩
      rw [readAt_of_getElem? (hW i hi), ok_bind, readAt_of_getElem? (hS i hi), ok_bind]
      simp only
      rw [writeAt_of_lt (by omega), ok_bind]
      refine ⟨_, rfl, by simp [p1], fun b hb => ?_, fun b hb => ?_, by rw [sum_range_succ, p4]⟩
      · simp only [List.getElem?_set]
        split
        · rename_i e; subst e; rw [if_pos (by omega)]
        · exact p2 b (by omega)
      · simp only [List.getElem?_set]
        rw [if_neg (by omega)]
        exact p3 b (by omega))
  refine ⟨r.1, ?_, k2, k3, k4⟩
  unfold calculateBinnedScores
  rw [k1, ← k5]

theorem binnedScores_ok {cfg : Config} {maxBins : Nat} {l1 l2 : Rat} {criteria : List Rat} {stats : List (Stat Rat)} {a : Arrays}
    {β : Nat → Option Nat} {numBins : Nat} (hnum : (cfg.getLabelInfo criteria).numPositiveBins +
      (cfg.getLabelInfo criteria).numNegativeBins = numBins)
    (hne : criteria ≠ [])
    (hβ : ∀ (i : Nat) (hi : i < criteria.length), (cfg.getLabelInfo criteria).binOf criteria[i] = .ok (β i))
    (hb : ∀ i < criteria.length, ∀ b, β i = some b → b < numBins) (hs : criteria.length ≤ stats.length) (hm : numBins ≤ maxBins)
    (h1 : a.statistics.length = maxBins) (h2 : a.numElementsPerBin.length = maxBins) (h3 : criteria.length ≤ a.binIndices.length)
    (h4 : a.binValues.length = maxBins + 1) (S : Nat → Stat Rat) (W : Nat → Nat)
    (hS : S = fun b => ⟨sumOver β criteria.length b (fun j => (statAt stats j).gradient),
      sumOver β criteria.length b (fun j => (statAt stats j).hessian)⟩) (hW : W = fun b => countIn β criteria.length b) :
    ∃ a', binnedScores cfg maxBins l1 l2 criteria stats a = .ok (a',
        ∑ b ∈ range numBins, (S b).quality (W b * l1) (W b * l2) ((S b).score (W b * l1) (W b * l2))) ∧
      a'.binIndices.length = a.binIndices.length ∧
      (∀ i < criteria.length, a'.binIndices[i]? = some ((β i).getD maxBins)) ∧
      a'.binValues.length = maxBins + 1 ∧
      (∀ b < numBins, a'.binValues[b]? = some ((S b).score (W b * l1) (W b * l2))) ∧
      a'.binValues[maxBins]? = a.binValues[maxBins]? := by
  obtain ⟨s1, p1, p2, p3⟩ := setZeros_ok (⟨0, 0⟩ : Stat Rat) (a := a.statistics) (n := numBins) (by omega)
  obtain ⟨s2, q1, q2, q3⟩ := setZeros_ok (0 : Nat) (a := a.numElementsPerBin) (n := numBins) (by omega)
  obtain ⟨a', r1, r2, r3, r4, r5, r6, r7, r8⟩ := createBins_ok (maxBins := maxBins) (stats := stats) (numBins := numBins)
    (a := { a with statistics := s1, numElementsPerBin := s2 })
    (by
      unfold Config.getLabelInfo
      rw [if_pos (List.length_pos_iff.2 hne)]
      simp) hβ hb hs (by simp only; omega) (by simp only; omega) h3 p3 q3
  obtain ⟨v, t1, t2, t3, t4⟩ := calculateBinnedScores_ok (statistics := a'.statistics) (weights := a'.numElementsPerBin)
    (numBins := numBins) (l1 := l1) (l2 := l2) (values := a'.binValues) (S := S) (W := W)
    (by rw [hS]; exact r6) (by rw [hW]; exact r7) (by rw [r2]; simp only; omega)
  refine ⟨{ a' with binValues := v }, ?_, r5, r8, by simp only [t2, r2, h4], t3, ?_⟩
  · unfold binnedScores
    simp only [hnum]
    rw [p1, ok_bind, q1, ok_bind, r1, ok_bind, t1, ok_bind]
    rfl
  · simp only [t4 maxBins hm, r2]

/-- The sum over the bins of the objectives of the aggregated statistics is the sum over the outputs. -/
theorem sum_bins (β : Nat → Option Nat) {n numBins maxBins : Nat} (stats : List (Stat Rat)) (l1 l2 : Rat) (q : Nat → Rat)
    (hq : q maxBins = 0) (hb : ∀ i < n, ∀ b, β i = some b → b < numBins) :
    ∑ b ∈ range numBins, objective (sumOver β n b (fun j => (statAt stats j).gradient)) (sumOver β n b (fun j => (statAt stats j).hessian))
        (countIn β n b * l1) (countIn β n b * l2) (q b) =
      ∑ i ∈ range n, objective (statAt stats i).gradient (statAt stats i).hessian l1 l2 (q ((β i).getD maxBins)) := by
  have e : ∀ b, objective (sumOver β n b (fun j => (statAt stats j).gradient)) (sumOver β n b (fun j => (statAt stats j).hessian))
        (countIn β n b * l1) (countIn β n b * l2) (q b) =
      ∑ i ∈ range n, if β i = some b then objective (statAt stats i).gradient (statAt stats i).hessian l1 l2 (q b) else 0 := by
    intro b
    unfold sumOver countIn
    push_cast
    unfold objective
    simp only [sum_mul, mul_sum, sum_div, ← sum_add_distrib]
    refine sum_congr rfl (fun i _ => ?_)
    split <;> ring
  simp only [e]
  rw [sum_comm]
  refine sum_congr rfl (fun i hi => ?_)
  cases hbi : β i with
  | none =>
    simp only [reduceCtorEq, if_false, sum_const_zero, Option.getD_none, hq]
    unfold objective
    simp
  | some b0 =>
    have hlt := hb i (mem_range.1 hi) b0 hbi
    simp only [Option.some.injEq, Option.getD_some]
    rw [sum_ite_eq]
    rw [if_pos (mem_range.2 hlt)]

end MLRL.LabelBinning
