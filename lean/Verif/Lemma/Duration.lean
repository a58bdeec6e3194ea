import Mathlib.Tactic.Linarith
import Mathlib.Tactic.Ring
import Mathlib.Tactic.Push
import Verif.Model.Duration
import Verif.Spec.Duration

/-!
# Textual representations of durations: auxiliary lemmas
-/

namespace MLRL.Duration

theorem int_cast (n : ℤ) : int (n : ℚ) = n := by
  unfold int
  split <;> simp

theorem divmod_int (a b : ℤ) (hb : 0 < b) : divmod (a : ℚ) (b : ℚ) = (a / b, ((a % b : ℤ) : ℚ)) := by
  have h : ⌊(a : ℚ) / (b : ℚ)⌋ = a / b := by
    obtain ⟨k, rfl⟩ := Int.eq_ofNat_of_zero_le hb.le
    exact_mod_cast Rat.floor_intCast_div_natCast a k
  unfold divmod
  rw [h]
  refine Prod.ext rfl ?_
  have := Int.emod_add_mul_ediv a b
  have h2 : (a : ℚ) = ((a % b : ℤ) : ℚ) + (b : ℚ) * ((a / b : ℤ) : ℚ) := by exact_mod_cast this.symm
  simp only
  linarith

theorem floor_bounds (d : ℚ) : 1000 * ⌊d⌋ ≤ ⌊1000 * d⌋ ∧ ⌊1000 * d⌋ < 1000 * ⌊d⌋ + 1000 := by
  constructor
  · rw [Int.le_floor]
    push_cast
    have := Int.floor_le d
    linarith
  · rw [Int.floor_lt]
    push_cast
    have := Int.lt_floor_add_one d
    linarith

theorem millis_eq (d : ℚ) : int ((divmod d 1).2 * 1000) = ⌊1000 * d⌋ - 1000 * ⌊d⌋ := by
  have h : (divmod d 1).2 * 1000 = 1000 * d - ((1000 * ⌊d⌋ : ℤ) : ℚ) := by
    simp only [divmod, div_one]
    push_cast
    ring
  rw [h]
  unfold int
  have h0 : (0 : ℚ) ≤ 1000 * d - ((1000 * ⌊d⌋ : ℤ) : ℚ) := by
    push_cast
    have := Int.floor_le d
    linarith
  rw [if_pos h0, Int.floor_sub_intCast]

/-- The fields in terms of the number of milliseconds. -/
theorem fields_eq {d : ℚ} (hd : 0 ≤ d) :
    fields d = (((milliseconds d / 86400000 : ℕ) : ℤ), ((milliseconds d / 3600000 % 24 : ℕ) : ℤ),
      ((milliseconds d / 60000 % 60 : ℕ) : ℤ), ((milliseconds d / 1000 % 60 : ℕ) : ℤ), ((milliseconds d % 1000 : ℕ) : ℤ)) := by
  obtain ⟨hl, hu⟩ := floor_bounds d
  have hT : ((milliseconds d : ℕ) : ℤ) = ⌊1000 * d⌋ :=
    Int.toNat_of_nonneg (Int.floor_nonneg.2 (by linarith))
  have h1 : (divmod d 1).1 = ⌊d⌋ := by simp [divmod]
  have h2 := divmod_int ⌊d⌋ 86400 (by decide)
  have h3 := divmod_int (⌊d⌋ % 86400) 3600 (by decide)
  have h4 := divmod_int (⌊d⌋ % 86400 % 3600) 60 (by decide)
  push_cast at h2 h3 h4
  unfold fields
  simp only [h1, h2, h3, h4, int_cast, millis_eq]
  generalize milliseconds d = t at hT ⊢
  generalize ⌊1000 * d⌋ = T at hT hl hu ⊢
  generalize ⌊d⌋ = S at hl hu ⊢
  subst hT
  refine Prod.ext ?_ (Prod.ext ?_ (Prod.ext ?_ (Prod.ext ?_ ?_))) <;> simp only <;> push_cast <;> omega

/-! ### Enumerations -/

/-- The text that follows the first element of an enumeration. -/
def continuation : List (List Char) → List Char
  | [] => []
  | [y] => " and ".toList ++ y
  | y :: z :: l => ", ".toList ++ y ++ continuation (z :: l)

theorem enumeration_cons (x : List Char) (l : List (List Char)) : enumeration (x :: l) = x ++ continuation l := by
  induction l generalizing x with
  | nil => simp [enumeration, continuation]
  | cons y l ih =>
    cases l with
    | nil => simp [enumeration, continuation]
    | cons z l =>
      rw [enumeration, ih y, continuation]
      simp only [List.append_assoc]

theorem foldl_join (n : ℕ) (l : List (List Char)) (acc : List Char) (k : ℕ) (hk : k + l.length = n)
    (hacc : acc ≠ []) :
    (l.zipIdx k).foldl (fun txt x => txt ++ (if txt.length > 0 then (if x.2 = n - 1 then " and ".toList else
      ", ".toList) else []) ++ x.1) acc = acc ++ continuation l := by
  induction l generalizing acc k with
  | nil => simp [continuation]
  | cons y l ih =>
    rw [List.zipIdx_cons, List.foldl_cons]
    have hpos : acc.length > 0 := List.length_pos_iff.2 hacc
    rw [List.length_cons] at hk
    rw [ih _ (k + 1) (by omega) (by simp [hacc]), if_pos hpos]
    cases l with
    | nil =>
      rw [if_pos (show k = n - 1 by simp at hk; omega)]
      simp [continuation]
    | cons z l =>
      rw [if_neg (show ¬ k = n - 1 by simp at hk; omega)]
      simp [continuation]

theorem join_eq (l : List (List Char)) (h : ∀ x ∈ l, x ≠ []) : join l = enumeration l := by
  cases l with
  | nil => rfl
  | cons x l =>
    rw [enumeration_cons]
    unfold join
    rw [List.zipIdx_cons, List.foldl_cons]
    have hx : ([] : List Char) ++ (if ([] : List Char).length > 0 then (if (0 : ℕ) = (x :: l).length - 1 then
      " and ".toList else ", ".toList) else []) ++ x = x := by simp
    rw [hx]
    exact foldl_join _ l x 1 (by simp; omega) (h x List.mem_cons_self)

/-! ### Quantities -/

theorem substring_eq (n : ℕ) (unit unit' : String) (hu : unit'.toList = ' ' :: unit.toList) :
    substring (n : ℤ) unit' = quantity n unit := by
  have h1 : strInt (n : ℤ) = Nat.toDigits 10 n := rfl
  unfold substring quantity
  rw [h1, hu]
  by_cases hn : n = 1
  · subst hn; simp
  · have hn' : ¬ ((n : ℤ) = 1) := by omega
    rw [if_neg hn', if_neg hn]
    simp

theorem quantity_ne_nil (n : ℕ) (unit : String) : quantity n unit ≠ [] := by
  simp [quantity]

theorem substrings_eq {d : ℚ} (hd : 0 ≤ d) : substrings d = quantities (milliseconds d) := by
  unfold substrings
  rw [fields_eq hd]
  simp only [substring_eq _ "day" " day" rfl, substring_eq _ "hour" " hour" rfl,
    substring_eq _ "minute" " minute" rfl, substring_eq _ "second" " second" rfl,
    substring_eq _ "millisecond" " millisecond" rfl]
  generalize milliseconds d = t
  unfold quantities
  have hpos : ∀ n : ℕ, ((n : ℤ) > 0) ↔ ¬ n = 0 := by omega
  simp only [hpos]
  by_cases h0 : t = 0
  · subst h0; simp
  · rw [if_neg h0]
    by_cases h1 : t / 86400000 = 0 <;> by_cases h2 : t / 3600000 % 24 = 0 <;> by_cases h3 : t / 60000 % 60 = 0 <;>
      by_cases h4 : t / 1000 % 60 = 0 <;> by_cases h5 : t % 1000 = 0 <;>
      simp [h1, h2, h3, h4, h5]
    omega

/-! ### Reading a text -/

theorem foldl_digits (ds : List Char) (hd : ∀ c ∈ ds, c.isDigit = true) (t : ℕ) (n : ℕ) :
    ds.foldl read (t, some n) = (t, some (Nat.ofDigitChars 10 ds n)) := by
  induction ds generalizing n with
  | nil => simp
  | cons c ds ih =>
    rw [List.foldl_cons]
    have hc : read (t, some n) c = (t, some (10 * n + (c.toNat - '0'.toNat))) := by
      simp [read, hd c List.mem_cons_self]
    rw [hc, ih fun c hc => hd c (List.mem_cons_of_mem _ hc), Nat.ofDigitChars_cons]

theorem foldl_number (n t : ℕ) : (Nat.toDigits 10 n).foldl read (t, none) = (t, some n) := by
  have hd : ∀ c ∈ Nat.toDigits 10 n, c.isDigit = true := fun c hc =>
    Nat.isDigit_of_mem_toDigits (by decide) (by decide) hc
  cases h : Nat.toDigits 10 n with
  | nil => exact absurd h Nat.toDigits_ne_nil
  | cons c ds =>
    rw [h] at hd
    rw [List.foldl_cons]
    have hc : read (t, none) c = (t, some (10 * 0 + (c.toNat - '0'.toNat))) := by
      simp [read, hd c List.mem_cons_self]
    rw [hc, foldl_digits _ fun c hc => hd c (List.mem_cons_of_mem _ hc), ← Nat.ofDigitChars_cons, ← h,
      Nat.ofDigitChars_ten_toDigits]

/-- The units and the number of milliseconds they correspond to. -/
def IsUnit (unit : String) (ms : ℕ) : Prop :=
  (unit, ms) ∈ [("day", 86400000), ("hour", 3600000), ("minute", 60000), ("second", 1000), ("millisecond", 1)]

theorem foldl_quantity (n t : ℕ) {unit : String} {ms : ℕ} (h : IsUnit unit ms) :
    (quantity n unit).foldl read (t, none) = (t + ms * n, none) := by
  unfold quantity
  rw [List.foldl_append, foldl_number]
  simp only [IsUnit, List.mem_cons, List.not_mem_nil, or_false, Prod.mk.injEq] at h
  rcases h with ⟨rfl, rfl⟩ | ⟨rfl, rfl⟩ | ⟨rfl, rfl⟩ | ⟨rfl, rfl⟩ | ⟨rfl, rfl⟩ <;> split <;> simp [read]

theorem foldl_continuation (l : List (ℕ × String × ℕ)) (h : ∀ x ∈ l, IsUnit x.2.1 x.2.2) (t : ℕ) :
    (continuation (l.map fun x => quantity x.1 x.2.1)).foldl read (t, none) =
      (t + (l.map fun x => x.2.2 * x.1).sum, none) := by
  induction l generalizing t with
  | nil => simp [continuation]
  | cons x l ih =>
    cases l with
    | nil =>
      rw [List.map_cons, List.map_nil, continuation, List.foldl_append]
      have : (" and ".toList).foldl read (t, none) = (t, none) := by simp [read]
      rw [this, foldl_quantity _ _ (h x List.mem_cons_self)]
      simp
    | cons y l =>
      rw [List.map_cons, List.map_cons, continuation, List.foldl_append, List.foldl_append]
      have : (", ".toList).foldl read (t, none) = (t, none) := by simp [read]
      have hy := ih (fun x hx => h x (List.mem_cons_of_mem _ hx)) (t + x.2.2 * x.1)
      rw [List.map_cons] at hy
      rw [this, foldl_quantity _ _ (h x List.mem_cons_self), hy]
      simp only [List.map_cons, List.sum_cons, Nat.add_assoc]

theorem reading_enumeration (l : List (ℕ × String × ℕ)) (h : ∀ x ∈ l, IsUnit x.2.1 x.2.2) :
    reading (enumeration (l.map fun x => quantity x.1 x.2.1)) = (l.map fun x => x.2.2 * x.1).sum := by
  unfold reading
  cases l with
  | nil => rfl
  | cons x l =>
    rw [List.map_cons, enumeration_cons, List.foldl_append, foldl_quantity _ _ (h x List.mem_cons_self),
      foldl_continuation _ fun x hx => h x (List.mem_cons_of_mem _ hx)]
    simp

theorem reading_quantities (t : ℕ) : reading (enumeration (quantities t)) = t := by
  by_cases h0 : t = 0
  · subst h0
    exact reading_enumeration [(0, "millisecond", 1)] (by simp [IsUnit])
  · have hq : quantities t = (([(t / 86400000, "day", 86400000), (t / 3600000 % 24, "hour", 3600000),
        (t / 60000 % 60, "minute", 60000), (t / 1000 % 60, "second", 1000), (t % 1000, "millisecond", 1)] :
          List (ℕ × String × ℕ)).filter fun x => decide (x.1 ≠ 0)).map fun x => quantity x.1 x.2.1 := by
      unfold quantities
      rw [if_neg h0]
      by_cases h1 : t / 86400000 = 0 <;> by_cases h2 : t / 3600000 % 24 = 0 <;> by_cases h3 : t / 60000 % 60 = 0 <;>
        by_cases h4 : t / 1000 % 60 = 0 <;> by_cases h5 : t % 1000 = 0 <;> simp [h1, h2, h3, h4, h5]
    rw [hq, reading_enumeration _ fun x hx => ?_]
    · have hsum : ∀ l : List (ℕ × String × ℕ), ((l.filter fun x => decide (x.1 ≠ 0)).map fun x => x.2.2 * x.1).sum =
          (l.map fun x => x.2.2 * x.1).sum := by
        intro l
        induction l with
        | nil => rfl
        | cons x l ih =>
          by_cases hx : x.1 = 0
          · rw [List.filter_cons_of_neg (by simpa using hx), ih, List.map_cons, List.sum_cons, hx]
            simp
          · rw [List.filter_cons_of_pos (by simpa using hx), List.map_cons, List.sum_cons, ih, List.map_cons,
              List.sum_cons]
      rw [hsum]
      simp only [List.map_cons, List.map_nil, List.sum_cons, List.sum_nil]
      omega
    · have hx' := (List.mem_filter.1 hx).1
      simp only [List.mem_cons, List.not_mem_nil, or_false] at hx'
      rcases hx' with rfl | rfl | rfl | rfl | rfl <;> simp [IsUnit]

end MLRL.Duration
