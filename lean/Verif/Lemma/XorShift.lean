import Verif.Model.Random
import Mathlib.Dynamics.PeriodicPts.Defs

/-!
# Linear algebra over bits for the random number generator
-/

namespace MLRL.XorShift

/-- The transition function of the generator on non-zero states. -/
def step (s : Nat) : Nat := xorShiftLeft 5 (xorShiftRight 17 (xorShiftLeft 13 s))

theorem next_eq_step {s : Nat} (h : s ≠ 0) : next s = step s := by
  unfold next step fixZero
  rw [if_neg h]

/-- The product of a matrix, given by its columns, and a vector. -/
def app : List Nat → Nat → Nat
  | [], _ => 0
  | c :: m, v => (if v % 2 = 1 then c else 0) ^^^ app m (v / 2)

/-- The product of two matrices. -/
def comp (a b : List Nat) : List Nat := b.map (app a)

/-- A function that is linear over bits. -/
def Lin (f : Nat → Nat) : Prop := ∀ a b, f (a ^^^ b) = f a ^^^ f b

theorem Lin.zero {f : Nat → Nat} (h : Lin f) : f 0 = 0 := by
  have := h 0 0
  rw [Nat.xor_self] at this
  rw [this, Nat.xor_self]

theorem xor_xor_xor_comm (a b c d : Nat) : (a ^^^ b) ^^^ (c ^^^ d) = (a ^^^ c) ^^^ (b ^^^ d) := by
  rw [Nat.xor_assoc, Nat.xor_assoc, ← Nat.xor_assoc b, Nat.xor_comm b c, Nat.xor_assoc c]

theorem xor_mod_two (a b : Nat) : (a ^^^ b) % 2 = (a % 2) ^^^ (b % 2) := by
  have := Nat.xor_mod_two_pow (a := a) (b := b) (n := 1)
  simpa using this

theorem xor_div_two (a b : Nat) : (a ^^^ b) / 2 = (a / 2) ^^^ (b / 2) := by
  have := Nat.xor_div_two_pow (a := a) (b := b) (n := 1)
  simpa using this

theorem app_lin (m : List Nat) : Lin (app m) := by
  induction m with
  | nil => intro a b; simp [app]
  | cons c m ih =>
    intro a b
    simp only [app]
    rw [xor_div_two, ih, ← xor_xor_xor_comm]
    congr 1
    rw [xor_mod_two]
    rcases Nat.mod_two_eq_zero_or_one a with ha | ha <;> rcases Nat.mod_two_eq_zero_or_one b with hb | hb <;> simp [ha, hb]

theorem app_comp (a b : List Nat) (v : Nat) : app (comp a b) v = app a (app b v) := by
  induction b generalizing v with
  | nil => simp only [comp, List.map_nil, app]; exact (app_lin a).zero.symm
  | cons c b ih =>
    simp only [comp, List.map_cons, app]
    rw [app_lin a]
    have : app (List.map (app a) b) (v / 2) = app a (app b (v / 2)) := ih (v / 2)
    rw [this]
    congr 1
    split
    · rfl
    · exact (app_lin a).zero.symm

theorem lin_xorShiftLeft (k : Nat) : Lin (xorShiftLeft k) := by
  intro a b
  unfold xorShiftLeft
  rw [Nat.shiftLeft_xor_distrib, Nat.xor_mod_two_pow, xor_xor_xor_comm]

theorem lin_xorShiftRight (k : Nat) : Lin (xorShiftRight k) := by
  intro a b
  unfold xorShiftRight
  rw [Nat.shiftRight_xor_distrib, xor_xor_xor_comm]

theorem step_lin : Lin step := by
  intro a b
  unfold step
  rw [lin_xorShiftLeft, lin_xorShiftRight, lin_xorShiftLeft]

theorem xor_low (v : Nat) : v = (v % 2) ^^^ (2 * (v / 2)) := by
  apply Nat.eq_of_testBit_eq
  intro i
  rw [Nat.testBit_xor]
  cases i with
  | zero => simp [Nat.testBit_zero]
  | succ i =>
    rw [Nat.testBit_succ, Nat.testBit_succ, Nat.testBit_succ]
    simp [Nat.mul_div_cancel_left _ (show 0 < 2 by omega)]

theorem lin_ext {n : Nat} : ∀ {f g : Nat → Nat}, Lin f → Lin g → (∀ i, i < n → f (2 ^ i) = g (2 ^ i)) →
    ∀ v, v < 2 ^ n → f v = g v := by
  induction n with
  | zero =>
    intro f g hf hg _ v hv
    have : v = 0 := by simpa using hv
    rw [this, hf.zero, hg.zero]
  | succ n ih =>
    intro f g hf hg h v hv
    have h2 : ∀ a b, 2 * (a ^^^ b) = (2 * a) ^^^ (2 * b) := by
      intro a b
      have := Nat.shiftLeft_xor_distrib (a := a) (b := b) (i := 1)
      simpa [Nat.shiftLeft_eq, Nat.mul_comm] using this
    have hv2 : f (2 * (v / 2)) = g (2 * (v / 2)) := by
      refine ih (f := fun x => f (2 * x)) (g := fun x => g (2 * x)) ?_ ?_ ?_ (v / 2) (by omega)
      · intro a b; show f (2 * (a ^^^ b)) = _; rw [h2, hf]
      · intro a b; show g (2 * (a ^^^ b)) = _; rw [h2, hg]
      · intro i hi
        have := h (i + 1) (by omega)
        rw [Nat.pow_succ, Nat.mul_comm] at this
        exact this
    have h1 : f (v % 2) = g (v % 2) := by
      rcases Nat.mod_two_eq_zero_or_one v with ha | ha <;> rw [ha]
      · rw [hf.zero, hg.zero]
      · exact h 0 (by omega)
    rw [xor_low v, hf, hg, hv2, h1]

theorem step_lt {s : Nat} (h : s < 2 ^ 32) : step s < 2 ^ 32 := by
  unfold step
  have h1 : xorShiftLeft 13 s < 2 ^ 32 := Nat.xor_lt_two_pow h (Nat.mod_lt _ (by decide))
  have h2 : xorShiftRight 17 (xorShiftLeft 13 s) < 2 ^ 32 :=
    Nat.xor_lt_two_pow h1 (Nat.lt_of_le_of_lt (Nat.shiftRight_le _ _) h1)
  exact Nat.xor_lt_two_pow h2 (Nat.mod_lt _ (by decide))

theorem iterate_lt {s : Nat} (h : s < 2 ^ 32) (n : Nat) : step^[n] s < 2 ^ 32 := by
  induction n with
  | zero => exact h
  | succ n ih => rw [Function.iterate_succ_apply']; exact step_lt ih

theorem xorShiftLeft_lt {k s : Nat} (h : s < 2 ^ 32) : xorShiftLeft k s < 2 ^ 32 :=
  Nat.xor_lt_two_pow h (Nat.mod_lt _ (by decide))

theorem xorShiftRight_lt {k s : Nat} (h : s < 2 ^ 32) : xorShiftRight k s < 2 ^ 32 :=
  Nat.xor_lt_two_pow h (Nat.lt_of_le_of_lt (Nat.shiftRight_le s k) h)

theorem next_lt {s : Nat} (h : s < 2 ^ 32) : next s < 2 ^ 32 := by
  unfold next
  apply xorShiftLeft_lt
  apply xorShiftRight_lt
  apply xorShiftLeft_lt
  unfold fixZero
  split <;> omega

theorem eq_of_xor_eq_zero {a b : Nat} (h : a ^^^ b = 0) : a = b := by
  apply Nat.eq_of_testBit_eq
  intro i
  have h1 : (a ^^^ b).testBit i = false := by rw [h]; simp
  rw [Nat.testBit_xor] at h1
  revert h1
  cases a.testBit i <;> cases b.testBit i <;> simp

theorem xorShiftLeft_ne_zero {k s : Nat} (hk : 1 ≤ k) (h : s ≠ 0) : xorShiftLeft k s ≠ 0 := by
  intro e
  have e := eq_of_xor_eq_zero e
  apply h
  have hb : ∀ i, s.testBit i = false := by
    intro i
    induction i using Nat.strongRecOn with
    | ind i ih =>
      rw [e, Nat.testBit_mod_two_pow, Nat.testBit_shiftLeft]
      by_cases hi : k ≤ i
      · have := ih (i - k) (by omega)
        simp [this]
      · simp [hi]
  apply Nat.eq_of_testBit_eq
  intro i
  rw [hb i]; simp

theorem xorShiftRight_ne_zero {k s : Nat} (hk : 1 ≤ k) (hs : s < 2 ^ 32) (h : s ≠ 0) : xorShiftRight k s ≠ 0 := by
  intro e
  have e := eq_of_xor_eq_zero e
  apply h
  have hb : ∀ n i, 32 ≤ i + n → s.testBit i = false := by
    intro n
    induction n using Nat.strongRecOn with
    | ind n ih =>
      intro i hi
      by_cases hn : n = 0
      · exact Nat.testBit_lt_two_pow (Nat.lt_of_lt_of_le hs (Nat.pow_le_pow_right (by omega) (by omega)))
      · rw [e, Nat.testBit_shiftRight]
        exact ih (n - 1) (by omega) (k + i) (by omega)
  apply Nat.eq_of_testBit_eq
  intro i
  rw [hb 32 i (by omega)]; simp

/-- A matrix that describes `n` steps of the generator. -/
def Pow (m : List Nat) (n : Nat) : Prop := ∀ v, v < 2 ^ 32 → app m v = step^[n] v

theorem pow_step {m : List Nat} (h : (List.range 32).map (fun i => step (2 ^ i)) = m) : Pow m 1 := by
  intro v hv
  refine lin_ext (n := 32) (app_lin m) step_lin ?_ v hv
  intro i hi
  subst h
  rcases i with _ | _ | _ | _ | _ | _ | _ | _ | _ | _ | _ | _ | _ | _ | _ | _ | _ | _ | _ | _ | _ | _ | _ | _ | _ | _ | _ | _ |
    _ | _ | _ | _ | i
  all_goals first
    | (decide +kernel)
    | omega

theorem pow_comp {a b c : List Nat} {n m k : Nat} (ha : Pow a n) (hb : Pow b m) (h : comp a b = c) (hk : k = n + m) :
    Pow c k := by
  intro v hv
  subst hk
  rw [← h, app_comp, hb v hv, ha _ (iterate_lt hv m), Function.iterate_add_apply]

/-- No state other than zero is repeated after `d` steps. -/
def NoFix (d : Nat) : Prop := ∀ v, v < 2 ^ 32 → step^[d] v = v → v = 0

theorem noFix {a b : List Nat} {d : Nat} (ha : Pow a d)
    (h : (List.range 32).map (fun i => app b (app a (2 ^ i) ^^^ 2 ^ i)) = (List.range 32).map (fun i => 2 ^ i)) : NoFix d := by
  intro v hv hfix
  have hlin : Lin (fun v => app b (app a v ^^^ v)) := by
    intro x y
    show app b (app a (x ^^^ y) ^^^ (x ^^^ y)) = _
    rw [app_lin a, xor_xor_xor_comm, app_lin b]
  have hid : ∀ v, v < 2 ^ 32 → app b (app a v ^^^ v) = v := by
    refine lin_ext (n := 32) hlin (g := fun v => v) (fun _ _ => rfl) ?_
    intro i hi
    have := congrArg (fun l => l[i]?) h
    simp only [List.getElem?_map, List.getElem?_range hi, Option.map_some, Option.some.injEq] at this
    exact this
  have := hid v hv
  rw [ha v hv, hfix, Nat.xor_self, (app_lin b).zero] at this
  exact this.symm

end MLRL.XorShift
