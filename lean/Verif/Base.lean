/-!
# Base vocabulary of the model

Outcome type for undefined behaviour, bounds-checked array accesses, counting loops and the rules to reason about them.
Nothing in this file models a particular C++ function; it fixes how C++ control flow and memory accesses are written down.
-/

namespace MLRL

/-- Kinds of undefined behaviour (or of failures the C++ code does not handle) that the model distinguishes. -/
inductive Fault where
  /-- access to an array position that does not exist -/
  | outOfBounds
  /-- integer division (or remainder) by zero -/
  | divByZero
  /-- conversion of a floating point value without integer counterpart (e.g. NaN) to an integer -/
  | badCast
  /-- use of a value that has never been initialised -/
  | uninitialised
  /-- a C++ exception thrown explicitly by the code -/
  | exception
  deriving DecidableEq, Repr

/-- The result of a C++ computation: a value, or undefined behaviour. -/
abbrev Res (α : Type _) := Except Fault α

instance {α : Type _} [DecidableEq α] : DecidableEq (Res α) := fun
  | .ok a, .ok b => if h : a = b then isTrue (h ▸ rfl) else isFalse (fun e => h (Except.ok.inj e))
  | .error a, .error b => if h : a = b then isTrue (h ▸ rfl) else isFalse (fun e => h (Except.error.inj e))
  | .ok _, .error _ => isFalse (fun e => Except.noConfusion rfl rfl (heq_of_eq e))
  | .error _, .ok _ => isFalse (fun e => Except.noConfusion rfl rfl (heq_of_eq e))

/-- The result of a C++ computation that may not terminate, after a bounded number of iterations of its loops: `none` if the
computation is not finished yet. -/
abbrev Run := ExceptT Fault Option

instance {α : Type} [DecidableEq α] : DecidableEq (Run α) := inferInstanceAs (DecidableEq (Option (Res α)))

/-- A computation that always terminates. -/
def Run.lift {α : Type} (r : Res α) : Run α := ExceptT.mk (some r)

/-- The computation is not finished. -/
def Run.unfinished {α : Type} : Run α := ExceptT.mk none

/-- The computation is finished and returns a value. -/
def Run.done {α : Type} (a : α) : Run α := ExceptT.mk (some (.ok a))

theorem Run.lift_ok {α : Type} (a : α) : Run.lift (.ok a) = Run.done a := rfl

theorem Run.done_bind {α β : Type} (a : α) (f : α → Run β) : (Run.done a >>= f) = f a := rfl

theorem Run.pure_eq {α : Type} (a : α) : (pure a : Run α) = Run.done a := rfl

theorem Run.unfinished_bind {α β : Type} (f : α → Run β) : (Run.unfinished >>= f) = Run.unfinished := rfl

theorem Run.done_inj {α : Type} {a b : α} (h : Run.done a = Run.done b) : a = b := by
  unfold Run.done at h
  exact Except.ok.inj (Option.some.inj h)

theorem Run.done_ne_unfinished {α : Type} {a : α} : Run.done a ≠ Run.unfinished := by
  intro h; cases h

theorem ok_bind {α β : Type _} (a : α) (f : α → Res β) : ((Except.ok a : Res α) >>= f) = f a := rfl

theorem error_bind {α β : Type _} (e : Fault) (f : α → Res β) : ((Except.error e : Res α) >>= f) = .error e := rfl

theorem pure_eq_ok {α : Type _} (a : α) : (pure a : Res α) = .ok a := rfl

/-- Reading `a[i]`; undefined behaviour if `i` is not a valid position. -/
def readAt {α : Type _} (a : List α) (i : Nat) : Res α :=
  match a[i]? with
  | some x => .ok x
  | none => .error .outOfBounds

/-- Executing `a[i] = v`; undefined behaviour if `i` is not a valid position. -/
def writeAt {α : Type _} (a : List α) (i : Nat) (v : α) : Res (List α) :=
  if i < a.length then .ok (a.set i v) else .error .outOfBounds

theorem readAt_eq_ok_iff {α : Type _} {a : List α} {i : Nat} {x : α} : readAt a i = .ok x ↔ a[i]? = some x := by
  unfold readAt
  split <;> simp_all

theorem readAt_of_getElem? {α : Type _} {a : List α} {i : Nat} {x : α} (h : a[i]? = some x) : readAt a i = .ok x :=
  readAt_eq_ok_iff.2 h

theorem readAt_of_lt {α : Type _} {a : List α} {i : Nat} (h : i < a.length) : readAt a i = .ok a[i] :=
  readAt_eq_ok_iff.2 (List.getElem?_eq_getElem h)

theorem readAt_of_le {α : Type _} {a : List α} {i : Nat} (h : a.length ≤ i) : readAt a i = .error .outOfBounds := by
  unfold readAt
  rw [List.getElem?_eq_none h]

theorem writeAt_of_lt {α : Type _} {a : List α} {i : Nat} (h : i < a.length) (v : α) :
    writeAt a i v = .ok (a.set i v) := by
  simp [writeAt, h]

theorem writeAt_of_le {α : Type _} {a : List α} {i : Nat} (h : a.length ≤ i) (v : α) :
    writeAt a i v = .error .outOfBounds := by
  simp [writeAt, Nat.not_lt.2 h]

/-- Integer remainder `a % b`; undefined behaviour if `b` is zero. -/
def modAt (a b : Nat) : Res Nat := if b = 0 then .error .divByZero else .ok (a % b)

theorem modAt_of_pos {a b : Nat} (h : 1 ≤ b) : modAt a b = .ok (a % b) := by
  have : b ≠ 0 := by omega
  simp [modAt, this]

/-- Using a variable that may not have been initialised. -/
def useInit {α : Type _} : Option α → Res α
  | some x => .ok x
  | none => .error .uninitialised

/-- `for (i = start; i < start + count; i++) s = body(i, s)`. -/
def loopFrom {σ : Type _} (body : Nat → σ → Res σ) : (start count : Nat) → σ → Res σ
  | _, 0, s => .ok s
  | i, k + 1, s => do
    let s' ← body i s
    loopFrom body (i + 1) k s'

/-- `for (i = 0; i < n; i++) s = body(i, s)`. -/
def loop {σ : Type _} (n : Nat) (body : Nat → σ → Res σ) (s : σ) : Res σ :=
  loopFrom body 0 n s

@[simp] theorem loopFrom_zero {σ : Type _} (body : Nat → σ → Res σ) (i : Nat) (s : σ) :
    loopFrom body i 0 s = .ok s := rfl

theorem loopFrom_succ {σ : Type _} (body : Nat → σ → Res σ) (i k : Nat) (s : σ) :
    loopFrom body i (k + 1) s = body i s >>= loopFrom body (i + 1) k := rfl

/-- Invariant rule for counting loops: if the invariant is established and each iteration terminates without undefined
behaviour and preserves it, then the loop terminates without undefined behaviour and establishes the invariant. -/
theorem loopFrom_rule {σ : Type _} {body : Nat → σ → Res σ} (P : Nat → σ → Prop) (start : Nat) :
    ∀ (count : Nat) (s : σ), P start s →
      (∀ i t, start ≤ i → i < start + count → P i t → ∃ t', body i t = .ok t' ∧ P (i + 1) t') →
      ∃ s', loopFrom body start count s = .ok s' ∧ P (start + count) s' := by
  intro count
  induction count generalizing start with
  | zero => intro s h _; exact ⟨s, rfl, by simpa using h⟩
  | succ k ih =>
    intro s h step
    obtain ⟨t, ht, hP⟩ := step start s (Nat.le_refl _) (by omega) h
    obtain ⟨u, hu, hQ⟩ := ih (start + 1) t hP (fun i t h1 h2 h3 => step i t (by omega) (by omega) h3)
    refine ⟨u, ?_, ?_⟩
    · rw [loopFrom_succ, ht, ok_bind, hu]
    · have : start + 1 + k = start + (k + 1) := by omega
      rwa [this] at hQ

theorem loop_rule {σ : Type _} {body : Nat → σ → Res σ} (P : Nat → σ → Prop) (n : Nat) (s : σ) (h0 : P 0 s)
    (step : ∀ i t, i < n → P i t → ∃ t', body i t = .ok t' ∧ P (i + 1) t') :
    ∃ s', loop n body s = .ok s' ∧ P n s' := by
  have := loopFrom_rule P 0 n s h0 (fun i t _ h2 h3 => step i t (by omega) h3)
  simpa [loop] using this

/-- A pure loop: the body never exhibits undefined behaviour. -/
def pureLoop {σ : Type _} (n : Nat) (body : Nat → σ → σ) (s : σ) : σ :=
  (List.range n).foldl (fun s i => body i s) s

@[simp] theorem pureLoop_zero {σ : Type _} (body : Nat → σ → σ) (s : σ) : pureLoop 0 body s = s := rfl

theorem pureLoop_succ {σ : Type _} (n : Nat) (body : Nat → σ → σ) (s : σ) :
    pureLoop (n + 1) body s = body n (pureLoop n body s) := by
  simp [pureLoop, List.range_succ]

theorem pureLoop_rule {σ : Type _} {body : Nat → σ → σ} (P : Nat → σ → Prop) (n : Nat) (s : σ) (h0 : P 0 s)
    (step : ∀ i t, i < n → P i t → P (i + 1) (body i t)) : P n (pureLoop n body s) := by
  induction n with
  | zero => exact h0
  | succ k ih =>
    rw [pureLoop_succ]
    exact step k _ (Nat.lt_succ_self k) (ih (fun i t hi => step i t (Nat.lt_succ_of_lt hi)))

end MLRL
