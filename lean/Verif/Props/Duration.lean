import Mathlib.Tactic.NormNum
import Verif.Lemma.Duration

/-!
# C112: The textual representation of a duration tells the number of milliseconds
-/

namespace MLRL.Duration

/-- **The text is an enumeration of the quantities a duration consists of**, from days down to milliseconds, omitting those
that are zero, and using the plural where appropriate. -/
theorem format_eq {d : ℚ} (hd : 0 ≤ d) : formatDuration d = enumeration (quantities (milliseconds d)) := by
  unfold formatDuration
  rw [substrings_eq hd, join_eq]
  intro x hx
  unfold quantities at hx
  split at hx
  · simp only [List.mem_cons, List.not_mem_nil, or_false] at hx
    exact hx ▸ quantity_ne_nil _ _
  · simp only [List.mem_filterMap] at hx
    obtain ⟨a, _, ha⟩ := hx
    split at ha
    · simp at ha
    · simp only [Option.some.injEq] at ha
      exact ha ▸ quantity_ne_nil _ _

/-- **Nothing but fractions of milliseconds is lost**: reading the text from left to right results in the number of complete
milliseconds. -/
theorem reading_format {d : ℚ} (hd : 0 ≤ d) : reading (formatDuration d) = milliseconds d := by
  rw [format_eq hd, reading_quantities]

/-- Two durations have the same textual representation if and only if they consist of the same number of milliseconds. -/
theorem format_eq_iff {d d' : ℚ} (hd : 0 ≤ d) (hd' : 0 ≤ d') :
    formatDuration d = formatDuration d' ↔ milliseconds d = milliseconds d' := by
  constructor
  · intro h
    rw [← reading_format hd, ← reading_format hd', h]
  · intro h
    rw [format_eq hd, format_eq hd', h]

/-- The number that is read differs from the duration by less than a millisecond. -/
theorem reading_bounds {d : ℚ} (hd : 0 ≤ d) :
    (reading (formatDuration d) : ℚ) ≤ 1000 * d ∧ 1000 * d < reading (formatDuration d) + 1 := by
  rw [reading_format hd]
  have h : ((milliseconds d : ℕ) : ℤ) = ⌊1000 * d⌋ := Int.toNat_of_nonneg (Int.floor_nonneg.2 (by linarith))
  have h' : ((milliseconds d : ℕ) : ℚ) = ((⌊1000 * d⌋ : ℤ) : ℚ) := by rw [← h]; push_cast; rfl
  rw [h']
  exact ⟨Int.floor_le _, Int.lt_floor_add_one _⟩

/-- The text is never empty. -/
theorem format_ne_nil {d : ℚ} (hd : 0 ≤ d) : formatDuration d ≠ [] := by
  intro h
  have h0 : milliseconds d = 0 := by rw [← reading_format hd, h]; rfl
  rw [format_eq hd, h0] at h
  exact absurd h (by decide)

/-! ### Examples -/

example : enumeration (quantities 90061001) = "1 day, 1 hour, 1 minute, 1 second and 1 millisecond".toList := rfl

example : enumeration (quantities 7200000) = "2 hours".toList := rfl

example : enumeration (quantities 0) = "0 milliseconds".toList := rfl

example : milliseconds (36001 / 10000) = 3600 := by
  have : ⌊(1000 : ℚ) * (36001 / 10000)⌋ = 3600 := by rw [Int.floor_eq_iff]; norm_num
  simp [milliseconds, this]

example : reading "3 minutes and 20 milliseconds".toList = 180020 := rfl

end MLRL.Duration
