import Verif.Props.PythonScalarOptions

/-!
# C123: Holdout sets that result from the options
-/

namespace MLRL.PythonScalarOptions

open PythonOptions (Str Dict)
open PythonSetters (PyFloat Failure isFloat32_one)
open PythonScalars (FloatSetter)
open FloatingPoint (Nearest IsFloat32 truncFraction isFloat_zero truncFraction_lt)

/-- **C123**: if the size of a holdout set is accepted, a number of type `float32` in `(0, 1)` is stored. Hence, a random split always retains a training example, regardless of the number of examples and
how intermediate results are rounded. -/
theorem configureHoldout_training {rnd32 : ℚ → ℚ} (h32 : Nearest IsFloat32 rnd32) (float : Str → Option PyFloat) (options : Dict) {w : PyFloat}
    (h : configureHoldout rnd32 float options = .ok w) :
    ∃ y, w = .fin y ∧ IsFloat32 y ∧ 0 < y ∧ y < 1 ∧ ∀ n, 1 ≤ n → truncFraction rnd32 y n < n := by
  obtain ⟨v, _, hv⟩ := ((configureHeads_ok h32 float options ⟨.nan, .nan⟩ w).2).1 h
  rcases hv with ⟨x, _, _, ⟨hd, _⟩ | ⟨_, hd, rfl⟩ | ⟨hd, _⟩⟩ | ⟨_, hd, _⟩ | ⟨_, hd, _⟩
  · exact absurd rfl hd.1
  · exact ⟨_, rfl, h32.mem x, hd.1, hd.2, fun n hn => truncFraction_lt h32 (h32.mem x) hd.1 hd.2 hn⟩
  · cases hd
  · exact absurd rfl hd.2.1
  · exact absurd hd (by unfold PythonScalars.Closed; decide)

/-- **C123**: the holdout set that results from a random split according to the default value is empty if there are at most three examples. -/
theorem holdout_default_empty {rnd32 : ℚ → ℚ} (h32 : Nearest IsFloat32 rnd32) (float : Str → Option PyFloat) {n : Nat} (hn : n ≤ 3) :
    ∃ y, configureHoldout rnd32 float [] = .ok (.fin y) ∧ truncFraction rnd32 y n = 0 := by
  refine ⟨_, (configure_default h32 (rnd64 := FloatingPoint.roundEven 53 (-1074)) FloatingPoint.roundings_exist.2 (fun _ => none) float).2.2.2.2.2.1, ?_⟩
  have hy : rnd32 (33 / 100) ≤ 85 / 256 := h32.le ⟨85, -8, by norm_num, by norm_num, by norm_num⟩ (by norm_num)
  have hn' : (n : ℚ) ≤ 3 := by exact_mod_cast hn
  have hr : rnd32 n ≤ 3 := h32.le ⟨3, 0, by norm_num, by norm_num, by norm_num⟩ hn'
  have h0 : 0 ≤ rnd32 n := h32.ge (isFloat_zero _ _) (by positivity)
  have hp : rnd32 (rnd32 (33 / 100) * rnd32 n) ≤ 255 / 256 := h32.le ⟨255, -8, by norm_num, by norm_num, by norm_num⟩ (by nlinarith)
  unfold truncFraction
  exact Nat.floor_eq_zero.2 (by linarith)

/-- The hypothesis of the first theorem is met by the default value, for example. -/
example {rnd32 : ℚ → ℚ} (h32 : Nearest IsFloat32 rnd32) (float : Str → Option PyFloat) : truncFraction rnd32 (rnd32 (33 / 100)) 10 < 10 := by
  have h := (configure_default h32 (rnd64 := FloatingPoint.roundEven 53 (-1074)) FloatingPoint.roundings_exist.2 (fun _ => none) float).2.2.2.2.2.1
  obtain ⟨y, hy, _, _, _, ht⟩ := configureHoldout_training h32 float [] h
  cases hy
  exact ht 10 (by norm_num)

end MLRL.PythonScalarOptions
