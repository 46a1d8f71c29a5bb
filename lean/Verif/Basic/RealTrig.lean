import Verif.Basic.Rot
import Mathlib.Analysis.SpecialFunctions.Complex.Arg
import Mathlib.Analysis.SpecialFunctions.Trigonometric.Inverse
import Mathlib.Algebra.Order.Round

/-!
# Real elementary functions of the C library (exact versions)
-/

namespace Ecl

/-- `atan2f(y, x)` in exact arithmetic (`atan2(0,0) = 0` as in C) -/
noncomputable def atan2 (y x : ℝ) : ℝ := Complex.arg ⟨x, y⟩

theorem atan2_mem (y x : ℝ) : atan2 y x ∈ Set.Ioc (-Real.pi) Real.pi := Complex.arg_mem_Ioc _

theorem norm_mk (x y : ℝ) : ‖(⟨x, y⟩ : ℂ)‖ = Real.sqrt (x ^ 2 + y ^ 2) := by
  rw [Complex.norm_eq_sqrt_sq_add_sq]

theorem cos_atan2 {y x : ℝ} (h : x ^ 2 + y ^ 2 ≠ 0) :
    Real.cos (atan2 y x) = x / Real.sqrt (x ^ 2 + y ^ 2) := by
  have h0 : (⟨x, y⟩ : ℂ) ≠ 0 := by
    intro hc
    have h1 := congrArg Complex.re hc; have h2 := congrArg Complex.im hc
    simp at h1 h2; apply h; rw [h1, h2]; ring
  unfold atan2; rw [Complex.cos_arg h0, norm_mk]

theorem sin_atan2 (y x : ℝ) : Real.sin (atan2 y x) = y / Real.sqrt (x ^ 2 + y ^ 2) := by
  unfold atan2; rw [Complex.sin_arg, norm_mk]

/-- polar form determines `atan2` -/
theorem atan2_polar {r t : ℝ} (hr : 0 < r) (ht : t ∈ Set.Ioc (-Real.pi) Real.pi) :
    atan2 (r * Real.sin t) (r * Real.cos t) = t := by
  unfold atan2
  have := Complex.arg_mul_cos_add_sin_mul_I hr ht
  convert this using 2
  apply Complex.ext <;> simp [← Complex.ofReal_cos, ← Complex.ofReal_sin]

theorem atan2_nonneg {y x : ℝ} (h : 0 ≤ y) : 0 ≤ atan2 y x := by
  unfold atan2; rw [Complex.arg_nonneg_iff]; exact h

/-- `matrix::wrap_pi(x)` = `wrap(x, -π, π)`: unchanged if in [-π, π), else `x - range * floor((x - low) / range)` -/
noncomputable def wrapPi (x : ℝ) : ℝ :=
  if -Real.pi ≤ x ∧ x < Real.pi then x
  else x - (Real.pi - -Real.pi) * (⌊(x - -Real.pi) * (1 / (Real.pi - -Real.pi))⌋ : ℤ)

/-- wrapping changes the angle by whole turns and lands in [-π, π) -/
theorem wrapPi_spec (x : ℝ) : (-Real.pi ≤ wrapPi x ∧ wrapPi x < Real.pi) ∧ ∃ k : ℤ, wrapPi x = x - k * (2 * Real.pi) := by
  have hp := Real.pi_pos
  unfold wrapPi
  split
  · rename_i h; exact ⟨h, 0, by simp⟩
  · have e : Real.pi - -Real.pi = 2 * Real.pi := by ring
    rw [e]
    have h1 := Int.floor_le ((x - -Real.pi) * (1 / (2 * Real.pi)))
    have h2 := Int.lt_floor_add_one ((x - -Real.pi) * (1 / (2 * Real.pi)))
    set k := ⌊(x - -Real.pi) * (1 / (2 * Real.pi))⌋
    rw [mul_one_div] at h1 h2
    rw [le_div_iff₀ (by linarith)] at h1
    rw [div_lt_iff₀ (by linarith)] at h2
    exact ⟨⟨by nlinarith, by nlinarith⟩, k, by ring⟩

/-- there is only one such angle -/
theorem wrap_unique {x a b : ℝ} (ha : -Real.pi ≤ a ∧ a < Real.pi) (hb : -Real.pi ≤ b ∧ b < Real.pi)
    (h1 : ∃ k : ℤ, a = x - k * (2 * Real.pi)) (h2 : ∃ k : ℤ, b = x - k * (2 * Real.pi)) : a = b := by
  obtain ⟨k, hk⟩ := h1; obtain ⟨l, hl⟩ := h2
  have hp := Real.pi_pos
  have h : (l - k : ℝ) * (2 * Real.pi) = a - b := by rw [hk, hl]; ring
  have h3 : (l : ℝ) - k < 1 := by by_contra hc; push Not at hc; nlinarith
  have h4 : -1 < (l : ℝ) - k := by by_contra hc; push Not at hc; nlinarith
  have h5 : l - k < 1 := by exact_mod_cast h3
  have h6 : -1 < l - k := by exact_mod_cast h4
  have : l = k := by omega
  rw [hk, hl, this]

theorem wrapPi_of_mem {x : ℝ} (h : -Real.pi ≤ x ∧ x < Real.pi) : wrapPi x = x := by unfold wrapPi; rw [if_pos h]

theorem cos_wrapPi (x : ℝ) : Real.cos (wrapPi x) = Real.cos x := by
  obtain ⟨-, k, hk⟩ := wrapPi_spec x
  rw [hk]; exact Real.cos_sub_int_mul_two_pi x k

theorem sin_wrapPi (x : ℝ) : Real.sin (wrapPi x) = Real.sin x := by
  obtain ⟨-, k, hk⟩ := wrapPi_spec x
  rw [hk]; exact Real.sin_sub_int_mul_two_pi x k

end Ecl
