import Verif.Basic.Num
import Mathlib.Geometry.Euclidean.Angle.Unoriented.Basic
import Mathlib.Analysis.InnerProductSpace.PiL2
import Mathlib.Analysis.SpecialFunctions.Trigonometric.Basic
import Mathlib.Analysis.SpecialFunctions.Trigonometric.Inverse

/-!
# Is a navigation failure caused by a wrong heading? — EKF/control.cpp:611-634
-/

namespace Ecl.Meas

noncomputable section
open Classical

/-- `is_yaw_failure` once the outer condition holds, EKF/control.cpp:616-633; `o` = horizontal part of `_last_vel_obs` with variances `ov`,
`v` = horizontal velocity state with variances `pv` = P(4,4), P(5,5) -/
def yawFailure (o v ov pv : Fin 2 → ℝ) : Bool :=
  let obsSq := o 0 * o 0 + o 1 * o 1
  let velSq := v 0 * v 0 + v 1 * v 1
  let obsThr := max (sq 4 * (ov 0 + ov 1)) 1
  let velThr := max (sq 4 * (pv 0 + pv 1)) 1
  if obsSq > obsThr ∧ velSq > velThr then
    let dot := o 0 * v 0 + o 1 * v 1
    let cosSq := sq dot / (velSq * obsSq)
    if cosSq < sq (Real.cos (25 * (Real.pi / 180))) ∨ dot < 0 then true else false
  else false

end

/-- a plane vector as an element of the Euclidean plane -/
noncomputable def Spec.vec (a : Fin 2 → ℝ) : EuclideanSpace ℝ (Fin 2) := !₂[a 0, a 1]

theorem vec_norm_sq (a : Fin 2 → ℝ) : ‖Spec.vec a‖ ^ 2 = a 0 * a 0 + a 1 * a 1 := by
  rw [EuclideanSpace.norm_sq_eq]
  simp [Spec.vec, Fin.sum_univ_two, pow_two]

theorem vec_inner (a b : Fin 2 → ℝ) : inner ℝ (Spec.vec a) (Spec.vec b) = a 0 * b 0 + a 1 * b 1 := by
  simp [Spec.vec, PiLp.inner_apply, Fin.sum_univ_two]
  ring

/-- **C126.** The heading is blamed exactly if observed and estimated horizontal velocity both exceed 1 m/s and four standard deviations (combined
over both axes), and the angle between them exceeds 25°. -/
theorem yaw_failure_iff (o v ov pv : Fin 2 → ℝ) :
    yawFailure o v ov pv = true ↔
      1 < ‖Spec.vec o‖ ∧ 1 < ‖Spec.vec v‖ ∧ 16 * (ov 0 + ov 1) < ‖Spec.vec o‖ ^ 2 ∧ 16 * (pv 0 + pv 1) < ‖Spec.vec v‖ ^ 2 ∧
      25 * (Real.pi / 180) < InnerProductGeometry.angle (Spec.vec o) (Spec.vec v) := by
  have hpi := Real.pi_pos
  have one : ∀ a : Fin 2 → ℝ, 1 < ‖Spec.vec a‖ ↔ 1 < ‖Spec.vec a‖ ^ 2 := by
    intro a
    have := norm_nonneg (Spec.vec a)
    constructor <;> intro h <;> nlinarith
  have thr : ∀ (a b : Fin 2 → ℝ), a 0 * a 0 + a 1 * a 1 > max (sq 4 * (b 0 + b 1)) 1 ↔
      1 < ‖Spec.vec a‖ ∧ 16 * (b 0 + b 1) < ‖Spec.vec a‖ ^ 2 := by
    intro a b
    rw [one, vec_norm_sq, gt_iff_lt, max_lt_iff]
    have : sq (4 : ℝ) = 16 := by unfold sq; norm_num
    rw [this, and_comm]
  have hc0 : 0 < Real.cos (25 * (Real.pi / 180)) := Real.cos_pos_of_mem_Ioo ⟨by linarith, by linarith⟩
  unfold yawFailure
  simp only []
  by_cases h : (o 0 * o 0 + o 1 * o 1 > max (sq 4 * (ov 0 + ov 1)) 1 ∧ v 0 * v 0 + v 1 * v 1 > max (sq 4 * (pv 0 + pv 1)) 1)
  · rw [if_pos h]
    rw [thr, thr] at h
    have ho : 0 < ‖Spec.vec o‖ := by linarith [h.1.1]
    have hv : 0 < ‖Spec.vec v‖ := by linarith [h.2.1]
    have key : (sq (o 0 * v 0 + o 1 * v 1) / ((v 0 * v 0 + v 1 * v 1) * (o 0 * o 0 + o 1 * o 1)) < sq (Real.cos (25 * (Real.pi / 180))) ∨
        o 0 * v 0 + o 1 * v 1 < 0) ↔ 25 * (Real.pi / 180) < InnerProductGeometry.angle (Spec.vec o) (Spec.vec v) := by
      rw [← vec_norm_sq, ← vec_norm_sq, ← vec_inner]
      have ha := InnerProductGeometry.cos_angle (Spec.vec o) (Spec.vec v)
      have hlt : 25 * (Real.pi / 180) < InnerProductGeometry.angle (Spec.vec o) (Spec.vec v) ↔
          Real.cos (InnerProductGeometry.angle (Spec.vec o) (Spec.vec v)) < Real.cos (25 * (Real.pi / 180)) := by
        constructor
        · intro h
          exact Real.strictAntiOn_cos ⟨by linarith, by linarith⟩ ⟨InnerProductGeometry.angle_nonneg _ _, InnerProductGeometry.angle_le_pi _ _⟩ h
        · intro h
          by_contra hn
          have := Real.strictAntiOn_cos.antitoneOn ⟨InnerProductGeometry.angle_nonneg (Spec.vec o) (Spec.vec v), InnerProductGeometry.angle_le_pi _ _⟩
            (show 25 * (Real.pi / 180) ∈ Set.Icc 0 Real.pi from ⟨by linarith, by linarith⟩) (not_lt.1 hn)
          linarith
      rw [hlt, ha]
      have hq : sq (inner ℝ (Spec.vec o) (Spec.vec v)) / (‖Spec.vec v‖ ^ 2 * ‖Spec.vec o‖ ^ 2) =
          (inner ℝ (Spec.vec o) (Spec.vec v) / (‖Spec.vec o‖ * ‖Spec.vec v‖)) ^ 2 := by
        unfold sq; field_simp
      rw [hq]
      have hden : 0 < ‖Spec.vec o‖ * ‖Spec.vec v‖ := mul_pos ho hv
      have hneg : inner ℝ (Spec.vec o) (Spec.vec v) < 0 ↔ inner ℝ (Spec.vec o) (Spec.vec v) / (‖Spec.vec o‖ * ‖Spec.vec v‖) < 0 := by
        rw [div_lt_iff₀ hden, zero_mul]
      rw [hneg]
      generalize inner ℝ (Spec.vec o) (Spec.vec v) / (‖Spec.vec o‖ * ‖Spec.vec v‖) = q
      have hs : sq (Real.cos (25 * (Real.pi / 180))) = Real.cos (25 * (Real.pi / 180)) ^ 2 := (pow_two _).symm
      rw [hs]
      constructor
      · rintro (h | h)
        · nlinarith [abs_lt_of_sq_lt_sq h hc0.le, (abs_lt.1 (abs_lt_of_sq_lt_sq h hc0.le)).2]
        · linarith
      · intro h
        rcases lt_or_ge q 0 with h' | h'
        · exact Or.inr h'
        · left; nlinarith
    have : (if sq (o 0 * v 0 + o 1 * v 1) / ((v 0 * v 0 + v 1 * v 1) * (o 0 * o 0 + o 1 * o 1)) < sq (Real.cos (25 * (Real.pi / 180))) ∨
        o 0 * v 0 + o 1 * v 1 < 0 then true else false) = true ↔ 25 * (Real.pi / 180) < InnerProductGeometry.angle (Spec.vec o) (Spec.vec v) := by
      rw [← key]
      split_ifs with h' <;> simp [h']
    rw [this]
    exact ⟨fun h' => ⟨h.1.1, h.2.1, h.1.2, h.2.2, h'⟩, fun h' => h'.2.2.2.2⟩
  · rw [if_neg h]
    rw [thr, thr] at h
    constructor
    · intro h'; cases h'
    · rintro ⟨a, b, c, d, -⟩; exact absurd ⟨⟨a, c⟩, ⟨b, d⟩⟩ h

/-- `a` turned by the angle `ψ` about the vertical (north to east) -/
noncomputable def Spec.turned (ψ : ℝ) (a : Fin 2 → ℝ) : Fin 2 → ℝ := ![Real.cos ψ * a 0 - Real.sin ψ * a 1, Real.sin ψ * a 0 + Real.cos ψ * a 1]

/-- **C126 (meaning).** If the estimated velocity is the observed one turned by the heading error `ψ` (|ψ| ≤ 180°) and the speed is above 1 m/s and
four standard deviations of both, the heading is blamed exactly if |ψ| exceeds 25°. -/
theorem yaw_failure_heading_error (o ov pv : Fin 2 → ℝ) (ψ : ℝ) (hψ : |ψ| ≤ Real.pi) (h1 : 1 < ‖Spec.vec o‖)
    (h2 : 16 * (ov 0 + ov 1) < ‖Spec.vec o‖ ^ 2) (h3 : 16 * (pv 0 + pv 1) < ‖Spec.vec o‖ ^ 2) :
    yawFailure o (Spec.turned ψ o) ov pv = true ↔ 25 * (Real.pi / 180) < |ψ| := by
  have hcs := Real.sin_sq_add_cos_sq ψ
  have hn2 : ‖Spec.vec (Spec.turned ψ o)‖ ^ 2 = ‖Spec.vec o‖ ^ 2 := by
    rw [vec_norm_sq, vec_norm_sq]
    simp only [Spec.turned, Matrix.cons_val_zero, Matrix.cons_val_one]
    linear_combination (o 0 ^ 2 + o 1 ^ 2) * hcs
  have hn : ‖Spec.vec (Spec.turned ψ o)‖ = ‖Spec.vec o‖ := by
    have := abs_eq_abs.2 (Or.inl (sq_eq_sq₀ (norm_nonneg _) (norm_nonneg _) |>.1 hn2))
    exact sq_eq_sq₀ (norm_nonneg _) (norm_nonneg _) |>.1 hn2
  have hang : InnerProductGeometry.angle (Spec.vec o) (Spec.vec (Spec.turned ψ o)) = |ψ| := by
    unfold InnerProductGeometry.angle
    have : inner ℝ (Spec.vec o) (Spec.vec (Spec.turned ψ o)) / (‖Spec.vec o‖ * ‖Spec.vec (Spec.turned ψ o)‖) = Real.cos |ψ| := by
      rw [hn, Real.cos_abs, div_eq_iff (by positivity), ← pow_two, vec_norm_sq, vec_inner]
      simp only [Spec.turned, Matrix.cons_val_zero, Matrix.cons_val_one]
      ring
    rw [this, Real.arccos_cos (abs_nonneg _) hψ]
  rw [yaw_failure_iff, hn, hang]
  exact ⟨fun h => h.2.2.2.2, fun h => ⟨h1, h1, h2, h3, h⟩⟩

/-- Non-vacuity: 5 m/s, variances 0.25: an error of 30° is blamed, 20° is not; at 2 m/s with the same variances nothing is blamed. -/
example : 1 < ‖Spec.vec ![3, 4]‖ ∧ (16 * ((1 / 4 : ℝ) + 1 / 4)) < ‖Spec.vec ![3, 4]‖ ^ 2 ∧
    yawFailure ![3, 4] (Spec.turned (Real.pi / 6) ![3, 4]) ![1 / 4, 1 / 4] ![1 / 4, 1 / 4] = true ∧
    yawFailure ![3, 4] (Spec.turned (Real.pi / 9) ![3, 4]) ![1 / 4, 1 / 4] ![1 / 4, 1 / 4] = false ∧
    yawFailure ![2, 0] (Spec.turned Real.pi ![2, 0]) ![1 / 4, 1 / 4] ![1 / 4, 1 / 4] = false := by
  have hpi := Real.pi_pos
  have h2 : ‖Spec.vec ![3, 4]‖ ^ 2 = 25 := by rw [vec_norm_sq]; norm_num
  have h1 : 1 < ‖Spec.vec ![3, 4]‖ := by nlinarith [norm_nonneg (Spec.vec ![3, 4])]
  have h3 : (16 * ((1 / 4 : ℝ) + 1 / 4)) < ‖Spec.vec ![3, 4]‖ ^ 2 := by rw [h2]; norm_num
  refine ⟨h1, h3, ?_, ?_, ?_⟩
  · rw [yaw_failure_heading_error _ _ _ _ (by rw [abs_of_pos (by positivity)]; linarith) h1 h3 h3, abs_of_pos (by positivity)]; linarith
  · rw [← Bool.not_eq_true, yaw_failure_heading_error _ _ _ _ (by rw [abs_of_pos (by positivity)]; linarith) h1 h3 h3, abs_of_pos (by positivity)]; linarith
  · rw [← Bool.not_eq_true, yaw_failure_iff]
    rintro ⟨-, -, h, -⟩
    rw [vec_norm_sq] at h
    norm_num at h

end Ecl.Meas
