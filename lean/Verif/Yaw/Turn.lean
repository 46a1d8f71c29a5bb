import Verif.Yaw.Model

/-!
# Replacing the yaw of an attitude is a turn about the vertical (C116)
-/

namespace Ecl.Yaw

open Ecl.Utils Real
open scoped Matrix

noncomputable section

/-- rotation by `a` about the earth's vertical -/
def Spec.turn (a : ℝ) : M3 ℝ := !![cos a, -sin a, 0; sin a, cos a, 0; 0, 0, 1]

/-- the heading angle the code reads from an attitude when it replaces the yaw: 321 yaw where pitch is smaller than roll, 312 yaw elsewhere -/
def Spec.heading (R : M3 ℝ) : ℝ :=
  open Classical in if |R 2 0| < |R 2 1| then atan2 (R 1 0) (R 0 0) else atan2 (-R 0 1) (R 1 1)

theorem turn_mul (a b : ℝ) : Spec.turn a * Spec.turn b = Spec.turn (a + b) := by
  unfold Spec.turn
  rw [cos_add, sin_add]
  ext i j
  fin_cases i <;> fin_cases j <;> simp [Matrix.mul_apply, Fin.sum_univ_three] <;> ring

theorem turn_zero : Spec.turn 0 = 1 := by
  unfold Spec.turn
  ext i j
  fin_cases i <;> fin_cases j <;> simp

theorem turn_isRotation (a : ℝ) : IsRotation (Spec.turn a) := by
  have h := sin_sq_add_cos_sq a
  refine isRotation_of_orth ?_ ?_
  · unfold Spec.turn
    ext i j
    fin_cases i <;> fin_cases j <;> simp [Matrix.mul_apply, Fin.sum_univ_three] <;> nlinarith
  · unfold Spec.turn
    rw [Matrix.det_fin_three]
    simp
    nlinarith

theorem turn_congr {a b : ℝ} (hc : cos a = cos b) (hs : sin a = sin b) : Spec.turn a = Spec.turn b := by
  unfold Spec.turn; rw [hc, hs]

theorem turn_apply (a : ℝ) (v : V3 ℝ) :
    (Spec.turn a *ᵥ v) 0 = cos a * v 0 - sin a * v 1 ∧ (Spec.turn a *ᵥ v) 1 = sin a * v 0 + cos a * v 1 ∧
    (Spec.turn a *ᵥ v) 2 = v 2 := by
  unfold Spec.turn
  refine ⟨?_, ?_, ?_⟩ <;> simp [Matrix.mulVec, dotProduct, Fin.sum_univ_three]
  ring

/-- two rotations with the same third row differ by a turn about the vertical -/
theorem same_tilt {R R' : M3 ℝ} (h : IsRotation R) (h' : IsRotation R') (ht : ∀ j, R' 2 j = R 2 j) :
    ∃ a, R' = Spec.turn a * R := by
  have hMR : IsRotation (R' * Rᵀ) := by
    refine isRotation_of_orth ?_ ?_
    · rw [Matrix.transpose_mul, Matrix.transpose_transpose, Matrix.mul_assoc, ← Matrix.mul_assoc Rᵀ, h.orth', Matrix.one_mul, h'.orth]
    · rw [Matrix.det_mul, Matrix.det_transpose, h.det, h'.det, one_mul]
  have hb : R' = (R' * Rᵀ) * R := by rw [Matrix.mul_assoc, h.orth', Matrix.mul_one]
  generalize hM : R' * Rᵀ = M at hMR hb
  have m2 : M 2 0 = 0 ∧ M 2 1 = 0 ∧ M 2 2 = 1 := by
    have e0 := congrFun (congrFun h.orth 2) 0
    have e1 := congrFun (congrFun h.orth 2) 1
    have e2 := congrFun (congrFun h.orth 2) 2
    simp only [Matrix.mul_apply, Fin.sum_univ_three, Matrix.transpose_apply] at e0 e1 e2
    refine ⟨?_, ?_, ?_⟩ <;> rw [← hM] <;>
      simp only [Matrix.mul_apply, Fin.sum_univ_three, Matrix.transpose_apply, ht]
    · rw [e0]; rfl
    · rw [e1]; rfl
    · rw [e2]; rfl
  obtain ⟨a20, a21, a22⟩ := m2
  have o02 := congrFun (congrFun hMR.orth 0) 2
  have o12 := congrFun (congrFun hMR.orth 1) 2
  have o00 := congrFun (congrFun hMR.orth 0) 0
  have o11 := congrFun (congrFun hMR.orth 1) 1
  have o01 := congrFun (congrFun hMR.orth 0) 1
  have hd := hMR.det
  simp only [Matrix.mul_apply, Fin.sum_univ_three, Matrix.transpose_apply, a20, a21, a22] at o02 o12 o00 o11 o01
  have z02 : M 0 2 = 0 := by have : (1 : M3 ℝ) 0 2 = 0 := rfl; rw [this] at o02; linarith
  have z12 : M 1 2 = 0 := by have : (1 : M3 ℝ) 1 2 = 0 := rfl; rw [this] at o12; linarith
  have u00 : (1 : M3 ℝ) 0 0 = 1 := rfl
  have u11 : (1 : M3 ℝ) 1 1 = 1 := rfl
  have u01 : (1 : M3 ℝ) 0 1 = 0 := rfl
  rw [u00, z02] at o00
  rw [u11, z12] at o11
  rw [u01, z02, z12] at o01
  rw [Matrix.det_fin_three, a20, a21, a22, z02, z12] at hd
  have d : M 0 0 * M 1 1 - M 0 1 * M 1 0 = 1 := by linarith
  have e1 : M 1 1 = M 0 0 := by
    have : M 1 1 * (M 0 0 * M 0 0 + M 0 1 * M 0 1) = M 0 0 := by
      have hh : M 0 0 * (M 0 0 * M 1 1 - M 0 1 * M 1 0) + M 0 1 * (M 0 0 * M 1 0 + M 0 1 * M 1 1) = M 0 0 := by rw [d]; linarith [o01, mul_eq_zero_of_right (M 0 1) (show M 0 0 * M 1 0 + M 0 1 * M 1 1 = 0 by linarith)]
      linear_combination hh
    have h1 : M 0 0 * M 0 0 + M 0 1 * M 0 1 = 1 := by linarith
    rw [h1, mul_one] at this; exact this
  have e2 : M 0 1 = -M 1 0 := by
    have h1 : M 0 0 * M 0 0 + M 0 1 * M 0 1 = 1 := by linarith
    have h2 : M 0 0 * M 1 0 + M 0 1 * M 1 1 = 0 := by linarith
    linear_combination (-M 0 1) * d + M 0 0 * h2 - M 1 0 * h1
  refine ⟨atan2 (M 1 0) (M 0 0), ?_⟩
  have hn : M 0 0 ^ 2 + M 1 0 ^ 2 = 1 := by rw [e2] at o00; nlinarith
  have hc : cos (atan2 (M 1 0) (M 0 0)) = M 0 0 := by rw [cos_atan2 (by rw [hn]; norm_num), hn]; simp
  have hs : sin (atan2 (M 1 0) (M 0 0)) = M 1 0 := by rw [sin_atan2, hn]; simp
  have : M = Spec.turn (atan2 (M 1 0) (M 0 0)) := by
    unfold Spec.turn
    rw [hc, hs]
    ext i j
    fin_cases i <;> fin_cases j <;> simp [a20, a21, a22, z02, z12, e1, e2]
  rw [← this]; exact hb

theorem polar_of (x y : ℝ) : x = √(x ^ 2 + y ^ 2) * cos (atan2 y x) ∧ y = √(x ^ 2 + y ^ 2) * sin (atan2 y x) := by
  by_cases h : x ^ 2 + y ^ 2 = 0
  · have hx : x = 0 := by nlinarith [sq_nonneg x, sq_nonneg y]
    have hy : y = 0 := by nlinarith [sq_nonneg x, sq_nonneg y]
    rw [hx, hy]; simp
  · rw [cos_atan2 h, sin_atan2]
    have : √(x ^ 2 + y ^ 2) ≠ 0 := by
      rw [Real.sqrt_ne_zero (by positivity)]; exact h
    constructor <;> field_simp

/-- **C116.** Replacing the yaw of an attitude by `yaw` turns the attitude about the vertical by the difference between `yaw` and its present
heading, for every angle `yaw` (in range or not). -/
theorem updateYaw_turns (yaw : ℝ) {R : M3 ℝ} (h : IsRotation R) :
    updateYawInRotMat yaw R = Spec.turn (yaw - Spec.heading R) * R := by
  have hper : updateYawInRotMat yaw R = updateYawInRotMat (atan2 (sin yaw) (cos yaw)) R := by
    have hn : cos yaw ^ 2 + sin yaw ^ 2 = 1 := cos_sq_add_sin_sq yaw
    have hc : cos (atan2 (sin yaw) (cos yaw)) = cos yaw := by rw [cos_atan2 (by rw [hn]; norm_num), hn]; simp
    have hs : sin (atan2 (sin yaw) (cos yaw)) = sin yaw := by rw [sin_atan2, hn]; simp
    unfold updateYawInRotMat updateEuler321YawInRotMat updateEuler312YawInRotMat dcmOfEuler taitBryan312ToRotMat
    simp only [Matrix.cons_val, hc, hs]
  have hn : cos yaw ^ 2 + sin yaw ^ 2 = 1 := cos_sq_add_sin_sq yaw
  have hc : cos (atan2 (sin yaw) (cos yaw)) = cos yaw := by rw [cos_atan2 (by rw [hn]; norm_num), hn]; simp
  have hs : sin (atan2 (sin yaw) (cos yaw)) = sin yaw := by rw [sin_atan2, hn]; simp
  obtain ⟨hrot, htilt, h321, h312⟩ := updateYaw_spec (atan2 (sin yaw) (cos yaw)) (atan2_mem _ _) R h
  obtain ⟨a, ha⟩ := same_tilt h hrot (fun j => congrFun htilt j)
  rw [hper, ha]
  rw [ha] at h321 h312
  congr 1
  have hreg := selected_sequence_regular h
  have hr2 := h.row2
  have c0 := congrFun (congrFun h.orth' 0) 0
  have c1 := congrFun (congrFun h.orth' 1) 1
  simp only [Matrix.mul_apply, Fin.sum_univ_three, Matrix.transpose_apply] at c0 c1
  have u00 : (1 : M3 ℝ) 0 0 = 1 := rfl
  have u11 : (1 : M3 ℝ) 1 1 = 1 := rfl
  rw [u00] at c0; rw [u11] at c1
  have t (j : Fin 3) : (Spec.turn a * R) 0 j = cos a * R 0 j - sin a * R 1 j ∧ (Spec.turn a * R) 1 j = sin a * R 0 j + cos a * R 1 j := by
    unfold Spec.turn
    constructor <;> simp [Matrix.mul_apply, Fin.sum_univ_three]
    ring
  -- angle of a turned horizontal vector
  have key : ∀ x y : ℝ, 0 < x ^ 2 + y ^ 2 → atan2 (sin a * x + cos a * y) (cos a * x - sin a * y) = atan2 (sin yaw) (cos yaw) →
      Spec.turn a = Spec.turn (yaw - atan2 y x) := by
    intro x y hp hh
    have hsum : (cos a * x - sin a * y) ^ 2 + (sin a * x + cos a * y) ^ 2 = x ^ 2 + y ^ 2 := by
      have := sin_sq_add_cos_sq a
      linear_combination (x ^ 2 + y ^ 2) * this
    have hq : √(x ^ 2 + y ^ 2) ≠ 0 := (Real.sqrt_pos.mpr hp).ne'
    have kc : cos yaw = (cos a * x - sin a * y) / √(x ^ 2 + y ^ 2) := by
      rw [← hc, ← hh, cos_atan2 (by rw [hsum]; exact hp.ne'), hsum]
    have ks : sin yaw = (sin a * x + cos a * y) / √(x ^ 2 + y ^ 2) := by
      rw [← hs, ← hh, sin_atan2, hsum]
    have h2 : √(x ^ 2 + y ^ 2) ^ 2 = x ^ 2 + y ^ 2 := Real.sq_sqrt hp.le
    refine turn_congr ?_ ?_
    · rw [cos_sub, kc, ks, cos_atan2 hp.ne', sin_atan2]
      field_simp
      rw [h2]; ring
    · rw [sin_sub, kc, ks, cos_atan2 hp.ne', sin_atan2]
      field_simp
      rw [h2]; ring
  unfold Spec.heading
  by_cases hsel : |R 2 0| < |R 2 1|
  · rw [if_pos hsel]
    refine key _ _ (by nlinarith [hreg.1 hsel]) ?_
    have := h321 hsel
    unfold getEuler321Yaw at this
    rw [(t 0).1, (t 0).2] at this
    exact this
  · rw [if_neg hsel]
    refine key _ _ (by nlinarith [hreg.2 hsel]) ?_
    have := h312 hsel
    unfold getEuler312Yaw at this
    rw [(t 1).1, (t 1).2] at this
    rw [← this]
    congr 1 <;> ring

/-- non-vacuity: the identity attitude has heading 0 -/
example : IsRotation (1 : M3 ℝ) ∧ Spec.heading 1 = 0 := by
  refine ⟨⟨by simp, by simp, by simp⟩, ?_⟩
  unfold Spec.heading
  simp [atan2]
  exact Complex.arg_one

end

end Ecl.Yaw
