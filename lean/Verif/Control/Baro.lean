import Verif.Yaw.Turn
import Mathlib.Topology.Algebra.Order.LiminfLimsup
import Mathlib.Topology.Order.OrderClosed

/-!
# Static pressure position error of the barometer — EKF/ekf_helper.cpp:567-594

Real arithmetic; rounding is not modelled.
-/

namespace Ecl.Baro

open Ecl.Utils
open scoped Matrix

noncomputable section

/-- `static_pressure_coef_xp`, `_xn`, `_yp`, `_yn`, `_z`, `max_correction_airspeed`, EKF/common.h:343-349 -/
structure Params where
  xp : ℝ
  xn : ℝ
  yp : ℝ
  yn : ℝ
  z : ℝ
  maxSpeed : ℝ

/-- CONSTANTS_ONE_G, geo/geo.h -/
def g : ℝ := 9.80665

/-- `airspeed_body`, EKF/ekf_helper.cpp:572-581.  `R` is the body-to-earth rotation of the current output attitude; the matrix of the
inverse quaternion is its transpose.  `vel` = `_output_new.vel`, `velImu` = `_vel_imu_rel_body_ned`, wind has no vertical component. -/
def airspeedBody (R : M3 ℝ) (vel velImu : V3 ℝ) (windN windE : ℝ) : V3 ℝ :=
  Rᵀ *ᵥ (vel - velImu - ![windN, windE, 0])

/-- `K_pstatic_coef`, EKF/ekf_helper.cpp:583-586 -/
def coef (p : Params) (a : V3 ℝ) : V3 ℝ :=
  open Classical in ![if 0 ≤ a 0 then p.xp else p.xn, if 0 ≤ a 1 then p.yp else p.yn, p.z]

/-- `pstatic_err`, EKF/ekf_helper.cpp:588-590: each squared component limited, then the dot product -/
def pressureError (p : Params) (rho : ℝ) (a : V3 ℝ) : ℝ :=
  1 / 2 * rho * ∑ i, min (a i * a i) (p.maxSpeed ^ 2) * coef p a i

/-- `compensateBaroForDynamicPressure`, EKF/ekf_helper.cpp:567-594 -/
def compensate (p : Params) (rho : ℝ) (R : M3 ℝ) (vel velImu : V3 ℝ) (windN windE : ℝ) (alt : ℝ) : ℝ :=
  alt + pressureError p rho (airspeedBody R vel velImu windN windE) / (rho * g)

/-- **Specification.** The correction along one body axis with coefficient `kp` for positive and `kn` for negative air speed: coefficient
times the speed-squared head `v²/2g`, the speed limited to `m`. -/
def Spec.axis (kp kn m v : ℝ) : ℝ := open Classical in (if 0 ≤ v then kp else kn) * (min (v ^ 2) (m ^ 2) / (2 * 9.80665))

/-- **C120 (value).** For any nonzero air density the altitude is corrected by the sum of the three axis corrections for the air-relative
velocity in body axes; the density itself has no influence. -/
theorem compensate_value (p : Params) (rho : ℝ) (hr : rho ≠ 0) (R : M3 ℝ) (vel velImu : V3 ℝ) (windN windE alt : ℝ) :
    let a := Rᵀ *ᵥ (vel - velImu - ![windN, windE, 0])
    compensate p rho R vel velImu windN windE alt = alt + (Spec.axis p.xp p.xn p.maxSpeed (a 0) +
      Spec.axis p.yp p.yn p.maxSpeed (a 1) + Spec.axis p.z p.z p.maxSpeed (a 2)) := by
  intro a
  show alt + pressureError p rho a / (rho * g) = _
  unfold pressureError coef Spec.axis g
  rw [Fin.sum_univ_three]
  simp only [Matrix.cons_val_zero, Matrix.cons_val_one, Matrix.cons_val, ite_self, ← pow_two]
  field_simp

theorem axis_bound (kp kn m v : ℝ) : |Spec.axis kp kn m v| ≤ max |kp| |kn| * (m ^ 2 / (2 * 9.80665)) := by
  unfold Spec.axis
  rw [abs_mul]
  apply mul_le_mul
  · split_ifs
    · exact le_max_left _ _
    · exact le_max_right _ _
  · rw [abs_of_nonneg (div_nonneg (le_min (sq_nonneg _) (sq_nonneg _)) (by norm_num))]
    exact div_le_div_of_nonneg_right (min_le_right _ _) (by norm_num)
  · exact abs_nonneg _
  · exact le_trans (abs_nonneg kp) (le_max_left _ _)

/-- **C120 (bound).** The correction never exceeds the speed head at the maximum correction air speed times the sum of the largest
coefficients, whatever the attitude, velocity and wind estimates are. -/
theorem compensate_bounded (p : Params) (rho : ℝ) (hr : rho ≠ 0) (R : M3 ℝ) (vel velImu : V3 ℝ) (windN windE alt : ℝ) :
    |compensate p rho R vel velImu windN windE alt - alt| ≤
      (max |p.xp| |p.xn| + max |p.yp| |p.yn| + |p.z|) * (p.maxSpeed ^ 2 / (2 * 9.80665)) := by
  have h := compensate_value p rho hr R vel velImu windN windE alt
  simp only at h
  rw [h, add_sub_cancel_left]
  refine (abs_add_three _ _ _).trans ?_
  have h1 := axis_bound p.xp p.xn p.maxSpeed ((Rᵀ *ᵥ (vel - velImu - ![windN, windE, 0])) 0)
  have h2 := axis_bound p.yp p.yn p.maxSpeed ((Rᵀ *ᵥ (vel - velImu - ![windN, windE, 0])) 1)
  have h3 := axis_bound p.z p.z p.maxSpeed ((Rᵀ *ᵥ (vel - velImu - ![windN, windE, 0])) 2)
  rw [max_self] at h3
  rw [add_mul, add_mul]
  exact add_le_add (add_le_add h1 h2) h3

/-- **C120 (off by default).** With all coefficients zero the altitude is unchanged, for every density including zero. -/
theorem compensate_off (m rho : ℝ) (R : M3 ℝ) (vel velImu : V3 ℝ) (windN windE alt : ℝ) :
    compensate ⟨0, 0, 0, 0, 0, m⟩ rho R vel velImu windN windE alt = alt := by
  unfold compensate pressureError coef
  rw [Fin.sum_univ_three]
  simp

/-- **C120 (only the air-relative velocity counts).** Ground velocity and wind changed by the same horizontal amount, or the whole scene
(attitude, velocity, lever-arm velocity and wind) turned about the vertical, give the same correction: no dependence on heading. -/
theorem compensate_frame (p : Params) (rho : ℝ) (R : M3 ℝ) (vel velImu : V3 ℝ) (windN windE alt dN dE psi : ℝ) :
    compensate p rho R (vel + ![dN, dE, 0]) velImu (windN + dN) (windE + dE) alt = compensate p rho R vel velImu windN windE alt ∧
    compensate p rho (Yaw.Spec.turn psi * R) (Yaw.Spec.turn psi *ᵥ vel) (Yaw.Spec.turn psi *ᵥ velImu)
      (Real.cos psi * windN - Real.sin psi * windE) (Real.sin psi * windN + Real.cos psi * windE) alt =
      compensate p rho R vel velImu windN windE alt := by
  constructor
  · have : airspeedBody R (vel + ![dN, dE, 0]) velImu (windN + dN) (windE + dE) = airspeedBody R vel velImu windN windE := by
      unfold airspeedBody
      congr 1
      ext i
      fin_cases i <;> simp only [Pi.sub_apply, Pi.add_apply] <;> simp <;> ring
    unfold compensate; rw [this]
  · have : airspeedBody (Yaw.Spec.turn psi * R) (Yaw.Spec.turn psi *ᵥ vel) (Yaw.Spec.turn psi *ᵥ velImu)
      (Real.cos psi * windN - Real.sin psi * windE) (Real.sin psi * windN + Real.cos psi * windE) =
      airspeedBody R vel velImu windN windE := by
      unfold airspeedBody
      have hw : (![Real.cos psi * windN - Real.sin psi * windE, Real.sin psi * windN + Real.cos psi * windE, 0] : V3 ℝ) =
          Yaw.Spec.turn psi *ᵥ ![windN, windE, 0] := by
        obtain ⟨e0, e1, e2⟩ := Yaw.turn_apply psi ![windN, windE, 0]
        ext i
        fin_cases i
        · simp at e0 ⊢; rw [e0]
        · simp at e1 ⊢; rw [e1]
        · simp at e2 ⊢; rw [e2]
      rw [hw, ← Matrix.mulVec_sub, ← Matrix.mulVec_sub, Matrix.transpose_mul, ← Matrix.mulVec_mulVec, Matrix.mulVec_mulVec _ (Yaw.Spec.turn psi)ᵀ,
        (Yaw.turn_isRotation psi).orth', Matrix.one_mulVec]
    unfold compensate; rw [this]

/-- **C120 (no jump).** Although the coefficients switch with the sign of the air speed, the correction along an axis is a continuous
function of the air speed: no altitude step when the wind is crossed. -/
theorem axis_continuous (kp kn m : ℝ) : Continuous (Spec.axis kp kn m) := by
  have : Spec.axis kp kn m = fun v => if (0 : ℝ) ≤ v then kp * (min (v ^ 2) (m ^ 2) / (2 * 9.80665)) else kn * (min (v ^ 2) (m ^ 2) / (2 * 9.80665)) := by
    funext v; unfold Spec.axis; split_ifs <;> rfl
  rw [this]
  apply Continuous.if_le
  · fun_prop
  · fun_prop
  · exact continuous_const
  · exact continuous_id
  · intro x hx
    rw [← hx]; simp [min_eq_left (sq_nonneg m)]

/-- Non-vacuity: 10 m/s forward with a coefficient of −0.2 lowers the altitude by 1.0197 m. -/
example : compensate ⟨-0.2, 0, 0, 0, 0, 20⟩ 1.2 1 ![10, 0, 0] 0 0 0 100 = 100 - 0.2 * 100 / (2 * 9.80665) := by
  have h := compensate_value ⟨-0.2, 0, 0, 0, 0, 20⟩ 1.2 (by norm_num) 1 ![10, 0, 0] 0 0 0 100
  simp only at h
  have e : ((1 : M3 ℝ)ᵀ *ᵥ (![10, 0, 0] - 0 - ![0, 0, 0] : V3 ℝ)) = ![10, 0, 0] := by
    rw [Matrix.transpose_one, Matrix.one_mulVec]
    ext i; fin_cases i <;> simp
  rw [h, e]
  unfold Spec.axis
  norm_num

end

end Ecl.Baro
