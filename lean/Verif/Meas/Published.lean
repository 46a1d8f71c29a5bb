import Verif.Meas.GpsMeas
import Verif.Ekf.OutputProps
import Verif.Ekf.ResetProps

/-!
# Published position, velocity and yaw rate refer to the body origin — EKF/estimator_interface.h:176-192, EKF/ekf.cpp:321-394

Real arithmetic.
-/

namespace Ecl.Meas

open Ecl.Ekf
open Ecl.ImuDownSampler (AxisAngleLib ImuSample)
open scoped Matrix

noncomputable section

/-- `getVerticalPositionDerivative`, EKF/estimator_interface.h:182: alternative vertical velocity minus the lever arm velocity -/
def verticalPositionDerivative (e : Est ℝ) (velImuRelBody : V3 ℝ) : ℝ := e.vertNew.vertVel - velImuRelBody 2

end

/-- **C130 (body origin).** Let the output predictor hold the true position, velocity and attitude of the IMU, mounted at `imu` from the body origin, and let the gyro
read the true rate `w` plus a bias `b`. Then the published position is the position of the body origin, and the published velocity is the time derivative
of the position of the body origin, plus an error `−R (b × imu)`: the gyro bias is not removed from the lever arm velocity. The same holds for the
published derivative of the vertical position if the alternative vertical velocity is the true one. -/
theorem published_body_origin (p : ℝ → V3 ℝ) (R : ℝ → M3 ℝ) (t : ℝ) (v w b imu : V3 ℝ) (h : Spec.RigidMotion p R t v w) (e : Est ℝ)
    (hp : e.outNew.pos = p t) (hv : e.outNew.vel = v) (hz : e.vertNew.vertVel = v 2) :
    let origin := Spec.point p R (-imu)
    let lever := R t *ᵥ Ekf.cross3 (w + b) imu
    e.getPosition (R t) imu = origin t ∧
    (∀ i, HasDerivAt (fun s => origin s i) (e.getVelocity lever i + (R t *ᵥ Ekf.cross3 b imu) i) t) ∧
    HasDerivAt (fun s => origin s 2) (verticalPositionDerivative e lever + (R t *ᵥ Ekf.cross3 b imu) 2) t := by
  intro origin lever
  have hc : ∀ a c : V3 ℝ, Ekf.cross3 a c = Fusion.cross3 a c := fun a c => rfl
  have hl : ∀ i, lever i = (R t *ᵥ Ekf.cross3 w imu) i + (R t *ᵥ Ekf.cross3 b imu) i := by
    intro i
    have : Ekf.cross3 (w + b) imu = Ekf.cross3 w imu + Ekf.cross3 b imu := by
      funext k; fin_cases k <;> simp [Ekf.cross3] <;> ring
    show (R t *ᵥ Ekf.cross3 (w + b) imu) i = _
    rw [this, Matrix.mulVec_add]; rfl
  have hn : ∀ i, (R t *ᵥ Fusion.cross3 w (-imu)) i = -(R t *ᵥ Ekf.cross3 w imu) i := by
    intro i
    have : Fusion.cross3 w (-imu) = -Ekf.cross3 w imu := by
      funext k; fin_cases k <;> simp [Ekf.cross3, Fusion.cross3] <;> ring
    rw [this, Matrix.mulVec_neg]; rfl
  have key : ∀ i, HasDerivAt (fun s => origin s i) (v i - (R t *ᵥ Ekf.cross3 w imu) i) t := by
    intro i
    have := point_velocity h (-imu) i
    rw [hn i] at this
    exact this
  refine ⟨?_, fun i => ?_, ?_⟩
  · unfold Est.getPosition
    rw [hp]
    show _ = p t + R t *ᵥ (-imu)
    rw [Matrix.mulVec_neg, sub_eq_add_neg]
  · refine (key i).congr_deriv ?_
    unfold Est.getVelocity
    rw [Pi.sub_apply, hl, hv]; ring
  · refine (key 2).congr_deriv ?_
    unfold verticalPositionDerivative
    rw [hl, hz]; ring

/-- **C130 (lever arm velocity).** The lever arm velocity used by the getters is `R (ω × imu)` with `R` the attitude of the newest sample and `ω` its uncorrected
angular rate; with an interval of at most 0.1 ms the old value is kept. -/
theorem lever_arm_velocity (L : AxisAngleLib) (i : OutIn) (imu : ImuSample) (o : Out) :
    (imu.deltaAngDt > 1 / 10000 → (o.ins L i imu).velImuRel = (o.ins L i imu).rNow *ᵥ
      Ekf.cross3 (fun j => imu.deltaAng j / imu.deltaAngDt) i.imuPosBody) ∧
    (imu.deltaAngDt ≤ 1 / 10000 → (o.ins L i imu).velImuRel = o.velImuRel) := by
  have e : (o.ins L i imu).velImuRel = if imu.deltaAngDt > 1 / 10000 then
      (o.ins L i imu).rNow *ᵥ Ekf.cross3 ((1 / imu.deltaAngDt) • imu.deltaAng) i.imuPosBody else o.velImuRel := rfl
  constructor
  · intro h
    rw [e, if_pos h]
    congr 2
    funext j; simp only [Pi.smul_apply, smul_eq_mul]; ring
  · intro h
    rw [e, if_neg (not_lt.mpr h)]

/-- **C130 (yaw rate).** The rotation about the earth's vertical is accumulated from the down component of the corrected delta angle in the attitude before the
sample; if it corresponds to the rate `r`, the error of the filtered yaw rate against `r` shrinks by 5 % at every sample. -/
theorem yaw_rate_filter (L : AxisAngleLib) (i : OutIn) (imu : ImuSample) (o : Out) (r : ℝ) (h0 : imu.deltaAngDt ≠ 0) :
    let θ : V3 ℝ := fun j => imu.deltaAng j - i.dtImuAvg / i.dtEkfAvg * i.state.dAngBias j + o.dAngCorr j
    (o.ins L i imu).yawDelta = o.yawDelta + (o.rNow *ᵥ θ) 2 ∧
    ((o.rNow *ᵥ θ) 2 = r * imu.deltaAngDt → (o.ins L i imu).yawRateLpf - r = 95 / 100 * (o.yawRateLpf - r)) := by
  intro θ
  have hs : (o.rNow *ᵥ θ) 2 = θ 0 * o.rNow 2 0 + θ 1 * o.rNow 2 1 + θ 2 * o.rNow 2 2 := by
    simp [Matrix.mulVec, dotProduct, Fin.sum_univ_three]; ring
  have hθ : (imu.deltaAng - (i.dtImuAvg / i.dtEkfAvg) • i.state.dAngBias + o.dAngCorr : V3 ℝ) = θ := by
    funext j; simp [θ]
  have e1 : (o.ins L i imu).yawDelta = o.yawDelta + (θ 0 * o.rNow 2 0 + θ 1 * o.rNow 2 1 + θ 2 * o.rNow 2 2) := by
    rw [← hθ]; rfl
  have e2 : (o.ins L i imu).yawRateLpf = 95 / 100 * o.yawRateLpf + 5 / 100 * (θ 0 * o.rNow 2 0 + θ 1 * o.rNow 2 1 + θ 2 * o.rNow 2 2) / imu.deltaAngDt := by
    rw [← hθ]; rfl
  refine ⟨by rw [e1, hs], fun hr => ?_⟩
  rw [e2, ← hs, hr]
  field_simp
  ring

/-- non-vacuity of C130: a level body turning at 2 rad/s about the vertical, at the instant its axes are those of the earth, IMU 1 m in front of the origin: the IMU moves
at 2 m/s to the east, the origin rests at (−1, 0, 0) -/
example : ∃ p R, Spec.RigidMotion p R 0 ![0, 2, 0] ![0, 0, 2] ∧ R 0 = 1 ∧ p 0 = 0 ∧ Spec.point p R (-![1, 0, 0]) 0 = ![-1, 0, 0] := by
  refine ⟨fun s => ![0, 2 * s, 0], fun s => 1 + s • !![0, -2, 0; 2, 0, 0; 0, 0, 0], ⟨?_, ?_⟩, by simp, by simp, ?_⟩
  · intro i
    fin_cases i
    · simpa using hasDerivAt_const (0 : ℝ) (0 : ℝ)
    · simpa using (hasDerivAt_id (0 : ℝ)).const_mul 2
    · simpa using hasDerivAt_const (0 : ℝ) (0 : ℝ)
  · intro i j
    have : ∀ c d : ℝ, HasDerivAt (fun s : ℝ => c + s * d) d 0 := by
      intro c d
      simpa using ((hasDerivAt_id (0 : ℝ)).mul_const d).const_add c
    have h := this ((1 : M3 ℝ) i j) ((!![0, -2, 0; 2, 0, 0; 0, 0, 0] : M3 ℝ) i j)
    refine (h.congr_deriv ?_)
    fin_cases i <;> fin_cases j <;> simp
  · funext i
    simp only [Spec.point, zero_smul, add_zero, Matrix.one_mulVec]
    fin_cases i <;> simp

end Ecl.Meas
