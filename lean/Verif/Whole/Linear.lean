import Verif.Whole.Model
import Verif.Cov.PredictProps3
import Verif.Ekf.PredictProps

/-!
# The covariance prediction against the state prediction (C154)

`predictState` (EKF/ekf.cpp:257-309) moves the estimate, `predictCovariance` (EKF/covariance.cpp:101-857) moves the covariance with the
transition matrix `F` of a simpler process model (C27).  Here the error of the estimate, i.e. the difference between two states driven by the same IMU
data, is followed through the first and compared with `F`.
-/

noncomputable section

namespace Ecl.Whole

open Ecl.Cov Ecl.Ekf Ecl.Fusion
open Ecl.ImuDownSampler (ImuSample AxisAngleLib normalize matrixLib axisAngleExp)
open scoped Matrix

/-- the IMU increments as the input vector of the process model -/
def Spec.inputs (imu : ImuSample) : Fin 6 → ℝ :=
  ![imu.deltaAng 0, imu.deltaAng 1, imu.deltaAng 2, imu.deltaVel 0, imu.deltaVel 1, imu.deltaVel 2]

/-- `F` is the transition matrix of the covariance prediction of C27: derivative of the process model over the 10 ms filter step at the predicted
state `s` -/
def Spec.IsTransition (s : Vec ℝ) (imu : ImuSample) (F : Mat ℝ) : Prop :=
  Cov.Spec.IsJacobian (fun v => Cov.Spec.propagate (1 / 100) (980665 / 100000) v (Spec.inputs imu)) s F

/-- the attitude is a unit quaternion and the stored rotation matrix belongs to it -/
def Spec.AttitudeOk (w : W) : Prop := (attQuat w.f.s).normSq = 1 ∧ w.R = (attQuat w.f.s).dcm

theorem transition_row {s : Vec ℝ} {imu : ImuSample} {F : Mat ℝ} (h : Spec.IsTransition s imu F) (i : Fin N) (d : Vec ℝ) :
    ∑ j, F i j * d j = rowF (predIn s (Spec.inputs imu) (fun _ => 0) (1 / 100)) i d := by
  rw [rowF_eq_sum]
  exact (h i d).unique (matF_jacobian s (Spec.inputs imu) (fun _ => 0) (1 / 100) (980665 / 100000) i d)

theorem exists_transition (s : Vec ℝ) (imu : ImuSample) : ∃ F, Spec.IsTransition s imu F :=
  ⟨_, matF_jacobian s (Spec.inputs imu) (fun _ => 0) (1 / 100) (980665 / 100000)⟩


/-- the strap-down members of a filter -/
def strapOf (w : W) : Strap := ⟨toState w.f.s, w.R, w.accelLpf, w.dtEkfAvg, w.angRateRaw⟩

/-- what `predictCovariance` reads after `predictState`, EKF/ekf.cpp:114-115 -/
def covIn (x : PredictIn) (w : W) : CovIn ℝ :=
  let p := Strap.predict x.L x.accBiasLim x.earthRate x.imu (strapOf w)
  { inh := { x.inh with rot2 := p.R 2, clipping := x.imu.clip, dAngNorm := norm3 x.imu.deltaAng, dVelNorm := norm3 x.imu.deltaVel }
    nz := { x.nz with mag3D := w.f.M.mag3D, clipping := x.imu.clip, velD := p.state.vel 2 }
    quat := p.state.quat, dAng := x.imu.deltaAng, dVel := x.imu.deltaVel, dAngBias := p.state.dAngBias, dVelBias := p.state.dVelBias
    dtEkfAvg := p.dtEkfAvg, now := x.now, badAccBias := x.badAccBias }

theorem predict_cov (x : PredictIn) (w : W) :
    (predict x w).f.P = (predictCovariance (covIn x w)
      ⟨⟨w.angFilt, w.accFilt, w.inhibit, w.f.prevVar, w.f.P⟩, w.heightRate, w.acc, w.f.timeCheck, w.f.badAccBias, w.clip⟩).ist.P := rfl

theorem predict_state (x : PredictIn) (w : W) :
    (predict x w).f.s = ofState (Strap.predict x.L x.accBiasLim x.earthRate x.imu (strapOf w)).state := rfl

theorem covIn_state (x : PredictIn) (w : W) : stateVec (covIn x w) (predict x w).f.s = (predict x w).f.s := by
  rw [predict_state]
  funext i
  unfold stateVec
  revert i
  intro ⟨i, hi⟩
  match i, hi with
  | 0, _ => rfl
  | 1, _ => rfl
  | 2, _ => rfl
  | 3, _ => rfl
  | 4, _ => rfl
  | 5, _ => rfl
  | 6, _ => rfl
  | 7, _ => rfl
  | 8, _ => rfl
  | 9, _ => rfl
  | 10, _ => rfl
  | 11, _ => rfl
  | 12, _ => rfl
  | 13, _ => rfl
  | 14, _ => rfl
  | 15, _ => rfl
  | k + 16, _ => rfl

/-- the transition matrix by which `predict` moves the covariance: velocity and position entries of the covariance after the prediction, before limiting -/
theorem transition_used (x : PredictIn) (w : W) (hs : ∀ i j, (inhibitUpdate (covIn x w).inh ⟨w.angFilt, w.accFilt, w.inhibit, w.f.prevVar, w.f.P⟩).P i j =
      (inhibitUpdate (covIn x w).inh ⟨w.angFilt, w.accFilt, w.inhibit, w.f.prevVar, w.f.P⟩).P j i) :
    ∃ (F : Mat ℝ) (G : Fin N → Fin 6 → ℝ) (R : Mat ℝ) (fx : FixIn ℝ) (v : Fin 6 → ℝ), Spec.IsTransition (predict x w).f.s x.imu F ∧
      (predict x w).f.P = (fixCovarianceErrors fx false w.f.timeCheck w.f.badAccBias R).1 ∧
      let P := (inhibitUpdate (covIn x w).inh ⟨w.angFilt, w.accFilt, w.inhibit, w.f.prevVar, w.f.P⟩).P
      (P 7 7 + P 8 8 ≤ 100 ^ 2 → ∀ i j : Fin N, i ≤ j → j.val < 10 →
        R i j = (∑ k, ∑ l, F i k * P k l * F j l) + ∑ k, G i k * v k * G j k) := by
  obtain ⟨F, G, R, h1, _, ⟨fx, _, _, _, _, _, _, h3⟩, _, h4⟩ := covariance_prediction (covIn x w)
    ⟨⟨w.angFilt, w.accFilt, w.inhibit, w.f.prevVar, w.f.P⟩, w.heightRate, w.acc, w.f.timeCheck, w.f.badAccBias, w.clip⟩ (predict x w).f.s
    (980665 / 100000) hs
  refine ⟨F, G, R, fx, Cov.Spec.imuVariance (covIn x w), ?_, h3, ?_⟩
  · rw [covIn_state] at h1; exact h1
  · intro P hP i j hij hj
    have h := (h4 i j hij).2.1 (fun hf => absurd hf.1 (not_lt.mpr hP)) (Or.inl (by omega))
    rw [if_neg (fun hc => absurd hc.2 (by omega)), add_zero] at h
    exact h

theorem attQuat_strap (w : W) : (strapOf w).state.quat = attQuat w.f.s := rfl

theorem clip_inside {v lo hi : ℝ} (h1 : lo < max lo (min v hi)) (h2 : max lo (min v hi) < hi) : max lo (min v hi) = v := by
  rcases le_total v hi with h | h
  · rw [min_eq_left h] at *
    rcases le_total lo v with h' | h'
    · exact max_eq_right h'
    · rw [max_eq_left h'] at h1; exact absurd h1 (lt_irrefl _)
  · rw [min_eq_right h] at *
    rcases le_total lo hi with h' | h'
    · rw [max_eq_right h'] at h2; exact absurd h2 (lt_irrefl _)
    · rw [max_eq_left h'] at h1; exact absurd h1 (lt_irrefl _)

/-- entries of the predicted velocity and position, when inside their limits -/
theorem predicted_kin (x : PredictIn) (w : W) (h : Spec.AttitudeOk w)
    (hv : ∀ a : Fin 3, |(predict x w).f.s ⟨4 + a.val, by unfold N; omega⟩| < 1000)
    (hp : ∀ a : Fin 3, |(predict x w).f.s ⟨7 + a.val, by unfold N; omega⟩| < 1000000) :
    let f : V3 ℝ := (attQuat (predict x w).f.s).dcm *ᵥ ![x.imu.deltaVel 0 - w.f.s 13, x.imu.deltaVel 1 - w.f.s 14, x.imu.deltaVel 2 - w.f.s 15]
    ∀ a : Fin 3, (predict x w).f.s ⟨4 + a.val, by unfold N; omega⟩ =
        w.f.s ⟨4 + a.val, by unfold N; omega⟩ + f a + ![0, 0, 980665 / 100000 * x.imu.deltaVelDt] a ∧
      (predict x w).f.s ⟨7 + a.val, by unfold N; omega⟩ = w.f.s ⟨7 + a.val, by unfold N; omega⟩ +
        (w.f.s ⟨4 + a.val, by unfold N; omega⟩ + (predict x w).f.s ⟨4 + a.val, by unfold N; omega⟩) / 2 * x.imu.deltaVelDt := by
  obtain ⟨k1, k2, -⟩ := predict_kinematics x.L x.accBiasLim x.earthRate x.imu (strapOf w) h.1 h.2
  intro f a
  have hf : f = (Strap.predict x.L x.accBiasLim x.earthRate x.imu (strapOf w)).state.quat.dcm *ᵥ
      (fun i => x.imu.deltaVel i - (strapOf w).state.dVelBias i) := by
    congr 1
  rw [← hf] at k1 k2
  have e4 : (predict x w).f.s ⟨4 + a.val, by unfold N; omega⟩ =
      (Strap.predict x.L x.accBiasLim x.earthRate x.imu (strapOf w)).state.vel a := by fin_cases a <;> rfl
  have e7 : (predict x w).f.s ⟨7 + a.val, by unfold N; omega⟩ =
      (Strap.predict x.L x.accBiasLim x.earthRate x.imu (strapOf w)).state.pos a := by fin_cases a <;> rfl
  have hva := hv a
  have hpa := hp a
  rw [e4] at hva
  rw [e7] at hpa
  rw [e4, e7]
  have v1 := k1 a
  have p1 := k2 a
  rw [abs_lt] at hva hpa
  have v2 : (Strap.predict x.L x.accBiasLim x.earthRate x.imu (strapOf w)).state.vel a = _ :=
    v1.trans (clip_inside (by rw [← v1]; exact hva.1) (by rw [← v1]; exact hva.2))
  have p2 : (Strap.predict x.L x.accBiasLim x.earthRate x.imu (strapOf w)).state.pos a = _ :=
    p1.trans (clip_inside (by rw [← p1]; exact hpa.1) (by rw [← p1]; exact hpa.2))
  have w4 : w.f.s ⟨4 + a.val, by unfold N; omega⟩ = (strapOf w).state.vel a := by fin_cases a <;> rfl
  have w7 : w.f.s ⟨7 + a.val, by unfold N; omega⟩ = (strapOf w).state.pos a := by fin_cases a <;> rfl
  rw [w4, w7]
  constructor
  · rw [v2]
    fin_cases a
    · show (strapOf w).state.vel 0 + f 0 = (strapOf w).state.vel 0 + f 0 + 0; ring
    · show (strapOf w).state.vel 1 + f 1 = (strapOf w).state.vel 1 + f 1 + 0; ring
    · show (strapOf w).state.vel 2 + f 2 + 980665 / 100000 * x.imu.deltaVelDt = (strapOf w).state.vel 2 + f 2 + 980665 / 100000 * x.imu.deltaVelDt
      rfl
  · rw [p2, ← v2]

theorem rowF_vel (s : Vec ℝ) (u v : Fin 6 → ℝ) (dt : ℝ) (e : Vec ℝ) (h0 : e 0 = 0) (h1 : e 1 = 0) (h2 : e 2 = 0) (h3 : e 3 = 0) (a : Fin 3) :
    rowF (predIn s u v dt) ⟨4 + a.val, by unfold N; omega⟩ e = e ⟨4 + a.val, by unfold N; omega⟩ - ((attQuat s).dcm *ᵥ ![e 13, e 14, e 15]) a := by
  fin_cases a
  · show rowF (predIn s u v dt) 4 e = e 4 - ((attQuat s).dcm *ᵥ ![e 13, e 14, e 15]) 0
    simp only [rowF, rotM, predIn, attQuat, Quat.dcm, Matrix.mulVec, dotProduct, Fin.sum_univ_three, Matrix.of_apply, Matrix.cons_val, h0, h1, h2, h3]
    ring
  · show rowF (predIn s u v dt) 5 e = e 5 - ((attQuat s).dcm *ᵥ ![e 13, e 14, e 15]) 1
    simp only [rowF, rotM, predIn, attQuat, Quat.dcm, Matrix.mulVec, dotProduct, Fin.sum_univ_three, Matrix.of_apply, Matrix.cons_val, h0, h1, h2, h3]
    ring
  · show rowF (predIn s u v dt) 6 e = e 6 - ((attQuat s).dcm *ᵥ ![e 13, e 14, e 15]) 2
    simp only [rowF, rotM, predIn, attQuat, Quat.dcm, Matrix.mulVec, dotProduct, Fin.sum_univ_three, Matrix.of_apply, Matrix.cons_val, h0, h1, h2, h3]
    ring

theorem rowF_pos (s : Vec ℝ) (u v : Fin 6 → ℝ) (dt : ℝ) (e : Vec ℝ) (a : Fin 3) :
    rowF (predIn s u v dt) ⟨7 + a.val, by unfold N; omega⟩ e = e ⟨7 + a.val, by unfold N; omega⟩ + dt * e ⟨4 + a.val, by unfold N; omega⟩ := by
  fin_cases a <;> rfl

/-- predicted attitude -/
theorem predicted_att (x : PredictIn) (w : W) (h : Spec.AttitudeOk w) :
    attQuat (predict x w).f.s = (attQuat w.f.s).mul
      (x.L.exp (fun i => x.imu.deltaAng i - ![w.f.s 10, w.f.s 11, w.f.s 12] i - ((attQuat w.f.s).dcmᵀ *ᵥ x.earthRate) i * x.imu.deltaAngDt)) := by
  have h1 := (predict_attitude x.L x.accBiasLim x.earthRate x.imu (strapOf w) h.1 h.2).1
  have e : attQuat (predict x w).f.s = (Strap.predict x.L x.accBiasLim x.earthRate x.imu (strapOf w)).state.quat := rfl
  rw [e, h1]
  rfl

/-- **C154 (velocity and position).** Two states with the same attitude and gyro biases, e.g. the truth `t` and the estimate `w`, are predicted with the
same IMU sample and stay inside the limits. The velocity error after the prediction is exactly what the transition matrix of the covariance
prediction says, however large it is. The position error differs from it by two terms: the covariance prediction always takes 10 ms for the
interval, and ignores that a velocity increment already moves the position in the same step (trapezoidal integration). -/
theorem velocity_position_errors (x : PredictIn) (w t : W) (F : Mat ℝ) (hF : Spec.IsTransition (predict x w).f.s x.imu F)
    (hw : Spec.AttitudeOk w) (hq : ∀ i : Fin N, i.val < 4 ∨ (10 ≤ i.val ∧ i.val < 13) → t.f.s i = w.f.s i) (hR : t.R = w.R)
    (hv : ∀ a : Fin 3, |(predict x w).f.s ⟨4 + a.val, by unfold N; omega⟩| < 1000 ∧ |(predict x t).f.s ⟨4 + a.val, by unfold N; omega⟩| < 1000)
    (hp : ∀ a : Fin 3, |(predict x w).f.s ⟨7 + a.val, by unfold N; omega⟩| < 1000000 ∧ |(predict x t).f.s ⟨7 + a.val, by unfold N; omega⟩| < 1000000) :
    let e := fun i => t.f.s i - w.f.s i
    let e' := fun i => (predict x t).f.s i - (predict x w).f.s i
    ∀ a : Fin 3, e' ⟨4 + a.val, by unfold N; omega⟩ = ∑ j, F ⟨4 + a.val, by unfold N; omega⟩ j * e j ∧
      e' ⟨7 + a.val, by unfold N; omega⟩ = ∑ j, F ⟨7 + a.val, by unfold N; omega⟩ j * e j +
        (x.imu.deltaVelDt - 1 / 100) * e ⟨4 + a.val, by unfold N; omega⟩ +
        x.imu.deltaVelDt / 2 * (e' ⟨4 + a.val, by unfold N; omega⟩ - e ⟨4 + a.val, by unfold N; omega⟩) := by
  intro e e' a
  have q0 := hq 0 (Or.inl (by decide))
  have q1 := hq 1 (Or.inl (by decide))
  have q2 := hq 2 (Or.inl (by decide))
  have q3 := hq 3 (Or.inl (by decide))
  have b0 := hq 10 (Or.inr (by decide))
  have b1 := hq 11 (Or.inr (by decide))
  have b2 := hq 12 (Or.inr (by decide))
  have hqt : attQuat t.f.s = attQuat w.f.s := by unfold attQuat; rw [q0, q1, q2, q3]
  have ht : Spec.AttitudeOk t := by unfold Spec.AttitudeOk; rw [hqt, hR]; exact hw
  have hqq : attQuat (predict x t).f.s = attQuat (predict x w).f.s := by
    rw [predicted_att x t ht, predicted_att x w hw, hqt, b0, b1, b2]
  obtain ⟨w1, w2⟩ := predicted_kin x w hw (fun a => (hv a).1) (fun a => (hp a).1) a
  obtain ⟨t1, t2⟩ := predicted_kin x t ht (fun a => (hv a).2) (fun a => (hp a).2) a
  rw [hqq] at t1
  have hq0 : e 0 = 0 := sub_eq_zero.mpr q0
  have hq1 : e 1 = 0 := sub_eq_zero.mpr q1
  have hq2 : e 2 = 0 := sub_eq_zero.mpr q2
  have hq3 : e 3 = 0 := sub_eq_zero.mpr q3
  have hvel : e' ⟨4 + a.val, by unfold N; omega⟩ = ∑ j, F ⟨4 + a.val, by unfold N; omega⟩ j * e j := by
    rw [transition_row hF]
    have : e' ⟨4 + a.val, by unfold N; omega⟩ = (t.f.s ⟨4 + a.val, by unfold N; omega⟩ - w.f.s ⟨4 + a.val, by unfold N; omega⟩) -
        ((attQuat (predict x w).f.s).dcm *ᵥ ![e 13, e 14, e 15]) a := by
      show (predict x t).f.s _ - (predict x w).f.s _ = _
      rw [t1, w1]
      simp only [Matrix.mulVec, dotProduct, Fin.sum_univ_three, Matrix.cons_val]
      show _ = _ - (_ * (t.f.s 13 - w.f.s 13) + _ * (t.f.s 14 - w.f.s 14) + _ * (t.f.s 15 - w.f.s 15))
      ring
    rw [this, rowF_vel _ _ _ _ _ hq0 hq1 hq2 hq3]
  refine ⟨hvel, ?_⟩
  rw [transition_row hF]
  have : e' ⟨7 + a.val, by unfold N; omega⟩ = e ⟨7 + a.val, by unfold N; omega⟩ + x.imu.deltaVelDt * e ⟨4 + a.val, by unfold N; omega⟩ +
      x.imu.deltaVelDt / 2 * (e' ⟨4 + a.val, by unfold N; omega⟩ - e ⟨4 + a.val, by unfold N; omega⟩) := by
    show (predict x t).f.s _ - (predict x w).f.s _ = (t.f.s _ - w.f.s _) + x.imu.deltaVelDt * (t.f.s _ - w.f.s _) +
      x.imu.deltaVelDt / 2 * ((predict x t).f.s _ - (predict x w).f.s _ - (t.f.s _ - w.f.s _))
    rw [t2, w2]; ring
  rw [this]
  rw [rowF_pos]; ring

/-- length of the rotation `v` -/
def Spec.angle (v : V3 ℝ) : ℝ := Real.sqrt (v 0 ^ 2 + v 1 ^ 2 + v 2 ^ 2)

/-- squared distance of two quaternions -/
def Spec.dist2 (p q : Quat ℝ) : ℝ := (p.w - q.w) ^ 2 + (p.x - q.x) ^ 2 + (p.y - q.y) ^ 2 + (p.z - q.z) ^ 2

theorem half_angle {h : ℝ} (h0 : 0 < h) (h1 : h ≤ 1) : (Real.cos h - 1) ^ 2 + (Real.sin h - h) ^ 2 ≤ (3 / 5 * h ^ 2) ^ 2 := by
  have c1 := Real.one_sub_sq_div_two_le_cos (x := h)
  have c2 := Real.cos_le_one h
  have s1 := Real.sin_gt_sub_cube h0
  have s2 := Real.sin_lt h0
  have e1 : (Real.cos h - 1) ^ 2 ≤ (h ^ 2 / 2) ^ 2 := by
    rw [← neg_sq, neg_sub]
    exact pow_le_pow_left₀ (by linarith) (by linarith) 2
  have e2 : (Real.sin h - h) ^ 2 ≤ (h ^ 3 / 6) ^ 2 := by
    rw [← neg_sq, neg_sub]
    exact pow_le_pow_left₀ (by linarith) (by linarith) 2
  have e3 : h ^ 6 ≤ h ^ 4 := pow_le_pow_of_le_one h0.le h1 (by norm_num)
  nlinarith [pow_pos h0 4]

/-- the rotation quaternion of the library against the small-angle quaternion of the process model -/
theorem smallAngle (v : V3 ℝ) (h : Spec.angle v ≤ 2) :
    Spec.dist2 (axisAngleExp v) ⟨1, v 0 / 2, v 1 / 2, v 2 / 2⟩ ≤ (3 / 20 * Spec.angle v ^ 2 + 1 / 10 ^ 10) ^ 2 := by
  have hsq : Spec.angle v ^ 2 = v 0 ^ 2 + v 1 ^ 2 + v 2 ^ 2 := Real.sq_sqrt (by positivity)
  have h0 : 0 ≤ Spec.angle v := Real.sqrt_nonneg _
  unfold axisAngleExp
  simp only
  have e : Real.sqrt (v 0 ^ 2 + v 1 ^ 2 + v 2 ^ 2) = Spec.angle v := rfl
  rw [e]
  generalize Spec.angle v = n at *
  split
  · next hn =>
    unfold Spec.dist2 Quat.one
    simp only
    have : (1 - 1 : ℝ) ^ 2 + (0 - v 0 / 2) ^ 2 + (0 - v 1 / 2) ^ 2 + (0 - v 2 / 2) ^ 2 = (n / 2) ^ 2 := by
      rw [div_pow, hsq]; ring
    rw [this]
    apply pow_le_pow_left₀ (by positivity)
    nlinarith [sq_nonneg n]
  · next hn =>
    have hp : 0 < n := lt_of_lt_of_le (by positivity) (not_lt.mp hn)
    have key := half_angle (h := n / 2) (by positivity) (by linarith)
    unfold Spec.dist2
    simp only
    have : (Real.cos (n / 2) - 1) ^ 2 + (v 0 / n * Real.sin (n / 2) - v 0 / 2) ^ 2 + (v 1 / n * Real.sin (n / 2) - v 1 / 2) ^ 2 +
        (v 2 / n * Real.sin (n / 2) - v 2 / 2) ^ 2 = (Real.cos (n / 2) - 1) ^ 2 + (Real.sin (n / 2) - n / 2) ^ 2 := by
      have h3 : (v 0 / n * Real.sin (n / 2) - v 0 / 2) ^ 2 + (v 1 / n * Real.sin (n / 2) - v 1 / 2) ^ 2 +
        (v 2 / n * Real.sin (n / 2) - v 2 / 2) ^ 2 = (v 0 ^ 2 + v 1 ^ 2 + v 2 ^ 2) * (Real.sin (n / 2) / n - 1 / 2) ^ 2 := by ring
      rw [← hsq] at h3
      have h4 : n ^ 2 * (Real.sin (n / 2) / n - 1 / 2) ^ 2 = (Real.sin (n / 2) - n / 2) ^ 2 := by
        rw [← mul_pow]; congr 1; field_simp
      linarith
    rw [this]
    refine key.trans (pow_le_pow_left₀ (by positivity) ?_ 2)
    nlinarith [sq_nonneg n]

/-- rows of the transition matrix that belong to the attitude, as a quaternion -/
def Spec.attRows (F : Mat ℝ) (e : Vec ℝ) : Quat ℝ := ⟨∑ j, F 0 j * e j, ∑ j, F 1 j * e j, ∑ j, F 2 j * e j, ∑ j, F 3 j * e j⟩

/-- attitude part of an error vector -/
def Spec.attErr (e : Vec ℝ) : Quat ℝ := ⟨e 0, e 1, e 2, e 3⟩

theorem attRows_eq {s : Vec ℝ} {imu : ImuSample} {F : Mat ℝ} (h : Spec.IsTransition s imu F) (e : Vec ℝ) :
    let r := (Spec.attErr e).mul ⟨1, (imu.deltaAng 0 - s 10) / 2, (imu.deltaAng 1 - s 11) / 2, (imu.deltaAng 2 - s 12) / 2⟩
    let b := (attQuat s).mul ⟨0, e 10 / 2, e 11 / 2, e 12 / 2⟩
    Spec.attRows F e = ⟨r.w - b.w, r.x - b.x, r.y - b.y, r.z - b.z⟩ := by
  unfold Spec.attRows
  rw [transition_row h, transition_row h, transition_row h, transition_row h]
  intro r b
  ext
  all_goals
    simp only [rowF, hx, hy, hz, predIn, Spec.inputs, attQuat, Spec.attErr, Quat.mul, Matrix.cons_val, r, b]
    ring

/-- **C154 (attitude).** Two states with the same gyro biases but different attitudes, predicted with the same IMU sample (no Earth rotation): the
attitude error after the prediction is what the transition matrix says up to a relative error of 0.15 times the square of the rotation in the step
(1e-10 from the cut-off of the library). -/
theorem attitude_errors (x : PredictIn) (w t : W) (F : Mat ℝ) (hF : Spec.IsTransition (predict x w).f.s x.imu F) (hL : x.L = matrixLib)
    (hE : x.earthRate = 0) (hw : Spec.AttitudeOk w) (ht : Spec.AttitudeOk t)
    (hb : ∀ i : Fin N, 10 ≤ i.val → i.val < 13 → t.f.s i = w.f.s i ∧ (predict x w).f.s i = w.f.s i) :
    let θ : V3 ℝ := fun i => x.imu.deltaAng i - ![w.f.s 10, w.f.s 11, w.f.s 12] i
    let e := fun i => t.f.s i - w.f.s i
    let e' := fun i => (predict x t).f.s i - (predict x w).f.s i
    Spec.angle θ ≤ 2 →
    Spec.dist2 (Spec.attErr e') (Spec.attRows F e) ≤ (3 / 20 * Spec.angle θ ^ 2 + 1 / 10 ^ 10) ^ 2 * (Spec.attErr e).normSq := by
  intro θ e e' hθ
  have b0 := hb 10 (by decide) (by decide)
  have b1 := hb 11 (by decide) (by decide)
  have b2 := hb 12 (by decide) (by decide)
  have aw := predicted_att x w hw
  have att := predicted_att x t ht
  have hz : ∀ q : Quat ℝ, q.dcmᵀ *ᵥ x.earthRate = 0 := by intro q; rw [hE, Matrix.mulVec_zero]
  rw [hz] at aw att
  rw [b0.1, b1.1, b2.1] at att
  have hθ' : (fun i => x.imu.deltaAng i - ![w.f.s 10, w.f.s 11, w.f.s 12] i - (0 : V3 ℝ) i * x.imu.deltaAngDt) = θ := by
    funext i; simp [θ]
  rw [hθ', hL] at aw att
  have key := smallAngle θ hθ
  rw [attRows_eq hF, b0.2, b1.2, b2.2]
  have z0 : e 10 = 0 := sub_eq_zero.mpr b0.1
  have z1 : e 11 = 0 := sub_eq_zero.mpr b1.1
  have z2 : e 12 = 0 := sub_eq_zero.mpr b2.1
  rw [z0, z1, z2]
  have hd : matrixLib.exp θ = axisAngleExp θ := rfl
  rw [hd] at aw att
  have ee : Spec.attErr e' = ⟨((attQuat t.f.s).mul (axisAngleExp θ)).w - ((attQuat w.f.s).mul (axisAngleExp θ)).w,
      ((attQuat t.f.s).mul (axisAngleExp θ)).x - ((attQuat w.f.s).mul (axisAngleExp θ)).x,
      ((attQuat t.f.s).mul (axisAngleExp θ)).y - ((attQuat w.f.s).mul (axisAngleExp θ)).y,
      ((attQuat t.f.s).mul (axisAngleExp θ)).z - ((attQuat w.f.s).mul (axisAngleExp θ)).z⟩ := by
    rw [← aw, ← att]; rfl
  have t0 : θ 0 = x.imu.deltaAng 0 - w.f.s 10 := rfl
  have t1 : θ 1 = x.imu.deltaAng 1 - w.f.s 11 := rfl
  have t2 : θ 2 = x.imu.deltaAng 2 - w.f.s 12 := rfl
  rw [ee, ← t0, ← t1, ← t2]
  have hnn : 0 ≤ (Spec.attErr e).normSq := by
    unfold Quat.normSq
    nlinarith [mul_self_nonneg (Spec.attErr e).w, mul_self_nonneg (Spec.attErr e).x, mul_self_nonneg (Spec.attErr e).y, mul_self_nonneg (Spec.attErr e).z]
  refine le_trans (le_of_eq ?_) (mul_le_mul_of_nonneg_right key hnn)
  have e0 : e 0 = t.f.s 0 - w.f.s 0 := rfl
  have e1 : e 1 = t.f.s 1 - w.f.s 1 := rfl
  have e2 : e 2 = t.f.s 2 - w.f.s 2 := rfl
  have e3 : e 3 = t.f.s 3 - w.f.s 3 := rfl
  generalize axisAngleExp θ = d
  simp only [Spec.dist2, Spec.attErr, attQuat, Quat.mul, Quat.normSq, e0, e1, e2, e3]
  ring

/-- **C154 (gyro bias).** A vehicle at rest whose measured rotation is exactly the estimated gyro bias: an error `b` of the bias estimate produces the attitude
error of the transition matrix up to `0.15 |b|²` (1e-10 from the cut-off of the library). -/
theorem gyro_bias_errors (x : PredictIn) (w t : W) (F : Mat ℝ) (hF : Spec.IsTransition (predict x w).f.s x.imu F) (hL : x.L = matrixLib)
    (hE : x.earthRate = 0) (hw : Spec.AttitudeOk w) (hR : t.R = w.R) (hq : ∀ i : Fin N, i.val < 4 → t.f.s i = w.f.s i)
    (hrest : ∀ i, x.imu.deltaAng i = ![w.f.s 10, w.f.s 11, w.f.s 12] i) :
    let e := fun i => t.f.s i - w.f.s i
    let e' := fun i => (predict x t).f.s i - (predict x w).f.s i
    Spec.angle ![e 10, e 11, e 12] ≤ 2 →
    Spec.dist2 (Spec.attErr e') (Spec.attRows F e) ≤ (3 / 20 * Spec.angle ![e 10, e 11, e 12] ^ 2 + 1 / 10 ^ 10) ^ 2 := by
  intro e e' hθ
  have q0 := hq 0 (by decide)
  have q1 := hq 1 (by decide)
  have q2 := hq 2 (by decide)
  have q3 := hq 3 (by decide)
  have hqt : attQuat t.f.s = attQuat w.f.s := by unfold attQuat; rw [q0, q1, q2, q3]
  have ht : Spec.AttitudeOk t := by unfold Spec.AttitudeOk; rw [hqt, hR]; exact hw
  have aw := predicted_att x w hw
  have att := predicted_att x t ht
  have hz : ∀ q : Quat ℝ, q.dcmᵀ *ᵥ x.earthRate = 0 := by intro q; rw [hE, Matrix.mulVec_zero]
  rw [hz] at aw att
  have z : (fun i => x.imu.deltaAng i - ![w.f.s 10, w.f.s 11, w.f.s 12] i - (0 : V3 ℝ) i * x.imu.deltaAngDt) = 0 := by
    funext i; simp [hrest]
  let b : V3 ℝ := fun i => -(![e 10, e 11, e 12] i)
  have z2 : (fun i => x.imu.deltaAng i - ![t.f.s 10, t.f.s 11, t.f.s 12] i - (0 : V3 ℝ) i * x.imu.deltaAngDt) = b := by
    funext i
    rw [hrest]
    fin_cases i <;> simp [b, e]
  rw [z, hL] at aw
  rw [z2, hL, hqt] at att
  have one : matrixLib.exp 0 = Quat.one := by
    show axisAngleExp 0 = Quat.one
    unfold axisAngleExp; simp
  have hd : matrixLib.exp b = axisAngleExp b := rfl
  rw [one] at aw
  rw [hd] at att
  have ang : Spec.angle b = Spec.angle ![e 10, e 11, e 12] := by
    unfold Spec.angle; simp [b]
  have key := smallAngle b (by rw [ang]; exact hθ)
  rw [ang] at key
  refine le_trans (le_of_eq ?_) key
  rw [attRows_eq hF, aw]
  have ee : Spec.attErr e' = ⟨((attQuat w.f.s).mul (axisAngleExp b)).w - ((attQuat w.f.s).mul Quat.one).w,
      ((attQuat w.f.s).mul (axisAngleExp b)).x - ((attQuat w.f.s).mul Quat.one).x,
      ((attQuat w.f.s).mul (axisAngleExp b)).y - ((attQuat w.f.s).mul Quat.one).y,
      ((attQuat w.f.s).mul (axisAngleExp b)).z - ((attQuat w.f.s).mul Quat.one).z⟩ := by
    rw [← aw, ← att]; rfl
  rw [ee]
  have z0 : Spec.attErr e = ⟨0, 0, 0, 0⟩ := by
    unfold Spec.attErr
    rw [show e 0 = 0 from sub_eq_zero.mpr q0, show e 1 = 0 from sub_eq_zero.mpr q1, show e 2 = 0 from sub_eq_zero.mpr q2,
      show e 3 = 0 from sub_eq_zero.mpr q3]
  rw [z0]
  have hn := hw.1
  have u0 : b 0 = -e 10 := rfl
  have u1 : b 1 = -e 11 := rfl
  have u2 : b 2 = -e 12 := rfl
  rw [u0, u1, u2]
  generalize axisAngleExp b = d
  generalize attQuat w.f.s = q at *
  simp only [Spec.dist2, Quat.mul, Quat.one, Quat.normSq] at *
  generalize e 10 = f0
  generalize e 11 = f1
  generalize e 12 = f2
  have : ((d.w - 1) ^ 2 + (d.x - -f0 / 2) ^ 2 + (d.y - -f1 / 2) ^ 2 + (d.z - -f2 / 2) ^ 2) =
    (q.w * q.w + q.x * q.x + q.y * q.y + q.z * q.z) * ((d.w - 1) ^ 2 + (d.x - -f0 / 2) ^ 2 + (d.y - -f1 / 2) ^ 2 + (d.z - -f2 / 2) ^ 2) := by
    rw [hn, one_mul]
  rw [this]
  ring

/-- an estimate: level, 5 m/s north -/
def exEst (w : W) : W := { w with f := { w.f with s := ![1, 0, 0, 0, 5, 0, 0, 10, 0, -20, 0, 0, 0, 0, 0, 0, 0, 0, 0, 0, 0, 0, 0, 0] }, R := 1 }

/-- the truth: 7 m/s north, 3 m further, accelerometer bias 0.4 m/s² (0.004 m/s in 10 ms) -/
def exTruth (w : W) : W := { w with f := { w.f with s := ![1, 0, 0, 0, 7, 0, 0, 13, 0, -20, 0, 0, 0, 1 / 250, 0, 0, 0, 0, 0, 0, 0, 0, 0, 0] }, R := 1 }

/-- a level vehicle that does not rotate, 10 ms sample -/
def exStill (x : PredictIn) : PredictIn :=
  { x with L := matrixLib, earthRate := 0, imu := ⟨10000, 0, ![0, 0, -(980665 / 10000000)], 1 / 100, 1 / 100, fun _ => false⟩ }

theorem exEst_ok (w : W) : Spec.AttitudeOk (exEst w) ∧ Spec.AttitudeOk (exTruth w) := by
  have h1 : attQuat (exEst w).f.s = ⟨1, 0, 0, 0⟩ := rfl
  have h2 : attQuat (exTruth w).f.s = ⟨1, 0, 0, 0⟩ := rfl
  have h3 : (⟨1, 0, 0, 0⟩ : Quat ℝ).dcm = 1 := by
    ext i j; fin_cases i <;> fin_cases j <;> simp [Quat.dcm]
  unfold Spec.AttitudeOk
  rw [h1, h2, h3]
  exact ⟨⟨by norm_num [Quat.normSq], rfl⟩, by norm_num [Quat.normSq], rfl⟩

theorem exEst_limits (x : PredictIn) (w : W) (a : Fin 3) :
    (|(predict (exStill x) (exEst w)).f.s ⟨4 + a.val, by unfold N; omega⟩| < 1000 ∧ |(predict (exStill x) (exTruth w)).f.s ⟨4 + a.val, by unfold N; omega⟩| < 1000) ∧
    (|(predict (exStill x) (exEst w)).f.s ⟨7 + a.val, by unfold N; omega⟩| < 1000000 ∧ |(predict (exStill x) (exTruth w)).f.s ⟨7 + a.val, by unfold N; omega⟩| < 1000000) := by
  have one : matrixLib.exp 0 = Quat.one := by
    show axisAngleExp 0 = Quat.one
    unfold axisAngleExp; simp
  have hz : ∀ q : Quat ℝ, q.dcmᵀ *ᵥ (exStill x).earthRate = 0 := by intro q; show q.dcmᵀ *ᵥ 0 = 0; rw [Matrix.mulVec_zero]
  have aux : ∀ u : W, Spec.AttitudeOk u → attQuat u.f.s = ⟨1, 0, 0, 0⟩ → (u.f.s 10 = 0 ∧ u.f.s 11 = 0 ∧ u.f.s 12 = 0) →
      (Strap.predict (exStill x).L (exStill x).accBiasLim (exStill x).earthRate (exStill x).imu (strapOf u)).state.quat = ⟨1, 0, 0, 0⟩ := by
    intro u hu hq ⟨h0, h1, h2⟩
    have h := predicted_att (exStill x) u hu
    rw [hz, hq, h0, h1, h2] at h
    have hh : (fun i => (exStill x).imu.deltaAng i - ![(0 : ℝ), 0, 0] i - (0 : V3 ℝ) i * (exStill x).imu.deltaAngDt) = 0 := by
      funext i; fin_cases i <;> simp [exStill]
    rw [hh] at h
    have hl : (exStill x).L = matrixLib := rfl
    rw [hl, one] at h
    have : attQuat (predict (exStill x) u).f.s = (⟨1, 0, 0, 0⟩ : Quat ℝ) := by rw [h]; simp [Quat.mul, Quat.one]
    exact this
  have h3 : (⟨1, 0, 0, 0⟩ : Quat ℝ).dcm = 1 := by
    ext i j; fin_cases i <;> fin_cases j <;> simp [Quat.dcm]
  have m3 : ∀ v : V3 ℝ, (1 : M3 ℝ) *ᵥ v = v := fun v => Matrix.one_mulVec v
  obtain ⟨k1, k2, -⟩ := predict_kinematics (exStill x).L (exStill x).accBiasLim (exStill x).earthRate (exStill x).imu (strapOf (exEst w)) (exEst_ok w).1.1 (exEst_ok w).1.2
  obtain ⟨l1, l2, -⟩ := predict_kinematics (exStill x).L (exStill x).accBiasLim (exStill x).earthRate (exStill x).imu (strapOf (exTruth w)) (exEst_ok w).2.1 (exEst_ok w).2.2
  rw [aux _ (exEst_ok w).1 rfl ⟨rfl, rfl, rfl⟩, h3, m3] at k1 k2
  rw [aux _ (exEst_ok w).2 rfl ⟨rfl, rfl, rfl⟩, h3, m3] at l1 l2
  have e1 : (predict (exStill x) (exEst w)).f.s ⟨4 + a.val, by unfold N; omega⟩ = _ := (show _ = (Strap.predict (exStill x).L (exStill x).accBiasLim (exStill x).earthRate (exStill x).imu (strapOf (exEst w))).state.vel a by fin_cases a <;> rfl).trans (k1 a)
  have e2 : (predict (exStill x) (exTruth w)).f.s ⟨4 + a.val, by unfold N; omega⟩ = _ := (show _ = (Strap.predict (exStill x).L (exStill x).accBiasLim (exStill x).earthRate (exStill x).imu (strapOf (exTruth w))).state.vel a by fin_cases a <;> rfl).trans (l1 a)
  have e3 : (predict (exStill x) (exEst w)).f.s ⟨7 + a.val, by unfold N; omega⟩ = _ := (show _ = (Strap.predict (exStill x).L (exStill x).accBiasLim (exStill x).earthRate (exStill x).imu (strapOf (exEst w))).state.pos a by fin_cases a <;> rfl).trans (k2 a)
  have e4 : (predict (exStill x) (exTruth w)).f.s ⟨7 + a.val, by unfold N; omega⟩ = _ := (show _ = (Strap.predict (exStill x).L (exStill x).accBiasLim (exStill x).earthRate (exStill x).imu (strapOf (exTruth w))).state.pos a by fin_cases a <;> rfl).trans (l2 a)
  rw [e1, e2, e3, e4]
  have s1 : (strapOf (exEst w)).state.vel = ![5, 0, 0] := rfl
  have s2 : (strapOf (exEst w)).state.pos = ![10, 0, -20] := rfl
  have s3 : (strapOf (exEst w)).state.dVelBias = ![0, 0, 0] := rfl
  have s4 : (strapOf (exTruth w)).state.vel = ![7, 0, 0] := rfl
  have s5 : (strapOf (exTruth w)).state.pos = ![13, 0, -20] := rfl
  have s6 : (strapOf (exTruth w)).state.dVelBias = ![1 / 250, 0, 0] := rfl
  have s7 : (exStill x).imu.deltaVel = ![0, 0, -(980665 / 10000000)] := rfl
  have s8 : (exStill x).imu.deltaVelDt = 1 / 100 := rfl
  rw [s1, s2, s3, s4, s5, s6, s7, s8]
  have i2 : ∀ a b c : ℝ, (![a, b, c] : V3 ℝ) 2 = c := fun _ _ _ => rfl
  fin_cases a
  · norm_num [abs_lt]
  · norm_num [abs_lt]
  · simp only [Fin.reduceFinMk, i2]
    norm_num [abs_lt]

theorem exSame (w : W) : ∀ i : Fin N, i.val < 4 ∨ (10 ≤ i.val ∧ i.val < 13) → (exTruth w).f.s i = (exEst w).f.s i := by
  intro ⟨i, hi⟩ h
  have : i < 4 ∨ i = 10 ∨ i = 11 ∨ i = 12 := by simp only at h; omega
  rcases this with h | h | h | h
  · have : i = 0 ∨ i = 1 ∨ i = 2 ∨ i = 3 := by omega
    rcases this with h | h | h | h
    · subst h; exact (show (exTruth w).f.s 0 = 1 from rfl).trans (show (exEst w).f.s 0 = 1 from rfl).symm
    · subst h; exact (show (exTruth w).f.s 1 = 0 from rfl).trans (show (exEst w).f.s 1 = 0 from rfl).symm
    · subst h; exact (show (exTruth w).f.s 2 = 0 from rfl).trans (show (exEst w).f.s 2 = 0 from rfl).symm
    · subst h; exact (show (exTruth w).f.s 3 = 0 from rfl).trans (show (exEst w).f.s 3 = 0 from rfl).symm
  · subst h; exact (show (exTruth w).f.s 10 = 0 from rfl).trans (show (exEst w).f.s 10 = 0 from rfl).symm
  · subst h; exact (show (exTruth w).f.s 11 = 0 from rfl).trans (show (exEst w).f.s 11 = 0 from rfl).symm
  · subst h; exact (show (exTruth w).f.s 12 = 0 from rfl).trans (show (exEst w).f.s 12 = 0 from rfl).symm

theorem north_errors (x : PredictIn) (w t : W) (F : Mat ℝ) (hF : Spec.IsTransition (predict x w).f.s x.imu F)
    (hw : Spec.AttitudeOk w) (hq : ∀ i : Fin N, i.val < 4 ∨ (10 ≤ i.val ∧ i.val < 13) → t.f.s i = w.f.s i) (hR : t.R = w.R)
    (hv : ∀ a : Fin 3, |(predict x w).f.s ⟨4 + a.val, by unfold N; omega⟩| < 1000 ∧ |(predict x t).f.s ⟨4 + a.val, by unfold N; omega⟩| < 1000)
    (hp : ∀ a : Fin 3, |(predict x w).f.s ⟨7 + a.val, by unfold N; omega⟩| < 1000000 ∧ |(predict x t).f.s ⟨7 + a.val, by unfold N; omega⟩| < 1000000) :
    (predict x t).f.s 7 - (predict x w).f.s 7 = ∑ j, F 7 j * (t.f.s j - w.f.s j) + (x.imu.deltaVelDt - 1 / 100) * (t.f.s 4 - w.f.s 4) -
      x.imu.deltaVelDt / 2 * ((attQuat (predict x w).f.s).dcm *ᵥ ![t.f.s 13 - w.f.s 13, t.f.s 14 - w.f.s 14, t.f.s 15 - w.f.s 15]) 0 := by
  obtain ⟨h1, h2⟩ := velocity_position_errors x w t F hF hw hq hR hv hp 0
  have z : ∀ i : Fin N, i.val < 4 → t.f.s i - w.f.s i = 0 := fun i hi => sub_eq_zero.mpr (hq i (Or.inl hi))
  rw [transition_row hF, rowF_vel _ _ _ _ _ (z 0 (by decide)) (z 1 (by decide)) (z 2 (by decide)) (z 3 (by decide))] at h1
  have h1' : (predict x t).f.s 4 - (predict x w).f.s 4 = t.f.s 4 - w.f.s 4 -
      ((attQuat (predict x w).f.s).dcm *ᵥ ![t.f.s 13 - w.f.s 13, t.f.s 14 - w.f.s 14, t.f.s 15 - w.f.s 15]) 0 := h1
  have h2' : (predict x t).f.s 7 - (predict x w).f.s 7 = ∑ j, F 7 j * (t.f.s j - w.f.s j) + (x.imu.deltaVelDt - 1 / 100) * (t.f.s 4 - w.f.s 4) +
      x.imu.deltaVelDt / 2 * ((predict x t).f.s 4 - (predict x w).f.s 4 - (t.f.s 4 - w.f.s 4)) := h2
  rw [h2', h1']; ring

/-- the position error caused by an accelerometer bias error during the step is missing from the covariance prediction -/
theorem bias_position_error_ignored (x : PredictIn) (w : W) (F : Mat ℝ)
    (hF : Spec.IsTransition (predict (exStill x) (exEst w)).f.s (exStill x).imu F) :
    (predict (exStill x) (exTruth w)).f.s 7 - (predict (exStill x) (exEst w)).f.s 7 ≠ ∑ j, F 7 j * ((exTruth w).f.s j - (exEst w).f.s j) := by
  have h := north_errors (exStill x) (exEst w) (exTruth w) F hF (exEst_ok w).1 (exSame w) rfl (fun a => (exEst_limits x w a).1) (fun a => (exEst_limits x w a).2)
  have s8 : (exStill x).imu.deltaVelDt = 1 / 100 := rfl
  intro hc
  rw [hc, s8] at h
  have hR : (attQuat (predict (exStill x) (exEst w)).f.s).dcm = 1 := by
    rw [predicted_att _ _ (exEst_ok w).1]
    have hz : (attQuat (exEst w).f.s).dcmᵀ *ᵥ (exStill x).earthRate = 0 := by show _ *ᵥ 0 = 0; rw [Matrix.mulVec_zero]
    have one : (exStill x).L.exp 0 = Quat.one := by
      show axisAngleExp 0 = Quat.one
      unfold axisAngleExp; simp
    rw [hz]
    have hh : (fun i => (exStill x).imu.deltaAng i - ![(exEst w).f.s 10, (exEst w).f.s 11, (exEst w).f.s 12] i - (0 : V3 ℝ) i * (exStill x).imu.deltaAngDt) = 0 := by
      funext i; fin_cases i <;> simp [exStill, exEst]
    rw [hh, one]
    have : (attQuat (exEst w).f.s).mul Quat.one = ⟨1, 0, 0, 0⟩ := by
      show (⟨1, 0, 0, 0⟩ : Quat ℝ).mul Quat.one = _
      simp [Quat.mul, Quat.one]
    rw [this]
    ext i j; fin_cases i <;> fin_cases j <;> simp [Quat.dcm]
  rw [hR, Matrix.one_mulVec] at h
  have b1 : (exTruth w).f.s 13 = 1 / 250 := rfl
  have b2 : (exEst w).f.s 13 = 0 := rfl
  rw [b1, b2] at h
  simp only [Matrix.cons_val_zero] at h
  linarith

/-- the example satisfies the hypotheses of `velocity_position_errors` -/
example (x : PredictIn) (w : W) (F : Mat ℝ) (hF : Spec.IsTransition (predict (exStill x) (exEst w)).f.s (exStill x).imu F) (a : Fin 3) :
    (predict (exStill x) (exTruth w)).f.s ⟨4 + a.val, by unfold N; omega⟩ - (predict (exStill x) (exEst w)).f.s ⟨4 + a.val, by unfold N; omega⟩ =
      ∑ j, F ⟨4 + a.val, by unfold N; omega⟩ j * ((exTruth w).f.s j - (exEst w).f.s j) :=
  (velocity_position_errors (exStill x) (exEst w) (exTruth w) F hF (exEst_ok w).1 (exSame w) rfl (fun a => (exEst_limits x w a).1)
    (fun a => (exEst_limits x w a).2) a).1

/-- a rolled vehicle with gyro bias error -/
def exRolled (w : W) (b : ℝ) : W :=
  { w with f := { w.f with s := ![3 / 5, 4 / 5, 0, 0, 7, 0, 0, 13, 0, -20, b, 0, 0, 0, 0, 0, 0, 0, 0, 0, 0, 0, 0, 0] }, R := (⟨3 / 5, 4 / 5, 0, 0⟩ : Quat ℝ).dcm, dtEkfAvg := 1 / 100 }

/-- 0.02 rad about the first body axis in 10 ms -/
def exTurn (x : PredictIn) : PredictIn :=
  { x with L := matrixLib, earthRate := 0, imu := ⟨10000, ![1 / 50, 0, 0], ![0, 0, -(980665 / 10000000)], 1 / 100, 1 / 100, fun _ => false⟩ }

/-- the level estimate with the averaged period of 10 ms -/
def exLevel (w : W) : W := { exEst w with dtEkfAvg := 1 / 100 }

theorem exRolled_ok (w : W) (b : ℝ) : Spec.AttitudeOk (exRolled w b) := by
  have h : attQuat (exRolled w b).f.s = ⟨3 / 5, 4 / 5, 0, 0⟩ := rfl
  exact ⟨by rw [h]; norm_num [Quat.normSq], by rw [h]; rfl⟩

/-- a roll error of 106 degrees and a rotation of 0.02 rad satisfy the hypotheses of `attitude_errors`: the relative error is below 1e-4 -/
example (x : PredictIn) (w : W) (F : Mat ℝ) (hF : Spec.IsTransition (predict (exTurn x) (exLevel w)).f.s (exTurn x).imu F) :
    Spec.dist2 (Spec.attErr fun i => (predict (exTurn x) (exRolled w 0)).f.s i - (predict (exTurn x) (exLevel w)).f.s i)
      (Spec.attRows F fun i => (exRolled w 0).f.s i - (exLevel w).f.s i) ≤ (1 / 10000) ^ 2 * (4 / 5) := by
  have pos : (0 : ℝ) ≤ Ekf.radians 20 * (1 / 100) := by unfold Ekf.radians; positivity
  have z0 : constrain (0 : ℝ) (-(Ekf.radians 20 * (1 / 100))) (Ekf.radians 20 * (1 / 100)) = 0 := by
    rw [constrain_eq (by linarith)]
    rw [min_eq_left pos, max_eq_right (by linarith)]
  have hb : ∀ i : Fin N, 10 ≤ i.val → i.val < 13 → (exRolled w 0).f.s i = (exLevel w).f.s i ∧ (predict (exTurn x) (exLevel w)).f.s i = (exLevel w).f.s i := by
    intro ⟨i, hi⟩ h1 h2
    have : i = 10 ∨ i = 11 ∨ i = 12 := by simp only at h1 h2; omega
    rcases this with h | h | h
    · subst h
      exact ⟨(show (exRolled w 0).f.s 10 = 0 from rfl).trans (show (exLevel w).f.s 10 = 0 from rfl).symm,
        (show (predict (exTurn x) (exLevel w)).f.s 10 = constrain (0 : ℝ) (-(Ekf.radians 20 * (1 / 100))) (Ekf.radians 20 * (1 / 100)) from rfl).trans
          (z0.trans (show (exLevel w).f.s 10 = 0 from rfl).symm)⟩
    · subst h
      exact ⟨(show (exRolled w 0).f.s 11 = 0 from rfl).trans (show (exLevel w).f.s 11 = 0 from rfl).symm,
        (show (predict (exTurn x) (exLevel w)).f.s 11 = constrain (0 : ℝ) (-(Ekf.radians 20 * (1 / 100))) (Ekf.radians 20 * (1 / 100)) from rfl).trans
          (z0.trans (show (exLevel w).f.s 11 = 0 from rfl).symm)⟩
    · subst h
      exact ⟨(show (exRolled w 0).f.s 12 = 0 from rfl).trans (show (exLevel w).f.s 12 = 0 from rfl).symm,
        (show (predict (exTurn x) (exLevel w)).f.s 12 = constrain (0 : ℝ) (-(Ekf.radians 20 * (1 / 100))) (Ekf.radians 20 * (1 / 100)) from rfl).trans
          (z0.trans (show (exLevel w).f.s 12 = 0 from rfl).symm)⟩
  have ok : Spec.AttitudeOk (exLevel w) := (exEst_ok w).1
  have hang : Spec.angle (fun i => (exTurn x).imu.deltaAng i - ![(exLevel w).f.s 10, (exLevel w).f.s 11, (exLevel w).f.s 12] i) = 1 / 50 := by
    have h1 : (exTurn x).imu.deltaAng = ![1 / 50, 0, 0] := rfl
    have h2 : (exLevel w).f.s 10 = 0 := rfl
    have h3 : (exLevel w).f.s 11 = 0 := rfl
    have h4 : (exLevel w).f.s 12 = 0 := rfl
    rw [h1, h2, h3, h4]
    unfold Spec.angle
    rw [show ((![1 / 50, 0, 0] : V3 ℝ) 0 - (![0, 0, 0] : V3 ℝ) 0) ^ 2 + ((![1 / 50, 0, 0] : V3 ℝ) 1 - (![0, 0, 0] : V3 ℝ) 1) ^ 2 +
      ((![1 / 50, 0, 0] : V3 ℝ) 2 - (![0, 0, 0] : V3 ℝ) 2) ^ 2 = (1 / 50) ^ 2 by simp]
    exact Real.sqrt_sq (by norm_num)
  have h := attitude_errors (exTurn x) (exLevel w) (exRolled w 0) F hF rfl rfl ok (exRolled_ok w 0) hb (by rw [hang]; norm_num)
  rw [hang] at h
  refine h.trans ?_
  have hn : (Spec.attErr fun i => (exRolled w 0).f.s i - (exLevel w).f.s i).normSq = 4 / 5 := by
    unfold Spec.attErr
    simp only
    rw [show (exRolled w 0).f.s 0 = 3 / 5 from rfl, show (exRolled w 0).f.s 1 = 4 / 5 from rfl, show (exRolled w 0).f.s 2 = 0 from rfl,
      show (exRolled w 0).f.s 3 = 0 from rfl, show (exLevel w).f.s 0 = 1 from rfl, show (exLevel w).f.s 1 = 0 from rfl,
      show (exLevel w).f.s 2 = 0 from rfl, show (exLevel w).f.s 3 = 0 from rfl]
    norm_num [Quat.normSq]
  rw [hn]
  norm_num

/-- a gyro bias error of 0.01 rad in the step satisfies the hypotheses of `gyro_bias_errors` -/
example (x : PredictIn) (w : W) (F : Mat ℝ) (hF : Spec.IsTransition (predict (exStill x) (exRolled w 0)).f.s (exStill x).imu F) :
    Spec.dist2 (Spec.attErr fun i => (predict (exStill x) (exRolled w (1 / 100))).f.s i - (predict (exStill x) (exRolled w 0)).f.s i)
      (Spec.attRows F fun i => (exRolled w (1 / 100)).f.s i - (exRolled w 0).f.s i) ≤ (1 / 50000) ^ 2 := by
  have hang : Spec.angle ![(exRolled w (1 / 100)).f.s 10 - (exRolled w 0).f.s 10, (exRolled w (1 / 100)).f.s 11 - (exRolled w 0).f.s 11,
      (exRolled w (1 / 100)).f.s 12 - (exRolled w 0).f.s 12] = 1 / 100 := by
    rw [show (exRolled w (1 / 100)).f.s 10 = 1 / 100 from rfl, show (exRolled w (1 / 100)).f.s 11 = 0 from rfl, show (exRolled w (1 / 100)).f.s 12 = 0 from rfl,
      show (exRolled w 0).f.s 10 = 0 from rfl, show (exRolled w 0).f.s 11 = 0 from rfl, show (exRolled w 0).f.s 12 = 0 from rfl]
    unfold Spec.angle
    rw [show (![(1 : ℝ) / 100 - 0, 0 - 0, 0 - 0] : V3 ℝ) 0 ^ 2 + (![(1 : ℝ) / 100 - 0, 0 - 0, 0 - 0] : V3 ℝ) 1 ^ 2 + (![(1 : ℝ) / 100 - 0, 0 - 0, 0 - 0] : V3 ℝ) 2 ^ 2 =
      (1 / 100) ^ 2 by simp]
    exact Real.sqrt_sq (by norm_num)
  have h := gyro_bias_errors (exStill x) (exRolled w 0) (exRolled w (1 / 100)) F hF rfl rfl (exRolled_ok w 0)
    ((show (exRolled w (1 / 100)).R = (⟨3 / 5, 4 / 5, 0, 0⟩ : Quat ℝ).dcm from rfl).trans (show (exRolled w 0).R = (⟨3 / 5, 4 / 5, 0, 0⟩ : Quat ℝ).dcm from rfl).symm) (by
    intro ⟨i, hi⟩ h
    have : i = 0 ∨ i = 1 ∨ i = 2 ∨ i = 3 := by simp only at h; omega
    rcases this with h | h | h | h
    · subst h; exact (show (exRolled w (1 / 100)).f.s 0 = 3 / 5 from rfl).trans (show (exRolled w 0).f.s 0 = 3 / 5 from rfl).symm
    · subst h; exact (show (exRolled w (1 / 100)).f.s 1 = 4 / 5 from rfl).trans (show (exRolled w 0).f.s 1 = 4 / 5 from rfl).symm
    · subst h; exact (show (exRolled w (1 / 100)).f.s 2 = 0 from rfl).trans (show (exRolled w 0).f.s 2 = 0 from rfl).symm
    · subst h; exact (show (exRolled w (1 / 100)).f.s 3 = 0 from rfl).trans (show (exRolled w 0).f.s 3 = 0 from rfl).symm) (by
    intro i
    rw [show (exRolled w 0).f.s 10 = 0 from rfl, show (exRolled w 0).f.s 11 = 0 from rfl, show (exRolled w 0).f.s 12 = 0 from rfl]
    fin_cases i <;> rfl) (by rw [hang]; norm_num)
  rw [hang] at h
  refine h.trans ?_
  norm_num

end Ecl.Whole
