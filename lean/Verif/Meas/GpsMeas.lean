import Verif.Fusion.VelPos
import Verif.Fusion.Flow
import Mathlib.LinearAlgebra.CrossProduct
import Mathlib.Analysis.Calculus.Deriv.Mul
import Mathlib.Analysis.Calculus.Deriv.Add

/-!
# What is fused from a GPS sample — EKF/control.cpp:674-718

Real arithmetic.
-/

namespace Ecl.Meas

open Ecl.Cov Ecl.Fusion
open scoped Matrix

noncomputable section

/-- `_gps_sample_delayed` as used here -/
structure GpsData where
  vel : V3 ℝ
  pos : Fin 2 → ℝ
  hgt : ℝ
  hacc : ℝ
  sacc : ℝ

/-- parameters: `gps_pos_body`, `imu_pos_body`, `gps_pos_noise`, `pos_noaid_noise`, `gps_vel_noise`, `gps_pos_innov_gate`, `gps_vel_innov_gate` -/
structure GpsPar where
  gpsBody : V3 ℝ
  imuBody : V3 ℝ
  posNoise : ℝ
  noaid : ℝ
  velNoise : ℝ
  posGate : ℝ
  velGate : ℝ

/-- lever arm correction of the sample, EKF/control.cpp:680-689; `R` = `_R_to_earth`, `w` = `_ang_rate_delayed_raw` -/
def gpsCorrect (p : GpsPar) (R : M3 ℝ) (w : V3 ℝ) (g : GpsData) : GpsData :=
  let off := p.gpsBody - p.imuBody
  let velOff := R *ᵥ (cross3 w off)
  let posOff := R *ᵥ off
  { g with vel := g.vel - velOff, pos := fun i => g.pos i - posOff i.castSucc, hgt := g.hgt + posOff 2 }

/-- `gps_pos_obs_var(0)`, EKF/control.cpp:691-703; `other` = another source of horizontal aiding is active -/
def gpsPosVar (p : GpsPar) (other : Bool) (g : GpsData) : ℝ :=
  let lower := max p.posNoise (1 / 100)
  if other then sq (max g.hacc lower)
  else sq (constrain g.hacc lower (max p.noaid lower))

/-- `_last_vel_obs_var`, EKF/control.cpp:705-706 -/
def gpsVelVar (p : GpsPar) (g : GpsData) : V3 ℝ :=
  let v := sq (max g.sacc p.velNoise)
  ![v, v, v * sq (3 / 2)]

/-- members written besides the filter: `_gps_sample_delayed`, `_last_vel_obs`, `_last_vel_obs_var`, `_gps_vel_innov`, `_gps_pos_innov` -/
structure GpsObs where
  data : GpsData
  lastVel : V3 ℝ
  lastVelVar : V3 ℝ
  velInnov : V3 ℝ
  posInnov : Fin 2 → ℝ

/-- innovations, EKF/control.cpp:680-711, from the state vector (velocity 4-6, position 7-9) -/
def gpsObs (p : GpsPar) (R : M3 ℝ) (w : V3 ℝ) (g : GpsData) (s : Vec ℝ) : GpsObs :=
  let c := gpsCorrect p R w g
  { data := c, lastVel := c.vel, lastVelVar := gpsVelVar p c,
    velInnov := ![s 4 - c.vel 0, s 5 - c.vel 1, s 6 - c.vel 2],
    posInnov := ![s 7 - c.pos 0, s 8 - c.pos 1] }

/-- results of the three fusions in order, EKF/control.cpp:713-720 -/
structure GpsFused where
  hvel : VPOut
  vvel : VPOut
  hpos : VPOut

/-- EKF/control.cpp:674-720 -/
def gpsFuse (x : VPIn) (p : GpsPar) (R : M3 ℝ) (w : V3 ℝ) (other : Bool) (g : GpsData) (st : VPSt) : GpsFused :=
  let o := gpsObs p R w g st.f.s
  let posGate := max p.posGate 1
  let velGate := max p.velGate 1
  let pv := gpsPosVar p other o.data
  let a := fuseHorizontalVelocity x (o.velInnov 0) (o.velInnov 1) velGate (o.lastVelVar 0) (o.lastVelVar 1) st
  let b := fuseVerticalVelocity x (o.velInnov 2) velGate (o.lastVelVar 2) a.st
  let c := fuseHorizontalPosition x (o.posInnov 0) (o.posInnov 1) posGate pv pv false b.st
  ⟨a, b, c⟩

end

/-! ## Specification -/

namespace Spec

/-- A moving rigid body: IMU position `p` and attitude `R` (body to earth) as functions of time; at time `t` the IMU has velocity `v` and the body
turns at `w` (body axes): `p' = v`, `R' = R [w]×`. -/
structure RigidMotion (p : ℝ → V3 ℝ) (R : ℝ → M3 ℝ) (t : ℝ) (v w : V3 ℝ) : Prop where
  vel : ∀ i, HasDerivAt (fun s => p s i) (v i) t
  rot : ∀ i j, HasDerivAt (fun s => R s i j) ((R t * !![0, -w 2, w 1; w 2, 0, -w 0; -w 1, w 0, 0]) i j) t

/-- position of a point fixed to the body at `o` from the IMU (body axes) -/
def point (p : ℝ → V3 ℝ) (R : ℝ → M3 ℝ) (o : V3 ℝ) (t : ℝ) : V3 ℝ := p t + R t *ᵥ o

end Spec

/-- velocity of a body-fixed point -/
theorem point_velocity {p : ℝ → V3 ℝ} {R : ℝ → M3 ℝ} {t : ℝ} {v w : V3 ℝ} (h : Spec.RigidMotion p R t v w) (o : V3 ℝ) (i : Fin 3) :
    HasDerivAt (fun s => Spec.point p R o s i) (v i + (R t *ᵥ cross3 w o) i) t := by
  have e : (fun s => Spec.point p R o s i) = fun s => p s i + (R s i 0 * o 0 + R s i 1 * o 1 + R s i 2 * o 2) := by
    funext s
    simp [Spec.point, Matrix.mulVec, dotProduct, Fin.sum_univ_three]
  rw [e]
  have h0 := (h.rot i 0).mul_const (o 0)
  have h1 := (h.rot i 1).mul_const (o 1)
  have h2 := (h.rot i 2).mul_const (o 2)
  have := (h.vel i).add ((h0.add h1).add h2)
  refine this.congr_deriv ?_
  simp [Matrix.mulVec, dotProduct, Matrix.mul_apply, Fin.sum_univ_three, cross3]
  ring

/-- **C125 (lever arm).** Let the sample be the motion of the antenna — position and velocity of the body-fixed point at the antenna offset, altitude
above the origin's — up to errors `eV`, `eP`, `eH`, the attitude estimate be the true attitude and the gyro rate be the true rate plus a bias `b`.
Then the innovations are the errors of the velocity and position states (at the IMU) minus the measurement errors, plus the effect of the
gyro bias on the lever arm, which the code does not remove; the corrected height is the height of the IMU. -/
theorem gps_lever_arm (par : GpsPar) (p : ℝ → V3 ℝ) (R : ℝ → M3 ℝ) (t : ℝ) (v w b : V3 ℝ) (h : Spec.RigidMotion p R t v w)
    (g : GpsData) (eV : V3 ℝ) (eP : Fin 2 → ℝ) (eH ref : ℝ) (s : Vec ℝ) :
    let o := par.gpsBody - par.imuBody
    (∀ i, HasDerivAt (fun s => Spec.point p R o s i) (g.vel i - eV i) t) →
    (∀ i : Fin 2, g.pos i - eP i = Spec.point p R o t i.castSucc) →
    (g.hgt - eH = ref - Spec.point p R o t 2) →
    let r := gpsObs par (R t) (w + b) g s
    (∀ i : Fin 3, r.velInnov i = s ⟨4 + i.val, by have := i.isLt; show 4 + i.val < 24; omega⟩ - v i - eV i + (R t *ᵥ cross3 b o) i) ∧
    (∀ i : Fin 2, r.posInnov i = s ⟨7 + i.val, by have := i.isLt; show 7 + i.val < 24; omega⟩ - p t i.castSucc - eP i) ∧
    r.data.hgt = ref - p t 2 + eH := by
  intro o hv hp hh r
  have hV : ∀ i, g.vel i = v i + (R t *ᵥ cross3 w o) i + eV i := by
    intro i
    have := (hv i).unique (point_velocity h o i)
    linarith
  have hP : ∀ i : Fin 2, g.pos i = p t i.castSucc + (R t *ᵥ o) i.castSucc + eP i := by
    intro i
    have := hp i
    simp only [Spec.point, Pi.add_apply] at this
    linarith
  have hH : g.hgt = ref - (p t 2 + (R t *ᵥ o) 2) + eH := by
    simp only [Spec.point, Pi.add_apply] at hh
    linarith
  have hcr : ∀ i, (R t *ᵥ cross3 (w + b) o) i = (R t *ᵥ cross3 w o) i + (R t *ᵥ cross3 b o) i := by
    intro i
    have : cross3 (w + b) o = cross3 w o + cross3 b o := by
      funext k; fin_cases k <;> simp [cross3] <;> ring
    rw [this, Matrix.mulVec_add]; rfl
  refine ⟨fun i => ?_, fun i => ?_, ?_⟩
  · have e : r.velInnov i = s ⟨4 + i.val, by have := i.isLt; show 4 + i.val < 24; omega⟩ - (g.vel i - (R t *ᵥ cross3 (w + b) o) i) := by
      fin_cases i <;> rfl
    rw [e, hV, hcr]; ring
  · have e : r.posInnov i = s ⟨7 + i.val, by have := i.isLt; show 7 + i.val < 24; omega⟩ - (g.pos i - (R t *ᵥ o) i.castSucc) := by
      fin_cases i <;> rfl
    rw [e, hP]; ring
  · have e : r.data.hgt = g.hgt + (R t *ᵥ o) 2 := rfl
    rw [e, hH]; ring

/-- **C125 (noise).** The position noise is the reported accuracy, never below the larger of the parameter and 1 cm, and limited above by the no-aiding
noise exactly when GPS is the only source; the velocity noise is the reported speed accuracy, never below the parameter, 1.5 times as large
vertically. -/
theorem gps_noise (p : GpsPar) (other : Bool) (g : GpsData) :
    let lower := max p.posNoise (1 / 100)
    gpsPosVar p other g = (if other = true then max g.hacc lower else max lower (min g.hacc (max p.noaid lower))) ^ 2 ∧
    1 / 10000 ≤ gpsPosVar p other g ∧ (p.posNoise ≤ 0 ∨ p.posNoise ^ 2 ≤ gpsPosVar p other g) ∧
    gpsVelVar p g 0 = max g.sacc p.velNoise ^ 2 ∧ gpsVelVar p g 1 = max g.sacc p.velNoise ^ 2 ∧
    gpsVelVar p g 2 = (3 / 2 * max g.sacc p.velNoise) ^ 2 := by
  intro lower
  have hl : (1 / 100 : ℝ) ≤ lower := le_max_right _ _
  have hn : p.posNoise ≤ lower := le_max_left _ _
  have e : gpsPosVar p other g = (if other = true then max g.hacc lower else max lower (min g.hacc (max p.noaid lower))) ^ 2 := by
    unfold gpsPosVar
    cases other
    · simp only [Bool.false_eq_true, if_false]
      rw [constrain_eq (le_max_right _ _)]
      exact (pow_two _).symm
    · exact (pow_two _).symm
  have hb : lower ≤ (if other = true then max g.hacc lower else max lower (min g.hacc (max p.noaid lower))) := by
    split
    · exact le_max_right _ _
    · exact le_max_left _ _
  refine ⟨e, ?_, ?_, (pow_two _).symm, (pow_two _).symm, ?_⟩
  · rw [e]; nlinarith
  · rcases le_total p.posNoise 0 with h | h
    · exact Or.inl h
    · right; rw [e]; exact pow_le_pow_left₀ h (hn.trans hb) 2
  · simp [gpsVelVar, sq]; ring

/-- **C125 (fusion).** With non-negative variances and a positive speed noise: the horizontal velocity is accepted iff both innovations are within
`max(gate, 1)` standard deviations, and likewise vertical velocity and position; position and vertical velocity use the variances
left by the fusions before them, but all innovations are taken before any of the three. -/
theorem gps_gates (x : VPIn) (p : GpsPar) (R : M3 ℝ) (w : V3 ℝ) (other : Bool) (g : GpsData) (st : VPSt) (hb : x.badVertAccel = false)
    (hs : 0 < max g.sacc p.velNoise) :
    let o := gpsObs p R w g st.f.s
    let f := gpsFuse x p R w other g st
    let G := max p.velGate 1
    let H := max p.posGate 1
    let rv := max g.sacc p.velNoise ^ 2
    let rp := gpsPosVar p other g
    (0 ≤ st.f.P 4 4 → 0 ≤ st.f.P 5 5 →
      (f.hvel.ret = true ↔ o.velInnov 0 ^ 2 ≤ G ^ 2 * (st.f.P 4 4 + rv) ∧ o.velInnov 1 ^ 2 ≤ G ^ 2 * (st.f.P 5 5 + rv))) ∧
    (0 ≤ f.hvel.st.f.P 6 6 → (f.vvel.ret = true ↔ o.velInnov 2 ^ 2 ≤ G ^ 2 * (f.hvel.st.f.P 6 6 + 9 / 4 * rv))) ∧
    (0 ≤ f.vvel.st.f.P 7 7 → 0 ≤ f.vvel.st.f.P 8 8 →
      (f.hpos.ret = true ↔ o.posInnov 0 ^ 2 ≤ H ^ 2 * (f.vvel.st.f.P 7 7 + rp) ∧ o.posInnov 1 ^ 2 ≤ H ^ 2 * (f.vvel.st.f.P 8 8 + rp))) := by
  intro o f G H rv rp
  have hrv : 0 < rv := by positivity
  have hG : 0 < G := lt_of_lt_of_le one_pos (le_max_right _ _)
  have hH : 0 < H := lt_of_lt_of_le one_pos (le_max_right _ _)
  have hrp : 0 < rp := lt_of_lt_of_le (by norm_num) (gps_noise p other g).2.1
  have e0 : o.lastVelVar 0 = rv := (gps_noise p other g).2.2.2.1
  have e1 : o.lastVelVar 1 = rv := (gps_noise p other g).2.2.2.2.1
  have e2 : o.lastVelVar 2 = 9 / 4 * rv := by
    rw [show o.lastVelVar 2 = _ from (gps_noise p other g).2.2.2.2.2]
    show _ = 9 / 4 * max g.sacc p.velNoise ^ 2
    ring
  refine ⟨fun h0 h1 => ?_, fun h => ?_, fun h0 h1 => ?_⟩
  · have := (hvel_gate x st (o.velInnov 0) (o.velInnov 1) G (o.lastVelVar 0) (o.lastVelVar 1) hG (by rw [e0]; linarith) (by rw [e1]; linarith)).1
    rw [e0, e1] at this
    have hf : f.hvel = fuseHorizontalVelocity x (o.velInnov 0) (o.velInnov 1) G (o.lastVelVar 0) (o.lastVelVar 1) st := rfl
    rw [hf, e0, e1]; exact this
  · have := (vvel_gate x f.hvel.st (o.velInnov 2) G (o.lastVelVar 2) hG (by rw [e2]; linarith)).1
    rw [e2, hb] at this
    have hf : f.vvel = fuseVerticalVelocity x (o.velInnov 2) G (o.lastVelVar 2) f.hvel.st := rfl
    rw [hf, e2, this]; simp
  · exact (hpos_gate x f.vvel.st (o.posInnov 0) (o.posInnov 1) H rp rp false hH (by linarith) (by linarith)).1

/-- the effect of a gyro bias on the velocity innovation is at most bias times lever arm (any rotation) -/
theorem lever_bias_bound (R : M3 ℝ) (hR : Rᵀ * R = 1) (b o : V3 ℝ) :
    (R *ᵥ cross3 b o) ⬝ᵥ (R *ᵥ cross3 b o) ≤ (b ⬝ᵥ b) * (o ⬝ᵥ o) := by
  have h : (R *ᵥ cross3 b o) ⬝ᵥ (R *ᵥ cross3 b o) = cross3 b o ⬝ᵥ cross3 b o := by
    rw [Matrix.dotProduct_mulVec, ← Matrix.mulVec_transpose, Matrix.mulVec_mulVec, hR, Matrix.one_mulVec]
  rw [h]
  simp [cross3, dotProduct, Fin.sum_univ_three]
  nlinarith [sq_nonneg (b 0 * o 0 + b 1 * o 1 + b 2 * o 2)]

/-- **C125 (finding).** A reset to GPS (EKF/control.cpp:586, 657-671) happens before the sample is corrected: the states are set to the motion of the
antenna, and the very same sample, corrected afterwards, then disagrees with them by the whole lever arm. -/
theorem gps_reset_offset (p : GpsPar) (R : M3 ℝ) (w : V3 ℝ) (g : GpsData) (s : Vec ℝ) (h4 : s 4 = g.vel 0) (h5 : s 5 = g.vel 1) (h6 : s 6 = g.vel 2)
    (h7 : s 7 = g.pos 0) (h8 : s 8 = g.pos 1) :
    let o := gpsObs p R w g s
    (∀ i, o.velInnov i = (R *ᵥ cross3 w (p.gpsBody - p.imuBody)) i) ∧ (∀ i : Fin 2, o.posInnov i = (R *ᵥ (p.gpsBody - p.imuBody)) i.castSucc) := by
  intro o
  refine ⟨fun i => ?_, fun i => ?_⟩
  · fin_cases i
    · show s 4 - (g.vel 0 - _) = _; rw [h4]; simp
    · show s 5 - (g.vel 1 - _) = _; rw [h5]; simp
    · show s 6 - (g.vel 2 - _) = _; rw [h6]; simp
  · fin_cases i
    · show s 7 - (g.pos 0 - _) = _; rw [h7]; simp
    · show s 8 - (g.pos 1 - _) = _; rw [h8]; simp

/-- Non-vacuity of `gps_lever_arm`: a body turning at 1 rad/s about the vertical while moving north at 2 m/s, antenna 1 m ahead of the IMU, at the
instant its axes point north and east: the antenna moves at (2, 1, 0). -/
example : ∃ (p : ℝ → V3 ℝ) (R : ℝ → M3 ℝ), Spec.RigidMotion p R 0 ![2, 0, 0] ![0, 0, 1] ∧
    ∀ i, HasDerivAt (fun s => Spec.point p R ![1, 0, 0] s i) ((![2, 1, 0] : V3 ℝ) i - (0 : V3 ℝ) i) 0 := by
  let p : ℝ → V3 ℝ := fun s => ![2 * s, 0, 0]
  let R : ℝ → M3 ℝ := fun s => !![1, -s, 0; s, 1, 0; 0, 0, 1]
  have h : Spec.RigidMotion p R 0 ![2, 0, 0] ![0, 0, 1] := by
    have hid := hasDerivAt_id (0 : ℝ)
    refine ⟨fun i => ?_, fun i j => ?_⟩
    · fin_cases i
      · simpa [p] using hid.const_mul 2
      · simpa [p] using hasDerivAt_const (0 : ℝ) (0 : ℝ)
      · simpa [p] using hasDerivAt_const (0 : ℝ) (0 : ℝ)
    · fin_cases i <;> fin_cases j <;> simp [R, Matrix.mul_apply, Fin.sum_univ_three, hasDerivAt_const] <;>
        first | exact hid | exact hid.neg
  refine ⟨p, R, h, fun i => ?_⟩
  refine (point_velocity h ![1, 0, 0] i).congr_deriv ?_
  fin_cases i <;> simp [R, cross3, Matrix.mulVec, dotProduct, Fin.sum_univ_three]

/-- Non-vacuity of `gps_gates`: positive speed noise, a filter with valid covariance. -/
example : 0 < max (3 / 10 : ℝ) (1 / 2) ∧ Cov.Spec.PSD (exFilt).P ∧ 0 ≤ (exVP exFilt).f.P 4 4 := by
  refine ⟨by norm_num, idCov_psd, ?_⟩
  simp [exVP, exFilt, Filt.P]

end Ecl.Meas
