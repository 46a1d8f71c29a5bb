import Verif.Meas.GpsMeas
import Verif.Ekf.OutputProps
import Verif.Cov.PredictProps3

/-!
# What is fused from an external vision sample — EKF/control.cpp:188-330, EKF/ekf_helper.cpp:1296-1349

Real arithmetic.  Which of position, velocity and yaw are in use is in `Verif/Aid`; heading fusion is in `Verif/Fusion/Heading.lean`.
-/

namespace Ecl.Meas

open Ecl.Cov Ecl.Fusion
open scoped Matrix

noncomputable section

/-- `velocity_frame_t` -/
inductive VelFrame | local | body
deriving DecidableEq

/-- `_ev_sample_delayed` -/
structure EvData where
  pos : V3 ℝ
  posVar : V3 ℝ
  vel : V3 ℝ
  velCov : M3 ℝ
  frame : VelFrame
  quat : Quat ℝ

/-- parameters: `ev_pos_body`, `imu_pos_body`, MASK_ROTATE_EV, MASK_USE_GPS, MASK_USE_EVPOS or MASK_USE_EVVEL, innovation gates -/
structure EvPar where
  evBody : V3 ℝ
  imuBody : V3 ℝ
  rotate : Bool
  modeGps : Bool
  modePosVel : Bool
  posGate : ℝ
  velGate : ℝ

/-- `_R_ev_to_ekf`, `_pos_meas_prev`, `_hpos_pred_prev`, `_hpos_prev_available`, `_ev_pos_innov`, `_fuse_hpos_as_odom` -/
structure EvMem where
  REv : M3 ℝ
  measPrev : V3 ℝ
  predPrev : Fin 2 → ℝ
  prevOk : Bool
  innov : Fin 2 → ℝ
  asOdom : Bool

/-- `calcExtVisRotMat`, EKF/ekf_helper.cpp:1344-1349 -/
def extVisRotMat (q qEv : Quat ℝ) : M3 ℝ := (ImuDownSampler.normalize (q.mul qEv.inversed)).dcm

/-- alignment update at a sample, EKF/control.cpp:195-198 -/
def evAlign (p : EvPar) (evYaw : Bool) (q : Quat ℝ) (d : EvData) (m : EvMem) : EvMem :=
  if p.rotate && p.modePosVel && !evYaw then { m with REv := extVisRotMat q d.quat } else m

/-- `getVisionVelocityInEkfFrame`, EKF/ekf_helper.cpp:1296-1321; `w` = `_ang_rate_delayed_raw` -/
def visionVel (p : EvPar) (R REv : M3 ℝ) (w : V3 ℝ) (d : EvData) : V3 ℝ :=
  let off := cross3 w (p.evBody - p.imuBody)
  match d.frame with
  | .body => R *ᵥ (d.vel - off)
  | .local => if p.rotate then REv *ᵥ d.vel - R *ᵥ off else d.vel - R *ᵥ off

/-- `getVisionVelocityVarianceInEkfFrame`, EKF/ekf_helper.cpp:1323-1341 -/
def visionVelVar (p : EvPar) (R REv : M3 ℝ) (d : EvData) : V3 ℝ :=
  let C := match d.frame with
    | .body => R * d.velCov * Rᵀ
    | .local => if p.rotate then REv * d.velCov * REvᵀ else d.velCov
  fun i => C i i

/-- velocity observation, EKF/control.cpp:305, 319: `_last_vel_obs`, `_last_vel_obs_var`; the innovation is state minus the former -/
def evVelObs (p : EvPar) (R REv : M3 ℝ) (w : V3 ℝ) (d : EvData) : V3 ℝ × V3 ℝ :=
  (visionVel p R REv w d, fun i => max (visionVelVar p R REv d i) (sq (1 / 20)))

/-- the sample's position after lever arm correction, EKF/control.cpp:233-235 -/
def evCorrect (p : EvPar) (R : M3 ℝ) (d : EvData) : EvData := { d with pos := d.pos - R *ᵥ (p.evBody - p.imuBody) }

/-- position observation, EKF/control.cpp:237-283 (the variance is zero-initialised and stays so if nothing is computed);
`d` already corrected, `pos` = `_state.pos.xy()` -/
def evPosObs (p : EvPar) (d : EvData) (pos : Fin 2 → ℝ) (m : EvMem) : EvMem × (Fin 2 → ℝ) :=
  if p.modeGps then
    let r : EvMem × (Fin 2 → ℝ) :=
      if !m.prevOk then ({ m with prevOk := true, asOdom := true }, fun _ => 0)
      else
        let dp := m.REv *ᵥ (d.pos - m.measPrev)
        let V := m.REv * Matrix.diagonal d.posVar * m.REvᵀ
        ({ m with innov := fun i => pos i - m.predPrev i - dp i.castSucc, asOdom := true },
          fun i => max (V i.castSucc i.castSucc) (sq (1 / 2)))
    ({ r.1 with measPrev := d.pos, predPrev := pos }, r.2)
  else
    let z := if p.rotate then m.REv *ᵥ d.pos else d.pos
    let V := if p.rotate then m.REv * Matrix.diagonal d.posVar * m.REvᵀ else Matrix.diagonal d.posVar
    ({ m with innov := fun i => pos i - z i.castSucc, asOdom := false }, fun i => max (V i.castSucc i.castSucc) (sq (1 / 100)))

/-- position fusion of a sample without timeout, EKF/control.cpp:228-299 -/
def evPosFuse (x : FixIn ℝ) (p : EvPar) (R : M3 ℝ) (d : EvData) (m : EvMem) (st : VPSt) : EvMem × VPOut :=
  let r := evPosObs p (evCorrect p R d) ![st.f.s 7, st.f.s 8] m
  (r.1, fuseHorizontalPosition ⟨x, false, r.1.asOdom⟩ (r.1.innov 0) (r.1.innov 1) (max p.posGate 1) (r.2 0) (r.2 1) false st)

end

/-! ## Alignment of the frames -/

/-- **C124 (alignment).** For unit quaternions the alignment computed from a sample is the rotation that turns the attitude reported by the vision
system into the attitude estimate. -/
theorem vision_alignment (q qEv : Quat ℝ) (h : q.normSq = 1) (hE : qEv.normSq = 1) :
    extVisRotMat q qEv * qEv.dcm = q.dcm ∧ Utils.IsRotation (extVisRotMat q qEv) := by
  have hi : qEv.inversed.normSq = 1 := Ekf.quat_inv_unit hE
  have hu : (q.mul qEv.inversed).normSq = 1 := by rw [Quat.normSq_mul, h, hi, one_mul]
  have e : extVisRotMat q qEv = q.dcm * qEv.dcmᵀ := by
    unfold extVisRotMat
    rw [ImuDownSampler.normalize_unit hu, Quat.dcm_mul, Quat.dcm_inversed _ hE]
  constructor
  · rw [e, mul_assoc, Quat.dcm_transpose_mul _ hE, mul_one]
  · unfold extVisRotMat
    rw [ImuDownSampler.normalize_unit hu]
    exact Utils.isRotation_of_orth (Quat.dcm_mul_transpose _ hu) (Quat.dcm_det _ hu)

/-- **C124 (finding).** With vision yaw in use the alignment is no longer updated, although starting vision yaw resets the heading after the
alignment was computed: from then on the measurements are turned into a frame that agrees with the attitude `q'` in use exactly if the
reset did not turn the attitude. -/
theorem vision_alignment_stale (p : EvPar) (q q' : Quat ℝ) (d d' : EvData) (m : EvMem) (hr : p.rotate = true) (hm : p.modePosVel = true)
    (h : q.normSq = 1) (hE : d.quat.normSq = 1) :
    let m1 := evAlign p false q d m
    let m2 := evAlign p true q' d' m1
    m2.REv = m1.REv ∧ (m2.REv * d.quat.dcm = q'.dcm ↔ q.dcm = q'.dcm) := by
  intro m1 m2
  have e1 : m1.REv = extVisRotMat q d.quat := by
    show (evAlign p false q d m).REv = _
    unfold evAlign; rw [hr, hm]; rfl
  have e2 : m2 = m1 := by
    show evAlign p true q' d' m1 = _
    unfold evAlign; rw [hr, hm]; rfl
  rw [e2, e1, (vision_alignment q d.quat h hE).1]
  exact ⟨rfl, Iff.rfl⟩

/-! ## Velocity -/

/-- **C124 (velocity).** Let the camera be the body-fixed point at its offset, moving with velocity `c` = the derivative of its position, and let
the sample report `c + e` — in body axes, or in a vision frame turned against the EKF frame by `E` (with `E` in use as alignment, or `E = 1`
without rotation). With gyro rate = true rate + `b`, the observation is the velocity of the IMU plus `e`, up to the effect of the
gyro bias on the lever arm. -/
theorem vision_velocity (p : EvPar) (pos : ℝ → V3 ℝ) (R : ℝ → M3 ℝ) (t : ℝ) (v w b : V3 ℝ) (h : Spec.RigidMotion pos R t v w)
    (hR : R t * (R t)ᵀ = 1) (E : M3 ℝ) (hE : E * Eᵀ = 1) (hrot : p.rotate = false → E = 1) (c e : V3 ℝ) (d : EvData)
    (hc : ∀ i, HasDerivAt (fun s => Spec.point pos R (p.evBody - p.imuBody) s i) (c i) t)
    (hd : match d.frame with
      | .body => d.vel = (R t)ᵀ *ᵥ (c + e)
      | .local => d.vel = Eᵀ *ᵥ (c + e)) :
    visionVel p (R t) E (w + b) d = v + e - R t *ᵥ cross3 b (p.evBody - p.imuBody) := by
  have hcv : c = v + R t *ᵥ cross3 w (p.evBody - p.imuBody) := by
    funext i
    exact (hc i).unique (point_velocity h _ i)
  have hcr : cross3 (w + b) (p.evBody - p.imuBody) = cross3 w (p.evBody - p.imuBody) + cross3 b (p.evBody - p.imuBody) := by
    funext k; fin_cases k <;> simp [cross3] <;> ring
  unfold visionVel
  cases hf : d.frame
  · rw [hf] at hd
    simp only at hd ⊢
    have hz : (if p.rotate = true then E *ᵥ d.vel - R t *ᵥ cross3 (w + b) (p.evBody - p.imuBody) else d.vel - R t *ᵥ cross3 (w + b) (p.evBody - p.imuBody)) =
        (c + e) - R t *ᵥ cross3 (w + b) (p.evBody - p.imuBody) := by
      cases hp : p.rotate
      · rw [if_neg (by decide), hd, hrot hp, Matrix.transpose_one, Matrix.one_mulVec]
      · rw [if_pos rfl, hd, Matrix.mulVec_mulVec, hE, Matrix.one_mulVec]
    rw [hz, hcv, hcr, Matrix.mulVec_add]; abel
  · rw [hf] at hd
    simp only at hd ⊢
    rw [hd, Matrix.mulVec_sub, Matrix.mulVec_mulVec, hR, Matrix.one_mulVec, hcv, hcr, Matrix.mulVec_add]; abel

/-- diagonal of a rotated covariance: variance along a row of the rotation -/
theorem rotated_diag (A C : M3 ℝ) (i : Fin 3) : (A * C * Aᵀ) i i = Cov.Spec.form (fun a b => C a b) (fun k => A i k) (fun k => A i k) := by
  simp only [Matrix.mul_apply, Matrix.transpose_apply, Cov.Spec.form, Finset.sum_mul]
  rw [Finset.sum_comm]

/-- **C124 (velocity variance).** The variances used are those of the measured velocity along the EKF axes: the quadratic form of the reported
covariance along the rows of the rotation; for a valid covariance they are at least (5 cm/s)² and, before that limit, non-negative; a
rotation keeps their sum, and equal variances stay as they are. -/
theorem vision_velocity_variance (p : EvPar) (R E : M3 ℝ) (w : V3 ℝ) (d : EvData) (hR : Rᵀ * R = 1) (hE : Eᵀ * E = 1) :
    let A : M3 ℝ := match d.frame with
      | .body => R
      | .local => if p.rotate then E else 1
    (∀ i, visionVelVar p R E d i = Cov.Spec.form (fun a b => d.velCov a b) (fun k => A i k) (fun k => A i k)) ∧
    (∀ i, (evVelObs p R E w d).2 i = max (visionVelVar p R E d i) (1 / 400)) ∧
    (Cov.Spec.PSD (fun a b => d.velCov a b) → ∀ i, 0 ≤ visionVelVar p R E d i) ∧
    (∑ i, visionVelVar p R E d i = ∑ i, d.velCov i i) ∧
    (∀ σ, d.velCov = σ • (1 : M3 ℝ) → ∀ i, visionVelVar p R E d i = σ) := by
  intro A
  have hA : Aᵀ * A = 1 := by
    show (match d.frame with | .body => R | .local => if p.rotate then E else 1)ᵀ * (match d.frame with | .body => R | .local => if p.rotate then E else 1) = 1
    cases d.frame
    · cases p.rotate
      · simp
      · simpa using hE
    · simpa using hR
  have hA' : A * Aᵀ = 1 := mul_eq_one_comm.1 hA
  have e : visionVelVar p R E d = fun i => (A * d.velCov * Aᵀ) i i := by
    unfold visionVelVar
    show _ = fun i => ((match d.frame with | .body => R | .local => if p.rotate then E else 1) * d.velCov *
      (match d.frame with | .body => R | .local => if p.rotate then E else 1)ᵀ) i i
    cases d.frame
    · cases p.rotate <;> simp
    · rfl
  have hq : ∀ i, visionVelVar p R E d i = Cov.Spec.form (fun a b => d.velCov a b) (fun k => A i k) (fun k => A i k) := by
    intro i; rw [e]; exact rotated_diag A d.velCov i
  refine ⟨hq, fun i => ?_, fun hp i => ?_, ?_, fun σ hσ i => ?_⟩
  · show max _ (sq (1 / 20)) = _
    congr 1; unfold sq; norm_num
  · rw [hq]; exact hp.nonneg _
  · rw [e]
    show Matrix.trace (A * d.velCov * Aᵀ) = Matrix.trace d.velCov
    rw [Matrix.trace_mul_comm, ← mul_assoc, hA, one_mul]
  · rw [e, hσ]
    simp [hA']

/-! ## Position -/

/-- **C124 (position).** Absolute mode. Let the vision frame be turned against the EKF frame by `E` with origin at `o0` (EKF frame): the sample is the
camera position in that frame plus an error, `Eᵀ (camera − o0 + e)`, with `E` in use as alignment (or no rotation and `E = 1`). The
innovation is the error of the position state relative to the vision origin minus `e`, up to a residual: the lever arm, known in the EKF
frame, is subtracted before the rotation, which leaves `(E − 1) R o`. It vanishes without rotation, without lever arm, or if `E` turns
about the lever arm. -/
theorem vision_position (p : EvPar) (hg : p.modeGps = false) (R E : M3 ℝ) (hE : E * Eᵀ = 1) (hrot : p.rotate = false → E = 1)
    (pos o0 e : V3 ℝ) (d : EvData) (m : EvMem) (hm : m.REv = E) (s : Fin 2 → ℝ)
    (hd : d.pos = Eᵀ *ᵥ (pos + R *ᵥ (p.evBody - p.imuBody) - o0 + e)) :
    let o := R *ᵥ (p.evBody - p.imuBody)
    let r := evPosObs p (evCorrect p R d) s m
    (∀ i : Fin 2, r.1.innov i = s i - (pos i.castSucc - o0 i.castSucc) - e i.castSucc + ((E *ᵥ o) i.castSucc - o i.castSucc)) ∧
    (E *ᵥ o = o → ∀ i : Fin 2, r.1.innov i = s i - (pos i.castSucc - o0 i.castSucc) - e i.castSucc) ∧
    r.1.asOdom = false := by
  intro o r
  have hz : (if p.rotate = true then E *ᵥ (d.pos - o) else d.pos - o) = pos + o - o0 + e - E *ᵥ o := by
    cases hp : p.rotate
    · have := hrot hp
      subst this
      rw [if_neg (by decide), hd, Matrix.transpose_one, Matrix.one_mulVec, Matrix.one_mulVec]
    · rw [if_pos rfl, hd, Matrix.mulVec_sub, Matrix.mulVec_mulVec, hE, Matrix.one_mulVec]
  have hi : ∀ i : Fin 2, r.1.innov i = s i - (pos + o - o0 + e - E *ᵥ o) i.castSucc := by
    intro i
    have : r.1.innov i = s i - (if p.rotate = true then m.REv *ᵥ (d.pos - o) else d.pos - o) i.castSucc := by
      show (evPosObs p (evCorrect p R d) s m).1.innov i = _
      unfold evPosObs; rw [hg]; rfl
    rw [this, hm, hz]
  refine ⟨fun i => ?_, fun h i => ?_, ?_⟩
  · rw [hi]; simp only [Pi.add_apply, Pi.sub_apply]; ring
  · rw [hi, h]; simp only [Pi.add_apply, Pi.sub_apply]; ring
  · show (evPosObs p (evCorrect p R d) s m).1.asOdom = _
    unfold evPosObs; rw [hg]; rfl

/-- **C124 (odometry).** With GPS also selected and a previous sample, the innovation is the difference between the movement of the position state and
of the IMU since that sample, minus the measured error difference, up to the residual of the changed lever arm; the origin of the vision
frame does not matter. -/
theorem vision_odometry (p : EvPar) (hg : p.modeGps = true) (R1 R2 E : M3 ℝ) (hE : E * Eᵀ = 1)
    (pos1 pos2 o0 e1 e2 : V3 ℝ) (d1 d2 : EvData) (m : EvMem) (hm : m.REv = E) (s1 s2 : Fin 2 → ℝ)
    (hd1 : d1.pos = Eᵀ *ᵥ (pos1 + R1 *ᵥ (p.evBody - p.imuBody) - o0 + e1))
    (hd2 : d2.pos = Eᵀ *ᵥ (pos2 + R2 *ᵥ (p.evBody - p.imuBody) - o0 + e2)) :
    let o1 := R1 *ᵥ (p.evBody - p.imuBody)
    let o2 := R2 *ᵥ (p.evBody - p.imuBody)
    let m1 := (evPosObs p (evCorrect p R1 d1) s1 m).1
    let r := evPosObs p (evCorrect p R2 d2) s2 m1
    ∀ i : Fin 2, r.1.innov i = (s2 i - s1 i) - (pos2 i.castSucc - pos1 i.castSucc) - (e2 i.castSucc - e1 i.castSucc) +
      ((E *ᵥ (o2 - o1)) i.castSucc - (o2 - o1) i.castSucc) := by
  intro o1 o2 m1 r i
  have hm1 : m1.prevOk = true ∧ m1.measPrev = d1.pos - o1 ∧ m1.predPrev = s1 ∧ m1.REv = E := by
    show (evPosObs p (evCorrect p R1 d1) s1 m).1.prevOk = true ∧ (evPosObs p (evCorrect p R1 d1) s1 m).1.measPrev = _ ∧
      (evPosObs p (evCorrect p R1 d1) s1 m).1.predPrev = _ ∧ (evPosObs p (evCorrect p R1 d1) s1 m).1.REv = _
    unfold evPosObs; rw [hg]
    cases h : m.prevOk
    · exact ⟨rfl, rfl, rfl, hm⟩
    · exact ⟨rfl, rfl, rfl, hm⟩
  have hr : r.1.innov i = s2 i - m1.predPrev i - (m1.REv *ᵥ ((d2.pos - o2) - m1.measPrev)) i.castSucc := by
    show (evPosObs p (evCorrect p R2 d2) s2 m1).1.innov i = _
    unfold evPosObs; rw [hg, hm1.1]; rfl
  have hdd : E *ᵥ ((d2.pos - o2) - (d1.pos - o1)) = (pos2 + o2 - o0 + e2) - (pos1 + o1 - o0 + e1) - E *ᵥ (o2 - o1) := by
    rw [hd1, hd2]
    have : Eᵀ *ᵥ (pos2 + o2 - o0 + e2) - o2 - (Eᵀ *ᵥ (pos1 + o1 - o0 + e1) - o1) =
        Eᵀ *ᵥ ((pos2 + o2 - o0 + e2) - (pos1 + o1 - o0 + e1)) - (o2 - o1) := by
      rw [Matrix.mulVec_sub]; abel
    show E *ᵥ (Eᵀ *ᵥ (pos2 + o2 - o0 + e2) - o2 - (Eᵀ *ᵥ (pos1 + o1 - o0 + e1) - o1)) = _
    rw [this, Matrix.mulVec_sub, Matrix.mulVec_mulVec, hE, Matrix.one_mulVec]
  rw [hr, hm1.2.1, hm1.2.2.1, hm1.2.2.2, hdd]
  simp only [Pi.add_apply, Pi.sub_apply]
  ring

/-- **C124 (position noise).** Variances along the EKF axes of the reported ones, at least (1 cm)², in odometry mode at least (0.5 m)². -/
theorem vision_position_noise (p : EvPar) (d : EvData) (s : Fin 2 → ℝ) (m : EvMem) (h : p.modeGps = true → m.prevOk = true) :
    let A : M3 ℝ := if p.rotate = true ∨ p.modeGps = true then m.REv else 1
    ∀ i : Fin 2, (evPosObs p d s m).2 i = max (∑ k, A i.castSucc k ^ 2 * d.posVar k) (if p.modeGps = true then 1 / 4 else 1 / 10000) := by
  intro A i
  have hq : ∀ B : M3 ℝ, ∀ j, (B * Matrix.diagonal d.posVar * Bᵀ) j j = ∑ k, B j k ^ 2 * d.posVar k := by
    intro B j
    rw [Matrix.mul_apply]
    refine Finset.sum_congr rfl fun k _ => ?_
    rw [Matrix.mul_diagonal, Matrix.transpose_apply]; ring
  have h1 : ∀ j : Fin 3, (Matrix.diagonal d.posVar) j j = ∑ k, (1 : M3 ℝ) j k ^ 2 * d.posVar k := by
    intro j
    rw [← hq 1 j]; simp
  unfold evPosObs
  show _ = max (∑ k, (if p.rotate = true ∨ p.modeGps = true then m.REv else 1 : M3 ℝ) i.castSucc k ^ 2 * d.posVar k) _
  have s2 : sq (1 / 2 : ℝ) = 1 / 4 := by unfold sq; norm_num
  have s3 : sq (1 / 100 : ℝ) = 1 / 10000 := by unfold sq; norm_num
  cases hg : p.modeGps
  · cases hr : p.rotate
    · show max (Matrix.diagonal d.posVar i.castSucc i.castSucc) (sq (1 / 100)) = _
      rw [s3, h1, if_neg (by simp), if_neg (by simp)]
    · show max ((m.REv * Matrix.diagonal d.posVar * m.REvᵀ) i.castSucc i.castSucc) (sq (1 / 100)) = _
      rw [s3, hq, if_pos (by simp), if_neg (by simp)]
  · rw [h hg]
    show max ((m.REv * Matrix.diagonal d.posVar * m.REvᵀ) i.castSucc i.castSucc) (sq (1 / 2)) = _
    rw [s2, hq, if_pos (by simp), if_pos rfl]

/-- **C124 (finding).** The innovation is formed before the timeout reset and fused after it: with the state just reset to the measurement `z` (variance
`v`, observation variance `r`), an old innovation inside the gate pushes it off the measurement again, by half of itself for `v = r`. -/
theorem vision_reset_stale (x : FixIn ℝ) (f : Filt) (z v r old : ℝ) (hP : Cov.Spec.PSD f.P) (hz : f.s 7 = z) (hv : f.P 7 7 = v) (hr : 0 < r) :
    (Fusion.Spec.directFusion x 7 (v + r) old f).1.s 7 - z = -(v / (v + r)) * old := by
  have h0 : 0 ≤ f.P 7 7 := diag_nonneg hP 7
  rw [hv] at h0
  have hS : 0 < v + r := by linarith
  rw [(directFusion_applied x 7 (v + r) old f hP hS (by rw [hv]; linarith)).2]
  unfold fuseState
  have : ¬ (7 : Fin N).val < 4 := by decide
  simp only [if_neg this]
  rw [hz, hv]; ring

/-- Non-vacuity: identity attitude, vision frame turned by 90° about the vertical, camera 1 m ahead: the lever arm residual does not vanish; for a camera below it does. -/
example : ∃ (E : M3 ℝ), E * Eᵀ = 1 ∧ Eᵀ * E = 1 ∧ E *ᵥ ![1, 0, 0] ≠ ![1, 0, 0] ∧ E *ᵥ ![0, 0, 1] = (![0, 0, 1] : V3 ℝ) := by
  refine ⟨!![0, -1, 0; 1, 0, 0; 0, 0, 1], ?_, ?_, fun h => ?_, ?_⟩
  · ext i j; fin_cases i <;> fin_cases j <;> simp [Matrix.mul_apply, Fin.sum_univ_three]
  · ext i j; fin_cases i <;> fin_cases j <;> simp [Matrix.mul_apply, Fin.sum_univ_three]
  · have := congrFun h 0
    simp [Matrix.mulVec, dotProduct, Fin.sum_univ_three] at this
  · funext i; fin_cases i <;> simp [Matrix.mulVec, dotProduct, Fin.sum_univ_three]

/-- Non-vacuity of the alignment theorems: two attitudes that differ by 180° of heading. -/
example : (⟨1, 0, 0, 0⟩ : Quat ℝ).normSq = 1 ∧ (⟨0, 0, 0, 1⟩ : Quat ℝ).normSq = 1 ∧ (⟨1, 0, 0, 0⟩ : Quat ℝ).dcm ≠ (⟨0, 0, 0, 1⟩ : Quat ℝ).dcm := by
  refine ⟨by simp [Quat.normSq], by simp [Quat.normSq], fun h => ?_⟩
  have := congrFun (congrFun h 0) 0
  simp [Quat.dcm] at this
  norm_num at this

/-- Non-vacuity of `vision_reset_stale`: unit covariance, observation variance 1, an old innovation of 2 m leaves 1 m. -/
example : Cov.Spec.PSD (exFilt).P ∧ (exFilt).P 7 7 = 1 := by
  refine ⟨idCov_psd, ?_⟩
  simp [exFilt, Filt.P]

/-- **C124 (position fusion).** A position sample is fused if and only if both innovations, formed with the horizontal position states, lie within the gate of at least one
standard deviation (the gate is never bypassed here); a rejected sample changes nothing but the rejection flag; an accepted one is fused as a direct observation of the north,
then of the east position, and refreshes the time stamp of the mode in use. In absolute mode without frame rotation the innovation is the position state minus the sample, reduced by the
lever arm. -/
theorem vision_position_fused (x : FixIn ℝ) (p : EvPar) (R : M3 ℝ) (d : EvData) (m : EvMem) (st : VPSt) :
    let r := evPosFuse x p R d m st
    let o := evPosObs p (evCorrect p R d) ![st.f.s 7, st.f.s 8] m
    let G := max p.posGate 1
    0 < st.f.P 7 7 + o.2 0 → 0 < st.f.P 8 8 + o.2 1 →
    (r.2.ret = true ↔ (r.1.innov 0) ^ 2 ≤ G ^ 2 * (st.f.P 7 7 + o.2 0) ∧ (r.1.innov 1) ^ 2 ≤ G ^ 2 * (st.f.P 8 8 + o.2 1)) ∧
    (r.2.ret = false → r.2.st = { st with rejHpos := true }) ∧
    (r.2.ret = true →
      r.2.st.f = (Fusion.Spec.directFusion x 8 (st.f.P 8 8 + o.2 1) (r.1.innov 1)
        (Fusion.Spec.directFusion x 7 (st.f.P 7 7 + o.2 0) (r.1.innov 0) st.f).1).1 ∧
      (r.1.asOdom = true → r.2.st.tDelpos = x.now ∧ r.2.st.tHpos = st.tHpos) ∧ (r.1.asOdom = false → r.2.st.tHpos = x.now ∧ r.2.st.tDelpos = st.tDelpos)) ∧
    (p.modeGps = false → p.rotate = false → ∀ i : Fin 2, r.1.innov i =
      st.f.s (if i = 0 then 7 else 8) - (d.pos - R *ᵥ (p.evBody - p.imuBody)) i.castSucc) := by
  intro r o G h7 h8
  have hG : (0 : ℝ) < G := lt_of_lt_of_le one_pos (le_max_right _ _)
  obtain ⟨a1, -, -, a4, a5⟩ := hpos_gate ⟨x, false, r.1.asOdom⟩ st (r.1.innov 0) (r.1.innov 1) G (o.2 0) (o.2 1) false hG h7 h8
  refine ⟨a1, fun h => ?_, fun h => ?_, fun hg hr i => ?_⟩
  · exact a4 h
  · have e := a5 h
    have e' : r.2.st = _ := e
    rw [e']
    refine ⟨rfl, fun ho => ?_, fun ho => ?_⟩
    · exact ⟨if_pos ho, if_pos ho⟩
    · exact ⟨if_neg (by rw [ho]; exact Bool.false_ne_true), if_neg (by rw [ho]; exact Bool.false_ne_true)⟩
  · show (evPosObs p (evCorrect p R d) ![st.f.s 7, st.f.s 8] m).1.innov i = _
    unfold evPosObs
    rw [hg, hr]
    fin_cases i <;> rfl

/-- Non-vacuity of `vision_position_fused`: unit covariance, a sample 1 m ahead of the state passes a 5-sigma gate and moves the state. -/
example : ∃ (p : EvPar) (d : EvData) (m : EvMem), p.modeGps = false ∧ p.rotate = false ∧
    0 < (exVP exFilt).f.P 7 7 + (evPosObs p (evCorrect p 1 d) ![(exVP exFilt).f.s 7, (exVP exFilt).f.s 8] m).2 0 ∧
    (evPosFuse ⟨fun _ => false, true, true, 1/100, 0, false⟩ p 1 d m (exVP exFilt)).2.ret = true := by
  have hd : ∀ i, (exVP exFilt).f.P i i = 1 := fun i => by simp [exVP, exFilt, Filt.P]
  refine ⟨⟨0, 0, false, false, true, 5, 3⟩, ⟨![1 + exFilt.s 7, exFilt.s 8, 0], fun _ => 1, 0, 1, .local, ⟨1, 0, 0, 0⟩⟩, ⟨1, 0, fun _ => 0, false, fun _ => 0, false⟩, rfl, rfl, ?_, ?_⟩
  · rw [hd]
    have : (0 : ℝ) ≤ (evPosObs (⟨0, 0, false, false, true, 5, 3⟩ : EvPar) (evCorrect ⟨0, 0, false, false, true, 5, 3⟩ 1 ⟨![1 + exFilt.s 7, exFilt.s 8, 0], fun _ => 1, 0, 1, .local, ⟨1, 0, 0, 0⟩⟩)
        ![(exVP exFilt).f.s 7, (exVP exFilt).f.s 8] ⟨1, 0, fun _ => 0, false, fun _ => 0, false⟩).2 0 := by
      unfold evPosObs
      refine le_trans ?_ (le_max_right _ _)
      unfold sq; positivity
    linarith
  · have h1 : ∀ i : Fin 2, (evPosObs (⟨0, 0, false, false, true, 5, 3⟩ : EvPar) (evCorrect ⟨0, 0, false, false, true, 5, 3⟩ 1 ⟨![1 + exFilt.s 7, exFilt.s 8, 0], fun _ => 1, 0, 1, .local, ⟨1, 0, 0, 0⟩⟩)
        ![(exVP exFilt).f.s 7, (exVP exFilt).f.s 8] ⟨1, 0, fun _ => 0, false, fun _ => 0, false⟩).2 i = 1 := by
      intro i
      rw [vision_position_noise _ _ _ _ (fun h => absurd h (by decide))]
      fin_cases i <;> norm_num [evCorrect, Fin.sum_univ_three, Matrix.one_apply]
    obtain ⟨a1, -, -, a4⟩ := vision_position_fused ⟨fun _ => false, true, true, 1/100, 0, false⟩ ⟨0, 0, false, false, true, 5, 3⟩ 1
      ⟨![1 + exFilt.s 7, exFilt.s 8, 0], fun _ => 1, 0, 1, .local, ⟨1, 0, 0, 0⟩⟩ ⟨1, 0, fun _ => 0, false, fun _ => 0, false⟩ (exVP exFilt)
      (by rw [h1, hd]; norm_num) (by rw [h1, hd]; norm_num)
    rw [a1, a4 rfl rfl, a4 rfl rfl, h1, h1, hd, hd]
    simp [exVP]
    norm_num

end Ecl.Meas
