import Verif.Ekf.Predict

/-!
# Output predictor — EKF/ekf.cpp:321-541
-/

noncomputable section

namespace Ecl.Ekf

open Ecl.ImuDownSampler (ImuSample AxisAngleLib normalize)
open Ecl.RingBuffer
open scoped Matrix

/-- members written by `calculateOutputStates` -/
structure Out where
  outBuf : RB (OutData ℝ)
  vertBuf : RB (VertData ℝ)
  outNew : Sample (OutData ℝ)
  vertNew : Sample (VertData ℝ)
  rNow : M3 ℝ
  dAngCorr : V3 ℝ
  yawDelta : ℝ
  yawRateLpf : ℝ
  velDeriv : V3 ℝ
  velImuRel : V3 ℝ
  velErrInteg : V3 ℝ
  posErrInteg : V3 ℝ
  trackErr : V3 ℝ

/-- inputs of `calculateOutputStates`: EKF state, averaged intervals, delayed IMU time, `_imu_updated`, parameters -/
structure OutIn where
  state : State ℝ
  dtImuAvg : ℝ
  dtEkfAvg : ℝ
  delayedTime : UInt64
  imuUpdated : Bool
  velTau : ℝ
  posTau : ℝ
  imuPosBody : V3 ℝ

/-- cross product (`operator%` of the vector library) -/
def cross3 (a b : V3 ℝ) : V3 ℝ := ![a 1 * b 2 - a 2 * b 1, a 2 * b 0 - a 0 * b 2, a 0 * b 1 - a 1 * b 0]

/-- high-rate strap-down part, EKF/ekf.cpp:321-394 -/
def Out.ins (L : AxisAngleLib) (i : OutIn) (imu : ImuSample) (o : Out) : Out :=
  let scale := i.dtImuAvg / i.dtEkfAvg
  let dAng : V3 ℝ := imu.deltaAng - scale • i.state.dAngBias + o.dAngCorr
  let spin := dAng 0 * o.rNow 2 0 + dAng 1 * o.rNow 2 1 + dAng 2 * o.rNow 2 2
  let dq := L.exp dAng
  let quat := normalize (o.outNew.data.quat.mul dq)
  let R := quat.dcm
  let dVelBody : V3 ℝ := imu.deltaVel - scale • i.state.dVelBias
  let dv := R *ᵥ dVelBody
  let dv : V3 ℝ := ![dv 0, dv 1, dv 2 + oneG * imu.deltaVelDt]
  let vel := o.outNew.data.vel + dv
  let dPos := (imu.deltaVelDt * (1 / 2)) • (vel + o.outNew.data.vel)
  { o with
    outNew := ⟨imu.timeUs, quat, vel, o.outNew.data.pos + dPos⟩
    vertNew := ⟨o.vertNew.time_us, o.vertNew.data.vertVel + dv 2, o.vertNew.data.vertVelInteg + dPos 2,
      o.vertNew.data.dt + imu.deltaVelDt⟩
    rNow := R
    yawDelta := o.yawDelta + spin
    yawRateLpf := 95 / 100 * o.yawRateLpf + 5 / 100 * spin / imu.deltaAngDt
    velDeriv := if imu.deltaVelDt > 1 / 10000 then (1 / imu.deltaVelDt) • dv else o.velDeriv
    velImuRel := if imu.deltaAngDt > 1 / 10000 then R *ᵥ cross3 ((1 / imu.deltaAngDt) • imu.deltaAng) i.imuPosBody
      else o.velImuRel }

/-- loop of `applyCorrectionToVerticalOutputBuffer`, EKF/ekf.cpp:483-501: list of slots, capacity, correction, current
counter and index, remaining iterations -/
def vertLoop (size : ℕ) (c : ℝ) (l : List (Sample (VertData ℝ))) (counter index : ℕ) :
    ℕ → Except UB (List (Sample (VertData ℝ)))
  | 0 => .ok l
  | n + 1 =>
    let next := (index + 1) % size
    match l[index]?, l[next]? with
    | some cur, some nxt =>
      let cur : Sample (VertData ℝ) :=
        if counter == 0 then ⟨cur.time_us, { cur.data with vertVel := cur.data.vertVel + c }⟩ else cur
      let v := nxt.data.vertVel + c
      let nxt : Sample (VertData ℝ) := ⟨nxt.time_us, v, cur.data.vertVelInteg + (cur.data.vertVel + v) * (1 / 2) * nxt.data.dt,
        nxt.data.dt⟩
      vertLoop size c ((l.set index cur).set next nxt) (counter + 1) next n
    | _, _ => .error .outOfBounds

/-- `applyCorrectionToVerticalOutputBuffer`, EKF/ekf.cpp:474-508; result: buffer and new `_output_vert_new` -/
def applyVert (b : RB (VertData ℝ)) (c : ℝ) : Except UB (RB (VertData ℝ) × Sample (VertData ℝ)) :=
  match b.buffer with
  | none => .error .nullDeref
  | some l =>
    match vertLoop b.size c l 0 b.tail (b.size - 1) with
    | .error u => .error u
    | .ok l' =>
      match ({ b with buffer := some l' } : RB (VertData ℝ)).getNewest with
      | .error u => .error u
      | .ok n => .ok ({ b with buffer := some l' }, ⟨n.time_us, { n.data with dt := 0 }⟩)

/-- `applyCorrectionToOutputBuffer`, EKF/ekf.cpp:515-528 -/
def applyOut (b : RB (OutData ℝ)) (dv dp : V3 ℝ) : Except UB (RB (OutData ℝ) × Sample (OutData ℝ)) :=
  let b := b.mapAll fun o => { o with vel := o.vel + dv, pos := o.pos + dp }
  match b.getNewest with
  | .error u => .error u
  | .ok n => .ok (b, n)

/-- attitude correction, EKF/ekf.cpp:409-424: result is (delta angle error, correction) -/
def attCorrection (i : OutIn) (imuTime : UInt64) (delayed : Quat ℝ) : V3 ℝ × V3 ℝ :=
  let q := normalize (i.state.quat.inversed.mul delayed)
  let scalar : ℝ := if q.w ≥ 0 then -2 else 2
  let err : V3 ℝ := ![scalar * q.x, scalar * q.y, scalar * q.z]
  let delay := max (((imuTime - i.delayedTime).toNat : ℝ) * (1 / 1000000)) i.dtImuAvg
  let gain := 1 / 2 * i.dtImuAvg / delay
  (err, gain • err)

/-- complementary filter gain, EKF/ekf.cpp:434-435 -/
def trackGain (dtEkfAvg tau : ℝ) : ℝ := dtEkfAvg / constrain tau dtEkfAvg 10

/-- correction part (run when `_imu_updated`), EKF/ekf.cpp:396-465 -/
def Out.correct (i : OutIn) (imu : ImuSample) (o : Out) : Except UB Out := do
  let outBuf ← o.outBuf.push o.outNew
  let vertBuf ← o.vertBuf.push o.vertNew
  let od ← outBuf.getOldest
  let vd ← vertBuf.getOldest
  let att := attCorrection i imu.timeUs od.data.quat
  let velGain := trackGain i.dtEkfAvg i.velTau
  let posGain := trackGain i.dtEkfAvg i.posTau
  let vertCorr := (i.state.pos 2 - vd.data.vertVelInteg) * posGain + (i.state.vel 2 - vd.data.vertVel) * velGain * (11 / 10)
  let rv ← applyVert vertBuf vertCorr
  let velErr := i.state.vel - od.data.vel
  let posErr := i.state.pos - od.data.pos
  let velInteg := o.velErrInteg + velErr
  let posInteg := o.posErrInteg + posErr
  let velCorr := velGain • velErr + (sq velGain * (1 / 10)) • velInteg
  let posCorr := posGain • posErr + (sq posGain * (1 / 10)) • posInteg
  let ro ← applyOut outBuf velCorr posCorr
  return { o with
    outBuf := ro.1, outNew := ro.2, vertBuf := rv.1, vertNew := rv.2, dAngCorr := att.2
    velErrInteg := velInteg, posErrInteg := posInteg
    trackErr := ![norm3 att.1, norm3 velErr, norm3 posErr] }

/-- `Ekf::calculateOutputStates`, EKF/ekf.cpp:321-466 -/
def Out.calculate (L : AxisAngleLib) (i : OutIn) (imu : ImuSample) (o : Out) : Except UB Out :=
  let o := o.ins L i imu
  if i.imuUpdated then o.correct i imu else .ok o

/-- `Ekf::calculate_quaternion`, EKF/ekf.cpp:533-541 -/
def Out.calculateQuaternion (L : AxisAngleLib) (i : OutIn) (imu : ImuSample) (o : Out) : Quat ℝ :=
  normalize (o.outNew.data.quat.mul (L.exp (imu.deltaAng - (i.dtImuAvg / i.dtEkfAvg) • i.state.dAngBias + o.dAngCorr)))

end Ecl.Ekf
