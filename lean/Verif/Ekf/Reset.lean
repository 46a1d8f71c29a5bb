import Verif.Ekf.State
import Verif.Utils.Props

/-!
# State resets — EKF/ekf_helper.cpp
-/

namespace Ecl.Ekf

open Ecl.RingBuffer

variable {K : Type*} [Field K]

/-- replace / shift the horizontal or vertical part of a vector (`.xy()` and `(2)` of the vector library) -/
def setXY (v : V3 K) (h : Fin 2 → K) : V3 K := ![h 0, h 1, v 2]
def setZ (v : V3 K) (z : K) : V3 K := ![v 0, v 1, z]
def addXY (v : V3 K) (d : Fin 2 → K) : V3 K := ![v 0 + d 0, v 1 + d 1, v 2]
def addZ (v : V3 K) (d : K) : V3 K := ![v 0, v 1, v 2 + d]

/-- `resetHorizontalVelocityTo`, EKF/ekf_helper.cpp:137-150 -/
def Est.resetHorizontalVelocityTo (e : Est K) (newVel : Fin 2 → K) : Est K :=
  let delta : Fin 2 → K := ![newVel 0 - e.state.vel 0, newVel 1 - e.state.vel 1]
  { e with
    state := { e.state with vel := setXY e.state.vel newVel }
    outBuf := e.outBuf.mapAll fun o => { o with vel := addXY o.vel delta }
    outNew := { e.outNew with vel := addXY e.outNew.vel delta }
    reset := { e.reset with velNE := delta, velNECounter := e.reset.velNECounter + 1 } }

/-- `resetVerticalVelocityTo`, EKF/ekf_helper.cpp:152-168 -/
def Est.resetVerticalVelocityTo (e : Est K) (newVel : K) : Est K :=
  let delta := newVel - e.state.vel 2
  { e with
    state := { e.state with vel := setZ e.state.vel newVel }
    outBuf := e.outBuf.mapAll fun o => { o with vel := addZ o.vel delta }
    vertBuf := e.vertBuf.mapAll fun o => { o with vertVel := o.vertVel + delta }
    outNew := { e.outNew with vel := addZ e.outNew.vel delta }
    vertNew := { e.vertNew with vertVel := e.vertNew.vertVel + delta }
    reset := { e.reset with velD := delta, velDCounter := e.reset.velDCounter + 1 } }

/-- `resetVelocityTo`, EKF/ekf_helper.cpp:131-135 -/
def Est.resetVelocityTo (e : Est K) (v : V3 K) : Est K :=
  (e.resetHorizontalVelocityTo ![v 0, v 1]).resetVerticalVelocityTo (v 2)

/-- `resetHorizontalPositionTo`, EKF/ekf_helper.cpp:222-235 -/
def Est.resetHorizontalPositionTo (e : Est K) (newPos : Fin 2 → K) : Est K :=
  let delta : Fin 2 → K := ![newPos 0 - e.state.pos 0, newPos 1 - e.state.pos 1]
  { e with
    state := { e.state with pos := setXY e.state.pos newPos }
    outBuf := e.outBuf.mapAll fun o => { o with pos := addXY o.pos delta }
    outNew := { e.outNew with pos := addXY e.outNew.pos delta }
    reset := { e.reset with posNE := delta, posNECounter := e.reset.posNECounter + 1 } }

/-- `resetVerticalPositionTo`, EKF/ekf_helper.cpp:237-260 -/
def Est.resetVerticalPositionTo (e : Est K) (newPos : K) : Est K :=
  let delta := newPos - e.state.pos 2
  { e with
    state := { e.state with pos := setZ e.state.pos newPos }
    outBuf := e.outBuf.mapAll fun o => { o with pos := addZ o.pos delta }
    vertBuf := e.vertBuf.mapAll fun o => { o with vertVelInteg := o.vertVelInteg + delta }
    outNew := { e.outNew with pos := addZ e.outNew.pos delta }
    vertNew := { e.vertNew with vertVelInteg := newPos }
    reset := { e.reset with posD := delta, posDCounter := e.reset.posDCounter + 1 } }

/-- `getVelocity`, EKF/estimator_interface.h:177 -/
def Est.getVelocity (e : Est K) (velImuRelBody : V3 K) : V3 K := e.outNew.vel - velImuRelBody

open scoped Matrix in
/-- `getPosition`, EKF/estimator_interface.h:186-192 -/
def Est.getPosition (e : Est K) (rToEarthNow : M3 K) (imuPosBody : V3 K) : V3 K :=
  e.outNew.pos - rToEarthNow *ᵥ imuPosBody

/-- `alignOutputFilter`, EKF/ekf_helper.cpp:337-359.  The vector library's quaternion normalisation is a
parameter (`normalize`). -/
def Est.alignOutputFilter (normalize : Quat K → Quat K) (e : Est K) : Except UB (Est K) :=
  match e.outBuf.getOldest with
  | .error u => .error u
  | .ok d =>
    let qDelta := normalize (e.state.quat.mul d.data.quat.inversed)
    let velDelta := e.state.vel - d.data.vel
    let posDelta := e.state.pos - d.data.pos
    let b := e.outBuf.mapAll fun o =>
      { quat := normalize (qDelta.mul o.quat), vel := o.vel + velDelta, pos := o.pos + posDelta }
    match b.getNewest with
    | .error u => .error u
    | .ok n => .ok { e with outBuf := b, outNew := n.data }

section yaw

/-- state part of `resetQuatStateYaw`, EKF/ekf_helper.cpp:1549-1590 (the covariance part, :1566 and :1571-1573, is
modelled separately).  `ofDcm` is the vector library's conversion from matrix to quaternion, `normalize` its
quaternion normalisation. -/
noncomputable def Est.resetQuatStateYaw (ofDcm : M3 ℝ → Quat ℝ) (normalize : Quat ℝ → Quat ℝ) (e : Est ℝ) (yaw : ℝ)
    (updateBuffer : Bool) : Est ℝ :=
  let before := e.state.quat
  let after := ofDcm (Utils.updateYawInRotMat yaw before.dcm)
  let qError := normalize (after.mul before.inversed)
  { e with
    state := { e.state with quat := after }
    outBuf := if updateBuffer then e.outBuf.mapAll fun o => { o with quat := qError.mul o.quat } else e.outBuf
    outNew := if updateBuffer then { e.outNew with quat := qError.mul e.outNew.quat } else e.outNew
    reset := { e.reset with quat := qError, quatCounter := e.reset.quatCounter + 1 } }

end yaw

end Ecl.Ekf
