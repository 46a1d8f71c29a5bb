import Verif.Aid.Mag

/-!
# GPS aiding control — EKF/control.cpp:508-771
-/

namespace Ecl.Aid

/-- `startGpsFusion`, EKF/ekf_helper.cpp:1417-1430 -/
def startGps (s : St) : St :=
  let s := s.act (.posReset .gps)
  let s := if !s.optFlow then s.act (.velReset .gps) else s
  { s.evt .startingGps with gps := true }

/-- `stopGpsFusion`, EKF/ekf_helper.cpp:1432-1466; its effect on `gps_hgt` belongs to `Verif/Control/Height.lean` -/
def stopGps (s : St) : St :=
  { s with
    gps := false
    gpsYaw := false }

/-- `startGpsYawFusion`, EKF/ekf_helper.cpp:1454-1461 -/
def startGpsYaw (s : St) : St :=
  let s :=
    { s with
      magDec := false
      evYaw := false }
  { stopMag3D (stopMagHdg s) with gpsYaw := true }

/-- first part of `controlGpsYawFusion`, EKF/control.cpp:745-760, with `resetYawToGps`, EKF/gps_yaw_fusion.cpp:197-217, and
the time bookkeeping of `fuseGpsYaw`, EKF/gps_yaw_fusion.cpp:193 -/
def gpsYawUse (x : In) (s : St) : St :=
  if x.gpsYawFinite then
    if s.gpsYaw then (if x.gpsYawOk then { s.act .fuseGpsYaw with tGpsYaw := x.now } else s.act .fuseGpsYaw)
    else if s.tilt && !x.gpsIntermittent then
      if x.antennaOk then
        startGpsYaw { s.act (.yawReset .gpsAntenna) with tGpsYaw := x.now, yawAlign := true }
      else s
    else s
  else s

/-- `controlGpsYawFusion`, EKF/control.cpp:736-771 -/
def controlGpsYaw (x : In) (s : St) : St :=
  if !x.useGpsYaw || s.gpsYawFaulty then { s with gpsYaw := false }
  else
    let s := gpsYawUse x s
    if s.gpsYaw && isTimedOut x.now s.tGpsYaw 5000000 then
      { s with
        gpsYawFaulty := true
        gpsYaw := false }
    else s

/-- heading reset before GPS aiding starts, EKF/control.cpp:525-541 -/
def gpsHeading (x : In) (s : St) : St :=
  if (!s.yawAlign || s.evYaw || s.magInhReq) && canResetMagHeading x s then
    let r := resetMagHeading x { s with evYaw := false }
    let s := { r.1 with yawAlign := r.2 }
    if s.magInhReq then { s.act .gyroBiasCov with magInhReq := false } else s
  else s

/-- start of GPS aiding, EKF/control.cpp:519-552 -/
def gpsStart (x : In) (s : St) : St :=
  if x.useGps && !s.gps then
    if s.tilt && x.nedInit && isTimedOut x.now x.lastFail 5000000 then
      let s := gpsHeading x s
      if s.yawAlign then startGps s else s
    else s
  else if !x.useGps then { s with gps := false }
  else s

/-- failing checks with an alternative source, EKF/control.cpp:554-563 -/
def gpsFailing (x : In) (s : St) : St :=
  if s.gps && isTimedOut x.now x.lastPass 5000000 && (s.aid x).isOther s.gps then
    let s := stopGps s
    let s := if s.evPos && !x.rotateEv then resetPos x s else s
    s.evt .gpsQualityPoor
  else s

/-- yaw alignment from the yaw estimator before GPS aiding, EKF/control.cpp:565-573 -/
def gsfAlign (x : In) (s : St) : St :=
  if !s.gps && s.doGsf && isTimedOut x.now s.gsfTime 5000000 then
    let r := resetYawToGsf x s
    if r.2 then
      { r.1 with
        gsfTime := x.now
        doGsf := false }
    else r.1
  else s

/-- `do_vel_pos_reset`, EKF/control.cpp:577-586 -/
def needVelPosReset (x : In) (s : St) : Bool :=
  (isTimedOut x.now s.tPos x.resetTimeout && isTimedOut x.now s.tDelpos x.resetTimeout &&
    isTimedOut x.now s.tVel x.resetTimeout && isTimedOut x.now s.tOf x.resetTimeout) ||
  isTimedOut x.now s.tPos (2 * x.resetTimeout)

/-- `is_yaw_failure`, EKF/control.cpp:605-638 -/
def yawFailure (x : In) (s : St) : Bool :=
  let recent := x.inAir && !isTimedOut x.now x.tGround 30000000 && isTimedOut x.now s.tVel x.gsfDelay &&
    !decide (s.tVel ≤ x.tGround)
  let inflight := x.inAir && needVelPosReset x s && !decide (s.tVel ≤ x.tGround) && !decide (s.tPos ≤ x.tGround)
  (recent || inflight) && !decide (s.tVel ≤ 0) && x.velAngleBad

/-- `do_yaw_vel_pos_reset`, EKF/control.cpp:640-645 -/
def needGsfReset (x : In) (s : St) : Bool :=
  (s.doGsf || yawFailure x s) && decide (s.gsfCount.toNat < x.countLimit) && isTimedOut x.now s.gsfTime 5000000 &&
    !isTimedOut x.now x.tPrevGps 1000000

/-- counted yaw reset, EKF/control.cpp:647-659 -/
def gsfReset (x : In) (s : St) : St :=
  let r := resetYawToGsf x s
  if r.2 then
    { r.1 with
      gsfTime := x.now
      doGsf := false
      gsfCount := r.1.gsfCount + 1
      tPos := x.now
      tDelpos := x.now
      tVel := x.now
      tOf := x.now }
  else r.1

/-- reset to GPS, EKF/control.cpp:661-676 -/
def gpsTimeoutReset (x : In) (s : St) : St :=
  let s :=
    if x.fixedWing && x.inAir then
      let r := realignYawGps x s
      { r.1 with magAligned := r.2 }
    else s
  { (resetPos x (resetVel x s)).evt .gpsTimeout with
    velposReq := false
    tPos := x.now
    tVel := x.now }

/-- handling of long periods without fusion, EKF/control.cpp:575-678 -/
def gpsResets (x : In) (s : St) : St :=
  if s.gps then
    if needGsfReset x s then gsfReset x s
    else if needVelPosReset x s then gpsTimeoutReset x s
    else s
  else s

/-- fusion of GPS velocity and position, EKF/control.cpp:680-725 -/
def gpsFuse (x : In) (s : St) : St :=
  if s.gps then
    let v := if (s.aid x).isOther s.gps then PosVar.gpsFree else PosVar.gpsBounded
    fusePos x v x.gpsPosOk ((fuseVelHor x x.gpsVelOk s).act .fuseVelVert)
  else s

/-- `controlGpsFusion`, EKF/control.cpp:508-740 -/
def controlGps (x : In) (s : St) : St :=
  if x.gpsReady then gpsFuse x (gpsResets x (gsfAlign x (gpsFailing x (gpsStart x (controlGpsYaw x s)))))
  else if s.gps && elapsed x.tDel x.tGps 10000000 then (stopGps s).evt .gpsDataStopped
  else if s.gps && elapsed x.tDel x.tGps 1000000 && (s.aid x).isOther s.gps then (stopGps s).evt .gpsDataStoppedAlt
  else s

end Ecl.Aid
