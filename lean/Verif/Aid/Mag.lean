import Verif.Aid.State

/-!
# Magnetometer fusion control — EKF/mag_control.cpp
-/

namespace Ecl.Aid

/-- `noOtherYawAidingThanMag`, EKF/mag_control.cpp:120-124 -/
def noOther (s : St) : Bool := !s.evYaw && !s.gpsYaw

/-- `otherHeadingSourcesHaveStopped`, EKF/mag_control.cpp:332-340, and the update of the reset request, line 79 -/
def otherStopped (s : St) : St :=
  { s with
    magYawReq := s.magYawReq || (noOther s && s.nonMagPrev)
    nonMagPrev := !noOther s }

/-- `checkHaglYawResetReq`, EKF/mag_control.cpp:126-137 -/
def checkHagl (x : In) (s : St) : St := if !s.magAligned then { s with magYawReq := s.magYawReq || x.aboveMag } else s

/-- `runOnGroundYawReset`, EKF/mag_control.cpp:139-148 -/
def groundYawReset (x : In) (s : St) : St :=
  if s.magYawReq && !s.inhibited then
    let r := if canResetMagHeading x s then resetMagHeading x s else (s, false)
    { r.1 with magYawReq := !r.2 }
  else s

/-- `runInAirYawReset`, EKF/mag_control.cpp:155-167; `canRealignYawUsingGps` is `fixed_wing`, EKF/ekf.h -/
def airYawReset (x : In) (s : St) : St :=
  if s.magYawReq && !s.inhibited then
    let r :=
      if x.fixedWing then realignYawGps x s
      else if canResetMagHeading x s then resetMagHeading x s
      else (s, false)
    { r.1 with
      magYawReq := !r.2
      magAligned := r.2 }
  else s

/-- `runVelPosReset`, EKF/mag_control.cpp:169-176 -/
def velPosReset (x : In) (s : St) : St :=
  if s.velposReq then { resetPos x (resetVel x s) with velposReq := false } else s

/-- `check3DMagFusionSuitability` with `checkYawAngleObservability` and `checkMagBiasObservability`,
EKF/mag_control.cpp:184-223 -/
def check3D (x : In) (s : St) : St :=
  let yawObs := (if s.yawObs then x.accKeep else x.accStart) && (s.gps || s.evPos)
  let biasObs := if !s.biasObs && x.yawRateBig then true else if s.biasObs then x.yawDeltaBig else s.biasObs
  let s :=
    { s with
      yawObs := yawObs
      biasObs := biasObs
      tYaw := x.tDel }
  if biasObs || yawObs then { s with tMov := x.tDel } else s

/-- `canUse3DMagFusion`, EKF/mag_control.cpp:225-231 (`tDel - tMov < 2e6` on unsigned values, written as the negation of
`2e6 ≤ tDel - tMov`) -/
def canUse3D (x : In) (s : St) : Bool := s.magAligned && !decide (2000000 ≤ x.tDel - s.tMov)

/-- `selectMagAuto`, EKF/mag_control.cpp:178-182 -/
def selectMagAuto (x : In) (s : St) : St :=
  let s := check3D x s
  if canUse3D x s then startMag3D s else startMagHdg s

/-- mode selection, EKF/mag_control.cpp:94-112 -/
def selectMode (x : In) (s : St) : St :=
  if x.magType = 0 then selectMagAuto x s
  else if x.magType = 4 ∨ x.magType = 1 then startMagHdg s
  else if x.magType = 2 then startMag3D s
  else selectMagAuto x s

/-- `checkMagDeclRequired`, EKF/mag_control.cpp:233-242 -/
def checkDecl (x : In) (s : St) : St := { s with magDec := s.mag3D && (!s.gps || x.userDecl) }

/-- `shouldInhibitMag`, EKF/mag_control.cpp:257-272 -/
def shouldInhibit (x : In) (s : St) : Bool := (decide (x.magType = 4) && (!s.gps && !s.evPos && !s.evVel)) || s.magDist

/-- `checkMagInhibition`, EKF/mag_control.cpp:244-255; the difference of the times is cut to 32 bits as in the code -/
def checkInhibition (x : In) (s : St) : St :=
  let s := { s with inhibited := shouldInhibit x s }
  let s := if !s.inhibited then { s with tNotInh := x.tDel } else s
  if !decide ((x.tDel - s.tNotInh).toUInt32 ≤ 5000000) then { s with magInhReq := true } else s

/-- `runMagAndMagDeclFusions`, `run3DMagAndDeclFusions`, EKF/mag_control.cpp:303-330 -/
def runMagFusions (s : St) : St :=
  if s.mag3D then
    if !s.declCovReset then ({ s.act (.fuseDecl 2) with declCovReset := true }).act .fuseMag
    else
      let s := s.act .fuseMag
      if s.magDec then s.act (.fuseDecl 50) else s
  else if s.magHdg then s.act .fuseHeading
  else s

/-- the part of `controlMagFusion` that runs with new data and no other yaw source, EKF/mag_control.cpp:82-117 -/
def magWithData (x : In) (s : St) : St :=
  let s := if x.inAir then velPosReset x (airYawReset x (checkHagl x s)) else groundYawReset x s
  runMagFusions (checkInhibition x (checkDecl x (selectMode x s)))

/-- field strength flag and on-ground reset of the flight alignment, EKF/mag_control.cpp:64-72 -/
def magPrepare (x : In) (s : St) : St :=
  let s := { s with magDist := x.disturbed }
  if !x.inAir then { s with magAligned := false, nBad := 0 } else s

/-- `controlMagFusion` for a usable magnetometer type, EKF/mag_control.cpp:64-118 -/
def magMain (x : In) (s : St) : St :=
  let s := magPrepare x s
  if s.magFault || !s.yawAlign then stopMag s
  else
    let s := otherStopped s
    if noOther s && x.magReady then magWithData x s else s

/-- `controlMagFusion`, EKF/mag_control.cpp:43-118 -/
def controlMag (x : In) (s : St) : St :=
  if x.magType > 5 then s
  else if x.magType = 5 then (if noOther s then { s with inhibited := true }.act .fuseHeading else s)
  else magMain x s

end Ecl.Aid
