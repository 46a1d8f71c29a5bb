import Verif.Aid.Gps

/-!
# Optical flow, external vision, air data, drag, auxiliary velocity and fake position control, and the whole step

EKF/control.cpp:46-506, 1202-1357
-/

namespace Ecl.Aid

/-! ### Optical flow, EKF/control.cpp:342-506 -/

/-- `updateOnGroundMotionForOpticalFlowChecks`, `resetOnGroundMotionForOpticalFlowChecks`, EKF/control.cpp:344-351, 483-506 -/
def flowMotion (x : In) (s : St) : St :=
  if !x.inAir then
    if x.motionExcessive then { s with tBad := x.tDel } else { s with tGood := x.tDel }
  else
    { s with
      tBad := 0
      tGood := x.tDel }

/-- quality tests of a new sample, EKF/control.cpp:357-395 (the line of sight rate itself is in `Verif/Fusion`; the flag that
hands the sample to the terrain estimator is not modelled here) -/
def flowQuality (x : In) (s : St) : St :=
  if s.flowReady then
    if x.flowGood && x.flowComp then s
    else if !x.inAir && x.flowComp then s
    else { s with flowReady := false }
  else s

/-- `is_flow_required`, EKF/control.cpp:400-407 -/
def flowRequired (x : In) (s : St) : Bool :=
  x.inAir && (x.deadReckoning || (s.aid x).isOnly s.optFlow || (s.gps && (if s.optFlow then x.gpsErr07 else x.gpsErr10)))

/-- `_inhibit_flow_use`, EKF/control.cpp:410-418 -/
def flowInhibit (x : In) (s : St) : Bool :=
  let preflight := !x.inAir && (!decide (x.tDel ≤ s.tGood + 100000) || !decide (s.tBad + 5000000 ≤ x.tDel))
  let flight := x.inAir && !x.terrainValid
  ((preflight || flight) && !flowRequired x s) || !s.tilt

/-- `stopFlowFusion`, EKF/ekf_helper.cpp:1541-1547 -/
def stopFlow (s : St) : St := { s with optFlow := false }

/-- start of flow fusion, EKF/control.cpp:430-456 -/
def flowStart (x : In) (s : St) : St :=
  if x.useOf && !s.optFlow && !s.flowInh then
    let s :=
      if !s.yawAlign then
        let r := resetMagHeading x s
        { r.1 with yawAlign := r.2 }
      else s
    if s.yawAlign then
      let s :=
        { s with
          optFlow := true
          tOf := x.now }
      if !(s.aid x).isOther s.optFlow then resetPos x (resetVel x s) else s
    else s
  else s

/-- fusion and reset, EKF/control.cpp:458-478 -/
def flowUse (x : In) (s : St) : St :=
  if s.optFlow then
    let s :=
      if x.flowMid then
        let s := if isRecent x.now x.tHagl 10000000 then (if x.flowOk then { s.act .fuseFlow with tOf := x.now } else s.act .fuseFlow)
                 else s
        { s with flowReady := false }
      else s
    if isTimedOut x.now s.tOf x.resetTimeout && !(s.aid x).isOther s.optFlow then resetPos x (resetVel x s) else s
  else s

/-- `controlOpticalFlowFusion`, EKF/control.cpp:342-481 -/
def controlFlow (x : In) (s : St) : St :=
  let s := flowQuality x (flowMotion x s)
  if s.flowReady then
    let s := { s with flowInh := flowInhibit x s }
    if s.optFlow && (!x.useOf || s.flowInh) then stopFlow s
    else flowUse x (flowStart x s)
  else if s.optFlow && !decide (x.tDel ≤ x.tFlow + 10000000) then stopFlow s
  else s

/-! ### External vision, EKF/control.cpp:188-340 -/

/-- `startEvPosFusion`, `startEvVelFusion`, EKF/ekf_helper.cpp:1468-1482, and the conditions, EKF/control.cpp:199-215 -/
def evStart (x : In) (s : St) : St :=
  if s.tilt && s.yawAlign then
    if isRecent x.now x.tEv 400000 then
      let s := if x.useEvPos && !s.evPos then (resetPos x { s with evPos := true }).evt .startingEvPos else s
      if x.useEvVel && !s.evVel then (resetVel x { s with evVel := true }).evt .startingEvVel else s
    else s
  else s

/-- `startEvYawFusion`, EKF/ekf_helper.cpp:1484-1505 -/
def startEvYaw (s : St) : St :=
  let s :=
    { s.act (.yawReset .vision) with
      yawAlign := true
      evYaw := true
      magDec := false }
  (stopMag3D (stopMagHdg s)).evt .startingEvYaw

/-- start of vision yaw, EKF/control.cpp:217-223 -/
def evYawStart (x : In) (s : St) : St :=
  if !s.gps && x.useEvYaw && !s.evYaw && s.tilt then
    if isRecent x.now x.tEv 400000 then startEvYaw s else s
  else s

/-- vision position, EKF/control.cpp:227-299 -/
def evPosUse (x : In) (s : St) : St :=
  if s.evPos then
    let s := { s with hposOdom := x.useGps }
    if s.hposOdom then
      if !s.hposPrev then fusePos x .unset x.evPosOk { s with hposPrev := true }
      else fusePos x .visionDelta x.evPosOk s
    else
      let s :=
        if isTimedOut x.now s.tPos x.resetTimeout then
          resetPos x (if isTimedOut x.now s.tOf 1000000 && isTimedOut x.now s.tVel 1000000 then resetVel x s else s)
        else s
      fusePos x .visionAbs x.evPosOk s
  else s

/-- vision velocity, EKF/control.cpp:301-324 -/
def evVelUse (x : In) (s : St) : St :=
  if s.evVel then
    let s :=
      if isTimedOut x.now s.tVel x.resetTimeout then
        (if isTimedOut x.now s.tOf 1000000 && isTimedOut x.now s.tPos 1000000 then resetVel x s else s)
      else s
    (fuseVelHor x x.evVelOk s).act .fuseVelVert
  else s

/-- `stopEvFusion`, EKF/ekf_helper.cpp:1507-1532 -/
def stopEv (s : St) : St :=
  { s with
    evPos := false
    evVel := false
    evYaw := false }

/-- `controlExternalVisionFusion`, EKF/control.cpp:188-340 -/
def controlEv (x : In) (s : St) : St :=
  if x.evReady then
    let s := evVelUse x (evPosUse x (evYawStart x (evStart x s)))
    if s.evYaw then s.act .fuseHeading else s
  else if (s.evPos || s.evVel || s.evYaw) && isTimedOut x.now x.tEv x.resetTimeout then (stopEv s).evt .visionStopped
  else s

/-! ### Air data, EKF/control.cpp:1202-1280 -/

/-- `controlAirDataFusion`, EKF/control.cpp:1202-1235, with the bookkeeping of `fuseAirspeed`, EKF/airspeed_fusion.cpp:158-163 -/
def controlAir (x : In) (s : St) : St :=
  let arspOut := isTimedOut x.now s.tArsp 10000000
  let betaOut := isTimedOut x.now s.tBeta 10000000
  let s := if s.wind && (s.synth || (arspOut && betaOut && !x.useDrag)) then { s with wind := false } else s
  let s := if s.fuseAspd && arspOut then { s with fuseAspd := false } else s
  if !s.synth && x.tasReady && x.inAir then
    let s := if !s.wind then { s.act .windReset with wind := true, tArsp := x.now } else s
    if x.arspOk then { s.act .fuseAirspeed with tArsp := x.now, fuseAspd := true } else s.act .fuseAirspeed
  else s

/-- `controlBetaFusion`, EKF/control.cpp:1237-1262, with the bookkeeping of `fuseSideslip`, EKF/sideslip_fusion.cpp:210-212 -/
def controlBeta (x : In) (s : St) : St :=
  if s.synth then s
  else if isTimedOut x.now s.tBeta x.betaAvg && x.fuseBeta && x.inAir then
    let s := if !s.wind then { s.act .windReset with wind := true, tBeta := x.now } else s
    if x.betaOk then { s.act .fuseBeta with tBeta := x.now } else s.act .fuseBeta
  else s

/-- `controlDragFusion`, EKF/control.cpp:1264-1280 -/
def controlDrag (x : In) (s : St) : St :=
  if x.useDrag && !s.synth && x.inAir && !s.magInhReq then
    if !s.wind then { s.act .windReset with wind := true }
    else if x.dragReady then s.act .fuseDrag
    else s
  else s

/-! ### Auxiliary velocity and fake position, EKF/control.cpp:1282-1357 -/

/-- `controlAuxVelFusion`, EKF/control.cpp:1337-1357 -/
def controlAux (x : In) (s : St) : St := if x.auxReady && (s.aid x).active then fuseVelHor x x.auxOk s else s

/-- `controlFakePosFusion`, EKF/control.cpp:1282-1335 -/
def controlFake (x : In) (s : St) : St :=
  if !(s.aid x).active && !(s.fuseAspd && x.fuseBeta) then
    let s := { s with synth := true }
    if isTimedOut x.now s.tFake 200000 then
      let s :=
        if isTimedOut x.now s.tFake 400000 then
          let s : St := { resetVel x (resetPos x s) with hposOdom := false }
          if s.tFake = 0 then s else s.evt .stoppingNavigation
        else s
      let s := { s with tFake := x.now }
      fusePos x (if x.inAir && s.tilt then .noaid else if x.atRest then .rest else .motion) x.fakeOk s
    else s
  else { s with synth := false }

/-! ### One filter step -/

/-- requests that arrive between two steps: `requestEmergencyNavReset` (EKF/ekf.h:307) and a new origin
(EKF/gps_checks.cpp:94-104) or the first declination from a rough fix (EKF/gps_checks.cpp:132-137) -/
def requests (x : In) (s : St) : St :=
  let s := if x.emergencyReq then { s with doGsf := true } else s
  if x.originSet then
    if x.magType = 5 then
      { s with
        doGsf := true
        gsfTime := 0 }
    else if !x.declKnown then { s with magYawReq := true }
    else s
  else if x.roughFix then
    if x.magType ≠ 5 ∧ x.declKnown = false then { s with magYawReq := true } else s
  else s

/-- tilt alignment, EKF/control.cpp:51-63 -/
def tiltAlign (x : In) (s : St) : St :=
  if !s.tilt && x.tiltConverged then
    let r := resetMagHeading x { s with tilt := true }
    { r.1 with yawAlign := r.2 }
  else s

/-- arrival of flow samples, EKF/control.cpp:147-151 -/
def flowArrival (x : In) (s : St) : St := if !s.flowReady || !s.optFlow then { s with flowReady := x.flowPop } else s

/-- `controlFusionModes`, EKF/control.cpp:46-186, without the height control (`Verif/Control/Height.lean`) and the
dead-reckoning status (`Verif/Status`) -/
def step (x : In) (s : St) : St :=
  let s := { s with log := [], evts := [] }
  let s := flowArrival x (tiltAlign x (requests x s))
  let s := controlGps x (controlFlow x (controlMag x s))
  let s := controlDrag x (controlBeta x (controlAir x s))
  controlFake x (controlAux x (controlEv x s))

/-- a history of steps -/
def run : St → List In → St
  | s, [] => s
  | s, x :: xs => run (step x s) xs

/-- the states after each step of a history -/
def trace : St → List In → List St
  | _, [] => []
  | s, x :: xs => step x s :: trace (step x s) xs

end Ecl.Aid
