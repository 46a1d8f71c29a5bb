import Verif.Basic.Time
import Verif.Cov.Init

/-!
# Height source control — EKF/control.cpp:773-892, 958-1171, EKF/ekf_helper.cpp:258-333, 1171-1205, 1244-1295, 1438-1445

Numbers are exact. The estimator state enters through the vertical position and velocity and their variances. Buffered
samples are inputs of each step.
-/

namespace Ecl.Control

open Ecl.Cov

/-- the four height source flags of `_control_status` -/
structure HFlags where
  baro : Bool
  gps : Bool
  rng : Bool
  ev : Bool
  deriving DecidableEq

/-- `setControlBaroHeight`, EKF/ekf_helper.cpp:1171-1178 -/
def HFlags.setBaro (_ : HFlags) : HFlags := { baro := true, gps := false, rng := false, ev := false }
/-- `setControlRangeHeight`, EKF/ekf_helper.cpp:1180-1187 -/
def HFlags.setRange (_ : HFlags) : HFlags := { rng := true, baro := false, gps := false, ev := false }
/-- `setControlGPSHeight`, EKF/ekf_helper.cpp:1189-1196 -/
def HFlags.setGps (_ : HFlags) : HFlags := { gps := true, baro := false, rng := false, ev := false }
/-- `setControlEVHeight`, EKF/ekf_helper.cpp:1198-1205 -/
def HFlags.setEv (_ : HFlags) : HFlags := { ev := true, baro := false, gps := false, rng := false }

/-- what one filter step reads -/
structure HIn where
  /-- `_params.vdist_sensor_type`: 0 baro, 1 GPS, 2 range, 3 vision -/
  vdist : Int
  /-- `_params.range_aid` -/
  rangeAid : Int
  /-- `_time_last_imu` -/
  now : UInt64
  /-- height flags of `_control_status_prev` -/
  prev : HFlags
  /-- `_control_status.flags.gps`, `in_air` -/
  gpsAid : Bool
  inAir : Bool
  baroReady : Bool
  gpsReady : Bool
  gpsIntermittent : Bool
  gpsChecksPassed : Bool
  /-- `_range_sensor.isDataHealthy()`, `isHealthy()`, `isRegularlySendingData()` -/
  rngDataHealthy : Bool
  rngHealthy : Bool
  rngRegular : Bool
  /-- `isRangeAidSuitable()` -/
  rngAidSuitable : Bool
  /-- `isTerrainEstimateValid()`, `_terrain_vpos` -/
  terrainValid : Bool
  terrainVpos : ℝ
  /-- `_range_sensor.getDistBottom()` before a synthesised measurement -/
  dist : ℝ
  /-- `_range_sensor.getCosTilt()`, used when the measurement is synthesised -/
  cosTilt : ℝ
  clearance : ℝ
  /-- `_time_last_ext_vision` and time of the newest vision sample in the buffer -/
  tLastEv : UInt64
  tNewestEv : UInt64
  /-- vertical position in the newest and in the delayed vision sample, time and variance of the delayed one -/
  evNewest : ℝ
  evDelayed : ℝ
  tDelayedEv : UInt64
  evVar : ℝ
  /-- `_gps_sample_delayed.hgt`, `vacc`; newest buffered GPS `hgt`, `vacc`, `sacc`, `vel(2)` -/
  gpsHgt : ℝ
  gpsVacc : ℝ
  gpsHgtNew : ℝ
  gpsVaccNew : ℝ
  gpsSaccNew : ℝ
  gpsVelDNew : ℝ
  gpsAltRef : ℝ
  reqVacc : ℝ
  /-- delayed and newest barometer height, `_delta_time_baro_us` -/
  baroHgt : ℝ
  baroHgtNew : ℝ
  dtBaro : ℕ
  baroNoise : ℝ
  baroGate : ℝ
  gpsPosNoise : ℝ
  posNoaidNoise : ℝ
  rangeNoise : ℝ
  rangeNoiseScaler : ℝ
  rangeGate : ℝ
  evGate : ℝ
  gndEffectDeadzone : ℝ
  /-- `_time_last_gnd_effect_on`, `_time_bad_vert_accel`, `_time_good_vert_accel` -/
  tGndEffect : UInt64
  tBadVert : UInt64
  tGoodVert : UInt64
  /-- `_params.bad_acc_reset_delay_us` -/
  badAccDelay : UInt64

/-- what it writes -/
structure HSt where
  fl : HFlags
  gndEffect : Bool
  /-- `_hgt_sensor_offset` -/
  offset : ℝ
  /-- `_baro_hgt_offset` -/
  baroOffset : ℝ
  /-- `_time_last_hgt_fuse` -/
  tHgt : UInt64
  /-- `_baro_hgt_faulty` -/
  baroFaulty : Bool
  /-- `_warning_events.flags.height_sensor_timeout` -/
  warn : Bool
  /-- `_state.pos(2)`, `_state.vel(2)`, `P(9,9)`, `P(6,6)` -/
  posD : ℝ
  velD : ℝ
  varPos : ℝ
  varVel : ℝ

noncomputable section

/-- `startBaroHgtFusion`, EKF/ekf_helper.cpp:1244-1259 -/
def startBaro (x : HIn) (s : HSt) : HSt :=
  { s with
    fl := s.fl.setBaro, offset := 0
    gndEffect := if s.gndEffect then (if isTimedOut x.now x.tGndEffect 10000000 then false else s.gndEffect) else s.gndEffect }

/-- `startGpsHgtFusion`, EKF/ekf_helper.cpp:1261-1270 -/
def startGps (x : HIn) (s : HSt) : HSt :=
  let s := { s with fl := s.fl.setGps }
  if x.prev.gps ≠ s.fl.gps then { s with offset := x.gpsHgt - x.gpsAltRef + s.posD } else s

/-- `resetHeight`, EKF/ekf_helper.cpp:258-333 (the bookkeeping of the reset itself is in `Verif/Ekf/Reset.lean`) -/
def resetHeight (x : HIn) (s : HSt) : HSt :=
  let s :=
    if s.fl.rng then
      let s := { s with posD := s.offset - x.dist, varPos := sq x.rangeNoise }
      { s with baroOffset := x.baroHgtNew + s.posD }
    else if s.fl.baro then
      if !s.baroFaulty then { s with posD := -x.baroHgtNew + s.baroOffset, varPos := sq x.baroNoise } else s
    else if s.fl.gps then
      if !x.gpsIntermittent then
        let s := { s with posD := s.offset - x.gpsHgtNew + x.gpsAltRef, varPos := sq x.gpsVaccNew }
        { s with baroOffset := x.baroHgtNew + s.posD }
      else s
    else if s.fl.ev then
      if x.tNewestEv ≥ x.tDelayedEv then { s with posD := x.evNewest } else { s with posD := x.evDelayed }
    else s
  if x.gpsAid && !x.gpsIntermittent then { s with velD := x.gpsVelDNew, varVel := sq ((3 / 2) * x.gpsSaccNew) }
  else { s with velD := 0, varVel := 10 }

/-- `controlHeightSensorTimeouts`, EKF/control.cpp:773-892, after `checkVerticalAccelerationHealth`; the flag tells whether a
reset was done -/
def heightTimeouts (x : HIn) (s : HSt) : HSt × Bool :=
  let continuousBadAccel := isTimedOut x.now x.tGoodVert x.badAccDelay
  let fusionTimeout := isTimedOut x.now s.tHgt 5000000
  if fusionTimeout || continuousBadAccel then
    let r : HSt × Bool :=
      if s.fl.baro then
        let gpsAccurate := decide (x.gpsVaccNew < x.reqVacc)
        let prevBad := isRecent x.now x.tBadVert 10000000
        if !x.gpsIntermittent && ((gpsAccurate && !prevBad) || s.baroFaulty) then
          (startGps x { s with baroFaulty := true }, true)
        else if !s.baroFaulty then (s, true)
        else (s, false)
      else if s.fl.gps then
        let gpsAccurate := decide (x.gpsVaccNew < x.reqVacc)
        let baroInnov := s.posD - (s.offset - x.baroHgtNew + s.baroOffset)
        let consistent := decide (|baroInnov| < (sq x.baroNoise + s.varPos) * sq x.baroGate)
        if !s.baroFaulty && ((consistent && !gpsAccurate) || x.gpsIntermittent) then (startBaro x s, true)
        else if !x.gpsIntermittent then (s, true)
        else (s, false)
      else if s.fl.rng then
        if x.rngHealthy then (s, true)
        else if !s.baroFaulty then (startBaro x s, true)
        else (s, false)
      else if s.fl.ev then
        if isRecent x.now x.tNewestEv 400000 then (s, true)
        else if !s.baroFaulty then (startBaro x s, true)
        else (s, false)
      else (s, false)
    if r.2 then ({ resetHeight x { r.1 with warn := true } with tHgt := x.now }, true) else (r.1, false)
  else (s, false)

/-- `updateBaroHgtOffset`, EKF/ekf_helper.cpp:1272-1284 -/
def updateBaroOffset (x : HIn) (s : HSt) : HSt :=
  if !s.fl.baro && x.baroReady then
    let dt := constrain ((x.dtBaro : ℝ) / 1000000) 0 1
    let rate := (1 / 10) * (x.baroHgt + s.posD - s.baroOffset)
    { s with baroOffset := s.baroOffset + dt * constrain rate (-(1 / 10)) (1 / 10) }
  else s

/-- source selection part of `controlHeightFusion`, EKF/control.cpp:961-1079: new state and `fuse_height` -/
def selectHeight (x : HIn) (s : HSt) : HSt × Bool :=
  let aid := decide (x.rangeAid = 1) && x.rngAidSuitable
  if x.vdist = 2 then
    if x.rngDataHealthy then
      let s := { s with fl := s.fl.setRange }
      let s :=
        if x.prev.rng ≠ s.fl.rng then
          if x.inAir && x.terrainValid then { s with offset := x.terrainVpos }
          else if x.inAir then { s with offset := x.dist + s.posD }
          else { s with offset := x.clearance }
        else s
      (s, true)
    else if s.fl.baro && x.baroReady && !s.baroFaulty then (s, true)
    else (s, false)
  else if x.vdist = 1 then
    let s :=
      if !x.prev.rng && aid && x.rngDataHealthy then { s with fl := s.fl.setRange, offset := x.terrainVpos }
      else if x.prev.rng && !aid then
        if !x.gpsIntermittent && x.gpsChecksPassed then startGps x s
        else if !s.baroFaulty then startBaro x s
        else s
      else if s.fl.baro && !aid && !x.gpsIntermittent && x.gpsChecksPassed then startGps x s
      else s
    if s.fl.gps && x.gpsReady then (s, true)
    else if s.fl.rng && x.rngDataHealthy then (s, true)
    else if s.fl.baro && x.baroReady && !s.baroFaulty then (s, true)
    else (s, false)
  else if x.vdist = 3 then
    let r : HSt × Bool :=
      if !s.fl.ev && isRecent x.now x.tLastEv 400000 then (resetHeight x { s with fl := s.fl.setEv }, true) else (s, false)
    let r := if r.1.fl.baro && x.baroReady && !r.1.baroFaulty then (r.1, true) else r
    if r.1.fl.ev then (r.1, true) else r
  else
    if aid && x.rngDataHealthy then
      let s := { s with fl := s.fl.setRange }
      (if x.prev.rng ≠ s.fl.rng then { s with offset := x.terrainVpos } else s, true)
    else if !aid && x.baroReady && !s.baroFaulty then (startBaro x s, true)
    else if s.fl.gps && x.gpsReady && !x.gpsIntermittent then
      (if x.prev.gps ≠ s.fl.gps then { s with offset := x.gpsHgt - x.gpsAltRef + s.posD } else s, true)
    else (s, false)

/-- which observation is fused -/
inductive HSrc | baro | gps | rng | ev
  deriving DecidableEq

/-- arguments of the vertical position fusion -/
structure HObs where
  src : HSrc
  innov : ℝ
  gate : ℝ
  var : ℝ

/-- barometer innovation with ground effect deadzone, EKF/control.cpp:1104-1127 -/
def baroInnov (x : HIn) (s : HSt) : ℝ :=
  let i := s.posD + x.baroHgt - s.baroOffset
  let dz : ℝ := 0 + x.gndEffectDeadzone
  if s.gndEffect then (if i < -0 then (if i ≤ -dz then i + dz else -0) else i) else i

/-- observation handed to `fuseVerticalPosition`, EKF/control.cpp:1098-1170; `dist` is the range in use -/
def heightObs (x : HIn) (dist : ℝ) (s : HSt) : Option HObs :=
  if s.fl.baro then some ⟨.baro, baroInnov x s, max x.baroGate 1, sq (max x.baroNoise (1 / 100))⟩
  else if s.fl.gps then
    some ⟨.gps, s.posD + x.gpsHgt - x.gpsAltRef - s.offset, max x.baroGate 1, gpsHeightVariance x.gpsPosNoise x.posNoaidNoise x.gpsVacc⟩
  else if s.fl.rng then
    some ⟨.rng, s.posD - (-(mmax dist x.clearance)) - s.offset, max x.rangeGate 1,
      max (sq x.rangeNoise + sq (x.rangeNoiseScaler * dist)) (1 / 100)⟩
  else if s.fl.ev then some ⟨.ev, s.posD - x.evDelayed, max x.evGate 1, max x.evVar (sq (1 / 100))⟩
  else none

/-- `controlHeightFusion`, EKF/control.cpp:958-1171: new state and the observation fused, if any. A synthesised range
measurement is `clearance`; `getDistBottom()` then is that range times the cosine of the tilt. -/
def controlHeight (x : HIn) (s : HSt) : HSt × Option HObs :=
  let r := selectHeight x s
  let s := updateBaroOffset x r.1
  let synth := s.fl.rng && isTimedOut x.now s.tHgt 400000 && !x.rngDataHealthy && x.rngRegular && !x.inAir
  let dist := if synth then x.clearance * x.cosTilt else x.dist
  if r.2 || synth then (s, heightObs x dist s) else (s, none)

/-- `stopGpsPosFusion`, EKF/ekf_helper.cpp:1438-1445, on the height flags -/
def stopGpsPos (s : HSt) : HSt := { s with fl := { s.fl with gps := false } }

/-- everything that touches the height source flags -/
inductive HOp
  /-- filter initialisation, EKF/ekf.cpp:198-199 -/
  | init
  | timeouts (x : HIn)
  | control (x : HIn)
  /-- GPS aiding stopped, EKF/control.cpp:551, 724, 730 -/
  | stopGps
  /-- first GPS fix that passes the checks with GPS as primary height source, EKF/gps_checks.cpp:110-113 -/
  | gpsOrigin (x : HIn)

/-- effect of an operation -/
def HOp.run (s : HSt) : HOp → HSt
  | .init => { s with fl := s.fl.setBaro }
  | .timeouts x => (heightTimeouts x s).1
  | .control x => (controlHeight x s).1
  | .stopGps => stopGpsPos s
  | .gpsOrigin x => startGps x s

/-- a sequence of operations -/
def hRun (s : HSt) (ops : List HOp) : HSt := ops.foldl HOp.run s

end

/-! ## Specification -/

/-- number of active height sources -/
def Spec.sources (f : HFlags) : ℕ := f.baro.toNat + f.gps.toNat + f.rng.toNat + f.ev.toNat

/-- only the given source is active -/
def Spec.only (f : HFlags) : HSrc → Prop
  | .baro => f = ⟨true, false, false, false⟩
  | .gps => f = ⟨false, true, false, false⟩
  | .rng => f = ⟨false, false, true, false⟩
  | .ev => f = ⟨false, false, false, true⟩

/-- no source -/
def Spec.none (f : HFlags) : Prop := f = ⟨false, false, false, false⟩

end Ecl.Control
