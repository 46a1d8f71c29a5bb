import Verif.Basic.Time
import Verif.Interface.Model

/-!
# Aiding control: state, inputs, elementary operations

EKF/control.cpp, EKF/mag_control.cpp, EKF/ekf_helper.cpp (start, stop and reset functions).

The control logic is modelled completely: every flag, time stamp, counter and request that decides which measurement is
used.  Numbers that only enter through a comparison appear as the truth value of that comparison (the comparisons
themselves are in `Verif/Aid/Numeric.lean`); the numerical effect of a fusion or a reset is recorded as an action in the
order in which the code performs it (the effects are modelled in `Verif/Fusion`, `Verif/Cov` and `Verif/Ekf/Reset.lean`).
Parameters are inputs of each step, so they may change during a history.
-/

namespace Ecl.Aid

open Ecl.Interface

/-- origin of a new yaw value -/
inductive YawSrc
  | mag | vision | gpsAntenna | gsf
  /-- current yaw corrected by the difference of GPS and filter course -/
  | courseError
  /-- course of the GPS velocity relative to the wind estimate -/
  | windCourse
  /-- course of the GPS velocity -/
  | gpsCourse
  deriving DecidableEq

/-- origin of a new horizontal velocity -/
inductive VelSrc
  | gps | flow | vision | zero
  deriving DecidableEq

/-- origin of a new horizontal position -/
inductive PosSrc
  | gps | vision
  /-- origin of the local frame, zero variance -/
  | origin
  /-- last known position, zero variance -/
  | lastKnownExact
  /-- last known position, `pos_noaid_noise` -/
  | lastKnown
  deriving DecidableEq

/-- observation noise used for a fused position -/
inductive PosVar
  /-- reported accuracy, limited below and above -/
  | gpsBounded
  /-- reported accuracy, limited below -/
  | gpsFree
  /-- vision variance, limited below by 0.01² -/
  | visionAbs
  /-- vision variance, limited below by 0.5² -/
  | visionDelta
  /-- the variance was never assigned: zero -/
  | unset
  /-- `max(pos_noaid_noise, gps_pos_noise)²` -/
  | noaid
  /-- 0.1² -/
  | rest
  /-- 0.5² -/
  | motion
  deriving DecidableEq

/-- numerical operations, in the order in which they are performed -/
inductive Act
  | yawReset (s : YawSrc)
  /-- earth field states set from the measurement, field covariance set to the measurement noise -/
  | magStates
  | saveMagCov | zeroMagCov | loadMagCov
  | gyroBiasCov
  | velReset (s : VelSrc)
  | posReset (s : PosSrc)
  | fuseHeading | fuseMag
  /-- declination fused with the given standard deviation in units of 0.01 rad -/
  | fuseDecl (sigma : ℕ)
  | fuseGpsYaw
  | fuseVelHor | fuseVelVert
  | fusePos (v : PosVar)
  | fuseFlow
  | windReset | fuseAirspeed | fuseBeta | fuseDrag
  deriving DecidableEq

/-- warning and information events raised by the functions modelled here -/
inductive Evt
  | badYawUsingCourse | stoppingMag | gpsQualityPoor | gpsTimeout | gpsDataStopped | gpsDataStoppedAlt
  | startingGps | yawAlignedImuGps | emergencyYawReset | startingEvPos | startingEvVel | startingEvYaw
  | visionStopped | stoppingNavigation
  deriving DecidableEq

/-- state of the control logic (initial values: EKF/ekf.h, EKF/estimator_interface.h; all flags false, all times 0) -/
structure St where
  -- `_control_status.flags`
  tilt : Bool := false
  yawAlign : Bool := false
  gps : Bool := false
  optFlow : Bool := false
  magHdg : Bool := false
  mag3D : Bool := false
  magDec : Bool := false
  wind : Bool := false
  evPos : Bool := false
  evVel : Bool := false
  evYaw : Bool := false
  gpsYaw : Bool := false
  magDist : Bool := false
  magFault : Bool := false
  fuseAspd : Bool := false
  magAligned : Bool := false
  /-- `_mag_yaw_reset_req`, `_mag_inhibit_yaw_reset_req`, `_velpos_reset_request` -/
  magYawReq : Bool := false
  magInhReq : Bool := false
  velposReq : Bool := false
  /-- `_is_yaw_fusion_inhibited`, `_non_mag_yaw_aiding_running_prev` -/
  inhibited : Bool := false
  nonMagPrev : Bool := false
  /-- `_yaw_angle_observable`, `_mag_bias_observable` -/
  yawObs : Bool := false
  biasObs : Bool := false
  /-- `_num_bad_flight_yaw_events` -/
  nBad : UInt8 := 0
  /-- `_mag_decl_cov_reset` -/
  declCovReset : Bool := false
  /-- `_flt_mag_align_start_time`, `_time_last_mov_3d_mag_suitable`, `_mag_use_not_inhibit_us`, `_time_yaw_started` -/
  tAlign : UInt64 := 0
  tMov : UInt64 := 0
  tNotInh : UInt64 := 0
  tYaw : UInt64 := 0
  /-- `_is_gps_yaw_faulty`, `_do_ekfgsf_yaw_reset`, `_ekfgsf_yaw_reset_time`, `_ekfgsf_yaw_reset_count` -/
  gpsYawFaulty : Bool := false
  doGsf : Bool := false
  gsfTime : UInt64 := 0
  gsfCount : UInt8 := 0
  /-- `_time_last_hor_pos_fuse`, `_time_last_delpos_fuse`, `_time_last_hor_vel_fuse`, `_time_last_of_fuse` -/
  tPos : UInt64 := 0
  tDelpos : UInt64 := 0
  tVel : UInt64 := 0
  tOf : UInt64 := 0
  /-- `_time_last_beta_fuse`, `_time_last_arsp_fuse`, `_time_last_fake_pos`, `_time_last_gps_yaw_fuse` -/
  tBeta : UInt64 := 0
  tArsp : UInt64 := 0
  tFake : UInt64 := 0
  tGpsYaw : UInt64 := 0
  /-- `_hpos_prev_available`, `_fuse_hpos_as_odom`, `_using_synthetic_position` -/
  hposPrev : Bool := false
  hposOdom : Bool := false
  synth : Bool := false
  /-- `_flow_data_ready`, `_inhibit_flow_use`, `_time_good_motion_us`, `_time_bad_motion_us` -/
  flowReady : Bool := false
  flowInh : Bool := false
  tGood : UInt64 := 0
  tBad : UInt64 := 0
  /-- operations and events of the current step -/
  log : List Act := []
  evts : List Evt := []

/-- what one step reads -/
structure In where
  -- parameters
  /-- `_params.mag_fusion_type`: 0 auto, 1 heading, 2 three axes, 3 unused, 4 indoor, 5 none -/
  magType : ℤ := 0
  /-- bits of `_params.fusion_mode` -/
  useGps : Bool := false
  useOf : Bool := false
  useEvPos : Bool := false
  useEvVel : Bool := false
  useEvYaw : Bool := false
  useDrag : Bool := false
  rotateEv : Bool := false
  useGpsYaw : Bool := false
  /-- `_params.mag_declination_source & MASK_FUSE_DECL` -/
  userDecl : Bool := false
  /-- `EKFGSF_reset_count_limit` (`unsigned`), `EKFGSF_reset_delay`, `reset_timeout_max`, `beta_avg_ft_us` -/
  countLimit : ℕ := 3
  gsfDelay : UInt64 := 1000000
  resetTimeout : UInt64 := 7000000
  betaAvg : UInt64 := 150000
  /-- `_min_gps_health_time_us` -/
  healthTime : UInt64 := 10000000
  -- time
  /-- `_time_last_imu`, `_imu_sample_delayed.time_us`, `_time_last_on_ground_us` -/
  now : UInt64 := 0
  tDel : UInt64 := 0
  tGround : UInt64 := 0
  -- vehicle
  inAir : Bool := false
  fixedWing : Bool := false
  fuseBeta : Bool := false
  atRest : Bool := false
  /-- sum of the tilt variances below `radians(3)²` -/
  tiltConverged : Bool := false
  -- requests from outside since the previous step
  /-- `requestEmergencyNavReset()` was called -/
  emergencyReq : Bool := false
  /-- the GPS checks have set the origin (EKF/gps_checks.cpp:64-118); a rough fix was used to look up the declination
  (lines 120-139); whether the declination was known before -/
  originSet : Bool := false
  roughFix : Bool := false
  declKnown : Bool := false
  -- magnetometer
  magReady : Bool := false
  /-- result of the field strength test (`Numeric.fieldDisturbed`) -/
  disturbed : Bool := false
  /-- height above terrain exceeds 1.5 m -/
  aboveMag : Bool := false
  /-- filtered horizontal acceleration exceeds twice, once the gate -/
  accStart : Bool := false
  accKeep : Bool := false
  /-- filtered yaw rate exceeds the gate; yaw change exceeds half the gate times the elapsed time -/
  yawRateBig : Bool := false
  yawDeltaBig : Bool := false
  -- GPS
  gpsReady : Bool := false
  gpsIntermittent : Bool := false
  nedInit : Bool := false
  /-- `_last_gps_fail_us`, `_last_gps_pass_us`, `_gps_sample_delayed.time_us`, `_time_prev_gps_us` -/
  lastFail : UInt64 := 0
  lastPass : UInt64 := 0
  tGps : UInt64 := 0
  tPrevGps : UInt64 := 0
  /-- the GPS sample has a finite yaw; the antenna baseline is not too steep; the yaw fusion accepts the sample -/
  gpsYawFinite : Bool := false
  antennaOk : Bool := false
  gpsYawOk : Bool := false
  /-- the yaw estimator has data and its variance is below the limit -/
  gsfOk : Bool := false
  /-- velocity estimate and last velocity observation are significant and differ by more than 25° in direction -/
  velAngleBad : Bool := false
  /-- GPS speed and accuracy allow alignment; course difference above 0.5 rad; velocity test ratio above 1 -/
  courseOk : Bool := false
  courseBad : Bool := false
  velRatioBad : Bool := false
  gpsVelOk : Bool := false
  gpsPosOk : Bool := false
  -- external vision
  evReady : Bool := false
  tEv : UInt64 := 0
  evPosOk : Bool := false
  evVelOk : Bool := false
  -- optical flow
  flowPop : Bool := false
  /-- the sample passes the quality tests; the body rate compensation is available -/
  flowGood : Bool := false
  flowComp : Bool := false
  motionExcessive : Bool := false
  deadReckoning : Bool := false
  /-- `_gps_error_norm` above 0.7, above 1.0 -/
  gpsErr07 : Bool := false
  gpsErr10 : Bool := false
  terrainValid : Bool := false
  /-- the midpoint of the flow sample lies behind the fusion time horizon -/
  flowMid : Bool := false
  tHagl : UInt64 := 0
  tFlow : UInt64 := 0
  flowOk : Bool := false
  -- air data
  tasReady : Bool := false
  arspOk : Bool := false
  betaOk : Bool := false
  dragReady : Bool := false
  -- auxiliary velocity, fake position
  auxReady : Bool := false
  auxOk : Bool := false
  fakeOk : Bool := false

/-- append an operation -/
def St.act (s : St) (a : Act) : St := { s with log := s.log ++ [a] }
/-- raise an event -/
def St.evt (s : St) (e : Evt) : St := { s with evts := s.evts ++ [e] }

/-- the flags counted by the aiding source queries, EKF/estimator_interface.cpp:534-559 -/
def St.aid (x : In) (s : St) : AidFlags :=
  { gps := s.gps, optFlow := s.optFlow, evPos := s.evPos, evVel := s.evVel, fuseAspd := s.fuseAspd, fuseBeta := x.fuseBeta }

/-- `a - b > limit` on unsigned 64-bit time stamps (wraps when `b` is later than `a`) -/
def elapsed (a b limit : UInt64) : Bool := !decide (a - b ≤ limit)

/-! ### Magnetometer start and stop, EKF/ekf_helper.cpp:1207-1242 -/

/-- `stopMag3DFusion`, EKF/ekf_helper.cpp:1214-1221 -/
def stopMag3D (s : St) : St := if s.mag3D then { s.act .saveMagCov with mag3D := false } else s
/-- `stopMagHdgFusion`, EKF/ekf_helper.cpp:1223-1226 -/
def stopMagHdg (s : St) : St := { s with magHdg := false }
/-- `clearMagCov`, EKF/covariance.cpp:1075-1079 -/
def clearMagCov (s : St) : St := { s.act .zeroMagCov with declCovReset := false }
/-- `stopMagFusion`, EKF/ekf_helper.cpp:1207-1212 -/
def stopMag (s : St) : St := clearMagCov (stopMagHdg (stopMag3D s))
/-- `startMagHdgFusion`, EKF/ekf_helper.cpp:1228-1232 -/
def startMagHdg (s : St) : St := { stopMag3D s with magHdg := true }
/-- `startMag3DFusion`, EKF/ekf_helper.cpp:1234-1242 -/
def startMag3D (s : St) : St :=
  if !s.mag3D then { ((stopMagHdg s).act .zeroMagCov).act .loadMagCov with mag3D := true } else s

/-- earth field states from the measurement, then `resetMagCov` (EKF/covariance.cpp:1058-1073) -/
def resetMagStates (s : St) : St :=
  let s := { s.act .magStates with declCovReset := false }
  if !s.mag3D then s.act .saveMagCov else s

/-! ### Velocity and position resets -/

/-- source chosen by `resetVelocity`, EKF/ekf_helper.cpp:49-64 -/
def velSrc (x : In) (s : St) : VelSrc :=
  if s.gps && isTimedOut x.now x.lastFail x.healthTime then .gps
  else if s.optFlow then .flow
  else if s.evVel then .vision
  else .zero

/-- `resetVelocity`, EKF/ekf_helper.cpp:49-64 -/
def resetVel (x : In) (s : St) : St := s.act (.velReset (velSrc x s))

/-- source chosen by `resetHorizontalPosition`, EKF/ekf_helper.cpp:160-195 -/
def posSrc (x : In) (s : St) : PosSrc :=
  if s.gps then .gps
  else if s.evPos then .vision
  else if s.optFlow then (if !x.inAir then .origin else .lastKnownExact)
  else .lastKnown

/-- `resetHorizontalPosition`, EKF/ekf_helper.cpp:160-195 -/
def resetPos (x : In) (s : St) : St := { s.act (.posReset (posSrc x s)) with hposPrev := false }

/-! ### Yaw resets -/

/-- `resetMagHeading` (also called with the two optional arguments at their defaults), EKF/ekf_helper.cpp:468-525 -/
def resetMagHeading (x : In) (s : St) : St × Bool :=
  if x.tDel = s.tAlign then (s, true)
  else if x.magType ≥ 5 then (stopMag s, false)
  else if s.evYaw then ({ resetMagStates (s.act (.yawReset .vision)) with tAlign := x.tDel }, true)
  else if x.magType ≤ 2 then ({ resetMagStates (s.act (.yawReset .mag)) with tAlign := x.tDel }, true)
  else if x.magType = 4 ∧ s.inhibited = true then (s, true)
  else (s, false)

/-- `canResetMagHeading`, EKF/mag_control.cpp:156-159 -/
def canResetMagHeading (x : In) (s : St) : Bool := !s.magDist && decide (x.magType ≠ 5)

/-- `badMagYaw`, EKF/ekf_helper.cpp:373-387 -/
def badMagYaw (x : In) (s : St) : Bool := x.courseBad && (x.velRatioBad && s.gps)

/-- the magnetometer is declared faulty on the second bad yaw of a flight, EKF/ekf_helper.cpp:397-406 -/
def declareFault (s : St) : St :=
  if s.magAligned && decide (2 ≤ s.nBad) && !s.magFault then { s.evt .stoppingMag with magFault := true } else s

/-- new yaw, EKF/ekf_helper.cpp:408-439 -/
def courseYaw (s : St) : St :=
  if !s.magAligned then { s.act (.yawReset .courseError) with magAligned := true }
  else if s.wind then s.act (.yawReset .windCourse)
  else s.act (.yawReset .gpsCourse)

/-- `realignYawGPS` with usable GPS course, EKF/ekf_helper.cpp:373-466 -/
def courseAlign (x : In) (s : St) : St :=
  let bad := badMagYaw x s
  let s := if bad then { s with nBad := s.nBad + 1 } else s
  if bad || !s.yawAlign then
    { resetMagStates (courseYaw (declareFault (s.evt .badYawUsingCourse))) with
      tAlign := x.tDel
      velposReq := bad }
  else { resetMagStates s with tAlign := x.tDel }

/-- `realignYawGPS`, EKF/ekf_helper.cpp:360-466 -/
def realignYawGps (x : In) (s : St) : St × Bool :=
  if !x.courseOk then resetMagHeading x s else (courseAlign x s, true)

/-- `resetYawToEKFGSF`, EKF/ekf_helper.cpp:1595-1636 -/
def resetYawToGsf (x : In) (s : St) : St × Bool :=
  if !x.gsfOk then (s, false)
  else
    let s := resetPos x (resetVel x (s.act (.yawReset .gsf)))
    let s := { s with tAlign := x.tDel, yawAlign := true }
    (if x.magType = 5 then s.evt .yawAlignedImuGps else { s.evt .emergencyYawReset with magFault := true }, true)

/-! ### Acceptance of measurements by the fusions (EKF/vel_pos_fusion.cpp) -/

/-- time bookkeeping of `fuseHorizontalVelocity`, EKF/vel_pos_fusion.cpp:47-76 -/
def fuseVelHor (x : In) (ok : Bool) (s : St) : St := if ok then { s.act .fuseVelHor with tVel := x.now } else s.act .fuseVelHor
/-- time bookkeeping of `fuseHorizontalPosition`, EKF/vel_pos_fusion.cpp:111-144 -/
def fusePos (x : In) (v : PosVar) (ok : Bool) (s : St) : St :=
  let s := s.act (.fusePos v)
  if ok then (if !s.hposOdom then { s with tPos := x.now } else { s with tDelpos := x.now }) else s

end Ecl.Aid
