import Verif.Ekf.ResetProps
import Verif.Cov.Bookkeep
import Verif.Aid.State

/-!
# Yaw resets — EKF/ekf_helper.cpp:360-547, 1484-1504, 1549-1636

Numerical model of the functions that give the filter a new heading: compass or vision heading (`resetMagHeading`), GPS ground course
(`realignYawGPS`), the emergency yaw estimator (`resetYawToEKFGSF`) and the start of vision yaw fusion (`startEvYawFusion`).  Floats are real
numbers.  The conversions of the matrix library between rotation matrices and quaternions are parameters (`ofDcm`, `normalize`); the theorems
assume of them what `QuatLib` says.  Warning and information texts are not modelled.
-/

namespace Ecl.Yaw

open Ecl.Ekf Ecl.Cov
open scoped Matrix

noncomputable section

/-- conversions of the external matrix library -/
structure Lib where
  ofDcm : M3 ℝ → Quat ℝ
  normalize : Quat ℝ → Quat ℝ

/-- what the yaw resets read: parameters, delayed samples and filtered magnetometer data -/
structure In where
  /-- `_imu_sample_delayed.time_us` -/
  tDel : UInt64
  /-- `_gps_sample_delayed.vel`, `.sacc` -/
  gpsVel : V3 ℝ
  sacc : ℝ
  /-- `_gps_vel_test_ratio(0)` -/
  velRatio : ℝ
  /-- `_mag_sample_delayed.mag`, `_mag_lpf.getState()` -/
  mag : V3 ℝ
  magLpf : V3 ℝ
  /-- `_params.mag_fusion_type`, `mag_heading_noise`, `mag_noise` -/
  magType : ℤ
  hdgNoise : ℝ
  magNoise : ℝ
  /-- `_ev_sample_delayed.quat`, `.angVar` -/
  evQuat : Quat ℝ
  evAngVar : ℝ
  /-- `_params.mag_declination_source & MASK_USE_GEO_DECL`, `mag_declination_deg` in radians -/
  useGeoDecl : Bool
  declParam : ℝ
  /-- `_NED_origin_initialised`, `_mag_declination_gps` (`none` is NaN) -/
  originInit : Bool
  declGps : Option ℝ
  /-- `_yawEstimator.getYawData` (return value, yaw, variance), `_params.EKFGSF_yaw_err_max` -/
  gsfOk : Bool
  gsfYaw : ℝ
  gsfVar : ℝ
  gsfErrMax : ℝ

/-- the members read and written by the yaw resets -/
structure St where
  est : Est ℝ
  /-- `_R_to_earth` -/
  R : M3 ℝ
  /-- covariance, saved magnetic covariances and magnetometer fusion flags -/
  cov : MagState ℝ
  gps : Bool
  yawAlign : Bool
  magAligned : Bool
  wind : Bool
  evYaw : Bool
  magDec : Bool
  magFault : Bool
  /-- `_is_yaw_fusion_inhibited` -/
  inhibited : Bool
  /-- `_num_bad_flight_yaw_events` -/
  nBad : UInt8
  /-- `_flt_mag_align_start_time` -/
  tAlign : UInt64
  /-- `_velpos_reset_request` -/
  velposReq : Bool

/-- `FLT_EPSILON` = 2⁻²³ -/
def fltEps : ℝ := 1 / 2 ^ 23

/-- `resetQuatStateYaw`, EKF/ekf_helper.cpp:1549-1590, with its effect on the covariance (:1566, :1571-1573) and `_R_to_earth` -/
def resetQuatStateYaw (L : Lib) (yaw var : ℝ) (updateBuffer : Bool) (s : St) : St :=
  let est := s.est.resetQuatStateYaw L.ofDcm L.normalize yaw updateBuffer
  let P := uncorrelateQuat s.cov.P
  let P := if var > fltEps then increaseQuatYawErrVariance est.state.quat var P else P
  { s with
    est := est
    R := Utils.updateYawInRotMat yaw s.est.state.quat.dcm
    cov := { s.cov with P := P } }

/-- `getMagDeclination`, EKF/ekf_helper.cpp:527-547.  With an initialised origin the code returns `_mag_declination_gps` without asking whether
it is finite; an unknown value there is the model's `none`, which this function maps to 0 (setting the origin always stores a value). -/
def getMagDeclination (x : In) (s : St) : ℝ :=
  if s.magAligned then atan2 (s.est.state.magI 1) (s.est.state.magI 0)
  else if x.useGeoDecl then
    if x.originInit || x.declGps.isSome then x.declGps.getD 0 else x.declParam
  else x.declParam

/-- setting the earth field states from a measurement, EKF/ekf_helper.cpp:440, :457, :516 -/
def setMagI (m : V3 ℝ) (s : St) : St :=
  { s with est := { s.est with state := { s.est.state with magI := s.R *ᵥ m } } }

/-- `resetMagHeading`, EKF/ekf_helper.cpp:468-525; the two optional arguments are `increase_yaw_var` and `update_buffer` -/
def resetMagHeading (L : Lib) (x : In) (m : V3 ℝ) (incVar updateBuffer : Bool) (s : St) : St × Bool :=
  if x.tDel = s.tAlign then (s, true)
  else if x.magType ≥ 5 then ({ s with cov := stopMag s.cov }, false)
  else
    let finish (yaw var : ℝ) : St × Bool :=
      let s := setMagI m (resetQuatStateYaw L yaw var updateBuffer s)
      ({ s with
        cov := resetMagCov x.magNoise s.cov
        tAlign := x.tDel }, true)
    if s.evYaw then
      finish (Utils.getEuler312YawQ x.evQuat) (if incVar then mmax x.evAngVar (sq (1 / 100)) else 0)
    else if x.magType ≤ 2 then
      let me := Utils.updateYawInRotMat 0 s.R *ᵥ m
      finish (-atan2 (me 1) (me 0) + getMagDeclination x s) (if incVar then sq (mmax x.hdgNoise (1 / 100)) else 0)
    else if x.magType = 4 ∧ s.inhibited = true then (s, true)
    else (s, false)

/-- horizontal GPS speed, EKF/ekf_helper.cpp:364 -/
def gpsSpeed (x : In) : ℝ := Real.sqrt (sq (x.gpsVel 0) + sq (x.gpsVel 1))

/-- `courseYawError`, EKF/ekf_helper.cpp:379-385 -/
def courseErr (x : In) (s : St) : ℝ :=
  wrapPi (atan2 (x.gpsVel 1) (x.gpsVel 0) - atan2 (s.est.state.vel 1) (s.est.state.vel 0))

open Classical in
/-- `badMagYaw`, EKF/ekf_helper.cpp:376, :388-389 -/
def badMagYaw (x : In) (s : St) : Bool := decide (|courseErr x s| > 1 / 2) && (decide (x.velRatio > 1) && s.gps)

/-- the new yaw, EKF/ekf_helper.cpp:408-428 -/
def yawFromCourse (x : In) (s : St) : ℝ :=
  if !s.magAligned then Utils.getEuler321YawQ s.est.state.quat + courseErr x s
  else if s.wind then atan2 (x.gpsVel 1 - s.est.state.wind 1) (x.gpsVel 0 - s.est.state.wind 0)
  else atan2 (x.gpsVel 1) (x.gpsVel 0)

/-- the variance given with it, EKF/ekf_helper.cpp:431-433 -/
def courseVar (x : In) (s : St) : ℝ :=
  sq (Real.arcsin (constrain (Real.sqrt (sq x.sacc + s.cov.P 4 4 + s.cov.P 5 5) / gpsSpeed x) 0 1))

/-- `realignYawGPS` with usable GPS course, EKF/ekf_helper.cpp:375-466 -/
def courseAlign (L : Lib) (x : In) (s : St) : St :=
  let bad := badMagYaw x s
  let s := if bad then { s with nBad := s.nBad + 1 } else s
  if bad || !s.yawAlign then
    let s := if s.magAligned && decide (2 ≤ s.nBad) && !s.magFault then { s with magFault := true } else s
    let yaw := yawFromCourse x s
    let s := if !s.magAligned then { s with magAligned := true } else s
    let s := resetQuatStateYaw L yaw (courseVar x s) true s
    let s := { s with est := { s.est with state := { s.est.state with magB := 0 } }, R := s.est.state.quat.dcm }
    let s := setMagI x.mag s
    { s with
      cov := resetMagCov x.magNoise s.cov
      tAlign := x.tDel
      velposReq := bad }
  else
    let s := setMagI x.mag s
    { s with
      cov := resetMagCov x.magNoise s.cov
      tAlign := x.tDel }

open Classical in
/-- `realignYawGPS`, EKF/ekf_helper.cpp:360-466 -/
def realignYawGps (L : Lib) (x : In) (s : St) : St × Bool :=
  if ¬ (gpsSpeed x > 5 ∧ x.sacc < 15 / 100 * gpsSpeed x) then resetMagHeading L x x.magLpf true true s
  else (courseAlign L x s, true)

open Classical in
/-- `resetYawToEKFGSF` up to the velocity and position resets, EKF/ekf_helper.cpp:1595-1612 and :1618-1630 -/
def resetYawToGsf (L : Lib) (x : In) (s : St) : St × Bool :=
  if !x.gsfOk then (s, false)
  else if ¬ x.gsfVar < sq x.gsfErrMax then (s, false)
  else
    let s := resetQuatStateYaw L x.gsfYaw x.gsfVar true s
    let s := { s with tAlign := x.tDel, yawAlign := true }
    (if x.magType = 5 then s else { s with magFault := true }, true)

/-- `startEvYawFusion`, EKF/ekf_helper.cpp:1484-1504 -/
def startEvYaw (L : Lib) (x : In) (s : St) : St :=
  let s := resetQuatStateYaw L (Utils.getEuler321YawQ x.evQuat) (mmax x.evAngVar (sq (1 / 100))) true s
  { s with
    yawAlign := true
    evYaw := true
    magDec := false
    cov := Cov.stopMag3D (Cov.stopMagHdg s.cov) }

end

end Ecl.Yaw
