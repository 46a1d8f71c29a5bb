import Verif.Whole.CovInv
import Verif.Meas.Reset
import Verif.Yaw.Model
import Verif.Ekf.PredictProps
import Verif.Control.Height

/-!
# The whole filter: every function that writes the state vector or the covariance

One step (`Op`) for each function of the estimator that writes `_state` or `P`; a history is any sequence of steps with any arguments.  The order in
which the code calls them (`Verif/Aid`, `Verif/Boot`) is a special case.  Members other than the state, the covariance and the values stored for
it (timers, test ratios, output buffers) are arguments of the steps (`aux`): any value is allowed.
-/

namespace Ecl.Whole

open Ecl.Cov Ecl.Fusion Ecl.Ekf
open Ecl.ImuDownSampler (ImuSample AxisAngleLib)
open scoped Matrix

noncomputable section

/-- `_state` as a vector in the order of `getStateAtFusionHorizonAsVector`, EKF/ekf_helper.cpp:673-685: quaternion, velocity, position, angle
bias, velocity bias, earth field, body field, wind -/
def ofState (t : State ℝ) : Vec ℝ :=
  ![t.quat.w, t.quat.x, t.quat.y, t.quat.z, t.vel 0, t.vel 1, t.vel 2, t.pos 0, t.pos 1, t.pos 2, t.dAngBias 0, t.dAngBias 1, t.dAngBias 2,
    t.dVelBias 0, t.dVelBias 1, t.dVelBias 2, t.magI 0, t.magI 1, t.magI 2, t.magB 0, t.magB 1, t.magB 2, t.wind 0, t.wind 1]

/-- the inverse -/
def toState (s : Vec ℝ) : State ℝ where
  quat := attQuat s
  vel := ![s 4, s 5, s 6]
  pos := ![s 7, s 8, s 9]
  dAngBias := ![s 10, s 11, s 12]
  dVelBias := ![s 13, s 14, s 15]
  magI := ![s 16, s 17, s 18]
  magB := ![s 19, s 20, s 21]
  wind := ![s 22, s 23]

/-- the filter: state, covariance, stored variances (`f`) and the other members used by the prediction, EKF/ekf.h -/
structure W where
  f : Filt
  /-- `_R_to_earth` -/
  R : M3 ℝ
  /-- `_accel_lpf_NE` -/
  accelLpf : Fin 2 → ℝ
  /-- `_dt_ekf_avg` -/
  dtEkfAvg : ℝ
  /-- `_ang_rate_delayed_raw` -/
  angRateRaw : V3 ℝ
  /-- `_accel_bias_inhibit` -/
  inhibit : Fin 3 → Bool
  /-- `_ang_rate_magnitude_filt`, `_accel_magnitude_filt` -/
  angFilt : ℝ
  accFilt : ℝ
  /-- `_height_rate_lpf` -/
  heightRate : ℝ
  /-- `_delta_angle_bias_var_accum`, `_delta_vel_bias_var_accum` -/
  acc : Accum ℝ
  /-- `_fault_status.flags.bad_acc_clipping` -/
  clip : Bool

/-- what a prediction reads besides the filter -/
structure PredictIn where
  L : AxisAngleLib
  /-- `_imu_sample_delayed` -/
  imu : ImuSample
  /-- `_params.acc_bias_lim` -/
  accBiasLim : ℝ
  /-- `_earth_rate_NED` -/
  earthRate : V3 ℝ
  /-- parameters of the bias inhibition and the noise; the fields that are members of the filter are overwritten below -/
  inh : InhibitIn ℝ
  nz : NoiseIn ℝ
  now : UInt64
  badAccBias : Bool

/-- `predictState(); predictCovariance();` EKF/ekf.cpp:114-115: EKF/ekf.cpp:257-309, EKF/covariance.cpp:101-857 -/
def predict (x : PredictIn) (w : W) : W :=
  let p := Strap.predict x.L x.accBiasLim x.earthRate x.imu ⟨toState w.f.s, w.R, w.accelLpf, w.dtEkfAvg, w.angRateRaw⟩
  let c : CovIn ℝ :=
    { inh := { x.inh with rot2 := p.R 2, clipping := x.imu.clip, dAngNorm := norm3 x.imu.deltaAng, dVelNorm := norm3 x.imu.deltaVel }
      nz := { x.nz with mag3D := w.f.M.mag3D, clipping := x.imu.clip, velD := p.state.vel 2 }
      quat := p.state.quat, dAng := x.imu.deltaAng, dVel := x.imu.deltaVel, dAngBias := p.state.dAngBias, dVelBias := p.state.dVelBias
      dtEkfAvg := p.dtEkfAvg, now := x.now, badAccBias := x.badAccBias }
  let r := predictCovariance c ⟨⟨w.angFilt, w.accFilt, w.inhibit, w.f.prevVar, w.f.P⟩, w.heightRate, w.acc, w.f.timeCheck, w.f.badAccBias, w.clip⟩
  { f := { s := ofState p.state, M := { w.f.M with P := r.ist.P }, prevVar := r.ist.prevVar, timeCheck := r.timeCheck, badAccBias := r.badAccBias }
    R := p.R, accelLpf := p.accelLpf, dtEkfAvg := p.dtEkfAvg, angRateRaw := p.angRateRaw, inhibit := r.ist.inhibit
    angFilt := r.ist.angFilt, accFilt := r.ist.accFilt, heightRate := r.heightRate, acc := r.acc, clip := r.badAccClipping }

/-- effect of `resetHeight`, EKF/ekf_helper.cpp:258-333, on state and covariance: the choices are those of `Control.resetHeight` -/
def resetHeight (x : Control.HIn) (h : Control.HSt) (f : Filt) : Filt :=
  let setP (p v : ℝ) (f : Filt) : Filt := { f with s := Function.update f.s 9 p, M := { f.M with P := uncorrSet 9 1 (fun _ => v) f.M.P } }
  let f :=
    if h.fl.rng then setP (h.offset - x.dist) (sq x.rangeNoise) f
    else if h.fl.baro then
      if !h.baroFaulty then setP (-x.baroHgtNew + h.baroOffset) (sq x.baroNoise) f else f
    else if h.fl.gps then
      if !x.gpsIntermittent then setP (h.offset - x.gpsHgtNew + x.gpsAltRef) (sq x.gpsVaccNew) f else f
    else if h.fl.ev then { f with s := Function.update f.s 9 (if x.tNewestEv ≥ x.tDelayedEv then x.evNewest else x.evDelayed) }
    else f
  let setV (p v : ℝ) (f : Filt) : Filt := { f with s := Function.update f.s 6 p, M := { f.M with P := uncorrSet 6 1 (fun _ => v) f.M.P } }
  if x.gpsAid && !x.gpsIntermittent then setV x.gpsVelDNew (sq ((3 / 2) * x.gpsSaccNew)) f else setV 0 10 f

/-- a horizontal velocity or position reset (`g`) on the filter; output buffers in `aux` -/
def onEst (g : Meas.Flt → Meas.Flt) (aux : Est ℝ) (f : Filt) : Filt :=
  let r := g ⟨{ aux with state := toState f.s }, f.P, true⟩
  { f with s := ofState r.est.state, M := { f.M with P := r.P } }

/-- a yaw reset (`g`) on the filter -/
def onYaw (g : Yaw.St → Yaw.St) (aux : Yaw.St) (w : W) : W :=
  let r := g { aux with est := { aux.est with state := toState w.f.s }, R := w.R, cov := w.f.M }
  { w with f := { w.f with s := ofState r.est.state, M := r.cov }, R := r.R }

/-- state part of `reset`, EKF/ekf.cpp:54-96; the covariance is left as it is -/
def reset (w : W) : W :=
  { w with
    f := { w.f with s := fun i => if i = 0 then 1 else 0, M := { w.f.M with mag3D := false, magHdg := false }, prevVar := fun _ => 0, badAccBias := false }
    dtEkfAvg := filterPeriod, angRateRaw := 0, accFilt := 0, angFilt := 0, clip := false }

/-- the state after construction: zero covariance (`P{}`, EKF/ekf.h), identity attitude -/
def powerOn : W where
  f := ⟨fun i => if i = 0 then 1 else 0, ⟨fun _ _ => 0, ⟨fun _ => 0, fun _ _ => 0⟩, false, false, false⟩, fun _ => 0, 0, false⟩
  R := 1
  accelLpf := 0
  dtEkfAvg := filterPeriod
  angRateRaw := 0
  inhibit := fun _ => false
  angFilt := 0
  accFilt := 0
  heightRate := 0
  acc := ⟨fun _ => 0, fun _ => 0⟩
  clip := false

/-- the functions that write the state vector or the covariance -/
inductive Op where
  /-- `reset`, EKF/ekf.cpp:54-96 -/
  | reset
  /-- `initialiseTilt`, EKF/ekf.cpp:236-255, with the filtered accelerometer and gyro -/
  | tilt (accel gyro : V3 ℝ)
  /-- `initialiseCovariance`, EKF/covariance.cpp:53-99 -/
  | initCov (x : InitIn)
  /-- `predictState`, `predictCovariance` -/
  | predict (x : PredictIn)
  /-- `fuseHorizontalVelocity`, `fuseVerticalVelocity`, `fuseHorizontalPosition`, `fuseVerticalPosition`, EKF/vel_pos_fusion.cpp:46-183 -/
  | hvel (x : VPIn) (i0 i1 gate r0 r1 : ℝ) (aux : VPSt)
  | vvel (x : VPIn) (i gate r : ℝ) (aux : VPSt)
  | hpos (x : VPIn) (i0 i1 gate r0 r1 : ℝ) (inhibitGate : Bool) (aux : VPSt)
  | vpos (x : VPIn) (i gate r : ℝ) (aux : VPSt)
  /-- `fuseMag`, EKF/mag_fusion.cpp:51-401 -/
  | mag (x : MagIn) (aux : MagSt)
  /-- `fuseDeclination`, EKF/mag_fusion.cpp:830-894 -/
  | declination (x : DeclIn) (fx : FixIn ℝ) (sigma : ℝ) (aux : DeclSt)
  /-- `fuseHeading`, EKF/mag_fusion.cpp:703-828 -/
  | heading (x : HeadIn) (aux : HeadSt)
  /-- `fuseGpsYaw`, EKF/gps_yaw_fusion.cpp:51-195 -/
  | gpsYaw (x : GpsYawIn) (aux : YawSt)
  /-- `fuseAirspeed`, EKF/airspeed_fusion.cpp:48-152 -/
  | airspeed (x : AspIn) (aux : AspSt)
  /-- `fuseSideslip`, EKF/sideslip_fusion.cpp:48-214 -/
  | sideslip (x : BetaIn) (aux : BetaSt)
  /-- `fuseDrag`, EKF/drag_fusion.cpp:46-269 -/
  | drag (x : DragIn) (aux : DragSt)
  /-- `fuseOptFlow`, EKF/optflow_fusion.cpp:50-301 -/
  | flow (x : FlowIn) (aux : FlowSt)
  /-- `resetWindStates(); resetWindCovariance();` EKF/airspeed_fusion.cpp:174-187, EKF/covariance.cpp:1087-1121 -/
  | wind (x : WindResetIn)
  /-- `resetVelocity`, EKF/ekf_helper.cpp:49-64 -/
  | velocityReset (x : Meas.RIn) (aux : Est ℝ)
  /-- `resetHorizontalPosition`, EKF/ekf_helper.cpp:162-195 -/
  | positionReset (x : Meas.RIn) (aux : Est ℝ)
  /-- `resetHeight`, EKF/ekf_helper.cpp:258-333 -/
  | heightReset (x : Control.HIn) (aux : Control.HSt)
  /-- `resetMagHeading`, EKF/ekf_helper.cpp:468-525 -/
  | magYaw (L : Yaw.Lib) (x : Yaw.In) (m : V3 ℝ) (incVar updateBuffer : Bool) (aux : Yaw.St)
  /-- `realignYawGPS`, EKF/ekf_helper.cpp:360-466 -/
  | courseYaw (L : Yaw.Lib) (x : Yaw.In) (aux : Yaw.St)
  /-- `resetYawToEKFGSF`, EKF/ekf_helper.cpp:1595-1630 (its velocity and position resets are separate steps) -/
  | gsfYaw (L : Yaw.Lib) (x : Yaw.In) (aux : Yaw.St)
  /-- `startEvYawFusion`, EKF/ekf_helper.cpp:1484-1504 -/
  | evYaw (L : Yaw.Lib) (x : Yaw.In) (aux : Yaw.St)
  /-- `resetQuatStateYaw`, EKF/ekf_helper.cpp:1549-1590; called by `resetYawToGps`, EKF/gps_yaw_fusion.cpp:197-221 -/
  | yawReset (L : Yaw.Lib) (yaw var : ℝ) (updateBuffer : Bool) (aux : Yaw.St)
  /-- `increaseQuatYawErrVariance`, EKF/ekf_helper.cpp:1353-1392; called at EKF/ekf.cpp:214 -/
  | yawVariance (var : ℝ)
  /-- `resetMagCov`, EKF/covariance.cpp:1058-1073 -/
  | resetMagCov (noise : ℝ)
  /-- `clearMagCov`, EKF/covariance.cpp:1075-1079 -/
  | clearMagCov
  /-- `startMag3DFusion`, `startMagHdgFusion`, `stopMag3DFusion`, `stopMagHdgFusion`, EKF/ekf_helper.cpp:1214-1242 -/
  | startMag3D
  | startMagHdg
  | stopMag3D
  | stopMagHdg
  /-- `resetGyroBias`, `resetAccelBias`, `resetMagBias`, EKF/ekf_helper.cpp:881-918 -/
  | gyroBias (switchOn : ℝ)
  | accelBias (switchOn : ℝ)
  | magBias (noise : ℝ)
  /-- EKF/control.cpp:534: yaw gyro bias variance after indoor operation -/
  | yawGyroVariance (switchOn : ℝ)

/-- set part of the state vector -/
def setS3 (k : ℕ) (v : Fin 3 → ℝ) (s : Vec ℝ) : Vec ℝ := fun i => if h : k ≤ i.val ∧ i.val < k + 3 then v ⟨i.val - k, by omega⟩ else s i

/-- effect of a step -/
def step (w : W) : Op → W
  | .reset => reset w
  | .tilt a g => match initialiseTilt a g with
    | some q => { w with f := { w.f with s := ofState { toState w.f.s with quat := q } }, R := q.dcm }
    | none => w
  | .initCov x => { w with f := Fusion.initCov x w.f }
  | .predict x => predict x w
  | .hvel x i0 i1 g r0 r1 a => { w with f := (fuseHorizontalVelocity x i0 i1 g r0 r1 { a with f := w.f }).st.f }
  | .vvel x i g r a => { w with f := (fuseVerticalVelocity x i g r { a with f := w.f }).st.f }
  | .hpos x i0 i1 g r0 r1 b a => { w with f := (fuseHorizontalPosition x i0 i1 g r0 r1 b { a with f := w.f }).st.f }
  | .vpos x i g r a => { w with f := (fuseVerticalPosition x i g r { a with f := w.f }).st.f }
  | .mag x a => { w with f := (fuseMag x { a with f := w.f }).f }
  | .declination x fx sg a => { w with f := (fuseDeclination x fx sg { a with f := w.f }).f }
  | .heading x a =>
    let r := fuseHeading x { a with y := { a.y with f := w.f }, Rte := w.R }
    { w with f := r.y.f, R := r.Rte }
  | .gpsYaw x a => { w with f := (fuseGpsYaw x { a with f := w.f }).f }
  | .airspeed x a => { w with f := (fuseAirspeed x { a with f := w.f }).f }
  | .sideslip x a => { w with f := (fuseSideslip x { a with f := w.f }).f }
  | .drag x a => { w with f := (fuseDrag x { a with f := w.f }).f }
  | .flow x a => { w with f := (fuseOptFlow x { a with f := w.f }).f }
  | .wind x => { w with f := resetWind x w.f }
  | .velocityReset x a => { w with f := onEst (Meas.resetVelocity x) a w.f }
  | .positionReset x a => { w with f := onEst (Meas.resetHorizontalPosition x) a w.f }
  | .heightReset x h => { w with f := resetHeight x h w.f }
  | .magYaw L x m i u a => onYaw (fun s => (Yaw.resetMagHeading L x m i u s).1) a w
  | .courseYaw L x a => onYaw (fun s => (Yaw.realignYawGps L x s).1) a w
  | .gsfYaw L x a => onYaw (fun s => (Yaw.resetYawToGsf L x s).1) a w
  | .evYaw L x a => onYaw (Yaw.startEvYaw L x) a w
  | .yawReset L y v u a => onYaw (Yaw.resetQuatStateYaw L y v u) a w
  | .yawVariance v => { w with f := { w.f with M := { w.f.M with P := increaseQuatYawErrVariance (attQuat w.f.s) v w.f.M.P } } }
  | .resetMagCov n => { w with f := { w.f with M := Cov.resetMagCov n w.f.M } }
  | .clearMagCov => { w with f := { w.f with M := Cov.clearMagCov w.f.M } }
  | .startMag3D => { w with f := { w.f with M := Cov.startMag3D w.f.M } }
  | .startMagHdg => { w with f := { w.f with M := Cov.startMagHdg w.f.M } }
  | .stopMag3D => { w with f := { w.f with M := Cov.stopMag3D w.f.M } }
  | .stopMagHdg => { w with f := { w.f with M := Cov.stopMagHdg w.f.M } }
  | .gyroBias sw => { w with f := { w.f with s := setS3 10 (resetGyroBias sw w.f.P).1 w.f.s, M := { w.f.M with P := (resetGyroBias sw w.f.P).2 } } }
  | .accelBias sw =>
    { w with f := { w.f with s := setS3 13 (resetAccelBias sw w.f.P).1 w.f.s, M := { w.f.M with P := (resetAccelBias sw w.f.P).2.1 },
                             prevVar := (resetAccelBias sw w.f.P).2.2 } }
  | .magBias n => { w with f := { w.f with s := setS3 19 (resetMagBias n w.f.M).1 w.f.s, M := (resetMagBias n w.f.M).2 } }
  | .yawGyroVariance sw => { w with f := { w.f with M := { w.f.M with P := uncorrSet 12 1 (fun _ => sq (sw * filterPeriod)) w.f.M.P } } }

/-- a history -/
def run (w : W) (l : List Op) : W := l.foldl step w

/-- the variances given by vision data, and the wind uncertainty parameter, are not negative: nothing in the estimator checks this -/
def Op.Ok : Op → Prop
  | .airspeed x _ => 0 ≤ x.wr.initialWindUnc
  | .sideslip x _ => 0 ≤ x.wr.initialWindUnc
  | .wind x => 0 ≤ x.initialWindUnc
  | .velocityReset x _ => 0 ≤ x.flowVar ∧ ∀ i, 0 ≤ x.visVelVar i
  | .positionReset x _ => ∀ i, 0 ≤ x.evPosVar i
  | .yawVariance v => 0 ≤ v
  | _ => True

end

end Ecl.Whole
