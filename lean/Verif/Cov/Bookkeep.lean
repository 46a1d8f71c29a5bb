import Verif.Cov.Model
import Verif.Basic.RealTrig

/-!
# Covariance resets and bookkeeping — EKF/covariance.cpp, EKF/ekf_helper.cpp
-/

namespace Ecl.Cov

section
variable {K : Type*} [Field K] [LinearOrder K] [IsStrictOrderedRing K]

/-- `_saved_mag_bf_variance` and `_saved_mag_ef_covmat`, EKF/ekf.h:497-498 -/
structure MagSave (K : Type*) where
  bf : Fin 4 → K
  ef : Fin 2 → Fin 2 → K

/-- `saveMagCovData`, EKF/ekf_helper.cpp:1394-1403 -/
def saveMagCov (P : Mat K) : MagSave K where
  bf i := P ⟨i.val + 18, by show i.val + 18 < 24; omega⟩ ⟨i.val + 18, by show i.val + 18 < 24; omega⟩
  ef i j := P ⟨16 + i.val, by show 16 + i.val < 24; omega⟩ ⟨16 + j.val, by show 16 + j.val < 24; omega⟩

/-- `loadMagCovData`, EKF/ekf_helper.cpp:1405-1414 -/
def loadMagCov (s : MagSave K) (P : Mat K) : Mat K := fun i j =>
  if h : (16 ≤ i.val ∧ i.val < 18) ∧ (16 ≤ j.val ∧ j.val < 18) then s.ef ⟨i.val - 16, by omega⟩ ⟨j.val - 16, by omega⟩
  else if h : i = j ∧ 18 ≤ i.val ∧ i.val < 22 then s.bf ⟨i.val - 18, by omega⟩
  else P i j

/-- covariance and magnetometer mode flags -/
structure MagState (K : Type*) where
  P : Mat K
  saved : MagSave K
  mag3D : Bool
  magHdg : Bool
  /-- `_mag_decl_cov_reset` -/
  declReset : Bool

/-- `stopMag3DFusion`, EKF/ekf_helper.cpp:1214-1221 -/
def stopMag3D (s : MagState K) : MagState K :=
  if s.mag3D then { s with saved := saveMagCov s.P, mag3D := false } else s

/-- `stopMagHdgFusion`, EKF/ekf_helper.cpp:1223-1226 -/
def stopMagHdg (s : MagState K) : MagState K := { s with magHdg := false }

/-- `startMagHdgFusion`, EKF/ekf_helper.cpp:1228-1232 -/
def startMagHdg (s : MagState K) : MagState K := { stopMag3D s with magHdg := true }

/-- `startMag3DFusion`, EKF/ekf_helper.cpp:1234-1242 -/
def startMag3D (s : MagState K) : MagState K :=
  if !s.mag3D then
    let s := stopMagHdg s
    { s with P := loadMagCov s.saved (zeroMagCov s.P), mag3D := true }
  else s

/-- `clearMagCov`, EKF/covariance.cpp:1075-1079 -/
def clearMagCov (s : MagState K) : MagState K := { s with P := zeroMagCov s.P, declReset := false }

/-- `stopMagFusion`, EKF/ekf_helper.cpp:1207-1212 -/
def stopMag (s : MagState K) : MagState K := clearMagCov (stopMagHdg (stopMag3D s))

/-- `resetMagCov`, EKF/covariance.cpp:1058-1073 -/
def resetMagCov (magNoise : K) (s : MagState K) : MagState K :=
  let s := clearMagCov s
  let s := { s with P := uncorrSet 19 3 (fun _ => sq magNoise) (uncorrSet 16 3 (fun _ => sq magNoise) s.P) }
  if !s.mag3D then { s with saved := saveMagCov s.P } else s

/-- inputs of the accelerometer bias inhibition, EKF/covariance.cpp:135-162 -/
structure InhibitIn (K : Type*) where
  /-- `_params.acc_bias_learn_tc`, `acc_bias_learn_gyr_lim`, `acc_bias_learn_acc_lim` -/
  tc : K
  gyrLim : K
  accLim : K
  /-- `_params.fusion_mode & MASK_INHIBIT_ACC_BIAS` -/
  maskInhibit : Bool
  /-- `_fault_status.flags.bad_acc_vertical` -/
  badAccVertical : Bool
  /-- `_control_status.flags.in_air` -/
  inAir : Bool
  /-- third row of `_R_to_earth` -/
  rot2 : Fin 3 → K
  /-- `_imu_sample_delayed.delta_vel_clipping` -/
  clipping : Fin 3 → Bool
  /-- `_imu_sample_delayed.delta_ang.norm()` and `delta_vel.norm()` -/
  dAngNorm : K
  dVelNorm : K

/-- state of the inhibition logic -/
structure InhibitState (K : Type*) where
  angFilt : K
  accFilt : K
  inhibit : Fin 3 → Bool
  prevVar : Fin 3 → K
  P : Mat K

/-- `FILTER_UPDATE_PERIOD_S`, EKF/estimator_interface.h:246 (10 ms) -/
def filterPeriod : K := 1 / 100

/-- EKF/covariance.cpp:137-141: envelope filters -/
def envelope (x : InhibitIn K) (s : InhibitState K) : K × K :=
  let alpha := constrain (filterPeriod / x.tc) 0 1
  let beta := 1 - alpha
  (max (1 / filterPeriod * x.dAngNorm) (beta * s.angFilt), max (1 / filterPeriod * x.dVelNorm) (beta * s.accFilt))

/-- EKF/covariance.cpp:143-148: `do_inhibit_all_axes` with the filtered magnitudes -/
def inhibitAll (x : InhibitIn K) (ang acc : K) : Bool :=
  x.maskInhibit || decide (ang > x.gyrLim) || decide (acc > x.accLim) || x.badAccVertical

/-- EKF/covariance.cpp:154-155: `do_inhibit_axis` -/
def inhibitAxis (x : InhibitIn K) (ang acc : K) (a : Fin 3) : Bool :=
  inhibitAll x ang acc || !(decide (|x.rot2 a| > 8 / 10) || x.inAir) || x.clipping a

/-- inhibition update for one axis, EKF/covariance.cpp:157-171 -/
def inhibitStep (x : InhibitIn K) (ang acc : K) (s : InhibitState K) (a : Fin 3) : InhibitState K :=
  if inhibitAxis x ang acc a then
    if !s.inhibit a then { s with prevVar := Function.update s.prevVar a (s.P (accIdx a) (accIdx a)),
                                  inhibit := Function.update s.inhibit a true }
    else s
  else
    if s.inhibit a then { s with P := fun i j => if i = accIdx a ∧ j = accIdx a then s.prevVar a else s.P i j,
                                 inhibit := Function.update s.inhibit a false }
    else s

/-- EKF/covariance.cpp:135-172 -/
def inhibitUpdate (x : InhibitIn K) (s : InhibitState K) : InhibitState K :=
  let e := envelope x s
  [0, 1, 2].foldl (inhibitStep x e.1 e.2) { s with angFilt := e.1, accFilt := e.2 }

/-- parameters and flags of the process noise, EKF/covariance.cpp:128-135, 174-262 -/
structure NoiseIn (K : Type*) where
  gyroBiasPNoise : K
  accelBiasPNoise : K
  mageNoise : K
  magbNoise : K
  windNoise : K
  windScaler : K
  initialWindUnc : K
  gyroNoise : K
  accelNoise : K
  mag3D : Bool
  wind : Bool
  badAccVertical : Bool
  clipping : Fin 3 → Bool
  velD : K

/-- height rate low pass, EKF/covariance.cpp:198-199 -/
def heightRateLpf (prev velD : K) : K :=
  let a := 1 / 10 * filterPeriod
  prev * (1 - a) + velD * a

/-- process noise variances of the stationary states, EKF/covariance.cpp:129-132, 176-225 (index 0..9 never read) -/
def processNoise (x : NoiseIn K) (heightRate : K) (P : Mat K) : Fin N → K := fun i =>
  let dAng := filterPeriod * filterPeriod * constrain x.gyroBiasPNoise 0 1
  let dVel := filterPeriod * filterPeriod * constrain x.accelBiasPNoise 0 1
  let magI := if x.mag3D = true ∧ P 16 16 + P 17 17 + P 18 18 < 1 / 10 then filterPeriod * constrain x.mageNoise 0 1 else 0
  let magB := if x.mag3D = true ∧ P 19 19 + P 20 20 + P 21 21 < 1 / 10 then filterPeriod * constrain x.magbNoise 0 1 else 0
  let windS := if x.wind = true ∧ P 22 22 + P 23 23 < sq x.initialWindUnc then
    filterPeriod * constrain x.windNoise 0 1 * (1 + x.windScaler * |heightRate|) else 0
  if i.val < 10 then 0
  else if i.val < 13 then sq dAng
  else if i.val < 16 then sq dVel
  else if i.val < 19 then sq magI
  else if i.val < 22 then sq magB
  else sq windS

/-- IMU noise variances, EKF/covariance.cpp:227-260: gyro, accelerometer axes, `bad_acc_clipping` -/
def imuNoise (x : NoiseIn K) : K × (Fin 3 → K) × Bool :=
  let accel := if x.badAccVertical then 49 / 10 else constrain x.accelNoise 0 1
  (sq (filterPeriod * constrain x.gyroNoise 0 1),
   fun a => if x.clipping a then sq (filterPeriod * (49 / 10)) else sq (filterPeriod * accel),
   x.clipping 0 || x.clipping 1 || x.clipping 2)

end

noncomputable section

/-- inputs of `resetWindCovariance` -/
structure WindIn where
  /-- `_tas_data_ready` -/
  tasReady : Bool
  imuTime : UInt64
  tasTime : UInt64
  /-- `getEuler321Yaw(_state.quat_nominal)` -/
  yaw : ℝ
  easNoise : ℝ
  eas2tas : ℝ
  tas : ℝ
  windN : ℝ
  windE : ℝ
  initialWindUnc : ℝ

/-- `math::radians` -/
def radians (d : ℝ) : ℝ := d / 180 * Real.pi

/-- `resetWindCovariance`, EKF/covariance.cpp:1087-1121 (unsigned time difference wraps) -/
def resetWindCov (x : WindIn) (P : Mat ℝ) : Mat ℝ :=
  if x.tasReady = true ∧ x.imuTime - x.tasTime < 500000 then
    let rTas := sq (constrain x.easNoise (1 / 2) 5 * constrain x.eas2tas (9 / 10) 10)
    let sideVar := sq (x.tas * Real.sin (radians 15))
    let rYaw := sq (radians 10)
    let c := Real.cos x.yaw
    let s := Real.sin x.yaw
    let wx := x.windN * c + x.windE * s
    let wy := -x.windN * s + x.windE * c
    let Q := uncorrSet 22 2 (fun _ => 0) P
    let p2222 := rTas * sq c + rYaw * sq (-wx * s - wy * c) + sideVar * sq s
    let p2223 := rTas * s * c + rYaw * (-wx * s - wy * c) * (wx * c - wy * s) - sideVar * s * c
    let p2323 := rTas * sq s + rYaw * sq (wx * c - wy * s) + sideVar * sq c
    fun i j =>
      if i = 22 ∧ j = 22 then p2222 + Q 4 4
      else if i = 23 ∧ j = 23 then p2323 + Q 5 5
      else if (i = 22 ∧ j = 23) ∨ (i = 23 ∧ j = 22) then p2223
      else Q i j
  else uncorrSet 22 2 (fun _ => x.initialWindUnc) P

end

end Ecl.Cov
