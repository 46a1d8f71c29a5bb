import Verif.Basic.Num
import Verif.Basic.Rot
import Verif.Basic.RealTrig
import Verif.Utils.Model
import Mathlib.Analysis.SpecialFunctions.Exp

/-!
# EKFGSF_yaw — EKF/EKFGSF_yaw.{h,cpp}

Floats are real numbers; `exp`, `cos`, `sin`, `sqrt`, `atan2` are the real functions.  The literals of the code are kept as decimals.
`aligned`, `vel_NE`, `fuse_gps` and `accel_dt` of the AHRS structure are never read and are left out.
-/

namespace Ecl.Gsf

open Utils

/-- 3×3 covariance -/
abbrev C3 := Fin 3 → Fin 3 → ℝ

/-- One model of the bank: `_ahrs_ekf_gsf[i]` (R, gyro bias) and `_ekf_gsf[i]` (X = north velocity, east velocity, yaw; P; inverse innovation
covariance, its determinant, innovations), EKFGSF_yaw.h:71-78, 98-104. -/
structure Mdl where
  R : M3 ℝ
  bias : V3 ℝ
  X : V3 ℝ
  P : C3
  sinv : Fin 2 → Fin 2 → ℝ
  sdet : ℝ
  innov : Fin 2 → ℝ

/-- The members of `EKFGSF_yaw` that persist between calls, EKFGSF_yaw.h:66-70, 80-83, 106-110, 127-129. -/
structure St where
  m : Fin 5 → Mdl
  tilt : Bool
  acc : V3 ℝ
  velUpd : Bool
  vel : Fin 2 → ℝ
  velAcc : ℝ
  started : Bool
  w : Fin 5 → ℝ
  yaw : ℝ
  yawVar : ℝ

/-- Arguments of `update`: IMU sample, "run" flag, airspeed, gyro bias of the main filter, EKFGSF_yaw.h:36-39. -/
structure In where
  dAng : V3 ℝ
  dVel : V3 ℝ
  dAngDt : ℝ
  dVelDt : ℝ
  run : Bool
  tas : ℝ
  bias : V3 ℝ

/-- A newly constructed estimator: everything zero, EKFGSF_yaw.cpp:4-14, EKFGSF_yaw.h:66-129. -/
noncomputable def fresh : St where
  m := fun _ => ⟨fun _ _ => 0, fun _ => 0, fun _ => 0, fun _ _ => 0, fun _ _ => 0, 0, fun _ => 0⟩
  tilt := false
  acc := fun _ => 0
  velUpd := false
  vel := fun _ => 0
  velAcc := 0
  started := false
  w := fun _ => 0
  yaw := 0
  yawVar := 0

/-- squared norm -/
def nsq (v : V3 ℝ) : ℝ := v 0 * v 0 + v 1 * v 1 + v 2 * v 2
/-- Euclidean norm -/
noncomputable def norm3 (v : V3 ℝ) : ℝ := √(nsq v)
/-- cross product (`operator%` of the external library) -/
def cross (a b : V3 ℝ) : V3 ℝ := ![a 1 * b 2 - a 2 * b 1, a 2 * b 0 - a 0 * b 2, a 0 * b 1 - a 1 * b 0]

/-- specific force of the sample, EKFGSF_yaw.cpp:31 -/
noncomputable def accel (x : In) : V3 ℝ := fun i => x.dVel i / max x.dVelDt 0.001

/-- low-pass filtered specific force, EKFGSF_yaw.cpp:29-32 -/
noncomputable def filtAcc (x : In) (acc : V3 ℝ) : V3 ℝ := fun i =>
  acc i * (1 - min (10 * x.dVelDt * 0.2) 1) + accel x i * min (10 * x.dVelDt * 0.2) 1

/-- `initialiseEKFGSF()`, EKFGSF_yaw.cpp:415-437; the AHRS half of the models is kept. -/
noncomputable def initBank (st : St) : St :=
  let inc : ℝ := 2 * 3.14159265 / 5
  { st with
    yaw := 0
    started := false
    yawVar := 1.57079632 * 1.57079632
    w := fun _ => 1 / 5
    m := fun i => { st.m i with
      X := ![st.vel 0, st.vel 1, -3.14159265 + 0.5 * inc + (i.val : ℝ) * inc]
      P := ![![sq st.velAcc, 0, 0], ![0, sq st.velAcc, 0], ![0, 0, sq (0.5 * inc)]]
      sinv := fun _ _ => 0
      sdet := 0
      innov := fun _ => 0 } }

/-- The rotation matrix computed by `ahrsAlignTilt()`, EKFGSF_yaw.cpp:181-199.  The normalisations divide by the norms. -/
noncomputable def tiltMat (dVel : V3 ℝ) : M3 ℝ :=
  let down : V3 ℝ := fun i => -(dVel i / norm3 dVel)
  let north0 : V3 ℝ := ![1 - down 0 * down 0, 0 - down 1 * down 0, 0 - down 2 * down 0]
  let north : V3 ℝ := fun i => north0 i / norm3 north0
  ![north, cross down north, down]

/-- `ahrsAlignTilt()`, EKFGSF_yaw.cpp:174-204. -/
noncomputable def alignTilt (x : In) (st : St) : St := { st with m := fun i => { st.m i with R := tiltMat x.dVel } }

/-- `ahrsAlignYaw()`, EKFGSF_yaw.cpp:206-216. -/
noncomputable def alignYaw (st : St) : St :=
  { st with m := fun i => { st.m i with R := updateYawInRotMat (wrapPi ((st.m i).X 2)) (st.m i).R } }

/-- `ahrsCalcAccelGain()`, EKFGSF_yaw.cpp:463-481. -/
noncomputable def accelGain (tas accNorm : ℝ) : ℝ :=
  let attenuation : ℝ := if tas > 0.00000011920929 ∧ accNorm > 9.80665 then 1 else 2
  let delta := (accNorm - 9.80665) / 9.80665
  0.2 * sq (1 - mmin (attenuation * |delta|) 1)

/-- rate gyro reading minus bias, EKFGSF_yaw.cpp:133 -/
noncomputable def angRate (x : In) (m : Mdl) : V3 ℝ := fun i => x.dAng i / max x.dAngDt 0.001 - m.bias i

/-- tilt correction rate, EKFGSF_yaw.cpp:135-157 (`acc` is the filtered specific force) -/
noncomputable def tiltCorr (x : In) (acc : V3 ℝ) (m : Mdl) : V3 ℝ :=
  let gain := accelGain x.tas (norm3 acc)
  if gain > 0 then
    let rate := angRate x m
    let a : V3 ℝ := if x.tas > 0.00000011920929 then ![acc 0 - 0, acc 1 - x.tas * rate 2, acc 2 - -x.tas * rate 1] else acc
    fun i => cross (m.R 2) a i * gain / norm3 acc
  else fun _ => 0

/-- gyro bias after `ahrsPredict`, EKFGSF_yaw.cpp:159-165 -/
noncomputable def newBias (x : In) (acc : V3 ℝ) (m : Mdl) : V3 ℝ :=
  if norm3 (angRate x m) < 0.175 then fun i => constrain (m.bias i - tiltCorr x acc m i * (0.04 * x.dAngDt)) (-0.05) 0.05 else m.bias

/-- first-order rotation of one row, EKFGSF_yaw.cpp:485-494 -/
def rotRow (r g : V3 ℝ) : V3 ℝ :=
  ![r 0 + (r 1 * g 2 - r 2 * g 1), r 1 + (r 2 * g 0 - r 0 * g 2), r 2 + (r 0 * g 1 - r 1 * g 0)]

/-- approximate normalisation of one row, EKFGSF_yaw.cpp:496-504 -/
noncomputable def renorm (r : V3 ℝ) : V3 ℝ := if nsq r > 0.00000011920929 then fun i => r i * (1.5 - 0.5 * nsq r) else r

/-- `ahrsPredictRotMat(R, g)`, EKFGSF_yaw.cpp:483-507. -/
noncomputable def predictRotMat (R : M3 ℝ) (g : V3 ℝ) : M3 ℝ := fun i => renorm (rotRow (R i) g)

/-- `ahrsPredict(model_index)`, EKFGSF_yaw.cpp:129-172. -/
noncomputable def ahrsPredict (x : In) (acc : V3 ℝ) (m : Mdl) : Mdl :=
  { m with
    bias := newBias x acc m
    R := predictRotMat m.R fun i => x.dAng i + (tiltCorr x acc m i - newBias x acc m i) * x.dAngDt }

/-- variance floor, EKFGSF_yaw.cpp:285-289, 375-379 -/
noncomputable def floorP (P : C3) : C3 := fun i j => if i = j then max (P i i) 0.000001 else P i j

/-- generated covariance prediction, EKFGSF_yaw.cpp:247-283; `dvx`, `dvy`: delta velocity in the horizontal front-right frame.  The code reads
the old values through references, but no element is read after it has been assigned. -/
noncomputable def predictP (P : C3) (psi dvx dvy dvVar dazVar : ℝ) : C3 :=
  let S0 := Real.cos psi
  let S1 := powf S0 2
  let S2 := Real.sin psi
  let S3 := powf S2 2
  let S4 := S0 * dvy + S2 * dvx
  let S5 := P 0 2 - P 2 2 * S4
  let S6 := S0 * dvx - S2 * dvy
  let S7 := S0 * S2
  let S8 := P 0 1 + S7 * dvVar - S7 * dvVar
  let S9 := P 1 2 + P 2 2 * S6
  let P00 := P 0 0 - P 0 2 * S4 + S1 * dvVar + S3 * dvVar - S4 * S5
  let P01 := -P 1 2 * S4 + S5 * S6 + S8
  let P11 := P 1 1 + P 1 2 * S6 + S1 * dvVar + S3 * dvVar + S6 * S9
  ![![P00, P01, S5], ![P01, P11, S9], ![S5, S9, P 2 2 + dazVar]]

/-- yaw of the attitude, EKFGSF_yaw.cpp:228-232 -/
noncomputable def yawOf (R : M3 ℝ) : ℝ :=
  open Classical in if shouldUse321 R then getEuler321Yaw R else getEuler312Yaw R

/-- delta velocity in the earth frame, EKFGSF_yaw.cpp:235 -/
def dvNed (x : In) (R : M3 ℝ) : V3 ℝ := fun i => R i 0 * x.dVel 0 + R i 1 * x.dVel 1 + R i 2 * x.dVel 2

/-- the EKF part of `predictEKF`, EKFGSF_yaw.cpp:228-289 -/
noncomputable def predictX (x : In) (m : Mdl) : Mdl :=
  let psi := yawOf m.R
  let dv := dvNed x m.R
  let dvx := dv 0 * Real.cos psi + dv 1 * Real.sin psi
  let dvy := -dv 0 * Real.sin psi + dv 1 * Real.cos psi
  { m with
    X := ![m.X 0 + dv 0, m.X 1 + dv 1, psi]
    P := floorP (predictP m.P psi dvx dvy (sq (2 * x.dVelDt)) (sq (0.1 * x.dAngDt))) }

/-- `predictEKF(model_index)`, EKFGSF_yaw.cpp:218-290. -/
noncomputable def predictEKF (x : In) (acc : V3 ℝ) (started : Bool) (m : Mdl) : Mdl :=
  let m := ahrsPredict x acc m
  if started = false then m else predictX x m

/-- The generated quantities of `updateEKF`, EKFGSF_yaw.cpp:302-373, from P and the observation variance `r`: inverse innovation covariance, gain,
posterior covariance (before the floor). -/
noncomputable def updGen (P : C3) (r : ℝ) : (Fin 2 → Fin 2 → ℝ) × (Fin 3 → Fin 2 → ℝ) × C3 × ℝ :=
  let P00 := P 0 0
  let P01 := P 0 1
  let P02 := P 0 2
  let P11 := P 1 1
  let P12 := P 1 2
  let P22 := P 2 2
  let t0 := powf P01 2
  let t1 := -t0
  let t2 := P00 * P11 + P00 * r + P11 * r + t1 + powf r 2
  let t3 := 1 / t2
  let t4 := P11 + r
  let t5 := P01 * t3
  let t6 := -t5
  let t7 := P00 + r
  let t8 := P00 * t4 + t1
  let t9 := t5 * r
  let t10 := P11 * t7
  let t11 := t1 + t10
  let t12 := P01 * P12
  let t13 := P02 * t4
  let t14 := P01 * P02
  let t15 := P12 * t7
  let t16 := t0 * r
  let t17 := powf t2 (-2)
  let t18 := t4 * r + t8
  let t19 := t17 * t18
  let t20 := t17 * (t16 + t7 * t8)
  let t21 := t0 - t10
  let t22 := t17 * t21
  let t23 := t14 - t15
  let t24 := P01 * t23
  let t25 := t12 - t13
  let t26 := t16 - t21 * t4
  let t27 := t17 * t26
  let t28 := t11 + t7 * r
  let t30 := t17 * t28
  let t31 := P01 * t25
  let t32 := t23 * t4 + t31
  let t33 := t17 * t32
  let t35 := t24 + t25 * t7
  let t36 := t17 * t35
  let N00 := P00 - t16 * t19 - t20 * t8
  let N01 := P01 * (t18 * t22 - t20 * r + 1)
  let N11 := P11 - t16 * t30 + t22 * t26
  let N02 := P02 + t19 * t24 + t20 * t25
  let N12 := P12 + t23 * t27 + t30 * t31
  let N22 := P22 - t23 * t33 - t25 * t36
  (![![t3 * t4, t6], ![t6, t3 * t7]],
   ![![t3 * t8, t9], ![t9, t11 * t3], ![t3 * (-t12 + t13), t3 * (-t14 + t15)]],
   ![![N00, N01, N02], ![N01, N11, N12], ![N02, N12, N22]], t3)

/-- determinant `t2` of the innovation covariance, EKFGSF_yaw.cpp:313 -/
noncomputable def detS (P : C3) (r : ℝ) : ℝ := P 0 0 * P 1 1 + P 0 0 * r + P 1 1 * r + -powf (P 0 1) 2 + powf r 2

/-- observation variance, EKFGSF_yaw.cpp:296 -/
noncomputable def obsVar (velAcc : ℝ) : ℝ := sq (max velAcc 0.5)

/-- `innov · (S⁻¹ · innov)`, EKFGSF_yaw.cpp:382, 442 -/
def testRatio (m : Mdl) : ℝ :=
  m.innov 0 * (m.sinv 0 0 * m.innov 0 + m.sinv 0 1 * m.innov 1) + m.innov 1 * (m.sinv 1 0 * m.innov 0 + m.sinv 1 1 * m.innov 1)

/-- rotation of the first two rows by the yaw change, EKFGSF_yaw.cpp:397-410 -/
noncomputable def yawRot (d : ℝ) (R : M3 ℝ) : M3 ℝ :=
  ![fun j => R 0 j * Real.cos d - R 1 j * Real.sin d, fun j => R 0 j * Real.sin d + R 1 j * Real.cos d, R 2]

/-- `updateEKF(model_index)`, EKFGSF_yaw.cpp:293-413: the new model and the returned flag. -/
noncomputable def updateEKF (vel : Fin 2 → ℝ) (velAcc : ℝ) (m : Mdl) : Mdl × Bool :=
  let r := obsVar velAcc
  let m := { m with innov := ![m.X 0 - vel 0, m.X 1 - vel 1] }
  if |detS m.P r| < 0.000001 then (m, false)
  else
    let g := updGen m.P r
    let m := { m with
      sdet := g.2.2.2
      sinv := g.1
      P := floorP g.2.2.1 }
    let ratio := testRatio m
    let scale := if ratio > 25 then √(25 / ratio) else 1
    let X' : V3 ℝ := fun i => m.X i - (g.2.1 i 0 * m.innov 0 + g.2.1 i 1 * m.innov 1) * scale
    ({ m with
      X := X'
      R := yawRot (X' 2 - m.X 2) m.R }, true)

/-- `gaussianDensity(model_index)`, EKFGSF_yaw.cpp:439-445. -/
noncomputable def density (m : Mdl) : ℝ := 0.159154943 * √m.sdet * Real.exp (-0.5 * testRatio m)

/-- weights before normalisation and number of clipped ones, EKFGSF_yaw.cpp:84-86 -/
noncomputable def rawWeight (st : St) (i : Fin 5) : ℝ := density (st.m i) * st.w i
/-- weight after clipping at 1e-5, EKFGSF_yaw.cpp:86-89 -/
noncomputable def clipWeight (st : St) (i : Fin 5) : ℝ := if rawWeight st i < 0.00001 then 0.00001 else rawWeight st i
/-- sum over the five models -/
def sum5 (f : Fin 5 → ℝ) : ℝ := f 0 + f 1 + f 2 + f 3 + f 4

/-- weight update, EKFGSF_yaw.cpp:79-102 -/
noncomputable def reweigh (st : St) : St :=
  if ∃ i, ¬ rawWeight st i < 0.00001 then { st with w := fun i => clipWeight st i / sum5 (clipWeight st) }
  else initBank { st with w := clipWeight st }

/-- composite yaw and variance, EKFGSF_yaw.cpp:107-123 -/
noncomputable def composite (st : St) : St :=
  let c := sum5 fun i => st.w i * Real.cos ((st.m i).X 2)
  let s := sum5 fun i => st.w i * Real.sin ((st.m i).X 2)
  let yaw := atan2 s c
  { st with
    yaw := yaw
    yawVar := sum5 fun i => st.w i * ((st.m i).P 2 2 + wrapPi ((st.m i).X 2 - yaw) * wrapPi ((st.m i).X 2 - yaw)) }

/-- start of velocity fusion, EKFGSF_yaw.cpp:61-69 -/
noncomputable def start (x : In) (st : St) : St :=
  let st := alignYaw (initBank st)
  { st with
    m := fun i => { st.m i with bias := x.bias }
    started := true }

/-- velocity fusion in all models and the new weights, EKFGSF_yaw.cpp:70-103 -/
noncomputable def fuseAll (st : St) : St :=
  let u := fun i => updateEKF st.vel st.velAcc (st.m i)
  let st := { st with m := fun i => (u i).1 }
  if ∃ i, (u i).2 = false then st else reweigh st

/-- the velocity part of `update`, EKFGSF_yaw.cpp:59-108 -/
noncomputable def velStep (x : In) (st : St) : St :=
  if x.run = true ∧ st.velUpd = true then
    if st.started = false then start x st else fuseAll st
  else if st.started = true ∧ x.run = false then { st with started := false }
  else st

/-- the first-time branch of `update`, EKFGSF_yaw.cpp:34-48 -/
noncomputable def tryAlign (x : In) (st : St) : St :=
  if nsq (accel x) > sq (9.80665 * 0.9) ∧ nsq (accel x) < sq (9.80665 * 1.1) then { alignTilt x (initBank st) with tilt := true }
  else st

/-- `update(imu_sample, run_EKF, airspeed, imu_gyro_bias)`, EKFGSF_yaw.cpp:16-127. -/
noncomputable def update (x : In) (st : St) : St :=
  let st := { st with acc := filtAcc x st.acc }
  if st.tilt = false then tryAlign x st
  else
    let st := { st with m := fun i => predictEKF x st.acc st.started (st.m i) }
    { composite (velStep x st) with velUpd := false }

/-- `setVelocity(velocity, accuracy)`, EKFGSF_yaw.cpp:519-524. -/
def setVelocity (vel : Fin 2 → ℝ) (acc : ℝ) (st : St) : St := { st with
  vel := vel
  velAcc := acc
  velUpd := true }

/-- `getYawData(...)`, EKFGSF_yaw.cpp:509-517: yaw and variance, if available. -/
def getYawData (st : St) : Option (ℝ × ℝ) := if st.started then some (st.yaw, st.yawVar) else none

/-- the public calls -/
inductive Call where
  | update (x : In)
  | setVelocity (vel : Fin 2 → ℝ) (acc : ℝ)

/-- effect of one call -/
noncomputable def step (st : St) : Call → St
  | .update x => update x st
  | .setVelocity v a => setVelocity v a st

/-- a history of calls on a new estimator -/
noncomputable def run (l : List Call) : St := l.foldl step fresh

end Ecl.Gsf
