import Verif.Basic.Time
import Verif.Basic.Rot
import Mathlib.Data.Matrix.Mul
import Mathlib.Data.List.FinRange

/-!
# Covariance matrix: limits, health check, measurement update — EKF/covariance.cpp, EKF/ekf.h, EKF/ekf_helper.cpp

Exact arithmetic over an ordered field.  The block operations of the external matrix library
(`SquareMatrix::uncorrelateCovarianceSetVariance`, `uncorrelateCovariance`, `makeRowColSymmetric`) are specified here and
are part of the trusted base.
-/

namespace Ecl.Cov

/-- `_k_num_states`, EKF/ekf.h:306 -/
abbrev N : ℕ := 24

/-- `SquareMatrix24f` -/
abbrev Mat (K : Type*) := Fin N → Fin N → K

variable {K : Type*}

/-- index in `[first, first + width)` -/
abbrev inBlk (first width : ℕ) (i : Fin N) : Prop := first ≤ i.val ∧ i.val < first + width

/-- library `uncorrelateCovarianceSetVariance<width>(first, vec)`: rows and columns zeroed, diagonal set -/
def uncorrSet [Zero K] (first width : ℕ) (var : Fin N → K) (P : Mat K) : Mat K := fun i j =>
  if inBlk first width i ∨ inBlk first width j then (if i = j then var i else 0) else P i j

/-- library `uncorrelateCovariance<width>(first)`: rows and columns zeroed, diagonal kept -/
def uncorr [Zero K] (first width : ℕ) (P : Mat K) : Mat K := uncorrSet first width (fun i => P i i) P

/-- library `makeRowColSymmetric<width>(first)`: off-diagonal elements of the rows and columns replaced by the mean of
the two mirrored elements -/
def makeSym [Field K] (first width : ℕ) (P : Mat K) : Mat K := fun i j =>
  if i ≠ j ∧ (inBlk first width i ∨ inBlk first width j) then (P i j + P j i) / 2 else P i j

/-- replace diagonal elements of a block -/
def mapDiag (first width : ℕ) (f : K → K) (P : Mat K) : Mat K := fun i j =>
  if i = j ∧ inBlk first width i then f (P i j) else P i j

/-- flags and values read by `fixCovarianceErrors` -/
structure FixIn (K : Type*) where
  /-- `_accel_bias_inhibit` -/
  inhibit : Fin 3 → Bool
  /-- `_control_status.flags.mag_3D` -/
  mag3D : Bool
  /-- `_control_status.flags.wind` -/
  wind : Bool
  /-- `_dt_ekf_avg` -/
  dtEkfAvg : K
  /-- `_time_last_imu` -/
  now : UInt64
  /-- result of the accelerometer bias plausibility check, EKF/covariance.cpp:946-955 -/
  badAccBias : Bool

section
variable [Field K] [LinearOrder K] [IsStrictOrderedRing K]

/-- state index of accelerometer bias axis -/
def accIdx (a : Fin 3) : Fin N := ⟨13 + a.val, by have := a.isLt; show 13 + a.val < 24; omega⟩

/-- scan of the accelerometer bias variances, EKF/covariance.cpp:907-923: (maxStateVar, resetRequired) -/
def accScanStep (inhibit : Fin 3 → Bool) (P : Mat K) (acc : K × Bool) (a : Fin 3) : K × Bool :=
  if inhibit a then acc
  else if P (accIdx a) (accIdx a) > acc.1 then (P (accIdx a) (accIdx a), acc.2)
  else if P (accIdx a) (accIdx a) < 1 / 1000000000 then (acc.1, true)
  else acc

def accScan (inhibit : Fin 3 → Bool) (P : Mat K) : K × Bool :=
  [0, 1, 2].foldl (accScanStep inhibit P) (1 / 1000000000, false)

/-- upper limit of the accelerometer bias variance, EKF/covariance.cpp:935 -/
def accCap (dtEkfAvg : K) : K := sq (1 / 10 * (980665 / 100000) * dtEkfAvg)

/-- lower limit of the accelerometer bias variance, EKF/covariance.cpp:927-928 -/
def accFloor (maxVar : K) : K := max (1 / 100 * maxVar) (5 / 100000000)

/-- EKF/covariance.cpp:930-936 -/
def accClamp (inhibit : Fin 3 → Bool) (lo hi : K) (P : Mat K) : Mat K := fun i j =>
  if i = j ∧ ∃ a, inhibit a = false ∧ i = accIdx a then constrain (P i j) lo hi else P i j

/-- accelerometer bias section, EKF/covariance.cpp:904-982: covariance, `_time_acc_bias_check`,
`_fault_status.flags.bad_acc_bias` -/
def fixAcc (x : FixIn K) (force : Bool) (timeCheck : UInt64) (P : Mat K) : Mat K × UInt64 × Bool :=
  let s := accScan x.inhibit P
  let P := accClamp x.inhibit (accFloor s.1) (accCap x.dtEkfAvg) P
  let P := if s.2 then uncorr 13 3 P else P
  let t := if x.badAccBias then timeCheck else x.now
  if isTimedOut x.now t 7000000 then (uncorr 13 3 P, x.now, false)
  else (if force then makeSym 13 3 P else P, t, x.badAccBias)

/-- the first part: kinematic and gyro bias states, EKF/covariance.cpp:877-900 -/
def fixKin (force : Bool) (P : Mat K) : Mat K :=
  let P := mapDiag 0 4 (fun v => constrain v 0 1) P
  let P := mapDiag 4 3 (fun v => constrain v (1 / 1000000) 1000000) P
  let P := mapDiag 7 3 (fun v => constrain v (1 / 1000000) 1000000) P
  let P := mapDiag 10 3 (fun v => constrain v 0 1) P
  if force then makeSym 0 13 P else P

/-- `zeroMagCov`, EKF/covariance.cpp:1081-1085 -/
def zeroMagCov (P : Mat K) : Mat K := uncorrSet 19 3 (fun _ => 0) (uncorrSet 16 3 (fun _ => 0) P)

/-- magnetic field section, EKF/covariance.cpp:985-1005 -/
def fixMag (mag3D force : Bool) (P : Mat K) : Mat K :=
  if !mag3D then zeroMagCov P
  else
    let P := mapDiag 16 3 (fun v => constrain v 0 1) P
    let P := mapDiag 19 3 (fun v => constrain v 0 1) P
    if force then makeSym 19 3 (makeSym 16 3 P) else P

/-- wind section, EKF/covariance.cpp:1007-1020 -/
def fixWind (wind force : Bool) (P : Mat K) : Mat K :=
  if !wind then uncorrSet 22 2 (fun _ => 0) P
  else
    let P := mapDiag 22 2 (fun v => constrain v 0 1000000) P
    if force then makeSym 22 2 P else P

/-- all three accelerometer bias axes inhibited -/
def allInhibited (inhibit : Fin 3 → Bool) : Bool := inhibit 0 && inhibit 1 && inhibit 2

/-- `fixCovarianceErrors(force_symmetry)`, EKF/covariance.cpp:859-1021.  Result: covariance, `_time_acc_bias_check`,
`bad_acc_bias` flag (unchanged flag passed in as `flag`). -/
def fixCovarianceErrors (x : FixIn K) (force : Bool) (timeCheck : UInt64) (flag : Bool) (P : Mat K) :
    Mat K × UInt64 × Bool :=
  let P := fixKin force P
  let r := if !x.inhibit 0 || !x.inhibit 1 || !x.inhibit 2 then fixAcc x force timeCheck P else (P, timeCheck, flag)
  (fixWind x.wind force (fixMag x.mag3D force r.1), r.2)

/-- one iteration of `checkAndFixCovarianceUpdate` -/
def checkStep (KHP : Mat K) (acc : Mat K × Bool) (i : Fin N) : Mat K × Bool :=
  if acc.1 i i < KHP i i then (uncorrSet i.val 1 (fun _ => 0) acc.1, false) else acc

/-- `checkAndFixCovarianceUpdate`, EKF/covariance.cpp:1025-1034 -/
def checkAndFix (KHP P : Mat K) : Mat K × Bool := (List.finRange N).foldl (checkStep KHP) (P, true)

/-- `computeKHP`, EKF/ekf.h:690-716; the sparse observation row is a dense vector with zeros, `(K Hᵢ) P` summed over
the row. -/
def computeKHP (k h : Fin N → K) (P : Mat K) : Mat K := fun r c => ∑ i, k r * h i * P i c

/-- gains with inhibited accelerometer bias axes zeroed, EKF/ekf.h:723-727 -/
def maskGain (inhibit : Fin 3 → Bool) (k : Fin N → K) : Fin N → K := fun i =>
  if ∃ a, inhibit a = true ∧ i = accIdx a then 0 else k i

/-- `measurementUpdate`, EKF/ekf.h:721-747: covariance, `_time_acc_bias_check`, flag, and the gain used for the state
correction if the update was applied (`none`: returned false, no state correction) -/
def measurementUpdate (x : FixIn K) (k h : Fin N → K) (timeCheck : UInt64) (flag : Bool) (P : Mat K) :
    Mat K × UInt64 × Bool × Option (Fin N → K) :=
  let k := maskGain x.inhibit k
  let khp := computeKHP k h P
  let r := checkAndFix khp P
  if r.2 then
    let f := fixCovarianceErrors x true timeCheck flag (fun i j => r.1 i j - khp i j)
    (f.1, f.2.1, f.2.2, some k)
  else (r.1, timeCheck, flag, none)

/-- `uncorrelateQuatFromOtherStates`, EKF/ekf_helper.cpp:996-1000 -/
def uncorrelateQuat (P : Mat K) : Mat K := fun i j =>
  if (4 ≤ i.val ∧ j.val < 4) ∨ (i.val < 4 ∧ 4 ≤ j.val) then 0 else P i j

/-- `increaseQuatYawErrVariance`, EKF/ekf_helper.cpp:1353-1392: the sixteen additions, written as an added matrix -/
def yawVarInc (q : Quat K) (yawVar : K) : Fin 4 → Fin 4 → K :=
  let sg0 := sq q.w - sq q.x - sq q.y + sq q.z
  let sg1 := 2 * q.w * q.y - 2 * q.x * q.z
  let sg2 := 2 * q.w * q.x + 2 * q.y * q.z
  let s0 := 1 / 2 * ((q.x * sg0) - (q.w * sg2) + (q.z * sg1))
  let s1 := 1 / 2 * ((q.w * sg1) - (q.y * sg0) + (q.z * sg2))
  let s2 := 1 / 2 * ((q.z * sg0) - (q.x * sg1) + (q.y * sg2))
  let s3 := 1 / 2 * ((q.w * sg0) + (q.x * sg2) + (q.y * sg1))
  let v := min yawVar (1 / 100)
  fun i j => (!![v * sq s2, v * s1 * s2, v * s0 * s2, -(v * s2 * s3);
     v * s1 * s2, v * sq s1, v * s0 * s1, -(v * s1 * s3);
     v * s0 * s2, v * s0 * s1, v * sq s0, -(v * s0 * s3);
     -(v * s2 * s3), -(v * s1 * s3), -(v * s0 * s3), v * sq s3] : Matrix (Fin 4) (Fin 4) K) i j

/-- see `yawVarInc` -/
def increaseQuatYawErrVariance (q : Quat K) (yawVar : K) (P : Mat K) : Mat K := fun i j =>
  if h : i.val < 4 ∧ j.val < 4 then P i j + yawVarInc q yawVar ⟨i.val, h.1⟩ ⟨j.val, h.2⟩ else P i j

end

end Ecl.Cov
