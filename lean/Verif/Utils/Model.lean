import Verif.Basic.RealTrig

/-!
# EKF/utils.cpp, EKF/utils.hpp
-/

namespace Ecl.Utils

open Real

/-- `taitBryan312ToRotMat`, EKF/utils.cpp:3-25 (argument: yaw, roll, pitch) -/
noncomputable def taitBryan312ToRotMat (rot312 : V3 ℝ) : M3 ℝ :=
  let c2 := cos (rot312 2)
  let s2 := sin (rot312 2)
  let s1 := sin (rot312 1)
  let c1 := cos (rot312 1)
  let s0 := sin (rot312 0)
  let c0 := cos (rot312 0)
  !![c0 * c2 - s0 * s1 * s2, -c1 * s0, s2 * c0 + c2 * s1 * s0;
     c2 * s0 + s2 * s1 * c0, c0 * c1, s0 * s2 - s1 * c0 * c2;
     -s2 * c1, s1, c2 * c1]

/-- `kahanSummation`, EKF/utils.cpp:27-33, with an arbitrary rounding `rnd` applied after every operation;
returns (sum, new accumulator) -/
def kahanSummation {K : Type*} [Field K] (rnd : K → K) (sumPrevious input accumulator : K) : K × K :=
  let y := rnd (input - accumulator)
  let t := rnd (sumPrevious + y)
  (t, rnd (rnd (t - sumPrevious) - y))

/-- repeated use as in EKF/covariance.cpp:590-604: the accumulator is kept by the caller -/
def kahanRun {K : Type*} [Field K] (rnd : K → K) : K × K → List K → K × K :=
  List.foldl fun s input => kahanSummation rnd s.1 input s.2

/-- `quatToInverseRotMat`, EKF/utils.cpp:35-60 -/
def quatToInverseRotMat {K : Type*} [Field K] (q : Quat K) : M3 K :=
  let q00 := q.w * q.w
  let q11 := q.x * q.x
  let q22 := q.y * q.y
  let q33 := q.z * q.z
  let q01 := q.w * q.x
  let q02 := q.w * q.y
  let q03 := q.w * q.z
  let q12 := q.x * q.y
  let q13 := q.x * q.z
  let q23 := q.y * q.z
  !![q00 + q11 - q22 - q33, 2 * (q12 + q03), 2 * (q13 - q02);
     2 * (q12 - q03), q00 - q11 + q22 - q33, 2 * (q23 + q01);
     2 * (q13 + q02), 2 * (q23 - q01), q00 - q11 - q22 + q33]

/-- `shouldUse321RotationSequence`, EKF/utils.cpp:62-64 -/
def shouldUse321 (R : M3 ℝ) : Prop := |R 2 0| < |R 2 1|

/-- `getEuler321Yaw(Quatf)`, EKF/utils.cpp:66-72 -/
noncomputable def getEuler321YawQ (q : Quat ℝ) : ℝ :=
  atan2 (2 * (q.w * q.z + q.x * q.y)) (sq q.w + sq q.x - sq q.y - sq q.z)

/-- `getEuler321Yaw(Dcmf)`, EKF/utils.cpp:74-76 -/
noncomputable def getEuler321Yaw (R : M3 ℝ) : ℝ := atan2 (R 1 0) (R 0 0)

/-- `getEuler312Yaw(Quatf)`, EKF/utils.cpp:78-84 -/
noncomputable def getEuler312YawQ (q : Quat ℝ) : ℝ :=
  atan2 (2 * (q.w * q.z - q.x * q.y)) (sq q.w - sq q.x + sq q.y - sq q.z)

/-- `getEuler312Yaw(Dcmf)`, EKF/utils.cpp:86-88 -/
noncomputable def getEuler312Yaw (R : M3 ℝ) : ℝ := atan2 (-R 0 1) (R 1 1)

/-- `matrix::Eulerf(const Dcmf&)` of the external matrix library, used at EKF/utils.cpp:91 (roll, pitch, yaw) -/
noncomputable def eulerOfDcm (R : M3 ℝ) : ℝ × ℝ × ℝ :=
  let theta := arcsin (-R 2 0)
  if |theta - π / 2| < 1 / 1000 then (0, theta, atan2 (R 1 2) (R 0 2))
  else if |theta + π / 2| < 1 / 1000 then (0, theta, atan2 (-R 1 2) (-R 0 2))
  else (atan2 (R 2 1) (R 2 2), theta, atan2 (R 1 0) (R 0 0))

/-- `matrix::Dcmf(const Eulerf&)` of the external matrix library, used at EKF/utils.cpp:93 -/
noncomputable def dcmOfEuler (phi theta psi : ℝ) : M3 ℝ :=
  !![cos theta * cos psi, -cos phi * sin psi + sin phi * sin theta * cos psi,
       sin phi * sin psi + cos phi * sin theta * cos psi;
     cos theta * sin psi, cos phi * cos psi + sin phi * sin theta * sin psi,
       -sin phi * cos psi + cos phi * sin theta * sin psi;
     -sin theta, sin phi * cos theta, cos phi * cos theta]

/-- `updateEuler321YawInRotMat`, EKF/utils.cpp:90-94 -/
noncomputable def updateEuler321YawInRotMat (yaw : ℝ) (R : M3 ℝ) : M3 ℝ :=
  let e := eulerOfDcm R
  dcmOfEuler e.1 e.2.1 yaw

/-- `updateEuler312YawInRotMat`, EKF/utils.cpp:96-101 -/
noncomputable def updateEuler312YawInRotMat (yaw : ℝ) (R : M3 ℝ) : M3 ℝ :=
  taitBryan312ToRotMat ![yaw, arcsin (R 2 1), atan2 (-R 2 0) (R 2 2)]

open Classical in
/-- `updateYawInRotMat`, EKF/utils.cpp:103-107 -/
noncomputable def updateYawInRotMat (yaw : ℝ) (R : M3 ℝ) : M3 ℝ :=
  if shouldUse321 R then updateEuler321YawInRotMat yaw R else updateEuler312YawInRotMat yaw R

/-- loop of `ecl::powf` for positive exponents, EKF/utils.hpp:48-51: `ret = x; for (count = 1; count < n; ) ret *= x` -/
def powLoop {K : Type*} [Field K] (x : K) (n : ℕ) : K :=
  (List.range (n - 1)).foldl (fun ret _ => ret * x) x

/-- `ecl::powf`, EKF/utils.hpp:44-57; `exp` is an unbounded integer (negating INT_MIN is excluded) -/
def powf {K : Type*} [Field K] (x : K) (exp : ℤ) : K :=
  if exp > 0 then powLoop x exp.toNat
  else if exp < 0 then 1 / powLoop x (-exp).toNat
  else 1

end Ecl.Utils
