import Verif.Ekf.State
import Verif.ImuDownSampler.Props
import Verif.Interface.Model
import Verif.Utils.Props

/-!
# State limits, strap-down prediction, initial tilt — EKF/ekf.cpp, EKF/ekf_helper.cpp

Exact real arithmetic.  The axis-angle conversion and quaternion normalisation of the external matrix library are
those specified in `Verif/ImuDownSampler` (the conversion is a parameter yielding unit quaternions).
-/

noncomputable section

namespace Ecl.Ekf

open Ecl.ImuDownSampler (ImuSample AxisAngleLib normalize)
open scoped Matrix

/-- `matrix::constrain` on a vector: component-wise -/
def constrainV {n : ℕ} (v : Fin n → ℝ) (lo hi : ℝ) : Fin n → ℝ := fun i => constrain (v i) lo hi

/-- `math::radians`, mathlib/mathlib.h:90-94 -/
def radians (x : ℝ) : ℝ := x / 180 * Real.pi

/-- `CONSTANTS_ONE_G`, geo/geo.h:51 -/
def oneG : ℝ := 980665 / 100000

/-- `Ekf::constrainStates`, EKF/ekf_helper.cpp:550-566 -/
def constrainStates (dtEkfAvg accBiasLim : ℝ) (s : State ℝ) : State ℝ :=
  let angLim := radians 20 * dtEkfAvg
  let velLim := accBiasLim * dtEkfAvg
  { quat := ⟨constrain s.quat.w (-1) 1, constrain s.quat.x (-1) 1, constrain s.quat.y (-1) 1, constrain s.quat.z (-1) 1⟩
    vel := constrainV s.vel (-1000) 1000
    pos := constrainV s.pos (-1000000) 1000000
    dAngBias := constrainV s.dAngBias (-angLim) angLim
    dVelBias := constrainV s.dVelBias (-velLim) velLim
    magI := constrainV s.magI (-1) 1
    magB := constrainV s.magB (-(1 / 2)) (1 / 2)
    wind := constrainV s.wind (-100) 100 }

/-- members used by `predictState`: `_state`, `_R_to_earth`, `_accel_lpf_NE`, `_dt_ekf_avg`, `_ang_rate_delayed_raw` -/
structure Strap where
  state : State ℝ
  R : M3 ℝ
  accelLpf : Fin 2 → ℝ
  dtEkfAvg : ℝ
  angRateRaw : V3 ℝ

/-- `Ekf::predictState`, EKF/ekf.cpp:257-309 -/
def Strap.predict (L : AxisAngleLib) (accBiasLim : ℝ) (earthRate : V3 ℝ) (imu : ImuSample) (s : Strap) : Strap :=
  let dAng := imu.deltaAng - s.state.dAngBias
  let dAng := dAng - imu.deltaAngDt • (s.Rᵀ *ᵥ earthRate)
  let dq := L.exp dAng
  let quat := normalize (s.state.quat.mul dq)
  let R := quat.dcm
  let dVel := imu.deltaVel - s.state.dVelBias
  let dVelEf := R *ᵥ dVel
  let alpha := 1 - imu.deltaVelDt
  let lpf : Fin 2 → ℝ := ![s.accelLpf 0 * alpha + dVelEf 0, s.accelLpf 1 * alpha + dVelEf 1]
  let velLast := s.state.vel
  let vel := s.state.vel + dVelEf
  let vel : V3 ℝ := ![vel 0, vel 1, vel 2 + oneG * imu.deltaVelDt]
  let pos := s.state.pos + (imu.deltaVelDt * (1 / 2)) • (velLast + vel)
  let st := constrainStates s.dtEkfAvg accBiasLim { s.state with quat := quat, vel := vel, pos := pos }
  { state := st
    R := R
    accelLpf := lpf
    dtEkfAvg := Interface.ekfAvgStep s.dtEkfAvg imu.deltaVelDt imu.deltaAngDt
    angRateRaw := if imu.deltaAngDt > 1 / 4 * (1 / 100) then (1 / imu.deltaAngDt) • imu.deltaAng else s.angRateRaw }

/-- prediction over a sequence of IMU samples -/
def Strap.run (L : AxisAngleLib) (accBiasLim : ℝ) (earthRate : V3 ℝ) (s : Strap) (imus : List ImuSample) : Strap :=
  imus.foldl (fun s imu => s.predict L accBiasLim earthRate imu) s

/-- `calcEarthRateNED`, EKF/ekf_helper.cpp:598-604 (`CONSTANTS_EARTH_SPIN_RATE = 7.2921150e-5`, geo/geo.h:58) -/
def calcEarthRateNED (lat : ℝ) : V3 ℝ :=
  ![72921150 / 1000000000000 * Real.cos lat, 0, -(72921150 / 1000000000000) * Real.sin lat]

/-- `Quatf{Eulerf{roll, pitch, yaw}}` of the external matrix library -/
def quatOfEuler (roll pitch yaw : ℝ) : Quat ℝ :=
  let cr := Real.cos (roll / 2); let sr := Real.sin (roll / 2)
  let cp := Real.cos (pitch / 2); let sp := Real.sin (pitch / 2)
  let cy := Real.cos (yaw / 2); let sy := Real.sin (yaw / 2)
  ⟨cr * cp * cy + sr * sp * sy, sr * cp * cy - cr * sp * sy, cr * sp * cy + sr * cp * sy, cr * cp * sy - sr * sp * cy⟩

/-- Euclidean norm (`Vector3f::norm`) -/
def norm3 (v : V3 ℝ) : ℝ := Real.sqrt (v 0 * v 0 + v 1 * v 1 + v 2 * v 2)

/-- `Ekf::initialiseTilt`, EKF/ekf.cpp:236-255: `none` = returned false -/
def initialiseTilt (accel gyro : V3 ℝ) : Option (Quat ℝ) :=
  if norm3 accel < 8 / 10 * oneG ∨ norm3 accel > 12 / 10 * oneG ∨ norm3 gyro > radians 15 then none
  else
    let g := (1 / norm3 accel) • accel
    let pitch := Real.arcsin (g 0)
    let roll := atan2 (-g 1) (-g 2)
    some (quatOfEuler roll pitch 0)

end Ecl.Ekf
