import Verif.Basic.Num
import Verif.Basic.F32
import Verif.RingBuffer.Model
import Mathlib.Algebra.Module.Basic
import Mathlib.Algebra.Order.Floor.Ring

/-!
# `EstimatorInterface` — EKF/estimator_interface.cpp, EKF/estimator_interface.h

Sensor front end: time stamp shifting, rate limiting, averaging, buffer sizing, rest detection, aiding source
counting.  Undefined behaviour is an explicit outcome.
-/

namespace Ecl.Interface

open Ecl.RingBuffer

/-- undefined behaviour of the front end -/
inductive UB
  | ring (u : RingBuffer.UB)
  | floatToUint
  | divByZero
  deriving DecidableEq, Repr

/-- `time_us -= delay_ms * 1000; time_us -= FILTER_UPDATE_PERIOD_MS * 1000 / 2;`
(EKF/estimator_interface.cpp:156-157, 195-196, 267-268, 301-302, 330-331, 360-361, 391-392, 421-422).
The delay parameter is a float, so the first subtraction is done in binary32 and converted back: the time is
rounded, the difference is rounded, and converting a negative or too large value is undefined.  The delay is
restricted to a whole number `D` of microseconds that is exactly representable.
`FILTER_UPDATE_PERIOD_MS = 10`, EKF/estimator_interface.h:245. -/
def shiftStamp (t : UInt64) (D : ℕ) : Except UB UInt64 :=
  let f := rnd24 t.toNat
  if f < D then .error .floatToUint
  else
    let r := rnd24 (f - D)
    if r < 2 ^ 64 then .ok (UInt64.ofNat r - 10 * 1000 / 2) else .error .floatToUint

/-! ### Rate-limited sensors -/

/-- state of one plain sensor input (buffer, failure flag, time of last accepted sample) -/
structure Port (α : Type*) where
  initialised : Bool
  fail : Bool
  buf : RB α
  timeLast : UInt64

/-- default state: `RingBuffer() { allocate(1); }` (RingBuffer.h:49) and the member initialisers
(EKF/estimator_interface.h:352-371, 433-441), after the interface was initialised -/
def Port.init (α : Type*) [Inhabited α] : Port α := ⟨true, false, RB.new 1, 0⟩

/-- `setAirspeedData` :278-306, `setRangeData` :308-335, `setOpticalFlowData` :337-365 (with the IMU buffer length
instead of the observation buffer length), `setExtVisionData` :368-396, `setAuxVelData` :398-426; all have the same
text.  `minInt` is the current `_min_obs_interval_us` (`unsigned`). -/
def Port.set {α : Type*} [Inhabited α] (p : Port α) (obsLen D : ℕ) (minInt : UInt32) (s : Sample α) :
    Except UB (Port α) :=
  if !p.initialised || p.fail then .ok p
  else
    let a := if p.buf.size < obsLen then p.buf.allocate obsLen else (p.buf, true)
    let p := { p with buf := a.1, fail := !a.2 }
    if p.fail then .ok p
    else if s.time_us - p.timeLast > minInt.toUInt64 then
      match shiftStamp s.time_us D with
      | .error u => .error u
      | .ok t =>
        match p.buf.push { s with time_us := t } with
        | .error u => .error (.ring u)
        | .ok b => .ok { p with buf := b, timeLast := s.time_us }
    else .ok p

/-! ### Averaging sensors (magnetometer, barometer) -/

/-- averaging state: `_mag_sample_count` (uint8_t), `_mag_data_sum`, `_mag_timestamp_sum`, `_time_last_mag`
(EKF/estimator_interface.h:365, 419-430) -/
structure Averager (V : Type*) where
  count : UInt8
  sum : V
  tsum : UInt64
  timeLast : UInt64

/-- initial values, EKF/estimator_interface.h:365-430 -/
def Averager.init (V : Type*) [Zero V] : Averager V := ⟨0, 0, 0, 0⟩

/-- averaging part of `setMagData`, EKF/estimator_interface.cpp:144-166, and `setBaroData` :252-275 (the pressure
compensation of the mean, :263, is applied to the result and not part of this model).  Returns the new state and
the mean time and value handed to the buffer (before the delay shift). -/
def Averager.add {K V : Type*} [Field K] [AddCommGroup V] [Module K V] (a : Averager V) (minInt : UInt32)
    (t : UInt64) (v : V) : Except UB (Averager V × Option (UInt64 × V)) :=
  let a := { a with count := a.count + 1, sum := a.sum + v, tsum := a.tsum + t / 1000 }
  if t - a.timeLast > minInt.toUInt64 then
    if a.count = 0 then .error .divByZero
    else
      .ok ({ count := 0, sum := 0, tsum := 0, timeLast := t },
        some (1000 * (a.tsum / a.count.toUInt64), ((a.count.toNat : K)⁻¹) • a.sum))
  else .ok (a, none)

/-! ### Buffer sizing -/

/-- the parameters read by `initialise_interface`, EKF/common.h:210-232 -/
structure DelayParams (K : Type*) where
  baro : K
  auxvel : K
  airspeed : K
  mag : K
  range : K
  gps : K
  flow : K
  ev : K
  /-- `mag_fusion_type != MAG_FUSE_TYPE_NONE` -/
  useMag : Bool
  /-- `range_aid || vdist_sensor_type == VDIST_SENSOR_RANGE` -/
  useRange : Bool
  /-- `fusion_mode & MASK_USE_GPS` -/
  maskGps : Bool
  /-- `fusion_mode & MASK_USE_OF` -/
  maskFlow : Bool
  /-- `fusion_mode & (MASK_USE_EVPOS | MASK_USE_EVYAW | MASK_USE_EVVEL)` -/
  maskEv : Bool
  /-- `sensor_interval_min_ms` -/
  intervalMin : ℤ

section sizing
variable {K : Type*} [Field K] [LinearOrder K] [IsStrictOrderedRing K] [FloorRing K]

/-- maximum delay, EKF/estimator_interface.cpp:481-505 -/
def maxDelay (p : DelayParams K) : K :=
  let m := mmax p.baro (mmax p.auxvel p.airspeed)
  let m := if p.useMag then mmax p.mag m else m
  let m := if p.useRange then mmax p.range m else m
  let m := if p.maskGps then mmax p.gps m else m
  let m := if p.maskFlow then mmax p.flow m else m
  if p.maskEv then mmax p.ev m else m

/-- conversion of an integral float value to `uint8_t`: undefined outside 0..255 -/
def toU8 (z : ℤ) : Except UB ℕ := if 0 ≤ z ∧ z < 256 then .ok z.toNat else .error .floatToUint

/-- `_imu_buffer_length` and `_obs_buffer_length`, EKF/estimator_interface.cpp:508-517.  A zero sensor interval
makes the float quotient infinite or NaN, whose conversion is undefined. -/
def bufferLengths (p : DelayParams K) : Except UB (ℕ × ℕ) :=
  match toU8 (⌈maxDelay p / 10⌉ + 1) with
  | .error u => .error u
  | .ok imuLen =>
    if p.intervalMin = 0 then .error .floatToUint
    else
      match toU8 ⌈maxDelay p * (3 / 2) / (p.intervalMin : K)⌉ with
      | .error u => .error u
      | .ok obsLen => .ok (imuLen, min obsLen imuLen)

/-- `_min_obs_interval_us = (t - t_delayed) / (_obs_buffer_length - 1)`, EKF/estimator_interface.cpp:83:
`int` subtraction, conversion to `uint64_t`, then truncation to `unsigned` -/
def minObsInterval (t tDelayed : UInt64) (obsLen : ℕ) : Except UB UInt32 :=
  if obsLen = 1 then .error .divByZero
  else if obsLen = 0 then .ok ((t - tDelayed) / (0 - 1)).toUInt32
  else .ok ((t - tDelayed) / UInt64.ofNat (obsLen - 1)).toUInt32

end sizing

/-! ### Rest detection -/

/-- quantities entering `checkIfVehicleAtRest` for one IMU sample -/
structure RestInput (K : Type*) where
  timeUs : UInt64
  inAir : Bool
  gyroVibe : K
  accelVibe : K
  /-- `imu.delta_ang.norm() / dt` -/
  rate : K

/-- `checkIfVehicleAtRest`, EKF/estimator_interface.cpp:105-122 (state: `_time_last_move_detect_us`) -/
def restStep {K : Type*} [Field K] [LinearOrder K] (scaler : K) (last : UInt64) (x : RestInput K) : UInt64 × Bool :=
  if !x.inAir then
    let last := if x.gyroVibe * 40000 > scaler ∨ x.accelVibe * 210 > scaler ∨ x.rate > (5 / 100) * scaler
      then x.timeUs else last
    (last, decide (x.timeUs - last > 1000000))
  else (x.timeUs, false)

/-- a sequence of samples; the outputs are the reported `vehicle_at_rest` values -/
def restRun {K : Type*} [Field K] [LinearOrder K] (scaler : K) : UInt64 → List (RestInput K) → UInt64 × List Bool
  | last, [] => (last, [])
  | last, x :: xs =>
    let r := restStep scaler last x
    let r' := restRun scaler r.1 xs
    (r'.1, r.2 :: r'.2)

/-! ### Horizontal aiding sources -/

/-- the flags considered by `getNumberOfActiveHorizontalAidingSources` -/
structure AidFlags where
  gps : Bool
  optFlow : Bool
  evPos : Bool
  evVel : Bool
  fuseAspd : Bool
  fuseBeta : Bool
  deriving DecidableEq

/-- `getNumberOfActiveHorizontalAidingSources`, EKF/estimator_interface.cpp:545-554 -/
def AidFlags.count (f : AidFlags) : ℕ :=
  f.gps.toNat + f.optFlow.toNat + f.evPos.toNat + f.evVel.toNat + (f.fuseAspd && f.fuseBeta).toNat

/-- `isOtherSourceOfHorizontalAidingThan`, EKF/estimator_interface.cpp:539-543 -/
def AidFlags.isOther (f : AidFlags) (flag : Bool) : Bool := if flag then decide (f.count > 1) else decide (f.count > 0)

/-- `isOnlyActiveSourceOfHorizontalAiding`, EKF/estimator_interface.cpp:534-537 -/
def AidFlags.isOnly (f : AidFlags) (flag : Bool) : Bool := flag && !f.isOther flag

/-- `isHorizontalAidingActive`, EKF/estimator_interface.cpp:556-559 -/
def AidFlags.active (f : AidFlags) : Bool := decide (f.count > 0)

/-! ### Average intervals -/

section timing
variable {K : Type*} [Field K] [LinearOrder K]

/-- `_dt_imu_avg` update in `setIMUData`, EKF/estimator_interface.cpp:56-62; state: last time, average -/
def imuAvgStep (s : UInt64 × K) (t : UInt64) : UInt64 × K :=
  let dt := constrain (((t - s.1).toNat : K) / 1000000) (1 / 10000) (2 / 100)
  (t, if t > 0 then (8 / 10) * s.2 + (2 / 10) * dt else s.2)

/-- `_dt_ekf_avg` update in `predictState`, EKF/ekf.cpp:296-300 (`FILTER_UPDATE_PERIOD_S = 0.01`) -/
def ekfAvgStep (avg : K) (dvDt daDt : K) : K :=
  let input := (1 / 2) * (dvDt + daDt)
  let input := constrain input ((1 / 2) * (1 / 100)) (2 * (1 / 100))
  (99 / 100) * avg + (1 / 100) * input

end timing

/-! ### Drag data -/

/-- accumulators of `setDragData`, EKF/estimator_interface.h:287, 424-425 -/
structure DragAcc (K : Type*) where
  count : UInt8
  x : K
  y : K
  tsum : UInt64
  dt : K

/-- `setDragData` after the buffer allocation, EKF/estimator_interface.cpp:445-474; `ratio` is
`ceilf(imuLen / obsLen)` as a `uint8_t` (:453); returns the sample pushed to the buffer, if any -/
def DragAcc.add {K : Type*} [Field K] (a : DragAcc K) (ratio : UInt8) (t : UInt64) (dvx dvy dvdt : K) :
    DragAcc K × Option (UInt64 × K × K) :=
  let a := { count := a.count + 1, x := a.x + dvx, y := a.y + dvy, tsum := a.tsum + t, dt := a.dt + dvdt : DragAcc K }
  let ratio := if ratio < 5 then 5 else ratio
  if a.count ≥ ratio then
    (⟨0, 0, 0, 0, 0⟩, some (a.tsum / a.count.toUInt64, a.x / a.dt, a.y / a.dt))
  else (a, none)

/-! ### Vibration metrics -/

/-- `computeVibrationMetric`, EKF/estimator_interface.cpp:88-103: state `_vibe_metrics`, `_delta_ang_prev`,
`_delta_vel_prev` (EKF/estimator_interface.h:411-413); `norm` and `cross` are those of the vector library -/
structure Vibe (K V : Type*) where
  coning : K
  gyro : K
  accel : K
  prevAng : V
  prevVel : V

def Vibe.step {K V : Type*} [Field K] [AddCommGroup V] (norm : V → K) (cross : V → V → V) (s : Vibe K V)
    (deltaAng deltaVel : V) : Vibe K V :=
  { coning := (99 / 100) * s.coning + (1 / 100) * norm (cross deltaAng s.prevAng)
    gyro := (99 / 100) * s.gyro + (1 / 100) * norm (deltaAng - s.prevAng)
    accel := (99 / 100) * s.accel + (1 / 100) * norm (deltaVel - s.prevVel)
    prevAng := deltaAng
    prevVel := deltaVel }

/-! ### Bias outputs -/

/-- `getGyroBias`/`getAccelBias`, EKF/ekf.h:223-224 (one component): the bias state is an increment per filter
interval -/
def biasOut {K : Type*} [Field K] (deltaBias dtEkfAvg : K) : K := deltaBias / dtEkfAvg

/-- `getGyroBiasVariance`/`getAccelBiasVariance`, EKF/ekf.h:227-228 (one component) -/
def biasVarOut {K : Type*} [Field K] (pii dtEkfAvg : K) : K := pii / dtEkfAvg

end Ecl.Interface
