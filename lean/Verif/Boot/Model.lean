import Verif.Yaw.Props
import Verif.Cov.Init
import Verif.Terrain.Model
import Verif.Control.Height
import Verif.Ekf.PredictProps
import Verif.AlphaFilter.Model

/-!
# Start-up of the filter: `setIMUData`, `update`, `initialiseFilter`, `reset` — EKF/ekf.cpp:47-235, EKF/estimator_interface.cpp:49-88

The parts already modelled elsewhere are called: `initialiseTilt` (Ekf/Predict), `resetMagHeading` (Yaw/Model), `initialiseCovariance` (Cov/Init),
`initHagl` (Terrain/Model), `alignOutputFilter` (Ekf/Reset).  What the magnetometer and barometer buffers deliver to an `update` call is an argument of that
call (the buffers themselves are the subject of RingBuffer/*), and so is the work of an initialised filter (`Rest`).
-/

namespace Ecl.Boot

open Ecl.Ekf Ecl.Cov Ecl.ImuDownSampler Ecl.AlphaFilter
open scoped Matrix

noncomputable section

/-- parameters and inputs read at initialisation: `_obs_buffer_length`, `_params.mag_fusion_type` and the inputs of the functions called -/
structure Cfg where
  lib : Yaw.Lib
  obsLen : ℕ
  magType : ℤ
  yaw : Yaw.In
  cov : InitIn
  ter : Terrain.In

/-- members written by the start-up code only, EKF/ekf.h:333,482-486, EKF/estimator_interface.h:305 and the newest buffered IMU sample,
`_imu_sample_delayed.time_us`, `_time_last_imu` -/
structure Core where
  init : Bool
  imuUpdated : Bool
  first : Bool
  accel : Filter ℝ (V3 ℝ)
  gyro : Filter ℝ (V3 ℝ)
  magCount : UInt32
  baroCount : UInt32
  newest : ImuSample
  tDel : UInt64
  now : UInt64

/-- members written by start-up and by the running filter -/
structure Flt where
  y : Yaw.St
  hgt : Control.HFlags
  ter : Terrain.St
  magLpf : Filter ℝ (V3 ℝ)
  baroOff : ℝ
  prevDvelVar : Fin 3 → ℝ
  /-- `_time_last_hgt_fuse`, `_hor_pos_`, `_delpos_`, `_hor_vel_`, `_of_` -/
  tHgt : UInt64
  tHorPos : UInt64
  tDelPos : UInt64
  tHorVel : UInt64
  tOf : UInt64

structure St where
  core : Core
  flt : Flt

/-- member initialisers, EKF/ekf.h:333,482-486; the IMU buffer holds value-initialised samples, EKF/RingBuffer.h:73 -/
def Core.powerOn : Core where
  init := false
  imuUpdated := false
  first := true
  accel := ⟨1 / 10, 0⟩
  gyro := ⟨1 / 10, 0⟩
  magCount := 0
  baroCount := 0
  newest := ⟨0, 0, 0, 0, 0, fun _ => false⟩
  tDel := 0
  now := 0

/-- sample for the accelerometer filter, EKF/ekf.cpp:151,156 -/
def specificForce (i : ImuSample) : V3 ℝ := (1 / i.deltaVelDt) • i.deltaVel
/-- sample for the gyro filter, EKF/ekf.cpp:152,157 -/
def bodyRate (i : ImuSample) : V3 ℝ := (1 / i.deltaAngDt) • i.deltaAng

/-- IMU filters, EKF/ekf.cpp:150-158 -/
def Core.filterImu (b : Core) : Core :=
  if b.first then
    { b with accel := b.accel.reset (specificForce b.newest), gyro := b.gyro.reset (bodyRate b.newest), first := false }
  else
    { b with accel := b.accel.update (specificForce b.newest), gyro := b.gyro.update (bodyRate b.newest) }

/-- magnetometer samples, EKF/ekf.cpp:161-172 -/
def takeMag (m : Option (UInt64 × V3 ℝ)) (s : St) : St :=
  match m with
  | some (t, v) =>
    if t != 0 then
      { core := { s.core with magCount := s.core.magCount + 1 }
        flt := { s.flt with magLpf := if s.core.magCount == 0 then s.flt.magLpf.reset v else s.flt.magLpf.update v } }
    else s
  | none => s

/-- barometer samples, EKF/ekf.cpp:175-186 -/
def takeBaro (m : Option (UInt64 × ℝ)) (s : St) : St :=
  match m with
  | some (t, h) =>
    if t != 0 then
      { core := { s.core with baroCount := s.core.baroCount + 1 }
        flt := { s.flt with baroOff := if s.core.baroCount == 0 then h else 9 / 10 * s.flt.baroOff + 1 / 10 * h } }
    else s
  | none => s

/-- setting up the states, EKF/ekf.cpp:205-231, after `initialiseTilt` found the attitude `q` (:251-252) -/
def setUp (c : Cfg) (q : Quat ℝ) (b : Core) (f : Flt) : Except RingBuffer.UB Flt :=
  let y : Yaw.St := { f.y with est := { f.y.est with state := { f.y.est.state with quat := q } }, R := q.dcm }
  let r := Yaw.resetMagHeading c.lib { c.yaw with tDel := b.tDel, magType := c.magType } f.magLpf.state false false y
  let y := { r.1 with yawAlign := r.2 }
  let k := initialiseCovariance { c.cov with quat := y.est.state.quat, rngHgt := f.hgt.rng, gpsHgt := f.hgt.gps } y.cov
  let P := if c.magType ≤ 2 then increaseQuatYawErrVariance y.est.state.quat (sq (max c.yaw.hdgNoise (1 / 100))) k.1.P else k.1.P
  let h := Terrain.initHagl { c.ter with s := fun i => if i = 9 then y.est.state.pos 2 else c.ter.s i, now := b.now } f.ter
  match y.est.alignOutputFilter c.lib.normalize with
  | .error u => .error u
  | .ok e =>
    .ok { f with
      y := { y with est := e, cov := { k.1 with P := P } }
      prevDvelVar := k.2
      ter := { h.1 with init := h.2, tHagl := b.now, tFlow := b.now }
      tHgt := b.now, tHorPos := b.now, tDelPos := b.now, tHorVel := b.now, tOf := b.now }

/-- `initialiseFilter`, EKF/ekf.cpp:140-234 -/
def initialiseFilter (c : Cfg) (m : Option (UInt64 × V3 ℝ)) (h : Option (UInt64 × ℝ)) (s : St) : Except RingBuffer.UB (St × Bool) :=
  if s.core.newest.deltaVelDt < 1 / 10000 ∨ s.core.newest.deltaAngDt < 1 / 10000 then .ok (s, false)
  else
    let s := takeBaro h (takeMag m { s with core := s.core.filterImu })
    if c.magType ≤ 2 ∧ s.core.magCount.toNat < c.obsLen then .ok (s, false)
    else if s.core.baroCount.toNat < c.obsLen then .ok (s, false)
    else
      let s := { s with flt := { s.flt with hgt := s.flt.hgt.setBaro } }
      match initialiseTilt s.core.accel.state s.core.gyro.state with
      | none => .ok (s, false)
      | some q =>
        match setUp c q s.core s.flt with
        | .error u => .error u
        | .ok f => .ok ({ s with flt := f }, true)

/-- the work of an initialised filter, EKF/ekf.cpp:115-127 (prediction, fusion control, terrain and yaw estimators) and :131 (output predictor);
none of it writes the members of `Core` -/
structure Rest where
  run : Core → Flt → Flt
  out : Core → Flt → Flt

/-- `update` of an initialised filter, EKF/ekf.cpp:113-134 -/
def runFilter (r : Rest) (s : St) : St × Bool :=
  let f := if s.core.imuUpdated then r.run s.core s.flt else s.flt
  ({ s with flt := r.out s.core f }, s.core.imuUpdated)

/-- `Ekf::update`, EKF/ekf.cpp:100-135 -/
def update (c : Cfg) (r : Rest) (m : Option (UInt64 × V3 ℝ)) (h : Option (UInt64 × ℝ)) (s : St) : Except RingBuffer.UB (St × Bool) :=
  if !s.core.init then
    match initialiseFilter c m h s with
    | .error u => .error u
    | .ok (s, ok) =>
      let s := { s with core := { s.core with init := ok } }
      if !ok then .ok (s, false) else .ok (runFilter r s)
  else .ok (runFilter r s)

/-- `setIMUData`, EKF/estimator_interface.cpp:49-88, for an interface that has its buffers: `ds` is the new down-sampled sample, if this sample completed one,
and the time stamp of the oldest buffered sample after pushing it -/
def setImu (now : UInt64) (ds : Option (ImuSample × UInt64)) (s : St) : St :=
  match ds with
  | some (i, t) => { s with core := { s.core with now := now, imuUpdated := true, newest := i, tDel := t } }
  | none => { s with core := { s.core with now := now, imuUpdated := false } }

/-- `Ekf::reset`, EKF/ekf.cpp:54-98, as far as the members of the model are concerned -/
def reset (s : St) : St where
  core := { s.core with init := false, imuUpdated := false }
  flt := { s.flt with
    y := { s.flt.y with
      est := { s.flt.y.est with
        state := ⟨⟨1, 0, 0, 0⟩, 0, 0, 0, 0, 0, 0, 0⟩
        outNew := ⟨⟨1, 0, 0, 0⟩, 0, 0⟩ }
      cov := { s.flt.y.cov with mag3D := false, magHdg := false }
      gps := false, yawAlign := false, magAligned := false, wind := false, evYaw := false, magDec := false, magFault := false }
    hgt := { baro := false, gps := false, rng := false, ev := false }
    ter := { s.flt.ter with init := false }
    prevDvelVar := 0 }

/-- calls of the user; `other` is any other call (sensor data, status setters) -/
inductive Ev where
  | imu (now : UInt64) (ds : Option (ImuSample × UInt64))
  | update (m : Option (UInt64 × V3 ℝ)) (h : Option (UInt64 × ℝ))
  | reset
  | other (f : Flt → Flt)

/-- one call; the second component is the value returned by `update` -/
def step (c : Cfg) (r : Rest) (s : St) : Ev → Except RingBuffer.UB (St × Option Bool)
  | .imu now ds => .ok (setImu now ds s, none)
  | .update m h => match Boot.update c r m h s with
    | .error u => .error u
    | .ok (s, b) => .ok (s, some b)
  | .reset => .ok (Boot.reset s, none)
  | .other f => .ok ({ s with flt := f s.flt }, none)

/-- a sequence of calls -/
def runAll (c : Cfg) (r : Rest) (s : St) : List Ev → Except RingBuffer.UB St
  | [] => .ok s
  | e :: l => match step c r s e with
    | .error u => .error u
    | .ok (s, _) => runAll c r s l

end

end Ecl.Boot
