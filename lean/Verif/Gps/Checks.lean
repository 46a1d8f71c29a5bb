import Verif.Basic.Time
import Mathlib.Data.Real.Sqrt

/-!
# GPS quality checks — EKF/gps_checks.cpp:48-57, 158-280, EKF/ekf_helper.cpp:1663-1667

Numbers are exact reals. The local projection is an arbitrary function (`GeoLib.project`); `Verif/Geo` models the one of the
library.
-/

namespace Ecl.Gps

/-- the geo library functions used here: reference latitude/longitude and target latitude/longitude in degrees to north and
east distance; the inverse; magnetic declination, inclination and strength; earth rate -/
structure GeoLib where
  project : ℝ × ℝ → ℝ × ℝ → ℝ × ℝ
  reproject : ℝ × ℝ → ℝ × ℝ → ℝ × ℝ
  declination : ℝ × ℝ → ℝ
  inclination : ℝ × ℝ → ℝ
  strength : ℝ × ℝ → ℝ
  /-- `calcEarthRateNED` as a function of the latitude in degrees -/
  earthRate : ℝ → ℝ × ℝ × ℝ

/-- `gps_message`, EKF/common.h:62-80 (the members used) -/
structure Msg where
  /-- degrees times 1e7 -/
  lat : ℤ
  lon : ℤ
  /-- millimetres -/
  alt : ℤ
  fix : ℕ
  nsats : ℕ
  eph : ℝ
  epv : ℝ
  sacc : ℝ
  pdop : ℝ
  velN : ℝ
  velE : ℝ
  velD : ℝ

/-- parameters -/
structure Params where
  /-- `gps_check_mask` -/
  mask : ℕ
  reqNsats : ℕ
  reqPdop : ℝ
  reqHacc : ℝ
  reqVacc : ℝ
  reqSacc : ℝ
  reqHdrift : ℝ
  reqVdrift : ℝ
  /-- `_min_gps_health_time_us` (a `uint32_t`), EKF/ekf.h:289, 474 -/
  healthTime : UInt64

/-- `_gps_check_fail_status.flags`, EKF/common.h:383-397 -/
structure Fail where
  fix : Bool
  nsats : Bool
  pdop : Bool
  hacc : Bool
  vacc : Bool
  sacc : Bool
  hdrift : Bool
  vdrift : Bool
  hspeed : Bool
  vspeed : Bool
  deriving DecidableEq

/-- members kept between messages -/
structure St where
  fail : Fail
  /-- `_gps_pos_prev` (degrees) and its time stamp, `_gps_alt_prev` -/
  prevPos : ℝ × ℝ
  prevT : UInt64
  prevAlt : ℝ
  /-- `_gps_pos_deriv_filt` -/
  derN : ℝ
  derE : ℝ
  derD : ℝ
  /-- `_gps_velNE_filt` -/
  velN : ℝ
  velE : ℝ
  /-- `_gps_velD_diff_filt` -/
  velDdiff : ℝ
  /-- `_gps_drift_metrics` -/
  m0 : ℝ
  m1 : ℝ
  m2 : ℝ
  driftUpdated : Bool
  lastFail : UInt64
  lastPass : UInt64
  /-- `_gps_error_norm` -/
  errNorm : ℝ

/-- per message input: message, `_time_last_imu`, `in_air`, `vehicle_at_rest`, `_state.vel(2)` -/
structure In where
  msg : Msg
  now : UInt64
  inAir : Bool
  atRest : Bool
  velD : ℝ

noncomputable section

/-- position of a message in degrees, EKF/gps_checks.cpp:183-184 -/
def Msg.pos (m : Msg) : ℝ × ℝ := ((m.lat : ℝ) / 10000000, (m.lon : ℝ) / 10000000)
/-- altitude in metres, EKF/gps_checks.cpp:206 -/
def Msg.altM (m : Msg) : ℝ := (m.alt : ℝ) / 1000

/-- time step used by the filters, EKF/gps_checks.cpp:179; the difference is a signed 64-bit one -/
def dtOf (now prev : UInt64) : ℝ := constrain (((now.toNat : ℝ) - (prev.toNat : ℝ)) / 1000000) (1 / 1000) 10

/-- `math::constrain` of a vector component to ± ten times a limit -/
def lim10 (v l : ℝ) : ℝ := constrain v (-10 * l) (10 * l)

/-- at rest drift checks, EKF/gps_checks.cpp:186-226 -/
def restChecks (g : GeoLib) (p : Params) (x : In) (dt coef : ℝ) (s : St) : St :=
  let d : ℝ × ℝ := if 0 < s.prevT.toNat then g.project s.prevPos x.msg.pos else (0, 0)
  let prevAlt := if 0 < s.prevT.toNat then s.prevAlt else x.msg.altM
  let rN := lim10 (d.1 / dt) p.reqHdrift
  let rE := lim10 (d.2 / dt) p.reqHdrift
  let rD := lim10 ((prevAlt - x.msg.altM) / dt) p.reqVdrift
  let derN := rN * coef + s.derN * (1 - coef)
  let derE := rE * coef + s.derE * (1 - coef)
  let derD := rD * coef + s.derD * (1 - coef)
  let m0 := Real.sqrt (derN * derN + derE * derE)
  let m1 := |derD|
  let velN := lim10 x.msg.velN p.reqHdrift * coef + s.velN * (1 - coef)
  let velE := lim10 x.msg.velE p.reqHdrift * coef + s.velE * (1 - coef)
  let m2 := Real.sqrt (velN * velN + velE * velE)
  { s with
    derN := derN, derE := derE, derD := derD, m0 := m0, m1 := m1, m2 := m2, velN := velN, velE := velE, driftUpdated := true
    fail := { s.fail with hdrift := decide (m0 > p.reqHdrift), vdrift := decide (m1 > p.reqVdrift), hspeed := decide (m2 > p.reqHdrift) } }

/-- `resetGpsDriftCheckFilters`, EKF/ekf_helper.cpp:1663-1667 -/
def resetDrift (s : St) : St := { s with velN := 0, velE := 0, derN := 0, derE := 0, derD := 0 }

/-- the enabled-failure condition, EKF/gps_checks.cpp:260-271 -/
def anyFail (p : Params) (f : Fail) : Bool :=
  f.fix || (f.nsats && p.mask.testBit 0) || (f.pdop && p.mask.testBit 1) || (f.hacc && p.mask.testBit 2) || (f.vacc && p.mask.testBit 3) ||
  (f.sacc && p.mask.testBit 4) || (f.hdrift && p.mask.testBit 5) || (f.vdrift && p.mask.testBit 6) || (f.hspeed && p.mask.testBit 7) ||
  (f.vspeed && p.mask.testBit 8)

/-- message based checks and error norm, EKF/gps_checks.cpp:160-175 -/
def quality (p : Params) (m : Msg) (s : St) : St :=
  { s with
    fail := { s.fail with
      fix := decide (m.fix < 3), nsats := decide (m.nsats < p.reqNsats), pdop := decide (m.pdop > p.reqPdop)
      hacc := decide (m.eph > p.reqHacc), vacc := decide (m.epv > p.reqVacc), sacc := decide (m.sacc > p.reqSacc) }
    errNorm := max (max (m.eph / p.reqHacc) (m.epv / p.reqVacc)) (m.sacc / p.reqSacc) }

/-- drift checks depending on the motion state, EKF/gps_checks.cpp:186-243 -/
def motion (g : GeoLib) (p : Params) (x : In) (dt coef : ℝ) (s : St) : St :=
  if !x.inAir && x.atRest then restChecks g p x dt coef s
  else if x.inAir then
    resetDrift { s with fail := { s.fail with hdrift := false, vdrift := false, hspeed := false }, driftUpdated := false }
  else resetDrift { s with driftUpdated := true }

/-- the fix is saved and the vertical velocity difference checked, EKF/gps_checks.cpp:245-253 -/
def vspeed (p : Params) (x : In) (coef : ℝ) (s : St) : St :=
  let velDdiff := lim10 (x.msg.velD - x.velD) p.reqVdrift * coef + s.velDdiff * (1 - coef)
  { s with
    prevPos := x.msg.pos, prevT := x.now, prevAlt := x.msg.altM, velDdiff := velDdiff
    fail := { s.fail with vspeed := decide (|velDdiff| > p.reqVdrift) } }

/-- times of the last failure and the last pass, EKF/gps_checks.cpp:255-276 -/
def record (p : Params) (now : UInt64) (s : St) : St :=
  let s := if s.lastFail = 0 then { s with lastFail := now } else s
  if anyFail p s.fail then { s with lastFail := now } else { s with lastPass := now }

/-- `gps_is_good`, EKF/gps_checks.cpp:158-280 -/
def isGood (g : GeoLib) (p : Params) (x : In) (s : St) : St × Bool :=
  let s1 := quality p x.msg s
  let dt := dtOf x.now s1.prevT
  let coef := dt / 10
  let s4 := record p x.now (vspeed p x coef (motion g p x dt coef s1))
  (s4, isTimedOut x.now s4.lastFail p.healthTime)

/-- state at start up, EKF/ekf.h:456-474, EKF/estimator_interface.h: everything zero, error norm 1 -/
def St.init : St where
  fail := ⟨false, false, false, false, false, false, false, false, false, false⟩
  prevPos := (0, 0)
  prevT := 0
  prevAlt := 0
  derN := 0
  derE := 0
  derD := 0
  velN := 0
  velE := 0
  velDdiff := 0
  m0 := 0
  m1 := 0
  m2 := 0
  driftUpdated := false
  lastFail := 0
  lastPass := 0
  errNorm := 1

/-- state after a sequence of messages (oldest first) -/
def after (g : GeoLib) (p : Params) (s : St) : List In → St
  | [] => s
  | x :: xs => after g p (isGood g p x s).1 xs

end

/-! ## Specification -/

/-- a check that is enabled by the mask (the fix type check always is) failed -/
def Spec.Failed (p : Params) (f : Fail) : Prop :=
  f.fix = true ∨ (f.nsats = true ∧ p.mask.testBit 0 = true) ∨ (f.pdop = true ∧ p.mask.testBit 1 = true) ∨
  (f.hacc = true ∧ p.mask.testBit 2 = true) ∨ (f.vacc = true ∧ p.mask.testBit 3 = true) ∨ (f.sacc = true ∧ p.mask.testBit 4 = true) ∨
  (f.hdrift = true ∧ p.mask.testBit 5 = true) ∨ (f.vdrift = true ∧ p.mask.testBit 6 = true) ∨ (f.hspeed = true ∧ p.mask.testBit 7 = true) ∨
  (f.vspeed = true ∧ p.mask.testBit 8 = true)

end Ecl.Gps
