import Verif.Gps.ChecksProps
import Verif.Fusion.OthersNaN

/-!
# GPS quality checks on NaN (C175) — EKF/gps_checks.cpp:158-280

Floats as in `Verif/Fusion/VelPosNaN`: a real or NaN.  Latitude, longitude and altitude of a message are integers, so the position drift filter works on numbers.
-/

namespace Ecl.Gps.NaN

open Ecl.Fusion.NaN

noncomputable section

/-- `gps_message`, EKF/common.h:62-80, `_time_last_imu`, `in_air`, `vehicle_at_rest`, `_state.vel(2)` -/
structure NIn where
  lat : ℤ
  lon : ℤ
  alt : ℤ
  fix : ℕ
  nsats : ℕ
  eph : NF
  epv : NF
  sacc : NF
  pdop : NF
  velN : NF
  velE : NF
  velD : NF
  now : UInt64
  inAir : Bool
  atRest : Bool
  stateVelD : NF

/-- members kept between messages, EKF/ekf.h:456-474; the metrics that are only reported are left out -/
structure NSt where
  fail : Fail
  prevPos : ℝ × ℝ
  prevT : UInt64
  prevAlt : ℝ
  derN : ℝ
  derE : ℝ
  derD : ℝ
  velN : NF
  velE : NF
  velDdiff : NF
  lastFail : UInt64
  lastPass : UInt64
  errNorm : NF

/-- latitude and longitude in degrees, EKF/gps_checks.cpp:183-184 -/
def NIn.pos (x : NIn) : ℝ × ℝ := ((x.lat : ℝ) / 10000000, (x.lon : ℝ) / 10000000)
/-- altitude in metres, EKF/gps_checks.cpp:206 -/
def NIn.altM (x : NIn) : ℝ := (x.alt : ℝ) / 1000

/-- `math::constrain` and `matrix::constrain` to ± ten times a limit; both return NaN for NaN -/
def nlim10 (v : NF) (l : ℝ) : NF := constr v (some (-10 * l)) (some (10 * l))

/-- `>` as a flag -/
def gtb (a b : NF) : Bool := open Classical in decide (gt a b)

/-- low pass filter, EKF/gps_checks.cpp:221, 251 -/
def nmix (a s : NF) (coef : ℝ) : NF := add (mul a (some coef)) (mul s (some (1 - coef)))

/-- message based checks and error norm, EKF/gps_checks.cpp:160-175 -/
def nquality (p : Params) (x : NIn) (s : NSt) : NSt :=
  { s with
    fail := { s.fail with
      fix := decide (x.fix < 3), nsats := decide (x.nsats < p.reqNsats), pdop := gtb x.pdop (some p.reqPdop)
      hacc := gtb x.eph (some p.reqHacc), vacc := gtb x.epv (some p.reqVacc), sacc := gtb x.sacc (some p.reqSacc) }
    errNorm := fmax (fmax (div x.eph (some p.reqHacc)) (div x.epv (some p.reqVacc))) (div x.sacc (some p.reqSacc)) }

/-- at rest drift checks, EKF/gps_checks.cpp:186-226 -/
def nrest (g : GeoLib) (p : Params) (x : NIn) (dt coef : ℝ) (s : NSt) : NSt :=
  let d : ℝ × ℝ := if 0 < s.prevT.toNat then g.project s.prevPos x.pos else (0, 0)
  let prevAlt := if 0 < s.prevT.toNat then s.prevAlt else x.altM
  let derN := lim10 (d.1 / dt) p.reqHdrift * coef + s.derN * (1 - coef)
  let derE := lim10 (d.2 / dt) p.reqHdrift * coef + s.derE * (1 - coef)
  let derD := lim10 ((prevAlt - x.altM) / dt) p.reqVdrift * coef + s.derD * (1 - coef)
  let velN := nmix (nlim10 x.velN p.reqHdrift) s.velN coef
  let velE := nmix (nlim10 x.velE p.reqHdrift) s.velE coef
  let m2 := sqrt (add (mul velN velN) (mul velE velE))
  { s with
    derN := derN, derE := derE, derD := derD, velN := velN, velE := velE
    fail := { s.fail with hdrift := decide (Real.sqrt (derN * derN + derE * derE) > p.reqHdrift), vdrift := decide (|derD| > p.reqVdrift)
                          hspeed := gtb m2 (some p.reqHdrift) } }

/-- `resetGpsDriftCheckFilters`, EKF/ekf_helper.cpp:1663-1667: the vertical velocity filter is not among them -/
def nreset (s : NSt) : NSt := { s with velN := some 0, velE := some 0, derN := 0, derE := 0, derD := 0 }

/-- drift checks depending on the motion state, EKF/gps_checks.cpp:186-243 -/
def nmotion (g : GeoLib) (p : Params) (x : NIn) (dt coef : ℝ) (s : NSt) : NSt :=
  if !x.inAir && x.atRest then nrest g p x dt coef s
  else if x.inAir then nreset { s with fail := { s.fail with hdrift := false, vdrift := false, hspeed := false } }
  else nreset s

/-- the fix is saved and the vertical velocity difference checked, EKF/gps_checks.cpp:245-253 -/
def nvspeed (p : Params) (x : NIn) (coef : ℝ) (s : NSt) : NSt :=
  let v := nmix (nlim10 (sub x.velD x.stateVelD) p.reqVdrift) s.velDdiff coef
  { s with
    prevPos := x.pos, prevT := x.now, prevAlt := x.altM, velDdiff := v
    fail := { s.fail with vspeed := gtb (fun1 abs v) (some p.reqVdrift) } }

/-- times of the last failure and the last pass, EKF/gps_checks.cpp:255-276 -/
def nrecord (p : Params) (now : UInt64) (s : NSt) : NSt :=
  let s := if s.lastFail = 0 then { s with lastFail := now } else s
  if anyFail p s.fail then { s with lastFail := now } else { s with lastPass := now }

/-- `gps_is_good`, EKF/gps_checks.cpp:158-280 -/
def isGoodN (g : GeoLib) (p : Params) (x : NIn) (s : NSt) : NSt × Bool :=
  let s1 := nquality p x s
  let dt := dtOf x.now s1.prevT
  let coef := dt / 10
  let s4 := nrecord p x.now (nvspeed p x coef (nmotion g p x dt coef s1))
  (s4, isTimedOut x.now s4.lastFail p.healthTime)

/-- state at start up, EKF/ekf.h:456-474 -/
def NSt.init : NSt where
  fail := ⟨false, false, false, false, false, false, false, false, false, false⟩
  prevPos := (0, 0)
  prevT := 0
  prevAlt := 0
  derN := 0
  derE := 0
  derD := 0
  velN := some 0
  velE := some 0
  velDdiff := some 0
  lastFail := 0
  lastPass := 0
  errNorm := some 1

/-- what happens to these members: a message, or `Ekf::reset`, which resets the drift filters only (EKF/ekf.cpp:97-98) -/
inductive NEv where
  | msg (x : NIn)
  | reset

/-- one event -/
def NEv.apply (g : GeoLib) (p : Params) (s : NSt) : NEv → NSt
  | .msg x => (isGoodN g p x s).1
  | .reset => nreset s

/-- state after a history (oldest first) -/
def nafter (g : GeoLib) (p : Params) (s : NSt) (es : List NEv) : NSt := es.foldl (NEv.apply g p) s

/-- a message without NaN -/
def ofIn (x : In) : NIn where
  lat := x.msg.lat
  lon := x.msg.lon
  alt := x.msg.alt
  fix := x.msg.fix
  nsats := x.msg.nsats
  eph := some x.msg.eph
  epv := some x.msg.epv
  sacc := some x.msg.sacc
  pdop := some x.msg.pdop
  velN := some x.msg.velN
  velE := some x.msg.velE
  velD := some x.msg.velD
  now := x.now
  inAir := x.inAir
  atRest := x.atRest
  stateVelD := some x.velD

/-- a state without NaN -/
def ofSt (s : St) : NSt where
  fail := s.fail
  prevPos := s.prevPos
  prevT := s.prevT
  prevAlt := s.prevAlt
  derN := s.derN
  derE := s.derE
  derD := s.derD
  velN := some s.velN
  velE := some s.velE
  velDdiff := some s.velDdiff
  lastFail := s.lastFail
  lastPass := s.lastPass
  errNorm := some s.errNorm

end

variable (g : GeoLib) (p : Params)

/-! ### Without NaN this is the model of C37 and C96 -/

theorem nlim10_some (v l : ℝ) : nlim10 (some v) l = some (lim10 v l) := by
  unfold nlim10 constr lim10 constrain
  by_cases h : v < -10 * l
  · rw [if_pos (show gt (some (-10 * l)) (some v) from h), if_pos h]
  · rw [if_neg (show ¬ gt (some (-10 * l)) (some v) from h), if_neg h]
    by_cases h2 : v > 10 * l
    · rw [if_pos (show gt (some v) (some (10 * l)) from h2), if_pos h2]
    · rw [if_neg (show ¬ gt (some v) (some (10 * l)) from h2), if_neg h2]

theorem gtb_iff (a b : NF) : gtb a b = true ↔ gt a b := by
  unfold gtb; classical exact decide_eq_true_iff

theorem gtb_some (a b : ℝ) : gtb (some a) (some b) = decide (a > b) := by
  rw [Bool.eq_iff_iff, gtb_iff, decide_eq_true_iff]; exact Iff.rfl

@[simp] theorem gtb_nan (b : NF) : gtb none b = false := by
  rw [Bool.eq_false_iff, Ne, gtb_iff]; exact gt_nan_l b

theorem nmix_some (a s c : ℝ) : nmix (some a) (some s) c = some (a * c + s * (1 - c)) := rfl

/-- On messages and states without NaN the checks are those of `Verif/Gps/Checks`. -/
theorem nan_checks_real (x : In) (s : St) :
    (isGoodN g p (ofIn x) (ofSt s)).2 = (isGood g p x s).2 ∧ (isGoodN g p (ofIn x) (ofSt s)).1 = ofSt (isGood g p x s).1 := by
  have h1 : nquality p (ofIn x) (ofSt s) = ofSt (quality p x.msg s) := by
    unfold nquality quality ofSt ofIn
    simp only [gtb_some, gt_iff_lt, fmax, div]
  have h2 : ∀ dt coef t, nmotion g p (ofIn x) dt coef (ofSt t) = ofSt (motion g p x dt coef t) := by
    intro dt coef t
    unfold nmotion motion
    by_cases h : (!x.inAir && x.atRest) = true
    · rw [if_pos (show (!(ofIn x).inAir && (ofIn x).atRest) = true from h), if_pos h]
      unfold nrest restChecks
      show NSt.mk _ _ _ _ _ _ _ _ _ _ _ _ _ = NSt.mk _ _ _ _ _ _ _ _ _ _ _ _ _
      simp only [ofIn, ofSt, nlim10_some, nmix_some, mul, add, sqrt, gtb_some]
      rfl
    · rw [if_neg (show ¬ (!(ofIn x).inAir && (ofIn x).atRest) = true from h), if_neg h]
      by_cases h' : x.inAir = true
      · rw [if_pos (show (ofIn x).inAir = true from h'), if_pos h']; rfl
      · rw [if_neg (show ¬ (ofIn x).inAir = true from h'), if_neg h']; rfl
  have h3 : ∀ coef t, nvspeed p (ofIn x) coef (ofSt t) = ofSt (vspeed p x coef t) := by
    intro coef t
    unfold nvspeed vspeed
    simp only [ofIn, ofSt, sub, nlim10_some, nmix_some, fun1, gtb_some]
    rfl
  have h4 : ∀ now t, nrecord p now (ofSt t) = ofSt (record p now t) := by
    intro now t
    unfold nrecord record
    by_cases h : t.lastFail = 0
    · rw [if_pos (show (ofSt t).lastFail = 0 from h), if_pos h]
      dsimp only
      by_cases f : anyFail p t.fail = true
      · rw [if_pos (show anyFail p (ofSt t).fail = true from f), if_pos f]; rfl
      · rw [if_neg (show ¬ anyFail p (ofSt t).fail = true from f), if_neg f]; rfl
    · rw [if_neg (show ¬ (ofSt t).lastFail = 0 from h), if_neg h]
      dsimp only
      by_cases f : anyFail p t.fail = true
      · rw [if_pos (show anyFail p (ofSt t).fail = true from f), if_pos f]; rfl
      · rw [if_neg (show ¬ anyFail p (ofSt t).fail = true from f), if_neg f]; rfl
  have e : (isGoodN g p (ofIn x) (ofSt s)).1 = ofSt (isGood g p x s).1 := by
    unfold isGoodN isGood
    dsimp only
    rw [h1, h2, h3, h4]
    rfl
  refine ⟨?_, e⟩
  show isTimedOut x.now (isGoodN g p (ofIn x) (ofSt s)).1.lastFail p.healthTime = _
  rw [e]
  rfl

/-! ### What NaN does -/

theorem nrecord_frame (now : UInt64) (s : NSt) : (nrecord p now s).fail = s.fail ∧ (nrecord p now s).velDdiff = s.velDdiff ∧
    (nrecord p now s).velN = s.velN ∧ (nrecord p now s).velE = s.velE ∧ (nrecord p now s).derN = s.derN ∧ (nrecord p now s).derE = s.derE ∧
    (nrecord p now s).derD = s.derD ∧ (nrecord p now s).prevPos = s.prevPos ∧ (nrecord p now s).prevT = s.prevT ∧ (nrecord p now s).prevAlt = s.prevAlt := by
  unfold nrecord
  dsimp only
  split_ifs <;> exact ⟨rfl, rfl, rfl, rfl, rfl, rfl, rfl, rfl, rfl, rfl⟩

theorem nrecord_pass (now : UInt64) (s : NSt) (h : anyFail p s.fail = false) : (nrecord p now s).lastFail = if s.lastFail = 0 then now else s.lastFail := by
  unfold nrecord
  by_cases h0 : s.lastFail = 0
  · simp only [if_pos h0, h]; rfl
  · simp only [if_neg h0, h]; rfl

theorem nmotion_frame (x : NIn) (dt c : ℝ) (s : NSt) : (nmotion g p x dt c s).velDdiff = s.velDdiff ∧ (nmotion g p x dt c s).lastFail = s.lastFail ∧
    (nmotion g p x dt c s).fail.fix = s.fail.fix ∧ (nmotion g p x dt c s).fail.nsats = s.fail.nsats ∧ (nmotion g p x dt c s).fail.pdop = s.fail.pdop ∧
    (nmotion g p x dt c s).fail.hacc = s.fail.hacc ∧ (nmotion g p x dt c s).fail.vacc = s.fail.vacc ∧ (nmotion g p x dt c s).fail.sacc = s.fail.sacc := by
  unfold nmotion
  split_ifs <;> exact ⟨rfl, rfl, rfl, rfl, rfl, rfl, rfl, rfl⟩

/-- **C175 (accuracies).** The accuracy checks fail only on numbers above the limit: a NaN dilution of precision, position accuracy or speed accuracy passes its check. -/
theorem accuracy_checks (x : NIn) (s : NSt) :
    let f := (isGoodN g p x s).1.fail
    (f.pdop = true ↔ ∃ v, x.pdop = some v ∧ v > p.reqPdop) ∧ (f.hacc = true ↔ ∃ v, x.eph = some v ∧ v > p.reqHacc) ∧
    (f.vacc = true ↔ ∃ v, x.epv = some v ∧ v > p.reqVacc) ∧ (f.sacc = true ↔ ∃ v, x.sacc = some v ∧ v > p.reqSacc) := by
  intro f
  have key : ∀ (a : NF) (b : ℝ), gtb a (some b) = true ↔ ∃ v, a = some v ∧ v > b := by
    intro a b
    rw [gtb_iff]
    cases a with
    | none => simp [gt]
    | some a => simp [gt]
  have hf : f = (nvspeed p x (dtOf x.now s.prevT / 10) (nmotion g p x (dtOf x.now s.prevT) (dtOf x.now s.prevT / 10) (nquality p x s))).fail :=
    (nrecord_frame p _ _).1
  obtain ⟨-, -, -, -, e1, e2, e3, e4⟩ := nmotion_frame g p x (dtOf x.now s.prevT) (dtOf x.now s.prevT / 10) (nquality p x s)
  rw [hf]
  refine ⟨?_, ?_, ?_, ?_⟩
  · show (nmotion _ _ _ _ _ _).fail.pdop = true ↔ _
    rw [e1]; exact key _ _
  · show (nmotion _ _ _ _ _ _).fail.hacc = true ↔ _
    rw [e2]; exact key _ _
  · show (nmotion _ _ _ _ _ _).fail.vacc = true ↔ _
    rw [e3]; exact key _ _
  · show (nmotion _ _ _ _ _ _).fail.sacc = true ↔ _
    rw [e4]; exact key _ _

theorem vspeed_eq (x : NIn) (s : NSt) : (isGoodN g p x s).1.velDdiff =
      nmix (nlim10 (sub x.velD x.stateVelD) p.reqVdrift) s.velDdiff (dtOf x.now s.prevT / 10) ∧
    ((isGoodN g p x s).1.fail.vspeed = true ↔ gt (fun1 abs (isGoodN g p x s).1.velDdiff) (some p.reqVdrift)) := by
  have h1 : (isGoodN g p x s).1.velDdiff = nmix (nlim10 (sub x.velD x.stateVelD) p.reqVdrift) s.velDdiff (dtOf x.now s.prevT / 10) := by
    show (nrecord _ _ _).velDdiff = _
    rw [(nrecord_frame p _ _).2.1]
    show nmix _ (nmotion _ _ _ _ _ _).velDdiff _ = _
    rw [(nmotion_frame g p _ _ _ _).1]
    rfl
  refine ⟨h1, ?_⟩
  have h2 : (isGoodN g p x s).1.fail = (nvspeed p x (dtOf x.now s.prevT / 10) (nmotion g p x (dtOf x.now s.prevT) (dtOf x.now s.prevT / 10) (nquality p x s))).fail :=
    (nrecord_frame p _ _).1
  have h3 : (isGoodN g p x s).1.velDdiff = (nvspeed p x (dtOf x.now s.prevT / 10) (nmotion g p x (dtOf x.now s.prevT) (dtOf x.now s.prevT / 10) (nquality p x s))).velDdiff :=
    (nrecord_frame p _ _).2.1
  rw [h2, h3]
  exact gtb_iff _ _

theorem vspeed_dead_step (e : NEv) (s : NSt) (h : s.velDdiff = none) : (e.apply g p s).velDdiff = none := by
  cases e with
  | msg x =>
    show (isGoodN g p x s).1.velDdiff = none
    rw [(vspeed_eq g p x s).1, h]
    unfold nmix
    simp
  | reset => exact h

/-- **C175 (vertical speed).** After one message with a NaN down velocity (or with a NaN vertical velocity in the state) the vertical speed check passes for ever: through every later history of
messages and filter resets, whatever the difference to the state's vertical velocity. -/
theorem vspeed_check_dead (s : NSt) (x : NIn) (hx : x.velD = none ∨ x.stateVelD = none) (es : List NEv) (y : NIn) :
    (nafter g p s (.msg x :: es)).velDdiff = none ∧
    (isGoodN g p y (nafter g p s (.msg x :: es))).1.fail.vspeed = false := by
  have h0 : (isGoodN g p x s).1.velDdiff = none := by
    rw [(vspeed_eq g p x s).1]
    have : sub x.velD x.stateVelD = none := by rcases hx with h | h <;> rw [h] <;> simp
    rw [this]; unfold nlim10 nmix; simp
  have hall : ∀ (es : List NEv) (t : NSt), t.velDdiff = none → (nafter g p t es).velDdiff = none := by
    intro es
    induction es with
    | nil => exact fun t h => h
    | cons e es ih => exact fun t h => ih _ (vspeed_dead_step g p e t h)
  have h1 : (nafter g p s (.msg x :: es)).velDdiff = none := hall es _ h0
  refine ⟨h1, ?_⟩
  rw [Bool.eq_false_iff]
  intro c
  rw [(vspeed_eq g p y _).2, (vspeed_eq g p y _).1, h1] at c
  revert c
  unfold nmix
  simp

theorem hspeed_eq (x : NIn) (s : NSt) (h1 : x.inAir = false) (h2 : x.atRest = true) :
    (isGoodN g p x s).1.velN = nmix (nlim10 x.velN p.reqHdrift) s.velN (dtOf x.now s.prevT / 10) ∧
    (isGoodN g p x s).1.velE = nmix (nlim10 x.velE p.reqHdrift) s.velE (dtOf x.now s.prevT / 10) ∧
    ((isGoodN g p x s).1.fail.hspeed = true ↔ gt (sqrt (add (mul (isGoodN g p x s).1.velN (isGoodN g p x s).1.velN)
      (mul (isGoodN g p x s).1.velE (isGoodN g p x s).1.velE))) (some p.reqHdrift)) := by
  have hm : nmotion g p x (dtOf x.now s.prevT) (dtOf x.now s.prevT / 10) (nquality p x s) = nrest g p x (dtOf x.now s.prevT) (dtOf x.now s.prevT / 10) (nquality p x s) := by
    unfold nmotion; rw [if_pos (by rw [h1, h2]; rfl)]
  have hN : (isGoodN g p x s).1.velN = (nmotion g p x (dtOf x.now s.prevT) (dtOf x.now s.prevT / 10) (nquality p x s)).velN := (nrecord_frame p _ _).2.2.1
  have hE : (isGoodN g p x s).1.velE = (nmotion g p x (dtOf x.now s.prevT) (dtOf x.now s.prevT / 10) (nquality p x s)).velE := (nrecord_frame p _ _).2.2.2.1
  have hF : (isGoodN g p x s).1.fail.hspeed = (nmotion g p x (dtOf x.now s.prevT) (dtOf x.now s.prevT / 10) (nquality p x s)).fail.hspeed := by
    show (nrecord _ _ _).fail.hspeed = _
    rw [(nrecord_frame p _ _).1]
    rfl
  rw [hN, hE, hF, hm]
  exact ⟨rfl, rfl, gtb_iff _ _⟩

/-- **C175 (horizontal speed).** From a message at rest with a NaN horizontal velocity on, the horizontal speed check passes for as long as the vehicle stays at rest on the ground and no
reset happens, whatever velocities are reported later. -/
theorem hspeed_check_blind (s : NSt) (x : NIn) (hx : x.velN = none ∨ x.velE = none) (xs : List NIn) (hr : ∀ z ∈ x :: xs, z.inAir = false ∧ z.atRest = true) :
    let s' := nafter g p s ((x :: xs).map NEv.msg)
    s'.fail.hspeed = false ∧ (s'.velN = none ∨ s'.velE = none) := by
  have step : ∀ (t : NSt) (z : NIn), z.inAir = false → z.atRest = true → (z.velN = none ∨ z.velE = none ∨ t.velN = none ∨ t.velE = none) →
      (isGoodN g p z t).1.fail.hspeed = false ∧ ((isGoodN g p z t).1.velN = none ∨ (isGoodN g p z t).1.velE = none) := by
    intro t z z1 z2 hz
    obtain ⟨e1, e2, e3⟩ := hspeed_eq g p z t z1 z2
    have hn : (isGoodN g p z t).1.velN = none ∨ (isGoodN g p z t).1.velE = none := by
      rw [e1, e2]
      rcases hz with h | h | h | h <;> rw [h] <;> unfold nlim10 nmix <;> simp
    refine ⟨?_, hn⟩
    rw [Bool.eq_false_iff]
    intro c
    rw [e3] at c
    revert c
    rcases hn with h | h <;> rw [h] <;> simp
  have hall : ∀ (xs : List NIn) (t : NSt), (∀ z ∈ xs, z.inAir = false ∧ z.atRest = true) → t.fail.hspeed = false → (t.velN = none ∨ t.velE = none) →
      (nafter g p t (xs.map NEv.msg)).fail.hspeed = false ∧ ((nafter g p t (xs.map NEv.msg)).velN = none ∨ (nafter g p t (xs.map NEv.msg)).velE = none) := by
    intro xs
    induction xs with
    | nil => exact fun t _ h1 h2 => ⟨h1, h2⟩
    | cons z xs ih =>
      intro t hz h1 h2
      obtain ⟨a, b⟩ := step t z (hz z (by simp)).1 (hz z (by simp)).2 (Or.inr (Or.inr h2))
      exact ih _ (fun w hw => hz w (by simp [hw])) a b
  obtain ⟨a, b⟩ := step s x (hr x (by simp)).1 (hr x (by simp)).2 (by rcases hx with h | h <;> simp [h])
  exact hall xs _ (fun w hw => hr w (by simp [hw])) a b

/-! ### A receiver that reports nothing but NaN -/

/-- a message of a standing receiver with every float NaN -/
def Spec.AllNaN (p : Params) (lat lon alt : ℤ) (x : NIn) : Prop :=
  x.lat = lat ∧ x.lon = lon ∧ x.alt = alt ∧ 3 ≤ x.fix ∧ p.reqNsats ≤ x.nsats ∧ x.eph = none ∧ x.epv = none ∧ x.sacc = none ∧ x.pdop = none ∧
    x.velN = none ∧ x.velE = none ∧ x.velD = none

theorem allnan_step (hp : ∀ a, g.project a a = (0, 0)) (hh : 0 ≤ p.reqHdrift) (hv : 0 ≤ p.reqVdrift) (lat lon alt : ℤ) (x : NIn) (hx : Spec.AllNaN p lat lon alt x) (s : NSt)
    (hs : s.derN = 0 ∧ s.derE = 0 ∧ s.derD = 0 ∧ s.fail.hdrift = false ∧ s.fail.vdrift = false ∧ s.fail.hspeed = false ∧
      (0 < s.prevT.toNat → s.prevPos = x.pos ∧ s.prevAlt = x.altM)) :
    let r := (isGoodN g p x s).1
    anyFail p r.fail = false ∧ r.lastFail = (if s.lastFail = 0 then x.now else s.lastFail) ∧
    (r.derN = 0 ∧ r.derE = 0 ∧ r.derD = 0 ∧ r.fail.hdrift = false ∧ r.fail.vdrift = false ∧ r.fail.hspeed = false ∧ r.prevPos = x.pos ∧ r.prevAlt = x.altM) := by
  intro r
  obtain ⟨-, -, -, a4, a5, a6, a7, a8, a9, a10, a11, a12⟩ := hx
  obtain ⟨s1, s2, s3, s4, s5, s6, s7⟩ := hs
  set dt := dtOf x.now s.prevT with hdt
  set m := nmotion g p x dt (dt / 10) (nquality p x s) with hm
  set w := nvspeed p x (dt / 10) m with hw
  have hr : r = nrecord p x.now w := rfl
  have l0 : ∀ l : ℝ, 0 ≤ l → lim10 0 l = 0 := fun l hl => constrain_of_mem (by linarith) (by linarith)
  have hmm : m.derN = 0 ∧ m.derE = 0 ∧ m.derD = 0 ∧ m.fail.hdrift = false ∧ m.fail.vdrift = false ∧ m.fail.hspeed = false := by
    rw [hm]
    unfold nmotion
    by_cases h : (!x.inAir && x.atRest) = true
    · rw [if_pos h]
      have hd : (if 0 < (nquality p x s).prevT.toNat then g.project (nquality p x s).prevPos x.pos else (0, 0)) = ((0 : ℝ), (0 : ℝ)) := by
        by_cases hT : 0 < s.prevT.toNat
        · rw [if_pos (show 0 < (nquality p x s).prevT.toNat from hT)]
          show g.project s.prevPos x.pos = _
          rw [(s7 hT).1, hp]
        · rw [if_neg (show ¬ 0 < (nquality p x s).prevT.toNat from hT)]
      have hc : (if 0 < (nquality p x s).prevT.toNat then (nquality p x s).prevAlt else x.altM) = x.altM := by
        by_cases hT : 0 < s.prevT.toNat
        · rw [if_pos (show 0 < (nquality p x s).prevT.toNat from hT)]
          exact (s7 hT).2
        · rw [if_neg (show ¬ 0 < (nquality p x s).prevT.toNat from hT)]
      have t1 : (nquality p x s).derN = 0 := s1
      have t2 : (nquality p x s).derE = 0 := s2
      have t3 : (nquality p x s).derD = 0 := s3
      unfold nrest
      simp only [hd, hc, t1, t2, t3, zero_div, sub_self, l0 _ hh, l0 _ hv, zero_mul, add_zero, mul_zero, Real.sqrt_zero, abs_zero]
      refine ⟨trivial, trivial, trivial, ?_, ?_, ?_⟩
      · exact decide_eq_false (not_lt.2 hh)
      · exact decide_eq_false (not_lt.2 hv)
      · rw [a10]
        unfold nlim10 nmix
        simp
    · rw [if_neg h]
      by_cases h' : x.inAir = true
      · rw [if_pos h']; exact ⟨rfl, rfl, rfl, rfl, rfl, rfl⟩
      · rw [if_neg h']; exact ⟨rfl, rfl, rfl, s4, s5, s6⟩
  obtain ⟨m1, m2, m3, m4, m5, m6⟩ := hmm
  obtain ⟨-, n2, n3, n4, n5, n6, n7, n8⟩ := nmotion_frame g p x dt (dt / 10) (nquality p x s)
  rw [← hm] at n2 n3 n4 n5 n6 n7 n8
  have hfail : anyFail p w.fail = false := by
    have f1 : w.fail.fix = false := n3.trans (decide_eq_false (by omega))
    have f2 : w.fail.nsats = false := n4.trans (decide_eq_false (by omega))
    have f3 : w.fail.pdop = false := n5.trans (by show gtb _ _ = false; rw [a9]; simp)
    have f4 : w.fail.hacc = false := n6.trans (by show gtb _ _ = false; rw [a6]; simp)
    have f5 : w.fail.vacc = false := n7.trans (by show gtb _ _ = false; rw [a7]; simp)
    have f6 : w.fail.sacc = false := n8.trans (by show gtb _ _ = false; rw [a8]; simp)
    have f7 : w.fail.hdrift = false := m4
    have f8 : w.fail.vdrift = false := m5
    have f9 : w.fail.hspeed = false := m6
    have f10 : w.fail.vspeed = false := by
      show gtb _ _ = false
      rw [a12]
      unfold nlim10 nmix
      simp
    unfold anyFail
    rw [f1, f2, f3, f4, f5, f6, f7, f8, f9, f10]
    rfl
  have hlf : w.lastFail = s.lastFail := n2
  obtain ⟨r1, -, -, -, r5, r6, r7, r8, -, r10⟩ := nrecord_frame p x.now w
  rw [hr]
  refine ⟨by rw [r1]; exact hfail, ?_, by rw [r5]; exact m1, by rw [r6]; exact m2, by rw [r7]; exact m3, by rw [r1]; exact m4, by rw [r1]; exact m5, by rw [r1]; exact m6,
    r8, r10⟩
  rw [nrecord_pass p x.now w hfail, hlf]

/-- **C175 (good without a number).** A receiver that stands still and reports NaN for every accuracy and velocity is declared good as soon as the health time has passed since its first
message, with every check enabled, on the ground or in the air. -/
theorem nan_receiver_good (hp : ∀ a, g.project a a = (0, 0)) (hh : 0 ≤ p.reqHdrift) (hv : 0 ≤ p.reqVdrift) (lat lon alt : ℤ) (x : NIn) (xs : List NIn) (y : NIn)
    (hall : ∀ z ∈ x :: xs ++ [y], Spec.AllNaN p lat lon alt z) (h0 : x.now ≠ 0) (hov : x.now.toNat + p.healthTime.toNat < 2 ^ 64) :
    (isGoodN g p y (nafter g p NSt.init ((x :: xs).map NEv.msg))).2 = true ↔ x.now.toNat + p.healthTime.toNat < y.now.toNat := by
  have hpos : ∀ z z' : NIn, Spec.AllNaN p lat lon alt z → Spec.AllNaN p lat lon alt z' → z.pos = z'.pos ∧ z.altM = z'.altM := by
    rintro z z' ⟨a, b, c, -⟩ ⟨a', b', c', -⟩
    unfold NIn.pos NIn.altM
    rw [a, b, c, a', b', c']
    exact ⟨rfl, rfl⟩
  have run : ∀ (xs : List NIn) (t : NSt), (∀ z ∈ xs, Spec.AllNaN p lat lon alt z) →
      (t.derN = 0 ∧ t.derE = 0 ∧ t.derD = 0 ∧ t.fail.hdrift = false ∧ t.fail.vdrift = false ∧ t.fail.hspeed = false ∧ t.prevPos = x.pos ∧ t.prevAlt = x.altM) →
      t.lastFail = x.now →
      let t' := nafter g p t (xs.map NEv.msg)
      (t'.derN = 0 ∧ t'.derE = 0 ∧ t'.derD = 0 ∧ t'.fail.hdrift = false ∧ t'.fail.vdrift = false ∧ t'.fail.hspeed = false ∧ t'.prevPos = x.pos ∧ t'.prevAlt = x.altM) ∧
      t'.lastFail = x.now := by
    intro xs
    induction xs with
    | nil => exact fun t _ h1 h2 => ⟨h1, h2⟩
    | cons z xs ih =>
      intro t hz ⟨b1, b2, b3, b4, b5, b6, b7, b8⟩ h2
      have hzz := hz z (by simp)
      obtain ⟨q1, q2⟩ := hpos x z (hall x (by simp)) hzz
      obtain ⟨-, c2, c3⟩ := allnan_step g p hp hh hv lat lon alt z hzz t ⟨b1, b2, b3, b4, b5, b6, fun _ => ⟨b7.trans q1, b8.trans q2⟩⟩
      rw [← q1, ← q2] at c3
      refine ih _ (fun w hw => hz w (by simp [hw])) c3 ?_
      rw [if_neg (by rw [h2]; exact h0)] at c2
      exact c2.trans h2
  have hx := hall x (by simp)
  obtain ⟨-, c2, c3⟩ := allnan_step g p hp hh hv lat lon alt x hx NSt.init
    ⟨rfl, rfl, rfl, rfl, rfl, rfl, fun h => absurd h (by decide)⟩
  rw [if_pos (show NSt.init.lastFail = 0 from rfl)] at c2
  obtain ⟨d1, d2⟩ := run xs _ (fun z hz => hall z (by simp [hz])) c3 c2
  obtain ⟨b1, b2, b3, b4, b5, b6, b7, b8⟩ := d1
  have hy := hall y (by simp)
  obtain ⟨q1, q2⟩ := hpos x y hx hy
  obtain ⟨-, e2, -⟩ := allnan_step g p hp hh hv lat lon alt y hy (nafter g p (isGoodN g p x NSt.init).1 (xs.map NEv.msg))
    ⟨b1, b2, b3, b4, b5, b6, fun _ => ⟨b7.trans q1, b8.trans q2⟩⟩
  rw [if_neg (by rw [d2]; exact h0), d2] at e2
  show isTimedOut y.now (isGoodN g p y (nafter g p (isGoodN g p x NSt.init).1 (xs.map NEv.msg))).1.lastFail p.healthTime = true ↔ _
  rw [e2]
  unfold isTimedOut
  rw [Bool.not_eq_true', decide_eq_false_iff_not, UInt64.le_iff_toNat_le, UInt64.toNat_add, Nat.mod_eq_of_lt hov]
  omega

/-! ### Concrete cases -/

/-- a message with NaN for every float, at rest at 47° N 8° E -/
def exNaN (t : UInt64) : NIn where
  lat := 470000000
  lon := 80000000
  alt := 400000
  fix := 3
  nsats := 10
  eph := none
  epv := none
  sacc := none
  pdop := none
  velN := none
  velE := none
  velD := none
  now := t
  inAir := false
  atRest := true
  stateVelD := some 0

/-- two messages without a single number 10.000001 s apart, all checks enabled: GPS is good -/
example : (isGoodN exGeo exParams (exNaN 11000001) (nafter exGeo exParams NSt.init [.msg (exNaN 1000000)])).2 = true := by
  have h := nan_receiver_good exGeo exParams (fun a => by simp [exGeo]) (by show (0 : ℝ) ≤ 3 / 10; norm_num) (by show (0 : ℝ) ≤ 1 / 2; norm_num)
    470000000 80000000 400000 (exNaN 1000000) [] (exNaN 11000001) (fun z hz => by
      have : z = exNaN 1000000 ∨ z = exNaN 11000001 := by simpa using hz
      rcases this with e | e <;> rw [e] <;> exact ⟨rfl, rfl, rfl, (by decide : 3 ≤ 3), (by decide : 6 ≤ 10), rfl, rfl, rfl, rfl, rfl, rfl, rfl⟩) (by decide) (by decide)
  exact h.2 (by decide)

/-- one NaN down velocity, filters reset, later a message 100 m/s off: the vertical speed check passes -/
example : (isGoodN exGeo exParams { exNaN 900 with velD := some 100 } (nafter exGeo exParams NSt.init [.msg (exNaN 100), .reset])).1.fail.vspeed = false :=
  (vspeed_check_dead exGeo exParams NSt.init (exNaN 100) (Or.inl rfl) [.reset] _).2

/-- one NaN north velocity at rest, later 100 m/s reported: the horizontal speed check passes -/
example : (nafter exGeo exParams NSt.init ([exNaN 100, { exNaN 900 with velN := some 100, velE := some 0 }].map NEv.msg)).fail.hspeed = false :=
  (hspeed_check_blind exGeo exParams NSt.init (exNaN 100) (Or.inl rfl) [_] (fun z hz => by
    simp only [List.mem_cons, List.not_mem_nil, or_false] at hz
    rcases hz with e | e <;> rw [e] <;> exact ⟨rfl, rfl⟩)).1

end Ecl.Gps.NaN
