import Verif.Gps.ChecksProps

/-!
# Local origin — EKF/gps_checks.cpp:59-149, EKF/ekf_helper.cpp:687-730, EKF/estimator_interface.cpp:169-231

`none` stands for an uninitialised map projection and for the not-a-number initial values of the magnetic field data.
-/

namespace Ecl.Gps

/-- members written by `collect_gps` -/
structure Org where
  chk : St
  /-- `_gps_checks_passed` -/
  passed : Bool
  /-- `_NED_origin_initialised` -/
  ned : Bool
  /-- `_pos_ref`: latitude and longitude in degrees -/
  ref : Option (ℝ × ℝ)
  refT : UInt64
  /-- `_gps_alt_ref` -/
  alt : ℝ
  /-- `_last_gps_origin_time_us` -/
  orgT : UInt64
  earthRate : ℝ × ℝ × ℝ
  decl : Option ℝ
  incl : Option ℝ
  strength : Option ℝ
  /-- `_do_ekfgsf_yaw_reset`, `_ekfgsf_yaw_reset_time` -/
  gsfReq : Bool
  gsfT : UInt64
  /-- `_mag_yaw_reset_req` -/
  magReq : Bool
  /-- `_gps_origin_eph`, `_gps_origin_epv` -/
  eph : ℝ
  epv : ℝ
  /-- `startGpsHgtFusion()` was called -/
  hgtStart : Bool
  /-- `_information_events.flags.gps_checks_passed` -/
  info : Bool

/-- per message input beyond that of the checks: position state, aiding active, filter initialised, configuration -/
structure OIn extends In where
  posN : ℝ
  posE : ℝ
  posD : ℝ
  aiding : Bool
  filterInit : Bool
  /-- `_params.mag_fusion_type` (5 = none) -/
  magType : ℕ
  /-- `_params.vdist_sensor_type` (1 = GPS) -/
  vdist : ℕ

noncomputable section

/-- horizontal reference, EKF/gps_checks.cpp:68-79 -/
def setRef (g : GeoLib) (x : OIn) (o : Org) : Org :=
  match o.ref with
  | some _ => o
  | none =>
    let o := { o with ref := some x.msg.pos, refT := x.now }
    if x.aiding then { o with ref := some (g.reproject x.msg.pos (-x.posN, -x.posE)), refT := x.now } else o

/-- magnetic field data, EKF/gps_checks.cpp:90-92 and 129-131 -/
def setMag (g : GeoLib) (m : Msg) (o : Org) : Org :=
  { o with decl := some (g.declination m.pos), incl := some (g.inclination m.pos), strength := some (g.strength m.pos) }

/-- the origin is set, EKF/gps_checks.cpp:64-117. The latitude used for the earth rate is that of the reference. -/
def setOrigin (g : GeoLib) (x : OIn) (o : Org) : Org :=
  let o := setRef g x o
  let o := { o with alt := x.msg.altM + x.posD, ned := true, earthRate := g.earthRate ((o.ref.getD (0, 0)).1), orgT := x.now }
  let wasValid := o.decl.isSome
  let o := setMag g x.msg o
  let o := if x.magType = 5 then { o with gsfReq := true, gsfT := 0 } else if !wasValid then { o with magReq := true } else o
  let o := { o with eph := x.msg.eph, epv := x.msg.epv }
  let o := if x.vdist = 1 then { o with hgtStart := true } else o
  { o with info := true }

/-- rough fix, EKF/gps_checks.cpp:119-144 -/
def roughFix (g : GeoLib) (x : OIn) (o : Org) : Org :=
  if 2 ≤ x.msg.fix ∧ x.msg.eph < 1000 then
    let wasValid := o.decl.isSome
    let o := setMag g x.msg o
    let o := if x.magType ≠ 5 then (if !wasValid && o.decl.isSome then { o with magReq := true } else o) else o
    { o with earthRate := g.earthRate x.msg.pos.1 }
  else o

/-- `collect_gps`, EKF/gps_checks.cpp:59-149 -/
def collect (g : GeoLib) (p : Params) (x : OIn) (o : Org) : Org × Bool :=
  let r := isGood g p x.toIn o.chk
  let o := { o with chk := r.1, passed := r.2 }
  let o :=
    if x.filterInit && !o.ned && o.passed then setOrigin g x o
    else if !o.ned then roughFix g x o
    else o
  (o, o.ned && decide (3 ≤ x.msg.fix))

/-- horizontal position stored with the sample, EKF/estimator_interface.cpp:192, 217-227: messages without a 3D fix are dropped
before the checks. The rate limit and the enabling by configuration are in `Verif/Interface`. -/
def setGps (g : GeoLib) (p : Params) (x : OIn) (o : Org) : Org × Option (ℝ × ℝ) :=
  if 2 < x.msg.fix then
    let r := collect g p x o
    (r.1, some (if r.2 then g.project (r.1.ref.getD (0, 0)) x.msg.pos else (0, 0)))
  else (o, none)

/-- `setEkfGlobalOrigin`, EKF/ekf_helper.cpp:696-730: new reference and altitude, and the position the states are reset to, if
any (the reset itself is in `Verif/Ekf/Reset.lean`) -/
def setGlobalOrigin (g : GeoLib) (now : UInt64) (new : ℝ × ℝ) (altitude : ℝ) (aiding : Bool) (posN posE posD : ℝ) (o : Org) : Org × Option (ℝ × ℝ × ℝ) :=
  match o.ref with
  | some ref =>
    if aiding then
      let cur := g.reproject ref (posN, posE)
      let curAlt := -posD + o.alt
      let p := g.project new cur
      ({ o with ref := some new, refT := now, alt := altitude }, some (p.1, p.2, altitude - curAlt))
    else ({ o with ref := some new, refT := now, alt := altitude }, none)
  | none => ({ o with ref := some new, refT := now, alt := altitude }, none)

/-- a sequence of messages -/
def collectAll (g : GeoLib) (p : Params) (o : Org) : List OIn → Org
  | [] => o
  | x :: xs => collectAll g p (collect g p x o).1 xs

/-- a sequence of messages through the interface -/
def setGpsAll (g : GeoLib) (p : Params) (o : Org) : List OIn → Org
  | [] => o
  | x :: xs => setGpsAll g p (setGps g p x o).1 xs

end

/-- what the API calls the origin: reference, altitude, flag, and the data recorded with it -/
def Spec.sameOrigin (a b : Org) : Prop :=
  a.ned = b.ned ∧ a.ref = b.ref ∧ a.refT = b.refT ∧ a.alt = b.alt ∧ a.orgT = b.orgT ∧ a.earthRate = b.earthRate ∧ a.decl = b.decl ∧
  a.incl = b.incl ∧ a.strength = b.strength ∧ a.eph = b.eph ∧ a.epv = b.epv

variable (g : GeoLib) (p : Params)

theorem setRef_spec (x : OIn) (o : Org) :
    (∀ r, o.ref = some r → setRef g x o = o) ∧
    (o.ref = none → (setRef g x o).ref = some (if x.aiding then g.reproject x.msg.pos (-x.posN, -x.posE) else x.msg.pos) ∧
      (setRef g x o).refT = x.now) := by
  constructor
  · intro r h; unfold setRef; rw [h]
  · intro h; unfold setRef; rw [h]; simp only []
    cases x.aiding <;> exact ⟨rfl, rfl⟩

/-- **C38 (set once).** After the origin has been initialised, no sequence of GPS messages changes it. -/
theorem origin_never_moves (o : Org) (h : o.ned = true) (xs : List OIn) : Spec.sameOrigin (collectAll g p o xs) o := by
  have step : ∀ x (o' : Org), o'.ned = true → Spec.sameOrigin (collect g p x o').1 o' := by
    intro x o' h'
    unfold collect Spec.sameOrigin
    simp only [h', Bool.not_true, Bool.and_false, Bool.false_and, Bool.false_eq_true, if_false]
    simp
  have gen : ∀ (xs : List OIn) (o' : Org), o'.ned = true → Spec.sameOrigin (collectAll g p o' xs) o' := by
    intro xs
    induction xs with
    | nil => intro o' _; exact ⟨rfl, rfl, rfl, rfl, rfl, rfl, rfl, rfl, rfl, rfl, rfl⟩
    | cons x xs ih =>
      intro o' h'
      have s1 := step x o' h'
      have hn : (collect g p x o').1.ned = true := by rw [s1.1]; exact h'
      have s2 := ih _ hn
      obtain ⟨a1, a2, a3, a4, a5, a6, a7, a8, a9, a10, a11⟩ := s1
      obtain ⟨b1, b2, b3, b4, b5, b6, b7, b8, b9, b10, b11⟩ := s2
      exact ⟨b1.trans a1, b2.trans a2, b3.trans a3, b4.trans a4, b5.trans a5, b6.trans a6, b7.trans a7, b8.trans a8, b9.trans a9, b10.trans a10, b11.trans a11⟩
  exact gen xs o h

/-- **C38 (only by a good message).** A message sets the origin exactly if the filter is initialised, there is no origin yet and
the quality gate holds for this message. -/
theorem origin_set_iff (x : OIn) (o : Org) :
    (collect g p x o).1.ned = true ↔ o.ned = true ∨ (x.filterInit = true ∧ (isGood g p x.toIn o.chk).2 = true) := by
  have hset : ∀ o' : Org, (setOrigin g x o').ned = true := by
    intro o'; unfold setOrigin setMag; simp only []; split_ifs <;> rfl
  have hrough : ∀ o' : Org, (roughFix g x o').ned = o'.ned := by
    intro o'; unfold roughFix setMag; simp only []; split_ifs <;> rfl
  unfold collect
  simp only []
  generalize (isGood g p x.toIn o.chk) = r
  cases hn : o.ned <;> cases x.filterInit <;> cases hr : r.2 <;> simp [hset, hrough, hn]

/-- **C38 (values).** The message that sets the origin: the reference is the GPS position (corrected for the position travelled if
aiding was active; an already existing reference is kept), the altitude reference makes the filter altitude equal the GPS
altitude, the magnetic field data are those of the GPS position and the accuracies those of the message. -/
theorem origin_values (x : OIn) (o : Org) (h : (collect g p x o).1.ned = true) (h0 : o.ned = false) :
    let n := (collect g p x o).1
    n.ref = some (o.ref.getD (if x.aiding then g.reproject x.msg.pos (-x.posN, -x.posE) else x.msg.pos)) ∧
    n.alt - x.posD = (x.msg.alt : ℝ) / 1000 ∧ n.orgT = x.now ∧ n.eph = x.msg.eph ∧ n.epv = x.msg.epv ∧
    n.decl = some (g.declination x.msg.pos) ∧ n.incl = some (g.inclination x.msg.pos) ∧ n.strength = some (g.strength x.msg.pos) ∧
    (∀ r, n.ref = some r → n.earthRate = g.earthRate r.1) ∧
    (x.magType = 5 → n.gsfReq = true ∧ n.gsfT = 0) ∧ (x.magType ≠ 5 → n.magReq = (o.magReq || o.decl.isNone)) ∧
    (n.hgtStart = (o.hgtStart || decide (x.vdist = 1))) ∧ n.info = true := by
  intro n
  have hgood := (origin_set_iff g p x o).mp h
  rw [h0] at hgood
  obtain ⟨hf, hg⟩ := hgood.resolve_left (by simp)
  obtain ⟨o1, ho1⟩ : ∃ o1 : Org, o1 = { o with chk := (isGood g p x.toIn o.chk).1, passed := true } := ⟨_, rfl⟩
  have hn : n = setOrigin g x o1 := by
    show (collect g p x o).1 = _
    unfold collect
    simp only [h0, hf, hg, Bool.not_false, Bool.and_self, if_true, ho1]
  have r1 : o1.ref = o.ref := by rw [ho1]
  have r2 : o1.decl = o.decl := by rw [ho1]
  have r3 : o1.magReq = o.magReq := by rw [ho1]
  have r4 : o1.hgtStart = o.hgtStart := by rw [ho1]
  obtain ⟨s1, s2⟩ := setRef_spec g x o1
  have hsr : (setRef g x o1).ref = some (o.ref.getD (if x.aiding then g.reproject x.msg.pos (-x.posN, -x.posE) else x.msg.pos)) ∧
      (setRef g x o1).decl = o.decl ∧ (setRef g x o1).magReq = o.magReq ∧ (setRef g x o1).hgtStart = o.hgtStart := by
    cases hr : o.ref with
    | none =>
      refine ⟨by rw [(s2 (by rw [r1, hr])).1]; rfl, ?_, ?_, ?_⟩
      all_goals (unfold setRef; rw [r1, hr]; simp only []; split_ifs <;> assumption)
    | some r =>
      rw [s1 r (by rw [r1, hr]), r1, hr]
      exact ⟨rfl, r2, r3, r4⟩
  obtain ⟨q1, q2, q3, q4⟩ := hsr
  rw [hn]
  unfold setOrigin setMag
  simp only [q1, q2, q3, q4, Option.getD_some]
  by_cases hm : x.magType = 5 <;> by_cases hv : x.vdist = 1 <;> cases hd : o.decl <;>
    simp [hm, hv, q1, q3, q4, Msg.altM]

/-- **C38 (history).** Whatever the message history: if the origin is set, then exactly one message set it, the quality gate held for
that message, and the origin has not changed since. -/
theorem origin_history (o : Org) (h0 : o.ned = false) (xs : List OIn) (h : (collectAll g p o xs).ned = true) :
    ∃ pre x post, xs = pre ++ x :: post ∧ (collectAll g p o pre).ned = false ∧ x.filterInit = true ∧
      (isGood g p x.toIn (collectAll g p o pre).chk).2 = true ∧ Spec.sameOrigin (collectAll g p o xs) (collect g p x (collectAll g p o pre)).1 := by
  induction xs generalizing o with
  | nil => exact absurd h (by rw [show collectAll g p o [] = o from rfl, h0]; simp)
  | cons y ys ih =>
    cases hy : (collect g p y o).1.ned
    · obtain ⟨pre, x, post, e, a, b, c, d⟩ := ih _ hy h
      exact ⟨y :: pre, x, post, by rw [e]; rfl, a, b, c, d⟩
    · have := (origin_set_iff g p y o).mp hy
      rw [h0] at this
      obtain ⟨hf, hg⟩ := this.resolve_left (by simp)
      exact ⟨[], y, ys, rfl, h0, hf, hg, origin_never_moves g p _ hy ys⟩

/-- **C97 (finding, part 1).** The interface drops messages without a 3D fix before any check is made: whatever happens, the fix
type check never records a failure. -/
theorem fix_check_never_fails (o : Org) (h : o.chk.fail.fix = false) (xs : List OIn) : (setGpsAll g p o xs).chk.fail.fix = false := by
  have hc : ∀ x (o' : Org), (collect g p x o').1.chk = (isGood g p x.toIn o'.chk).1 := by
    intro x o'
    have h1 : ∀ o'' : Org, (setOrigin g x o'').chk = o''.chk := by
      intro o''
      have : (setRef g x o'').chk = o''.chk := by unfold setRef; split <;> (try simp only []) <;> (try split_ifs) <;> rfl
      unfold setOrigin setMag; simp only []; split_ifs <;> exact this
    have h2 : ∀ o'' : Org, (roughFix g x o'').chk = o''.chk := by
      intro o''; unfold roughFix setMag; simp only []; split_ifs <;> rfl
    unfold collect
    simp only []
    split_ifs
    · rw [h1]
    · rw [h2]
    · rfl
  induction xs generalizing o with
  | nil => exact h
  | cons x xs ih =>
    apply ih
    unfold setGps
    split_ifs with hx
    · show (collect g p x o).1.chk.fail.fix = false
      rw [hc, ← Bool.not_eq_true, (check_flags g p x.toIn o.chk).1]
      show ¬ x.msg.fix < 3
      omega
    · exact h

/-- **C97 (finding, part 2).** Losing the fix is invisible: messages without a 3D fix leave everything unchanged, so that an outage of
any length does not restart the health time — if the next message is free of failures and the last recorded failure is older
than the health time, GPS is good immediately. -/
theorem outage_invisible (o : Org) (xs : List OIn) (hx : ∀ x ∈ xs, x.msg.fix ≤ 2) : setGpsAll g p o xs = o := by
  induction xs with
  | nil => rfl
  | cons x xs ih =>
    have : (setGps g p x o).1 = o := by
      unfold setGps; rw [if_neg (by have := hx x (by simp); omega)]
    show setGpsAll g p (setGps g p x o).1 xs = o
    rw [this]
    exact ih (fun y hy => hx y (by simp [hy]))

theorem outage_no_restart (o : Org) (xs : List OIn) (hx : ∀ x ∈ xs, x.msg.fix ≤ 2) (y : OIn) (hy : 2 < y.msg.fix)
    (hf : ¬ Spec.Failed p (isGood g p y.toIn o.chk).1.fail) (h1 : o.chk.lastFail ≠ 0)
    (h2 : isTimedOut y.now o.chk.lastFail p.healthTime = true) :
    (setGps g p y (setGpsAll g p o xs)).1.passed = true := by
  rw [outage_invisible g p o xs hx]
  unfold setGps
  rw [if_pos hy]
  have hp : ∀ o'' : Org, (setOrigin g y o'').passed = o''.passed := by
    intro o''
    have : (setRef g y o'').passed = o''.passed := by unfold setRef; split <;> (try simp only []) <;> (try split_ifs) <;> rfl
    unfold setOrigin setMag; simp only []; split_ifs <;> exact this
  have hq : ∀ o'' : Org, (roughFix g y o'').passed = o''.passed := by
    intro o''; unfold roughFix setMag; simp only []; split_ifs <;> rfl
  have hg : (isGood g p y.toIn o.chk).2 = true := by
    rw [isGood_result, isGood_lastFail, if_neg (fun h => hf ((anyFail_iff p _).mp h)), if_neg h1]; exact h2
  show (collect g p y o).1.passed = true
  unfold collect
  simp only []
  split_ifs
  · rw [hp]; exact hg
  · rw [hq]; exact hg
  · exact hg

/-- **C98 (moving the origin by command).** While aiding is active the reset position describes the same point on earth (for any
projection that inverts its reprojection) and the same altitude as before. -/
theorem set_origin_same_point (hinv : ∀ r q, g.reproject r (g.project r q) = q) (now : UInt64) (new : ℝ × ℝ) (altitude posN posE posD : ℝ)
    (o : Org) (ref : ℝ × ℝ) (hr : o.ref = some ref) :
    ∃ n e d, (setGlobalOrigin g now new altitude true posN posE posD o).2 = some (n, e, d) ∧
      (setGlobalOrigin g now new altitude true posN posE posD o).1.ref = some new ∧
      g.reproject new (n, e) = g.reproject ref (posN, posE) ∧
      (setGlobalOrigin g now new altitude true posN posE posD o).1.alt - d = o.alt - posD := by
  unfold setGlobalOrigin
  rw [hr]
  simp only [if_true]
  refine ⟨_, _, _, rfl, trivial, hinv _ _, ?_⟩
  ring

/-- **C98 (finding).** Setting the origin by command does not count as having an origin: the first good GPS message afterwards keeps
the commanded horizontal reference but replaces the commanded altitude by the one implied by its own altitude. -/
theorem commanded_altitude_overwritten (now : UInt64) (new : ℝ × ℝ) (altitude posN posE posD : ℝ) (aiding : Bool) (o : Org) (h0 : o.ned = false)
    (x : OIn) (hf : x.filterInit = true) (hg : (isGood g p x.toIn o.chk).2 = true) :
    let o1 := (setGlobalOrigin g now new altitude aiding posN posE posD o).1
    o1.ned = false ∧ o1.ref = some new ∧ o1.alt = altitude ∧
    (collect g p x o1).1.ref = some new ∧ (collect g p x o1).1.alt = (x.msg.alt : ℝ) / 1000 + x.posD := by
  intro o1
  have h1 : o1.ned = false ∧ o1.ref = some new ∧ o1.alt = altitude ∧ o1.chk = o.chk := by
    show (setGlobalOrigin g now new altitude aiding posN posE posD o).1.ned = false ∧ (setGlobalOrigin g now new altitude aiding posN posE posD o).1.ref = _ ∧
      (setGlobalOrigin g now new altitude aiding posN posE posD o).1.alt = _ ∧ (setGlobalOrigin g now new altitude aiding posN posE posD o).1.chk = _
    unfold setGlobalOrigin
    cases o.ref <;> cases aiding <;> exact ⟨h0, rfl, rfl, rfl⟩
  obtain ⟨a, b, c, d⟩ := h1
  have hs : (collect g p x o1).1.ned = true := (origin_set_iff g p x o1).mpr (Or.inr ⟨hf, by rw [d]; exact hg⟩)
  have hv := origin_values g p x o1 hs a
  obtain ⟨v1, v2, -⟩ := hv
  refine ⟨a, b, c, ?_, ?_⟩
  · rw [v1, b]; rfl
  · linarith

/-! ## Non-vacuity -/

noncomputable def exOrg : Org where
  chk := { St.init with lastFail := 1000000 }
  passed := false
  ned := false
  ref := none
  refT := 0
  alt := 0
  orgT := 0
  earthRate := (0, 0, 0)
  decl := none
  incl := none
  strength := none
  gsfReq := false
  gsfT := 0
  magReq := false
  eph := 0
  epv := 0
  hgtStart := false
  info := false

noncomputable def exOIn (t : UInt64) : OIn where
  toIn := exIn t
  posN := 10
  posE := 0
  posD := -5
  aiding := true
  filterInit := true
  magType := 0
  vdist := 1

theorem exOrg_good : (isGood exGeo exParams (exIn 12000000) exOrg.chk).2 = true := by
  obtain ⟨-, -, -, h⟩ := exIn_ok 12000000 exOrg.chk ⟨rfl, rfl, rfl, rfl, rfl, rfl⟩ (fun h => absurd h (by decide))
  rw [isGood_result, isGood_lastFail, if_neg (fun hh => h ((anyFail_iff _ _).mp hh))]
  show isTimedOut 12000000 (if exOrg.chk.lastFail = 0 then 12000000 else exOrg.chk.lastFail) 10000000 = true
  rw [if_neg (show ¬ exOrg.chk.lastFail = 0 by decide)]
  decide

/-- the origin gets set: 400 m altitude and −5 m down give an altitude reference of 395 m, reference 10 m south -/
example : (collect exGeo exParams (exOIn 12000000) exOrg).1.ned = true ∧ (collect exGeo exParams (exOIn 12000000) exOrg).1.alt = 395 := by
  have h : (collect exGeo exParams (exOIn 12000000) exOrg).1.ned = true := (origin_set_iff _ _ _ _).mpr (Or.inr ⟨rfl, exOrg_good⟩)
  refine ⟨h, ?_⟩
  have := (origin_values exGeo exParams (exOIn 12000000) exOrg h rfl).2.1
  have e : (collect exGeo exParams (exOIn 12000000) exOrg).1.alt - (-5) = 400 := by
    rw [show ((-5 : ℝ)) = (exOIn 12000000).posD from rfl, this]
    show ((400000 : ℤ) : ℝ) / 1000 = 400
    norm_num
  linarith

/-- hypotheses of `outage_no_restart`: an outage of ten messages does not matter -/
example : (setGps exGeo exParams (exOIn 12000000) (setGpsAll exGeo exParams exOrg
    (List.replicate 10 { exOIn 3000000 with msg := { (exIn 0).msg with fix := 0 } }))).1.passed = true := by
  obtain ⟨-, -, -, h⟩ := exIn_ok 12000000 exOrg.chk ⟨rfl, rfl, rfl, rfl, rfl, rfl⟩ (fun h => absurd h (by decide))
  refine outage_no_restart exGeo exParams exOrg _ ?_ (exOIn 12000000) (show 2 < 3 by decide) h (by decide) ?_
  · intro x hx
    rw [List.eq_of_mem_replicate hx]
    decide
  · show isTimedOut 12000000 1000000 10000000 = true
    decide

/-- `exGeo` inverts its reprojection: `set_origin_same_point` applies -/
example : ∀ r q, exGeo.reproject r (exGeo.project r q) = q := by
  intro r q
  simp only [exGeo]
  ext <;> simp

end Ecl.Gps
