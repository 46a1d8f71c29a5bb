import Verif.Aid.Other

/-!
# The control decisions depend on elapsed times only (C159)
-/

namespace Ecl.Aid

/-! ## Specification -/

/-- `t'` is the time stamp `t` read on a clock that is ahead by `δ`; a stamp of zero means "never" on either clock -/
def Spec.Moved (δ t t' : UInt64) : Prop := t = 0 ∧ t' = 0 ∨ t ≠ 0 ∧ t.toNat < 2 ^ 62 ∧ t' = t + δ

/-- two states that differ in their time stamps only, those of the second being read on a clock that is ahead by `δ` -/
structure Spec.SameSt (δ : UInt64) (s s' : St) : Prop where
  rest : s' = { s with
    tAlign := s'.tAlign, tMov := s'.tMov, tNotInh := s'.tNotInh, tYaw := s'.tYaw, gsfTime := s'.gsfTime, tPos := s'.tPos, tDelpos := s'.tDelpos
    tVel := s'.tVel, tOf := s'.tOf, tBeta := s'.tBeta, tArsp := s'.tArsp, tFake := s'.tFake, tGpsYaw := s'.tGpsYaw, tGood := s'.tGood, tBad := s'.tBad }
  tAlign : Spec.Moved δ s.tAlign s'.tAlign
  tMov : Spec.Moved δ s.tMov s'.tMov
  /-- the time since the magnetometer was last not inhibited is cut to 32 bits, so "never" is not allowed here -/
  tNotInh : s'.tNotInh = s.tNotInh + δ
  tYaw : Spec.Moved δ s.tYaw s'.tYaw
  gsfTime : Spec.Moved δ s.gsfTime s'.gsfTime
  tPos : Spec.Moved δ s.tPos s'.tPos
  tDelpos : Spec.Moved δ s.tDelpos s'.tDelpos
  tVel : Spec.Moved δ s.tVel s'.tVel
  tOf : Spec.Moved δ s.tOf s'.tOf
  tBeta : Spec.Moved δ s.tBeta s'.tBeta
  tArsp : Spec.Moved δ s.tArsp s'.tArsp
  tFake : Spec.Moved δ s.tFake s'.tFake
  tGpsYaw : Spec.Moved δ s.tGpsYaw s'.tGpsYaw
  tGood : Spec.Moved δ s.tGood s'.tGood
  tBad : Spec.Moved δ s.tBad s'.tBad

/-- the same inputs read on a clock that is ahead by `δ`; both clocks have passed every timeout -/
structure Spec.SameIn (δ : UInt64) (x x' : In) : Prop where
  rest : x' = { x with
    now := x'.now, tDel := x'.tDel, tGround := x'.tGround, lastFail := x'.lastFail, lastPass := x'.lastPass, tGps := x'.tGps, tPrevGps := x'.tPrevGps
    tEv := x'.tEv, tHagl := x'.tHagl, tFlow := x'.tFlow }
  now : x'.now = x.now + δ ∧ 30000000 < x.now.toNat ∧ x.now.toNat < 2 ^ 62
  tDel : x'.tDel = x.tDel + δ ∧ 10000000 < x.tDel.toNat ∧ x.tDel.toNat < 2 ^ 62
  tGround : Spec.Moved δ x.tGround x'.tGround
  lastFail : Spec.Moved δ x.lastFail x'.lastFail
  lastPass : Spec.Moved δ x.lastPass x'.lastPass
  tGps : Spec.Moved δ x.tGps x'.tGps
  tPrevGps : Spec.Moved δ x.tPrevGps x'.tPrevGps
  tEv : Spec.Moved δ x.tEv x'.tEv
  tHagl : Spec.Moved δ x.tHagl x'.tHagl
  tFlow : Spec.Moved δ x.tFlow x'.tFlow
  limits : x.gsfDelay.toNat < x.now.toNat ∧ 2 * x.resetTimeout.toNat < x.now.toNat ∧ x.betaAvg.toNat < x.now.toNat ∧ x.healthTime.toNat < x.now.toNat

/-! ## Arithmetic -/

theorem moved_of {δ t t' : UInt64} {n : ℕ} (h : t' = t + δ ∧ n < t.toNat ∧ t.toNat < 2 ^ 62) : Spec.Moved δ t t' :=
  .inr ⟨fun e => by rw [e] at h; exact absurd h.2.1 (by simp), h.2.2, h.1⟩

theorem u64_sub_add (a b c : UInt64) : a + c - (b + c) = a - b := by
  apply UInt64.toNat_inj.mp
  have := a.toNat_lt; have := b.toNat_lt; have := c.toNat_lt
  simp only [UInt64.toNat_sub, UInt64.toNat_add]
  omega

variable {δ : UInt64} (hδ : δ.toNat < 2 ^ 62)
include hδ

theorem add_nat {t : UInt64} (h : t.toNat < 2 ^ 62) : (t + δ).toNat = t.toNat + δ.toNat := by
  rw [UInt64.toNat_add]; exact Nat.mod_eq_of_lt (by omega)

theorem moved_to {now now' t t' P : UInt64} (hn : now' = now + δ ∧ 30000000 < now.toNat ∧ now.toNat < 2 ^ 62) (ht : Spec.Moved δ t t')
    (hP : P.toNat < now.toNat) : isTimedOut now' t' P = isTimedOut now t P := by
  have hb := hn.2.2
  rw [Bool.eq_iff_iff, isTimedOut_iff, isTimedOut_iff, u64_lt_iff, u64_lt_iff, hn.1, add_nat hδ hb]
  rcases ht with ⟨rfl, rfl⟩ | ⟨_, h2, rfl⟩
  · rw [UInt64.zero_add]; omega
  · rw [UInt64.toNat_add, UInt64.toNat_add t P, add_nat hδ h2, Nat.mod_eq_of_lt (by omega), Nat.mod_eq_of_lt (by omega)]; omega

theorem moved_recent {now now' t t' P : UInt64} (hn : now' = now + δ ∧ 30000000 < now.toNat ∧ now.toNat < 2 ^ 62) (ht : Spec.Moved δ t t')
    (hP : P.toNat < now.toNat) : isRecent now' t' P = isRecent now t P := by
  have hb := hn.2.2
  rw [Bool.eq_iff_iff, isRecent_iff, isRecent_iff, gt_iff_lt, gt_iff_lt, u64_lt_iff, u64_lt_iff, hn.1, add_nat hδ hb]
  rcases ht with ⟨rfl, rfl⟩ | ⟨_, h2, rfl⟩
  · rw [UInt64.zero_add]; omega
  · rw [UInt64.toNat_add, UInt64.toNat_add t P, add_nat hδ h2, Nat.mod_eq_of_lt (by omega), Nat.mod_eq_of_lt (by omega)]; omega

theorem moved_le {t t' u u' : UInt64} (ht : Spec.Moved δ t t') (hu : Spec.Moved δ u u') : (t' ≤ u') = (t ≤ u) := by
  rw [u64_le_iff, u64_le_iff, eq_iff_iff]
  rcases ht with ⟨rfl, rfl⟩ | ⟨h1, h2, rfl⟩ <;> rcases hu with ⟨rfl, rfl⟩ | ⟨h3, h4, rfl⟩
  · rfl
  · simp
  · have : t.toNat ≠ 0 := fun e => h1 (UInt64.toNat_inj.mp (by simpa using e))
    rw [add_nat hδ h2]
    simp only [UInt64.toNat_zero]; omega
  · rw [add_nat hδ h2, add_nat hδ h4]; omega

theorem moved_zero {t t' : UInt64} (ht : Spec.Moved δ t t') : (t' = 0) = (t = 0) := by
  rcases ht with ⟨rfl, rfl⟩ | ⟨h1, h2, rfl⟩
  · rfl
  · have h0 : t.toNat ≠ 0 := fun e => h1 (UInt64.toNat_inj.mp (by simpa using e))
    have : t + δ ≠ 0 := fun e => by
      have e1 := congrArg UInt64.toNat e
      rw [add_nat hδ h2, UInt64.toNat_zero] at e1; omega
    exact propext ⟨fun e => absurd e this, fun e => absurd e h1⟩

theorem moved_le_zero {t t' : UInt64} (ht : Spec.Moved δ t t') : (t' ≤ 0) = (t ≤ 0) := moved_le hδ ht (.inl ⟨rfl, rfl⟩)

theorem moved_sub {a a' t t' L : UInt64} (ha : a' = a + δ ∧ 10000000 < a.toNat ∧ a.toNat < 2 ^ 62) (ht : Spec.Moved δ t t') (hL : L.toNat ≤ 10000000) :
    elapsed a' t' L = elapsed a t L := by
  unfold elapsed
  rcases ht with ⟨rfl, rfl⟩ | ⟨_, _, rfl⟩
  · have h1 : a' - 0 = a' ∧ a - 0 = a := ⟨UInt64.sub_zero _, UInt64.sub_zero _⟩
    rw [h1.1, h1.2]
    have e1 : ¬ a' ≤ L := by rw [u64_le_iff, ha.1, add_nat hδ ha.2.2]; omega
    have e2 : ¬ a ≤ L := by rw [u64_le_iff]; omega
    simp only [e1, e2]
  · rw [ha.1, u64_sub_add]

theorem moved_3D {a a' t t' : UInt64} (ha : a' = a + δ ∧ 10000000 < a.toNat ∧ a.toNat < 2 ^ 62) (ht : Spec.Moved δ t t') :
    (2000000 ≤ a' - t') = (2000000 ≤ a - t) := by
  rcases ht with ⟨rfl, rfl⟩ | ⟨_, _, rfl⟩
  · have h1 : a' - 0 = a' ∧ a - 0 = a := ⟨UInt64.sub_zero _, UInt64.sub_zero _⟩
    rw [h1.1, h1.2, u64_le_iff, u64_le_iff, ha.1, add_nat hδ ha.2.2, eq_iff_iff]
    have : (2000000 : UInt64).toNat = 2000000 := rfl
    omega
  · rw [ha.1, u64_sub_add]

theorem moved_eq {a a' t t' : UInt64} (ha : a' = a + δ ∧ 10000000 < a.toNat ∧ a.toNat < 2 ^ 62) (ht : Spec.Moved δ t t') : (a' = t') = (a = t) := by
  rcases ht with ⟨rfl, rfl⟩ | ⟨_, _, rfl⟩
  · exact moved_zero hδ (moved_of ha)
  · rw [ha.1, UInt64.add_left_inj]

/-- `a ≤ t + L` -/
theorem moved_within {a a' t t' L : UInt64} (ha : a' = a + δ ∧ 10000000 < a.toNat ∧ a.toNat < 2 ^ 62) (ht : Spec.Moved δ t t') (hL : L.toNat ≤ 10000000) :
    (a' ≤ t' + L) = (a ≤ t + L) := by
  rw [u64_le_iff, u64_le_iff, ha.1, add_nat hδ ha.2.2, eq_iff_iff]
  rcases ht with ⟨rfl, rfl⟩ | ⟨_, h2, rfl⟩
  · rw [UInt64.zero_add]; omega
  · rw [UInt64.toNat_add, UInt64.toNat_add t L, add_nat hδ h2, Nat.mod_eq_of_lt (by omega), Nat.mod_eq_of_lt (by omega)]; omega

/-- `t + L ≤ a` -/
theorem moved_past {a a' t t' L : UInt64} (ha : a' = a + δ ∧ 10000000 < a.toNat ∧ a.toNat < 2 ^ 62) (ht : Spec.Moved δ t t') (hL : L.toNat ≤ 10000000) :
    (t' + L ≤ a') = (t + L ≤ a) := by
  rw [u64_le_iff, u64_le_iff, ha.1, add_nat hδ ha.2.2, eq_iff_iff]
  rcases ht with ⟨rfl, rfl⟩ | ⟨_, h2, rfl⟩
  · rw [UInt64.zero_add]; omega
  · rw [UInt64.toNat_add, UInt64.toNat_add t L, add_nat hδ h2, Nat.mod_eq_of_lt (by omega), Nat.mod_eq_of_lt (by omega)]; omega

/-! ## Functions -/

/-- the stamps of a state -/
structure Stamps where
  tAlign : UInt64
  tMov : UInt64
  tNotInh : UInt64
  tYaw : UInt64
  gsfTime : UInt64
  tPos : UInt64
  tDelpos : UInt64
  tVel : UInt64
  tOf : UInt64
  tBeta : UInt64
  tArsp : UInt64
  tFake : UInt64
  tGpsYaw : UInt64
  tGood : UInt64
  tBad : UInt64

omit hδ

def put (v : Stamps) (s : St) : St := { s with
    tAlign := v.tAlign, tMov := v.tMov, tNotInh := v.tNotInh, tYaw := v.tYaw, gsfTime := v.gsfTime, tPos := v.tPos, tDelpos := v.tDelpos
    tVel := v.tVel, tOf := v.tOf, tBeta := v.tBeta, tArsp := v.tArsp, tFake := v.tFake, tGpsYaw := v.tGpsYaw, tGood := v.tGood, tBad := v.tBad }

def stampsOf (s : St) : Stamps :=
  ⟨s.tAlign, s.tMov, s.tNotInh, s.tYaw, s.gsfTime, s.tPos, s.tDelpos, s.tVel, s.tOf, s.tBeta, s.tArsp, s.tFake, s.tGpsYaw, s.tGood, s.tBad⟩

open Spec (SameSt SameIn Moved)

/-- a function that neither reads nor writes time stamps -/
theorem same_map (f : St → St) {s s' : St} (h : SameSt δ s s') (e : ∀ v s, f (put v s) = put v (f s) := by intros; rfl) :
    SameSt δ (f s) (f s') := by
  have hs : s = put (stampsOf s) s := rfl
  have h0 : f s = put (stampsOf s) (f s) := by
    have := e (stampsOf s) s; rw [← hs] at this; exact this
  have h1 : s' = put (stampsOf s') s := h.rest
  have h2 : f s' = put (stampsOf s') (f s) := by
    have := e (stampsOf s') s; rw [← h1] at this; exact this
  rw [h0, h2]
  exact ⟨rfl, h.tAlign, h.tMov, h.tNotInh, h.tYaw, h.gsfTime, h.tPos, h.tDelpos, h.tVel, h.tOf, h.tBeta, h.tArsp, h.tFake, h.tGpsYaw, h.tGood, h.tBad⟩

section fields
variable {s s' : St} (h : SameSt δ s s')
include h
theorem e_tilt : s'.tilt = s.tilt := by rw [h.rest]
theorem e_yawAlign : s'.yawAlign = s.yawAlign := by rw [h.rest]
theorem e_gps : s'.gps = s.gps := by rw [h.rest]
theorem e_optFlow : s'.optFlow = s.optFlow := by rw [h.rest]
theorem e_magHdg : s'.magHdg = s.magHdg := by rw [h.rest]
theorem e_mag3D : s'.mag3D = s.mag3D := by rw [h.rest]
theorem e_magDec : s'.magDec = s.magDec := by rw [h.rest]
theorem e_wind : s'.wind = s.wind := by rw [h.rest]
theorem e_evPos : s'.evPos = s.evPos := by rw [h.rest]
theorem e_evVel : s'.evVel = s.evVel := by rw [h.rest]
theorem e_evYaw : s'.evYaw = s.evYaw := by rw [h.rest]
theorem e_gpsYaw : s'.gpsYaw = s.gpsYaw := by rw [h.rest]
theorem e_magDist : s'.magDist = s.magDist := by rw [h.rest]
theorem e_magFault : s'.magFault = s.magFault := by rw [h.rest]
theorem e_fuseAspd : s'.fuseAspd = s.fuseAspd := by rw [h.rest]
theorem e_magAligned : s'.magAligned = s.magAligned := by rw [h.rest]
theorem e_magYawReq : s'.magYawReq = s.magYawReq := by rw [h.rest]
theorem e_magInhReq : s'.magInhReq = s.magInhReq := by rw [h.rest]
theorem e_velposReq : s'.velposReq = s.velposReq := by rw [h.rest]
theorem e_inhibited : s'.inhibited = s.inhibited := by rw [h.rest]
theorem e_nonMagPrev : s'.nonMagPrev = s.nonMagPrev := by rw [h.rest]
theorem e_yawObs : s'.yawObs = s.yawObs := by rw [h.rest]
theorem e_biasObs : s'.biasObs = s.biasObs := by rw [h.rest]
theorem e_nBad : s'.nBad = s.nBad := by rw [h.rest]
theorem e_declCovReset : s'.declCovReset = s.declCovReset := by rw [h.rest]
theorem e_gpsYawFaulty : s'.gpsYawFaulty = s.gpsYawFaulty := by rw [h.rest]
theorem e_doGsf : s'.doGsf = s.doGsf := by rw [h.rest]
theorem e_gsfCount : s'.gsfCount = s.gsfCount := by rw [h.rest]
theorem e_hposPrev : s'.hposPrev = s.hposPrev := by rw [h.rest]
theorem e_hposOdom : s'.hposOdom = s.hposOdom := by rw [h.rest]
theorem e_synth : s'.synth = s.synth := by rw [h.rest]
theorem e_flowReady : s'.flowReady = s.flowReady := by rw [h.rest]
theorem e_flowInh : s'.flowInh = s.flowInh := by rw [h.rest]
theorem e_log : s'.log = s.log := by rw [h.rest]
theorem e_evts : s'.evts = s.evts := by rw [h.rest]
end fields

section inputs
variable {x x' : In} (hx : SameIn δ x x')
include hx
theorem i_magType : x'.magType = x.magType := by rw [hx.rest]
theorem i_useGps : x'.useGps = x.useGps := by rw [hx.rest]
theorem i_useOf : x'.useOf = x.useOf := by rw [hx.rest]
theorem i_useEvPos : x'.useEvPos = x.useEvPos := by rw [hx.rest]
theorem i_useEvVel : x'.useEvVel = x.useEvVel := by rw [hx.rest]
theorem i_useEvYaw : x'.useEvYaw = x.useEvYaw := by rw [hx.rest]
theorem i_useDrag : x'.useDrag = x.useDrag := by rw [hx.rest]
theorem i_rotateEv : x'.rotateEv = x.rotateEv := by rw [hx.rest]
theorem i_useGpsYaw : x'.useGpsYaw = x.useGpsYaw := by rw [hx.rest]
theorem i_userDecl : x'.userDecl = x.userDecl := by rw [hx.rest]
theorem i_countLimit : x'.countLimit = x.countLimit := by rw [hx.rest]
theorem i_gsfDelay : x'.gsfDelay = x.gsfDelay := by rw [hx.rest]
theorem i_resetTimeout : x'.resetTimeout = x.resetTimeout := by rw [hx.rest]
theorem i_betaAvg : x'.betaAvg = x.betaAvg := by rw [hx.rest]
theorem i_healthTime : x'.healthTime = x.healthTime := by rw [hx.rest]
theorem i_inAir : x'.inAir = x.inAir := by rw [hx.rest]
theorem i_fixedWing : x'.fixedWing = x.fixedWing := by rw [hx.rest]
theorem i_fuseBeta : x'.fuseBeta = x.fuseBeta := by rw [hx.rest]
theorem i_atRest : x'.atRest = x.atRest := by rw [hx.rest]
theorem i_tiltConverged : x'.tiltConverged = x.tiltConverged := by rw [hx.rest]
theorem i_emergencyReq : x'.emergencyReq = x.emergencyReq := by rw [hx.rest]
theorem i_originSet : x'.originSet = x.originSet := by rw [hx.rest]
theorem i_roughFix : x'.roughFix = x.roughFix := by rw [hx.rest]
theorem i_declKnown : x'.declKnown = x.declKnown := by rw [hx.rest]
theorem i_magReady : x'.magReady = x.magReady := by rw [hx.rest]
theorem i_disturbed : x'.disturbed = x.disturbed := by rw [hx.rest]
theorem i_aboveMag : x'.aboveMag = x.aboveMag := by rw [hx.rest]
theorem i_accStart : x'.accStart = x.accStart := by rw [hx.rest]
theorem i_accKeep : x'.accKeep = x.accKeep := by rw [hx.rest]
theorem i_yawRateBig : x'.yawRateBig = x.yawRateBig := by rw [hx.rest]
theorem i_yawDeltaBig : x'.yawDeltaBig = x.yawDeltaBig := by rw [hx.rest]
theorem i_gpsReady : x'.gpsReady = x.gpsReady := by rw [hx.rest]
theorem i_gpsIntermittent : x'.gpsIntermittent = x.gpsIntermittent := by rw [hx.rest]
theorem i_nedInit : x'.nedInit = x.nedInit := by rw [hx.rest]
theorem i_gpsYawFinite : x'.gpsYawFinite = x.gpsYawFinite := by rw [hx.rest]
theorem i_antennaOk : x'.antennaOk = x.antennaOk := by rw [hx.rest]
theorem i_gpsYawOk : x'.gpsYawOk = x.gpsYawOk := by rw [hx.rest]
theorem i_gsfOk : x'.gsfOk = x.gsfOk := by rw [hx.rest]
theorem i_velAngleBad : x'.velAngleBad = x.velAngleBad := by rw [hx.rest]
theorem i_courseOk : x'.courseOk = x.courseOk := by rw [hx.rest]
theorem i_courseBad : x'.courseBad = x.courseBad := by rw [hx.rest]
theorem i_velRatioBad : x'.velRatioBad = x.velRatioBad := by rw [hx.rest]
theorem i_gpsVelOk : x'.gpsVelOk = x.gpsVelOk := by rw [hx.rest]
theorem i_gpsPosOk : x'.gpsPosOk = x.gpsPosOk := by rw [hx.rest]
theorem i_evReady : x'.evReady = x.evReady := by rw [hx.rest]
theorem i_evPosOk : x'.evPosOk = x.evPosOk := by rw [hx.rest]
theorem i_evVelOk : x'.evVelOk = x.evVelOk := by rw [hx.rest]
theorem i_flowPop : x'.flowPop = x.flowPop := by rw [hx.rest]
theorem i_flowGood : x'.flowGood = x.flowGood := by rw [hx.rest]
theorem i_flowComp : x'.flowComp = x.flowComp := by rw [hx.rest]
theorem i_motionExcessive : x'.motionExcessive = x.motionExcessive := by rw [hx.rest]
theorem i_deadReckoning : x'.deadReckoning = x.deadReckoning := by rw [hx.rest]
theorem i_gpsErr07 : x'.gpsErr07 = x.gpsErr07 := by rw [hx.rest]
theorem i_gpsErr10 : x'.gpsErr10 = x.gpsErr10 := by rw [hx.rest]
theorem i_terrainValid : x'.terrainValid = x.terrainValid := by rw [hx.rest]
theorem i_flowMid : x'.flowMid = x.flowMid := by rw [hx.rest]
theorem i_flowOk : x'.flowOk = x.flowOk := by rw [hx.rest]
theorem i_tasReady : x'.tasReady = x.tasReady := by rw [hx.rest]
theorem i_arspOk : x'.arspOk = x.arspOk := by rw [hx.rest]
theorem i_betaOk : x'.betaOk = x.betaOk := by rw [hx.rest]
theorem i_dragReady : x'.dragReady = x.dragReady := by rw [hx.rest]
theorem i_auxReady : x'.auxReady = x.auxReady := by rw [hx.rest]
theorem i_auxOk : x'.auxOk = x.auxOk := by rw [hx.rest]
theorem i_fakeOk : x'.fakeOk = x.fakeOk := by rw [hx.rest]
end inputs

/-! setting a stamp -/

section set
variable {s s' : St} (h : SameSt δ s s') {t t' : UInt64} (ht : Moved δ t t')
include h ht

theorem set_tAlign : SameSt δ { s with tAlign := t } { s' with tAlign := t' } := by
  refine ⟨?_, ht, h.tMov, h.tNotInh, h.tYaw, h.gsfTime, h.tPos, h.tDelpos, h.tVel, h.tOf, h.tBeta, h.tArsp, h.tFake, h.tGpsYaw, h.tGood, h.tBad⟩
  rw [h.rest]
theorem set_tMov : SameSt δ { s with tMov := t } { s' with tMov := t' } := by
  refine ⟨?_, h.tAlign, ht, h.tNotInh, h.tYaw, h.gsfTime, h.tPos, h.tDelpos, h.tVel, h.tOf, h.tBeta, h.tArsp, h.tFake, h.tGpsYaw, h.tGood, h.tBad⟩
  rw [h.rest]
theorem set_tYaw : SameSt δ { s with tYaw := t } { s' with tYaw := t' } := by
  refine ⟨?_, h.tAlign, h.tMov, h.tNotInh, ht, h.gsfTime, h.tPos, h.tDelpos, h.tVel, h.tOf, h.tBeta, h.tArsp, h.tFake, h.tGpsYaw, h.tGood, h.tBad⟩
  rw [h.rest]
theorem set_gsfTime : SameSt δ { s with gsfTime := t } { s' with gsfTime := t' } := by
  refine ⟨?_, h.tAlign, h.tMov, h.tNotInh, h.tYaw, ht, h.tPos, h.tDelpos, h.tVel, h.tOf, h.tBeta, h.tArsp, h.tFake, h.tGpsYaw, h.tGood, h.tBad⟩
  rw [h.rest]
theorem set_tPos : SameSt δ { s with tPos := t } { s' with tPos := t' } := by
  refine ⟨?_, h.tAlign, h.tMov, h.tNotInh, h.tYaw, h.gsfTime, ht, h.tDelpos, h.tVel, h.tOf, h.tBeta, h.tArsp, h.tFake, h.tGpsYaw, h.tGood, h.tBad⟩
  rw [h.rest]
theorem set_tDelpos : SameSt δ { s with tDelpos := t } { s' with tDelpos := t' } := by
  refine ⟨?_, h.tAlign, h.tMov, h.tNotInh, h.tYaw, h.gsfTime, h.tPos, ht, h.tVel, h.tOf, h.tBeta, h.tArsp, h.tFake, h.tGpsYaw, h.tGood, h.tBad⟩
  rw [h.rest]
theorem set_tVel : SameSt δ { s with tVel := t } { s' with tVel := t' } := by
  refine ⟨?_, h.tAlign, h.tMov, h.tNotInh, h.tYaw, h.gsfTime, h.tPos, h.tDelpos, ht, h.tOf, h.tBeta, h.tArsp, h.tFake, h.tGpsYaw, h.tGood, h.tBad⟩
  rw [h.rest]
theorem set_tOf : SameSt δ { s with tOf := t } { s' with tOf := t' } := by
  refine ⟨?_, h.tAlign, h.tMov, h.tNotInh, h.tYaw, h.gsfTime, h.tPos, h.tDelpos, h.tVel, ht, h.tBeta, h.tArsp, h.tFake, h.tGpsYaw, h.tGood, h.tBad⟩
  rw [h.rest]
theorem set_tBeta : SameSt δ { s with tBeta := t } { s' with tBeta := t' } := by
  refine ⟨?_, h.tAlign, h.tMov, h.tNotInh, h.tYaw, h.gsfTime, h.tPos, h.tDelpos, h.tVel, h.tOf, ht, h.tArsp, h.tFake, h.tGpsYaw, h.tGood, h.tBad⟩
  rw [h.rest]
theorem set_tArsp : SameSt δ { s with tArsp := t } { s' with tArsp := t' } := by
  refine ⟨?_, h.tAlign, h.tMov, h.tNotInh, h.tYaw, h.gsfTime, h.tPos, h.tDelpos, h.tVel, h.tOf, h.tBeta, ht, h.tFake, h.tGpsYaw, h.tGood, h.tBad⟩
  rw [h.rest]
theorem set_tFake : SameSt δ { s with tFake := t } { s' with tFake := t' } := by
  refine ⟨?_, h.tAlign, h.tMov, h.tNotInh, h.tYaw, h.gsfTime, h.tPos, h.tDelpos, h.tVel, h.tOf, h.tBeta, h.tArsp, ht, h.tGpsYaw, h.tGood, h.tBad⟩
  rw [h.rest]
theorem set_tGpsYaw : SameSt δ { s with tGpsYaw := t } { s' with tGpsYaw := t' } := by
  refine ⟨?_, h.tAlign, h.tMov, h.tNotInh, h.tYaw, h.gsfTime, h.tPos, h.tDelpos, h.tVel, h.tOf, h.tBeta, h.tArsp, h.tFake, ht, h.tGood, h.tBad⟩
  rw [h.rest]
theorem set_tGood : SameSt δ { s with tGood := t } { s' with tGood := t' } := by
  refine ⟨?_, h.tAlign, h.tMov, h.tNotInh, h.tYaw, h.gsfTime, h.tPos, h.tDelpos, h.tVel, h.tOf, h.tBeta, h.tArsp, h.tFake, h.tGpsYaw, ht, h.tBad⟩
  rw [h.rest]
theorem set_tBad : SameSt δ { s with tBad := t } { s' with tBad := t' } := by
  refine ⟨?_, h.tAlign, h.tMov, h.tNotInh, h.tYaw, h.gsfTime, h.tPos, h.tDelpos, h.tVel, h.tOf, h.tBeta, h.tArsp, h.tFake, h.tGpsYaw, h.tGood, ht⟩
  rw [h.rest]

end set

theorem set_tNotInh {s s' : St} (h : SameSt δ s s') {t t' : UInt64} (ht : t' = t + δ) : SameSt δ { s with tNotInh := t } { s' with tNotInh := t' } := by
  refine ⟨?_, h.tAlign, h.tMov, ht, h.tYaw, h.gsfTime, h.tPos, h.tDelpos, h.tVel, h.tOf, h.tBeta, h.tArsp, h.tFake, h.tGpsYaw, h.tGood, h.tBad⟩
  rw [h.rest]

/-- the two branches of a decision that both clocks decide alike -/
theorem same_ite {c c' : Prop} [Decidable c] [Decidable c'] {a a' b b' : St} (e : c' = c) (ha : SameSt δ a a') (hb : SameSt δ b b') :
    SameSt δ (if c then a else b) (if c' then a' else b') := by
  by_cases hc : c
  · rw [if_pos hc, if_pos (e ▸ hc)]; exact ha
  · rw [if_neg hc, if_neg (e ▸ hc)]; exact hb

/-! functions of EKF/ekf_helper.cpp -/

section fns
variable {s s' : St} (h : SameSt δ s s')
include h

theorem same_act (a : Act) : SameSt δ (s.act a) (s'.act a) := same_map (fun s => s.act a) h
theorem same_evt (a : Evt) : SameSt δ (s.evt a) (s'.evt a) := same_map (fun s => s.evt a) h

theorem same_stopMag3D : SameSt δ (stopMag3D s) (stopMag3D s') := by
  unfold stopMag3D
  rw [e_mag3D h]
  split
  · exact same_map (fun s => { s.act .saveMagCov with mag3D := false }) h
  · exact h

theorem same_stopMag : SameSt δ (stopMag s) (stopMag s') := same_map (fun s => clearMagCov (stopMagHdg s)) (same_stopMag3D h)

theorem same_startMagHdg : SameSt δ (startMagHdg s) (startMagHdg s') := same_map (fun s => { s with magHdg := true }) (same_stopMag3D h)

theorem same_startMag3D : SameSt δ (startMag3D s) (startMag3D s') := by
  unfold startMag3D
  rw [e_mag3D h]
  split
  · exact same_map (fun s => { ((stopMagHdg s).act .zeroMagCov).act .loadMagCov with mag3D := true }) h
  · exact h

theorem same_resetMagStates : SameSt δ (resetMagStates s) (resetMagStates s') := by
  unfold resetMagStates
  extract_lets r t r' t'
  have h1 : SameSt δ t t' := same_map (fun s => { s.act .magStates with declCovReset := false }) h
  clear_value t t'
  exact same_ite (by rw [e_mag3D h1]) (same_act h1 _) h1

theorem same_declareFault : SameSt δ (declareFault s) (declareFault s') := by
  unfold declareFault
  rw [e_magAligned h, e_nBad h, e_magFault h]
  split
  · exact same_map (fun s => { s.evt .stoppingMag with magFault := true }) h
  · exact h

theorem same_courseYaw : SameSt δ (courseYaw s) (courseYaw s') := by
  unfold courseYaw
  rw [e_magAligned h, e_wind h]
  split
  · exact same_map (fun s => { s.act (.yawReset .courseError) with magAligned := true }) h
  split
  · exact same_act h _
  · exact same_act h _

variable {x x' : In} (hx : SameIn δ x x')
include hx

theorem same_aid : s'.aid x' = s.aid x := by rw [hx.rest, h.rest]; rfl

theorem same_posSrc : posSrc x' s' = posSrc x s := by rw [hx.rest, h.rest]; rfl

theorem same_resetPos : SameSt δ (resetPos x s) (resetPos x' s') := by
  unfold resetPos
  rw [same_posSrc h hx]
  exact same_map (fun t => { t.act (.posReset (posSrc x s)) with hposPrev := false }) h

include hδ

theorem same_velSrc : velSrc x' s' = velSrc x s := by
  unfold velSrc
  rw [i_healthTime hx, moved_to hδ hx.now hx.lastFail hx.limits.2.2.2, e_gps h, e_optFlow h, e_evVel h]

theorem same_resetVel : SameSt δ (resetVel x s) (resetVel x' s') := by
  unfold resetVel
  rw [same_velSrc hδ h hx]
  exact same_act h _

theorem same_resetMagHeading : SameSt δ (resetMagHeading x s).1 (resetMagHeading x' s').1 ∧ (resetMagHeading x' s').2 = (resetMagHeading x s).2 := by
  have hd := moved_of hx.tDel
  unfold resetMagHeading
  simp only [moved_eq hδ hx.tDel h.tAlign, i_magType hx, e_evYaw h, e_inhibited h]
  split_ifs
  · exact ⟨h, rfl⟩
  · exact ⟨same_stopMag h, rfl⟩
  · exact ⟨set_tAlign (same_resetMagStates (same_act h _)) hd, rfl⟩
  · exact ⟨set_tAlign (same_resetMagStates (same_act h _)) hd, rfl⟩
  · exact ⟨h, rfl⟩
  · exact ⟨h, rfl⟩

theorem same_courseAlign : SameSt δ (courseAlign x s) (courseAlign x' s') := by
  have hd := moved_of hx.tDel
  have hb : badMagYaw x' s' = badMagYaw x s := by unfold badMagYaw; rw [i_courseBad hx, i_velRatioBad hx, e_gps h]
  unfold courseAlign
  rw [hb]
  generalize badMagYaw x s = b
  have h1 : SameSt δ (if b then { s with nBad := s.nBad + 1 } else s) (if b then { s' with nBad := s'.nBad + 1 } else s') := by
    cases b
    · exact h
    · exact same_map (fun s => { s with nBad := s.nBad + 1 }) h
  dsimp only
  generalize (if b then { s with nBad := s.nBad + 1 } else s) = t at h1
  generalize (if b then { s' with nBad := s'.nBad + 1 } else s') = t' at h1
  rw [e_yawAlign h1]
  split
  · exact same_map (fun s => { s with velposReq := b }) (set_tAlign (same_resetMagStates (same_courseYaw (same_declareFault (same_evt h1 _)))) hd)
  · exact set_tAlign (same_resetMagStates h1) hd

theorem same_realignYawGps : SameSt δ (realignYawGps x s).1 (realignYawGps x' s').1 ∧ (realignYawGps x' s').2 = (realignYawGps x s).2 := by
  unfold realignYawGps
  rw [i_courseOk hx]
  split
  · exact same_resetMagHeading hδ h hx
  · exact ⟨same_courseAlign hδ h hx, rfl⟩

theorem same_resetYawToGsf : SameSt δ (resetYawToGsf x s).1 (resetYawToGsf x' s').1 ∧ (resetYawToGsf x' s').2 = (resetYawToGsf x s).2 := by
  unfold resetYawToGsf
  rw [i_gsfOk hx]
  split
  · exact ⟨h, rfl⟩
  · have h1 := same_map (fun s => { s with yawAlign := true }) (set_tAlign (same_resetPos (same_resetVel hδ (same_act h (.yawReset .gsf)) hx) hx) (moved_of hx.tDel))
    dsimp only
    rw [i_magType hx]
    split
    · exact ⟨same_evt h1 _, rfl⟩
    · exact ⟨same_map (fun s => { s.evt .emergencyYawReset with magFault := true }) h1, rfl⟩

omit hδ

theorem same_fuseVelHor (ok : Bool) : SameSt δ (fuseVelHor x ok s) (fuseVelHor x' ok s') := by
  unfold fuseVelHor
  split
  · exact set_tVel (same_act h _) (moved_of hx.now)
  · exact same_act h _

theorem same_fusePos (v : PosVar) (ok : Bool) : SameSt δ (fusePos x v ok s) (fusePos x' v ok s') := by
  unfold fusePos
  extract_lets t t'
  have h1 : SameSt δ t t' := same_act h _
  clear_value t t'
  exact same_ite rfl (same_ite (by rw [e_hposOdom h1]) (set_tPos h1 (moved_of hx.now)) (set_tDelpos h1 (moved_of hx.now))) h1

/-! EKF/mag_control.cpp -/

theorem same_canReset : canResetMagHeading x' s' = canResetMagHeading x s := by
  unfold canResetMagHeading; rw [e_magDist h, i_magType hx]

include hδ

theorem same_resetIf : SameSt δ (if canResetMagHeading x s then resetMagHeading x s else (s, false)).1 (if canResetMagHeading x' s' then resetMagHeading x' s' else (s', false)).1 ∧
    (if canResetMagHeading x' s' then resetMagHeading x' s' else (s', false)).2 = (if canResetMagHeading x s then resetMagHeading x s else (s, false)).2 := by
  rw [same_canReset h hx]
  split
  · exact same_resetMagHeading hδ h hx
  · exact ⟨h, rfl⟩

theorem same_groundYawReset : SameSt δ (groundYawReset x s) (groundYawReset x' s') := by
  obtain ⟨h1, h2⟩ := same_resetIf hδ h hx
  unfold groundYawReset
  rw [e_magYawReq h, e_inhibited h]
  split
  · dsimp only
    rw [h2]
    exact same_map (fun t => { t with magYawReq := !(if canResetMagHeading x s then resetMagHeading x s else (s, false)).2 }) h1
  · exact h

theorem same_airYawReset : SameSt δ (airYawReset x s) (airYawReset x' s') := by
  obtain ⟨h1, h2⟩ : SameSt δ (if x.fixedWing then realignYawGps x s else if canResetMagHeading x s then resetMagHeading x s else (s, false)).1
      (if x'.fixedWing then realignYawGps x' s' else if canResetMagHeading x' s' then resetMagHeading x' s' else (s', false)).1 ∧
      (if x'.fixedWing then realignYawGps x' s' else if canResetMagHeading x' s' then resetMagHeading x' s' else (s', false)).2 =
      (if x.fixedWing then realignYawGps x s else if canResetMagHeading x s then resetMagHeading x s else (s, false)).2 := by
    rw [i_fixedWing hx]
    by_cases hw : x.fixedWing = true
    · simp only [hw, if_true]; exact same_realignYawGps hδ h hx
    · simp only [hw]; exact same_resetIf hδ h hx
  unfold airYawReset
  rw [e_magYawReq h, e_inhibited h]
  split
  · dsimp only
    rw [h2]
    exact same_map (fun t => { t with
      magYawReq := !(if x.fixedWing then realignYawGps x s else if canResetMagHeading x s then resetMagHeading x s else (s, false)).2
      magAligned := (if x.fixedWing then realignYawGps x s else if canResetMagHeading x s then resetMagHeading x s else (s, false)).2 }) h1
  · exact h

theorem same_velPosReset : SameSt δ (velPosReset x s) (velPosReset x' s') := by
  unfold velPosReset
  rw [e_velposReq h]
  split
  · exact same_map (fun s => { s with velposReq := false }) (same_resetPos (same_resetVel hδ h hx) hx)
  · exact h

omit hδ

theorem same_check3D : SameSt δ (check3D x s) (check3D x' s') := by
  have hd := moved_of hx.tDel
  unfold check3D
  extract_lets a b t a' b' t'
  have ea : a' = a := by unfold a a'; rw [e_yawObs h, e_gps h, e_evPos h, i_accKeep hx, i_accStart hx]
  have eb : b' = b := by unfold b b'; rw [e_biasObs h, i_yawRateBig hx, i_yawDeltaBig hx]
  have h1 : SameSt δ t t' := by
    unfold t t'
    rw [ea, eb]
    exact set_tYaw (same_map (fun s => { s with yawObs := a, biasObs := b }) h) hd
  clear_value t t'
  exact same_ite (by rw [ea, eb]) (set_tMov h1 hd) h1

include hδ

theorem same_selectMagAuto : SameSt δ (selectMagAuto x s) (selectMagAuto x' s') := by
  have h1 := same_check3D h hx
  have e : canUse3D x' (check3D x' s') = canUse3D x (check3D x s) := by
    unfold canUse3D; rw [e_magAligned h1]; simp only [moved_3D hδ hx.tDel h1.tMov]
  unfold selectMagAuto
  dsimp only
  rw [e]
  split
  · exact same_startMag3D h1
  · exact same_startMagHdg h1

theorem same_selectMode : SameSt δ (selectMode x s) (selectMode x' s') := by
  unfold selectMode
  rw [i_magType hx]
  split_ifs
  · exact same_selectMagAuto hδ h hx
  · exact same_startMagHdg h
  · exact same_startMag3D h
  · exact same_selectMagAuto hδ h hx

omit hδ

theorem same_checkInhibition : SameSt δ (checkInhibition x s) (checkInhibition x' s') := by
  have e : shouldInhibit x' s' = shouldInhibit x s := by
    unfold shouldInhibit; rw [i_magType hx, e_gps h, e_evPos h, e_evVel h, e_magDist h]
  unfold checkInhibition
  rw [e]
  generalize shouldInhibit x s = b
  extract_lets t u t' u'
  have h1 : SameSt δ t t' := same_map (fun s => { s with inhibited := b }) h
  clear_value t t'
  have h2 : SameSt δ u u' := same_ite (by rw [e_inhibited h1]) (set_tNotInh h1 hx.tDel.1) h1
  clear_value u u'
  exact same_ite (by rw [h2.tNotInh, hx.tDel.1, u64_sub_add]) (same_map (fun s => { s with magInhReq := true }) h2) h2

omit hx

theorem same_runMagFusions : SameSt δ (runMagFusions s) (runMagFusions s') := by
  unfold runMagFusions
  refine same_ite (by rw [e_mag3D h]) (same_ite (by rw [e_declCovReset h]) ?_ ?_) (same_ite (by rw [e_magHdg h]) (same_act h _) h)
  · exact same_map (fun s => ({ s.act (.fuseDecl 2) with declCovReset := true }).act .fuseMag) h
  · extract_lets t t'
    have h1 : SameSt δ t t' := same_act h _
    clear_value t t'
    exact same_ite (by rw [e_magDec h1]) (same_act h1 _) h1

include hx hδ

theorem same_magWithData : SameSt δ (magWithData x s) (magWithData x' s') := by
  have h1 : SameSt δ (if x.inAir then velPosReset x (airYawReset x (checkHagl x s)) else groundYawReset x s)
      (if x'.inAir then velPosReset x' (airYawReset x' (checkHagl x' s')) else groundYawReset x' s') := by
    rw [i_inAir hx]
    split
    · refine same_velPosReset hδ (same_airYawReset hδ ?_ hx) hx
      unfold checkHagl
      rw [i_aboveMag hx]
      exact same_ite (by rw [e_magAligned h]) (same_map (fun s => { s with magYawReq := s.magYawReq || x.aboveMag }) h) h
    · exact same_groundYawReset hδ h hx
  unfold magWithData
  refine same_runMagFusions (same_checkInhibition ?_ hx)
  have h2 := same_selectMode hδ h1 hx
  unfold checkDecl
  rw [i_userDecl hx]
  exact same_map (fun s => { s with magDec := s.mag3D && (!s.gps || x.userDecl) }) h2

theorem same_controlMag : SameSt δ (controlMag x s) (controlMag x' s') := by
  unfold controlMag
  rw [i_magType hx]
  have hno : noOther s' = noOther s := by unfold noOther; rw [e_evYaw h, e_gpsYaw h]
  rw [hno]
  split
  · exact h
  split
  · split
    · exact same_map (fun s => { s with inhibited := true }.act .fuseHeading) h
    · exact h
  · have h1 : SameSt δ (magPrepare x s) (magPrepare x' s') := by
      unfold magPrepare
      rw [i_inAir hx, i_disturbed hx]
      dsimp only
      split
      · exact same_map (fun s => { s with magDist := x.disturbed, magAligned := false, nBad := 0 }) h
      · exact same_map (fun s => { s with magDist := x.disturbed }) h
    unfold magMain
    dsimp only
    rw [e_magFault h1, e_yawAlign h1]
    split
    · exact same_stopMag h1
    · have h2 := same_map otherStopped h1
      have hn2 : noOther (otherStopped (magPrepare x' s')) = noOther (otherStopped (magPrepare x s)) := by unfold noOther; rw [e_evYaw h2, e_gpsYaw h2]
      rw [hn2, i_magReady hx]
      split
      · exact same_magWithData hδ h2 hx
      · exact h2

/-! EKF/control.cpp: GPS -/

omit hδ

omit hx in
theorem same_stopGps : SameSt δ (stopGps s) (stopGps s') := same_map stopGps h

theorem same_gpsYawUse : SameSt δ (gpsYawUse x s) (gpsYawUse x' s') := by
  unfold gpsYawUse
  rw [i_gpsYawFinite hx, e_gpsYaw h, i_gpsYawOk hx, e_tilt h, i_gpsIntermittent hx, i_antennaOk hx]
  split_ifs
  · exact set_tGpsYaw (same_act h _) (moved_of hx.now)
  · exact same_act h _
  · have h1 := same_map (fun s => { s with yawAlign := true }) (set_tGpsYaw (same_act h (.yawReset .gpsAntenna)) (moved_of hx.now))
    exact same_map (fun s => { s with gpsYaw := true }) (same_stopMag3D (same_map (fun s => stopMagHdg { s with magDec := false, evYaw := false }) h1))
  · exact h
  · exact h
  · exact h

include hδ

theorem same_controlGpsYaw : SameSt δ (controlGpsYaw x s) (controlGpsYaw x' s') := by
  have b := hx.now.2.1
  unfold controlGpsYaw
  refine same_ite (by rw [i_useGpsYaw hx, e_gpsYawFaulty h]) (same_map (fun s => { s with gpsYaw := false }) h) ?_
  have h1 := same_gpsYawUse h hx
  extract_lets t t'
  change SameSt δ t t' at h1
  clear_value t t'
  exact same_ite (by rw [e_gpsYaw h1, moved_to hδ hx.now h1.tGpsYaw (lt_trans (by decide) b)])
    (same_map (fun s => { s with gpsYawFaulty := true, gpsYaw := false }) h1) h1

theorem same_gpsHeading : SameSt δ (gpsHeading x s) (gpsHeading x' s') := by
  unfold gpsHeading
  refine same_ite (by rw [e_yawAlign h, e_evYaw h, e_magInhReq h, same_canReset h hx]) ?_ h
  extract_lets r r1 u t r' r1' u' t'
  obtain ⟨h1, h2⟩ : SameSt δ r.1 r'.1 ∧ r'.2 = r.2 := same_resetMagHeading hδ (same_map (fun s => { s with evYaw := false }) h) hx
  clear_value r r'
  have h3 : SameSt δ u u' := by
    have := same_map (fun t => { t with yawAlign := r.2 }) h1
    unfold u u'; rw [h2]; exact this
  clear_value u u'
  exact same_ite (by rw [e_magInhReq h3]) (same_map (fun s => { s.act .gyroBiasCov with magInhReq := false }) h3) h3

theorem same_gpsStart : SameSt δ (gpsStart x s) (gpsStart x' s') := by
  have b := hx.now.2.1
  unfold gpsStart
  refine same_ite (by rw [i_useGps hx, e_gps h]) (same_ite ?_ ?_ h) (same_ite (by rw [i_useGps hx]) (same_map (fun s => { s with gps := false }) h) h)
  · rw [e_tilt h, i_nedInit hx, moved_to hδ hx.now hx.lastFail (lt_trans (by decide) b)]
  · have h1 := same_gpsHeading hδ h hx
    extract_lets t t'
    change SameSt δ t t' at h1
    clear_value t t'
    refine same_ite (by rw [e_yawAlign h1]) ?_ h1
    have h2 := same_act h1 (.posReset .gps)
    unfold startGps
    extract_lets a b c a' b' c'
    change SameSt δ a a' at h2
    clear_value a a'
    have h3 : SameSt δ b b' := same_ite (by rw [e_optFlow h2]) (same_act h2 _) h2
    clear_value b b'
    exact same_map (fun s => { s.evt .startingGps with gps := true }) h3

theorem same_gpsFailing : SameSt δ (gpsFailing x s) (gpsFailing x' s') := by
  have b := hx.now.2.1
  unfold gpsFailing
  refine same_ite (by rw [same_aid h hx, e_gps h, moved_to hδ hx.now hx.lastPass (lt_trans (by decide) b)]) ?_ h
  extract_lets t u t' u'
  have h1 : SameSt δ t t' := same_stopGps h
  clear_value t t'
  exact same_evt (same_ite (by rw [e_evPos h1, i_rotateEv hx]) (same_resetPos h1 hx) h1) _

theorem same_gsfAlign : SameSt δ (gsfAlign x s) (gsfAlign x' s') := by
  unfold gsfAlign
  rw [e_gps h, e_doGsf h, moved_to hδ hx.now h.gsfTime (by have := hx.now.2.1; exact lt_trans (by decide) this)]
  obtain ⟨h1, h2⟩ := same_resetYawToGsf hδ h hx
  dsimp only
  rw [h2]
  split_ifs
  · exact same_map (fun s => { s with doGsf := false }) (set_gsfTime h1 (moved_of hx.now))
  · exact h1
  · exact h

omit h in
theorem twice : (2 * x.resetTimeout).toNat < x.now.toNat ∧ x.resetTimeout.toNat < x.now.toNat := by
  have := hx.limits.2.1; have := hx.now.2.2
  have : (2 * x.resetTimeout).toNat = 2 * x.resetTimeout.toNat := by
    rw [UInt64.toNat_mul]; exact Nat.mod_eq_of_lt (by simp; omega)
  omega

theorem same_needVelPosReset : needVelPosReset x' s' = needVelPosReset x s := by
  obtain ⟨a, b⟩ := twice hδ hx
  unfold needVelPosReset
  rw [i_resetTimeout hx, moved_to hδ hx.now h.tPos b, moved_to hδ hx.now h.tDelpos b, moved_to hδ hx.now h.tVel b, moved_to hδ hx.now h.tOf b,
    moved_to hδ hx.now h.tPos a]

theorem same_needGsfReset : needGsfReset x' s' = needGsfReset x s := by
  have b := hx.now.2.1
  have hy : yawFailure x' s' = yawFailure x s := by
    unfold yawFailure
    rw [i_gsfDelay hx, moved_to hδ hx.now h.tVel hx.limits.1, same_needVelPosReset hδ h hx, i_inAir hx, i_velAngleBad hx]
    simp only [moved_le hδ h.tVel hx.tGround, moved_le hδ h.tPos hx.tGround, moved_le_zero hδ h.tVel]
    rw [moved_to hδ hx.now hx.tGround (lt_of_le_of_lt (by decide) b)]
  unfold needGsfReset
  rw [hy, e_doGsf h, e_gsfCount h, i_countLimit hx, moved_to hδ hx.now h.gsfTime (lt_trans (by decide) b),
    moved_to hδ hx.now hx.tPrevGps (lt_trans (by decide) b)]

theorem same_gsfReset : SameSt δ (gsfReset x s) (gsfReset x' s') := by
  obtain ⟨h1, h2⟩ := same_resetYawToGsf hδ h hx
  have hn := moved_of hx.now
  unfold gsfReset
  dsimp only
  rw [h2]
  split
  · exact same_map (fun s => { s with doGsf := false, gsfCount := s.gsfCount + 1 })
      (set_tOf (set_tVel (set_tDelpos (set_tPos (set_gsfTime h1 hn) hn) hn) hn) hn)
  · exact h1

theorem same_gpsTimeoutReset : SameSt δ (gpsTimeoutReset x s) (gpsTimeoutReset x' s') := by
  have hn := moved_of hx.now
  unfold gpsTimeoutReset
  extract_lets r r1 t u r' r1' t' u'
  obtain ⟨a, b⟩ : SameSt δ r.1 r'.1 ∧ r'.2 = r.2 := same_realignYawGps hδ h hx
  clear_value r r'
  have h1 : SameSt δ t t' := by
    refine same_ite (by rw [i_fixedWing hx, i_inAir hx]) ?_ h
    rw [b]
    exact same_map (fun t => { t with magAligned := r.2 }) a
  clear_value t t'
  exact set_tVel (set_tPos (same_map (fun s => { s.evt .gpsTimeout with velposReq := false }) (same_resetPos (same_resetVel hδ h1 hx) hx)) hn) hn

theorem same_gpsResets : SameSt δ (gpsResets x s) (gpsResets x' s') := by
  unfold gpsResets
  rw [e_gps h, same_needGsfReset hδ h hx, same_needVelPosReset hδ h hx]
  split_ifs
  · exact same_gsfReset hδ h hx
  · exact same_gpsTimeoutReset hδ h hx
  · exact h
  · exact h

omit hδ in
theorem same_gpsFuse : SameSt δ (gpsFuse x s) (gpsFuse x' s') := by
  unfold gpsFuse
  rw [e_gps h, same_aid h hx, i_gpsPosOk hx, i_gpsVelOk hx]
  split
  · exact same_fusePos (same_act (same_fuseVelHor h hx _) _) hx _ _
  · exact h

theorem same_controlGps : SameSt δ (controlGps x s) (controlGps x' s') := by
  unfold controlGps
  rw [i_gpsReady hx, e_gps h, same_aid h hx, moved_sub hδ hx.tDel hx.tGps (by decide), moved_sub hδ hx.tDel hx.tGps (by decide)]
  split_ifs
  · exact same_gpsFuse (same_gpsResets hδ (same_gsfAlign hδ (same_gpsFailing hδ (same_gpsStart hδ (same_controlGpsYaw hδ h hx) hx) hx) hx) hx) hx
  · exact same_evt (same_stopGps h) _
  · exact same_evt (same_stopGps h) _
  · exact h

/-! optical flow -/

theorem same_flowMotion : SameSt δ (flowMotion x s) (flowMotion x' s') := by
  have hd := moved_of hx.tDel
  unfold flowMotion
  rw [i_inAir hx, i_motionExcessive hx]
  split_ifs
  · exact set_tBad h hd
  · exact set_tGood h hd
  · exact set_tGood (set_tBad h (.inl ⟨rfl, rfl⟩)) hd

omit hδ in
theorem same_flowQuality : SameSt δ (flowQuality x s) (flowQuality x' s') := by
  unfold flowQuality
  rw [e_flowReady h, i_flowGood hx, i_flowComp hx, i_inAir hx]
  split_ifs
  · exact h
  · exact h
  · exact same_map (fun s => { s with flowReady := false }) h
  · exact h

theorem same_flowInhibit : flowInhibit x' s' = flowInhibit x s := by
  have hr : flowRequired x' s' = flowRequired x s := by
    unfold flowRequired
    rw [i_inAir hx, i_deadReckoning hx, same_aid h hx, e_optFlow h, e_gps h, i_gpsErr07 hx, i_gpsErr10 hx]
  unfold flowInhibit
  rw [hr, i_inAir hx, i_terrainValid hx, e_tilt h]
  simp only [moved_within hδ hx.tDel h.tGood (show (100000 : UInt64).toNat ≤ 10000000 by decide), moved_past hδ hx.tDel h.tBad (show (5000000 : UInt64).toNat ≤ 10000000 by decide)]

theorem same_resetBoth : SameSt δ (resetPos x (resetVel x s)) (resetPos x' (resetVel x' s')) := same_resetPos (same_resetVel hδ h hx) hx

theorem same_flowStart : SameSt δ (flowStart x s) (flowStart x' s') := by
  unfold flowStart
  refine same_ite (by rw [i_useOf hx, e_optFlow h, e_flowInh h]) ?_ h
  extract_lets r r1 t u r' r1' t' u'
  obtain ⟨a, b⟩ : SameSt δ r.1 r'.1 ∧ r'.2 = r.2 := same_resetMagHeading hδ h hx
  clear_value r r'
  have h1 : SameSt δ t t' := by
    refine same_ite (by rw [e_yawAlign h]) ?_ h
    rw [b]
    exact same_map (fun t => { t with yawAlign := r.2 }) a
  clear_value t t'
  have h2 : SameSt δ u u' := set_tOf (same_map (fun s => { s with optFlow := true }) h1) (moved_of hx.now)
  clear_value u u'
  exact same_ite (by rw [e_yawAlign h1]) (same_ite (by rw [same_aid h2 hx, e_optFlow h2]) (same_resetBoth hδ h2 hx) h2) h1

theorem same_flowUse : SameSt δ (flowUse x s) (flowUse x' s') := by
  have b := hx.now.2.1
  unfold flowUse
  refine same_ite (by rw [e_optFlow h]) ?_ h
  extract_lets a t u a' t' u'
  have h0 : SameSt δ a a' := same_act h _
  have h1 : SameSt δ t t' := same_ite (by rw [moved_recent hδ hx.now hx.tHagl (lt_trans (by decide) b)])
    (same_ite (by rw [i_flowOk hx]) (set_tOf h0 (moved_of hx.now)) h0) h
  clear_value t t'
  have h2 : SameSt δ u u' := same_ite (by rw [i_flowMid hx]) (same_map (fun s => { s with flowReady := false }) h1) h
  clear_value u u'
  exact same_ite (by rw [i_resetTimeout hx, moved_to hδ hx.now h2.tOf (twice hδ hx).2, same_aid h2 hx, e_optFlow h2]) (same_resetBoth hδ h2 hx) h2

theorem same_controlFlow : SameSt δ (controlFlow x s) (controlFlow x' s') := by
  unfold controlFlow
  extract_lets t u t' u'
  have h1 : SameSt δ t t' := same_flowQuality (same_flowMotion hδ h hx) hx
  clear_value t t'
  have h2 : SameSt δ u u' := by
    unfold u u'
    rw [same_flowInhibit hδ h1 hx]
    exact same_map (fun s => { s with flowInh := flowInhibit x t }) h1
  clear_value u u'
  refine same_ite (by rw [e_flowReady h1]) (same_ite (by rw [e_optFlow h2, e_flowInh h2, i_useOf hx]) (same_map stopFlow h2)
    (same_flowUse hδ (same_flowStart hδ h2 hx) hx)) (same_ite ?_ (same_map stopFlow h1) h1)
  simp only [e_optFlow h1, moved_within hδ hx.tDel hx.tFlow (show (10000000 : UInt64).toNat ≤ 10000000 by decide)]

/-! external vision -/

theorem same_evStart : SameSt δ (evStart x s) (evStart x' s') := by
  have b := hx.now.2.1
  unfold evStart
  refine same_ite (by rw [e_tilt h, e_yawAlign h]) (same_ite (by rw [moved_recent hδ hx.now hx.tEv (lt_trans (by decide) b)]) ?_ h) h
  extract_lets t t'
  have h1 : SameSt δ t t' := same_ite (by rw [i_useEvPos hx, e_evPos h])
    (same_evt (same_resetPos (same_map (fun s => { s with evPos := true }) h) hx) _) h
  clear_value t t'
  exact same_ite (by rw [i_useEvVel hx, e_evVel h1]) (same_evt (same_resetVel hδ (same_map (fun s => { s with evVel := true }) h1) hx) _) h1

theorem same_evYawStart : SameSt δ (evYawStart x s) (evYawStart x' s') := by
  have b := hx.now.2.1
  unfold evYawStart
  refine same_ite (by rw [e_gps h, i_useEvYaw hx, e_evYaw h, e_tilt h]) (same_ite (by rw [moved_recent hδ hx.now hx.tEv (lt_trans (by decide) b)]) ?_ h) h
  exact same_evt (same_stopMag3D (same_map (fun s => stopMagHdg { s.act (.yawReset .vision) with yawAlign := true, evYaw := true, magDec := false }) h)) _

theorem same_evPosUse : SameSt δ (evPosUse x s) (evPosUse x' s') := by
  have b := hx.now.2.1
  have hr := (twice hδ hx).2
  unfold evPosUse
  rw [i_useGps hx, i_evPosOk hx]
  refine same_ite (by rw [e_evPos h]) ?_ h
  extract_lets t u t' u'
  have h1 : SameSt δ t t' := same_map (fun s => { s with hposOdom := x.useGps }) h
  clear_value t t'
  have h2 : SameSt δ u u' := by
    refine same_ite ?_ (same_resetPos (same_ite ?_ (same_resetVel hδ h1 hx) h1) hx) h1
    · rw [i_resetTimeout hx, moved_to hδ hx.now h1.tPos hr]
    · rw [moved_to hδ hx.now h1.tOf (lt_trans (by decide) b), moved_to hδ hx.now h1.tVel (lt_trans (by decide) b)]
  clear_value u u'
  exact same_ite (by rw [e_hposOdom h1]) (same_ite (by rw [e_hposPrev h1]) (same_fusePos (same_map (fun s => { s with hposPrev := true }) h1) hx _ _)
    (same_fusePos h1 hx _ _)) (same_fusePos h2 hx _ _)

theorem same_evVelUse : SameSt δ (evVelUse x s) (evVelUse x' s') := by
  have b := hx.now.2.1
  have hr := (twice hδ hx).2
  have h1 : SameSt δ (if isTimedOut x.now s.tVel x.resetTimeout then
        (if isTimedOut x.now s.tOf 1000000 && isTimedOut x.now s.tPos 1000000 then resetVel x s else s)
      else s) (if isTimedOut x'.now s'.tVel x'.resetTimeout then
        (if isTimedOut x'.now s'.tOf 1000000 && isTimedOut x'.now s'.tPos 1000000 then resetVel x' s' else s')
      else s') := by
    rw [i_resetTimeout hx, moved_to hδ hx.now h.tPos (lt_trans (by decide) b), moved_to hδ hx.now h.tOf (lt_trans (by decide) b), moved_to hδ hx.now h.tVel hr]
    split_ifs
    · exact same_resetVel hδ h hx
    · exact h
    · exact h
  unfold evVelUse
  rw [e_evVel h, i_evVelOk hx]
  split
  · exact same_act (same_fuseVelHor h1 hx _) _
  · exact h

theorem same_controlEv : SameSt δ (controlEv x s) (controlEv x' s') := by
  have h1 := same_evVelUse hδ (same_evPosUse hδ (same_evYawStart hδ (same_evStart hδ h hx) hx) hx) hx
  unfold controlEv
  dsimp only
  rw [i_evReady hx, e_evYaw h1, e_evPos h, e_evVel h, e_evYaw h, i_resetTimeout hx, moved_to hδ hx.now hx.tEv (twice hδ hx).2]
  split_ifs
  · exact same_act h1 _
  · exact h1
  · exact same_evt (same_map stopEv h) _
  · exact h

/-! air data, drag, auxiliary velocity, synthetic position -/

theorem same_controlAir : SameSt δ (controlAir x s) (controlAir x' s') := by
  have b := hx.now.2.1
  unfold controlAir
  rw [moved_to hδ hx.now h.tArsp (lt_trans (by decide) b), moved_to hδ hx.now h.tBeta (lt_trans (by decide) b)]
  generalize isTimedOut x.now s.tArsp 10000000 = p
  generalize isTimedOut x.now s.tBeta 10000000 = q
  extract_lets p1 q1 t u v y z t' u' v' y' z'
  have h1 : SameSt δ t t' := same_ite (by rw [e_wind h, e_synth h, i_useDrag hx]) (same_map (fun s => { s with wind := false }) h) h
  clear_value t t'
  have h2 : SameSt δ u u' := same_ite (by rw [e_fuseAspd h1]) (same_map (fun s => { s with fuseAspd := false }) h1) h1
  clear_value u u'
  have h3 : SameSt δ v v' := same_act h2 _
  clear_value v v'
  have h4 : SameSt δ y y' := same_ite (by rw [e_wind h2]) (set_tArsp (same_map (fun s => { s with wind := true }) h3) (moved_of hx.now)) h2
  clear_value y y'
  refine same_ite (by rw [e_synth h2, i_tasReady hx, i_inAir hx]) (same_ite (by rw [i_arspOk hx]) ?_ (same_act h4 _)) h2
  exact set_tArsp (same_map (fun s => { s.act .fuseAirspeed with fuseAspd := true }) h4) (moved_of hx.now)

theorem same_controlBeta : SameSt δ (controlBeta x s) (controlBeta x' s') := by
  unfold controlBeta
  refine same_ite (by rw [e_synth h]) h (same_ite (by rw [i_betaAvg hx, moved_to hδ hx.now h.tBeta hx.limits.2.2.1, i_fuseBeta hx, i_inAir hx]) ?_ h)
  extract_lets v y z v' y' z'
  have h3 : SameSt δ v v' := same_act h _
  clear_value v v'
  have h4 : SameSt δ y y' := same_ite (by rw [e_wind h]) (set_tBeta (same_map (fun s => { s with wind := true }) h3) (moved_of hx.now)) h
  clear_value y y'
  exact same_ite (by rw [i_betaOk hx]) (set_tBeta (same_act h4 _) (moved_of hx.now)) (same_act h4 _)

omit hδ in
theorem same_controlDrag : SameSt δ (controlDrag x s) (controlDrag x' s') := by
  unfold controlDrag
  rw [i_useDrag hx, e_synth h, i_inAir hx, e_magInhReq h, e_wind h, i_dragReady hx]
  split_ifs
  · exact same_map (fun s => { s.act .windReset with wind := true }) h
  · exact same_act h _
  · exact h
  · exact h

omit hδ in
theorem same_controlAux : SameSt δ (controlAux x s) (controlAux x' s') := by
  unfold controlAux
  rw [i_auxReady hx, same_aid h hx, i_auxOk hx]
  split
  · exact same_fuseVelHor h hx _
  · exact h

theorem same_controlFake : SameSt δ (controlFake x s) (controlFake x' s') := by
  have b := hx.now.2.1
  unfold controlFake
  rw [i_inAir hx, i_atRest hx, i_fakeOk hx]
  refine same_ite (by rw [same_aid h hx, e_fuseAspd h, i_fuseBeta hx]) ?_ (same_map (fun s => { s with synth := false }) h)
  extract_lets t r u v w t' r' u' v' w'
  have h1 : SameSt δ t t' := same_map (fun s => { s with synth := true }) h
  clear_value t t'
  have h2 : SameSt δ u u' := same_map (fun s => { s with hposOdom := false }) (same_resetVel hδ (same_resetPos h1 hx) hx)
  clear_value u u'
  have h3 : SameSt δ v v' := same_ite (by rw [moved_to hδ hx.now h1.tFake (lt_trans (by decide) b)])
    (same_ite (moved_zero hδ h2.tFake) h2 (same_evt h2 _)) h1
  clear_value v v'
  have h4 : SameSt δ w w' := set_tFake h3 (moved_of hx.now)
  clear_value w w'
  refine same_ite (by rw [moved_to hδ hx.now h1.tFake (lt_trans (by decide) b)]) ?_ h1
  rw [e_tilt h4]
  exact same_fusePos h4 hx _ _

/-! requests, tilt alignment, the whole step -/

omit hδ in
theorem same_requests : SameSt δ (requests x s) (requests x' s') := by
  have h1 : SameSt δ (if x.emergencyReq then { s with doGsf := true } else s) (if x'.emergencyReq then { s' with doGsf := true } else s') := by
    rw [i_emergencyReq hx]
    split
    · exact same_map (fun s => { s with doGsf := true }) h
    · exact h
  unfold requests
  dsimp only
  generalize (if x.emergencyReq then ({ s with doGsf := true } : St) else s) = t at h1
  generalize (if x'.emergencyReq then ({ s' with doGsf := true } : St) else s') = t' at h1
  rw [i_originSet hx, i_magType hx, i_declKnown hx, i_roughFix hx]
  have h2 := same_map (fun s => { s with magYawReq := true }) h1
  split_ifs
  · exact set_gsfTime (same_map (fun s => { s with doGsf := true }) h1) (.inl ⟨rfl, rfl⟩)
  · exact h2
  · exact h1
  · exact h2
  · exact h1
  · exact h1

theorem same_tiltAlign : SameSt δ (tiltAlign x s) (tiltAlign x' s') := by
  unfold tiltAlign
  rw [e_tilt h, i_tiltConverged hx]
  split
  · obtain ⟨a, b⟩ := same_resetMagHeading hδ (same_map (fun s => { s with tilt := true }) h) hx
    dsimp only at a b ⊢
    rw [b]
    exact same_map (fun t => { t with yawAlign := (resetMagHeading x { s with tilt := true }).2 }) a
  · exact h

theorem same_step : SameSt δ (step x s) (step x' s') := by
  have h0 := same_map (fun s => { s with log := [], evts := [] }) h
  have h1 := same_tiltAlign hδ (same_requests h0 hx) hx
  have h2 : SameSt δ (flowArrival x (tiltAlign x (requests x { s with log := [], evts := [] })))
      (flowArrival x' (tiltAlign x' (requests x' { s' with log := [], evts := [] }))) := by
    unfold flowArrival
    rw [i_flowPop hx]
    exact same_ite (by rw [e_flowReady h1, e_optFlow h1]) (same_map (fun s => { s with flowReady := x.flowPop }) h1) h1
  exact same_controlFake hδ (same_controlAux (same_controlEv hδ (same_controlDrag (same_controlBeta hδ (same_controlAir hδ
    (same_controlGps hδ (same_controlFlow hδ (same_controlMag hδ h2 hx) hx) hx) hx) hx) hx) hx) hx) hx

end fns

/-- **C159.** Let two histories of inputs be the same but for a clock that is ahead by `δ`, both clocks being past every timeout of the filter (30 s), and
start them in states that agree in this sense.  Then after every step the two filters agree: the same modes, the same requests and flags, the same
measurements fused, the same resets and the same events reported, and time stamps that differ by `δ`. -/
theorem decisions_depend_on_elapsed_time (l l' : List In) (s s' : St) (hδ : δ.toNat < 2 ^ 62) (h : Spec.SameSt δ s s')
    (hl : List.Forall₂ (Spec.SameIn δ) l l') : Spec.SameSt δ (run s l) (run s' l') ∧ List.Forall₂ (Spec.SameSt δ) (trace s l) (trace s' l') := by
  induction hl generalizing s s' with
  | nil => exact ⟨h, .nil⟩
  | cons hx _ ih =>
    have h1 := same_step hδ h hx
    exact ⟨(ih _ _ h1).1, .cons h1 (ih _ _ h1).2⟩

/-- a filter booted twice, the second time on a clock that is ahead by an hour: the vehicle aligns, takes off and starts GPS aiding -/
def exIn (off : UInt64) : List In :=
  [{ tiltConverged := true, magReady := true, now := 40000000 + off, tDel := 39900000 + off },
   { magReady := true, gpsReady := true, useGps := true, nedInit := true, tGps := 40000000 + off, lastPass := 40000000 + off, lastFail := 33000000 + off
     inAir := true, aboveMag := true, now := 40100000 + off, tDel := 40000000 + off },
   { magReady := true, gpsReady := true, useGps := true, nedInit := true, tGps := 40100000 + off, lastPass := 40100000 + off, lastFail := 33000000 + off
     gpsPosOk := true, inAir := true, yawRateBig := true, now := 40200000 + off, tDel := 40100000 + off }]

example : Spec.SameSt 3600000000 { tNotInh := 20000000 } { tNotInh := 3620000000 } ∧ List.Forall₂ (Spec.SameIn 3600000000) (exIn 0) (exIn 3600000000) ∧
    (run { tNotInh := 20000000 } (exIn 0)).gps = true ∧ (run { tNotInh := 20000000 } (exIn 0)).mag3D = true ∧
    (run { tNotInh := 20000000 } (exIn 0)).tPos = 40200000 ∧ (run { tNotInh := 3620000000 } (exIn 3600000000)).tPos = 3640200000 := by
  refine ⟨?_, ?_, by decide +kernel, by decide +kernel, by decide +kernel, by decide +kernel⟩
  · constructor
    all_goals first | rfl | exact .inl ⟨rfl, rfl⟩
  · refine .cons ?_ (.cons ?_ (.cons ?_ .nil))
    all_goals
      constructor
      all_goals first | rfl | exact .inl ⟨rfl, rfl⟩ | decide +kernel | (unfold Spec.Moved; decide +kernel)

/-- The condition on `tNotInh` cannot be dropped.  At power-on it is zero, and the time since then is cut to 32 bits of microseconds: with a disturbed
magnetometer the filter asks for an inhibition of the magnetometer when its clock reads 100 s, but not when it reads 4295 s. -/
theorem inhibition_depends_on_clock :
    (run {} [{ tiltConverged := true, magReady := true, disturbed := true, now := 100000000, tDel := 99900000 }]).magInhReq = true ∧
      (run {} [{ tiltConverged := true, magReady := true, disturbed := true, now := 4295100000, tDel := 4295000000 }]).magInhReq = false := by
  decide +kernel

end Ecl.Aid
