import Verif.Aid.Recovery
import Verif.Aid.Lockout2

/-!
# What the filter does about rejected vision data, sample by sample (C173) — EKF/control.cpp:188-340
-/

namespace Ecl.Aid

/-! ### The effect of one vision sample -/

/-- a vision sample arrives and no vision aiding starts with it: everything that is configured is in use already -/
structure Spec.VisionInUse (x : In) (s : St) : Prop where
  ready : x.evReady = true
  pos : x.useEvPos = true → s.evPos = true
  vel : x.useEvVel = true → s.evVel = true
  yaw : s.evYaw = true ∨ x.useEvYaw = false ∨ s.gps = true
  clock : x.now.toNat + 1000000 < 2 ^ 64

/-- vision position is in use, as absolute position, and none was accepted for longer than the reset timeout -/
def Spec.PosStale (x : In) (s : St) : Prop := s.evPos = true ∧ x.useGps = false ∧ isTimedOut x.now s.tPos x.resetTimeout = true

/-- neither flow nor velocity for a second -/
def Spec.VelUnaided (x : In) (s : St) : Prop := isTimedOut x.now s.tOf 1000000 = true ∧ isTimedOut x.now s.tVel 1000000 = true

/-- the absolute position of this sample is accepted -/
def Spec.PosAccepted (x : In) (s : St) : Prop := s.evPos = true ∧ x.useGps = false ∧ x.evPosOk = true

/-- vision velocity is in use, none was accepted for longer than the reset timeout, and neither flow nor position for a second, this sample included -/
def Spec.VelStale (x : In) (s : St) : Prop :=
  s.evVel = true ∧ isTimedOut x.now s.tVel x.resetTimeout = true ∧ isTimedOut x.now s.tOf 1000000 = true ∧
  isTimedOut x.now s.tPos 1000000 = true ∧ ¬ Spec.PosAccepted x s

/-- how the position of this sample is fused: absolute, as a change, or (first sample as odometry) without a previous one -/
def Spec.posMode (x : In) (s : St) : PosVar := if x.useGps = false then .visionAbs else if s.hposPrev = true then .visionDelta else .unset

theorem not_timed_out_now (t d : UInt64) (h : t.toNat + d.toNat < 2 ^ 64) : isTimedOut t t d = false := by
  unfold isTimedOut
  have : t ≤ t + d := by
    rw [UInt64.le_iff_toNat_le, UInt64.toNat_add, Nat.mod_eq_of_lt h]
    omega
  simp [this]

theorem vision_continues (x : In) (s : St) (h : Spec.VisionInUse x s) : evYawStart x (evStart x s) = s := by
  have e : evStart x s = s := by
    unfold evStart
    have a : (x.useEvPos && !s.evPos) = false := by
      rcases Bool.eq_false_or_eq_true x.useEvPos with c | c
      · rw [h.pos c]; simp
      · simp [c]
    have b : (x.useEvVel && !s.evVel) = false := by
      rcases Bool.eq_false_or_eq_true x.useEvVel with c | c
      · rw [h.vel c]; simp
      · simp [c]
    simp [a, b]
  rw [e]
  unfold evYawStart
  rw [if_neg]
  rcases h.yaw with c | c | c <;> simp [c]

open Classical in
/-- **C173 (one sample).** Everything that is reset and fused by a vision sample while vision aiding goes on, in order: velocity (only if velocity and flow are
missing for a second as well) and position when positions are missing for the reset timeout and vision gives absolute positions; the position; then velocity
again when velocities are missing for the reset timeout, but only if flow and position are missing for a second and the position of this very sample was not
accepted; the velocity; the heading. The timers are restarted by acceptance only, not by a reset; no warning is raised. -/
theorem vision_sample (x : In) (s : St) (h : Spec.VisionInUse x s) :
    let r := controlEv x s
    r.log = s.log ++
      (if Spec.PosStale x s ∧ Spec.VelUnaided x s then [.velReset (velSrc x s)] else []) ++
      (if Spec.PosStale x s then [.posReset (posSrc x s)] else []) ++
      (if s.evPos = true then [.fusePos (Spec.posMode x s)] else []) ++
      (if Spec.VelStale x s then [.velReset (velSrc x s)] else []) ++
      (if s.evVel = true then [.fuseVelHor, .fuseVelVert] else []) ++
      (if s.evYaw = true then [.fuseHeading] else []) ∧
    r.evts = s.evts ∧
    r.tPos = (if Spec.PosAccepted x s then x.now else s.tPos) ∧
    r.tVel = (if s.evVel = true ∧ x.evVelOk = true then x.now else s.tVel) ∧
    r.tOf = s.tOf ∧ r.evPos = s.evPos ∧ r.evVel = s.evVel ∧ r.evYaw = s.evYaw := by
  have hn : isTimedOut x.now x.now 1000000 = false := not_timed_out_now _ _ (by simpa using h.clock)
  intro r
  have hr : r = if (evVelUse x (evPosUse x s)).evYaw then (evVelUse x (evPosUse x s)).act .fuseHeading else evVelUse x (evPosUse x s) := by
    show controlEv x s = _
    unfold controlEv
    rw [if_pos h.ready]
    dsimp only
    rw [vision_continues x s h]
  clear_value r
  subst hr
  have hP : (evPosUse x s).log = s.log ++ (if Spec.PosStale x s ∧ Spec.VelUnaided x s then [.velReset (velSrc x s)] else []) ++
      (if Spec.PosStale x s then [.posReset (posSrc x s)] else []) ++ (if s.evPos = true then [.fusePos (Spec.posMode x s)] else []) ∧
      (evPosUse x s).evts = s.evts ∧ (evPosUse x s).tPos = (if Spec.PosAccepted x s then x.now else s.tPos) ∧ (evPosUse x s).tVel = s.tVel ∧
      (evPosUse x s).tOf = s.tOf ∧ (evPosUse x s).evPos = s.evPos ∧ (evPosUse x s).evVel = s.evVel ∧ (evPosUse x s).evYaw = s.evYaw ∧
      velSrc x (evPosUse x s) = velSrc x s := by
    have hv : ∀ t : St, velSrc x (resetVel x t) = velSrc x t := fun t => rfl
    have hp : ∀ t : St, posSrc x (resetVel x t) = posSrc x t := fun t => rfl
    rcases Bool.eq_false_or_eq_true s.evPos with c1 | c1
    swap
    · have : evPosUse x s = s := by unfold evPosUse; rw [if_neg (by simp [c1])]
      rw [this]
      simp [Spec.PosStale, Spec.PosAccepted, c1]
    rcases Bool.eq_false_or_eq_true x.useGps with c2 | c2
    · rcases Bool.eq_false_or_eq_true s.hposPrev with c3 | c3 <;> rcases Bool.eq_false_or_eq_true x.evPosOk with c4 | c4 <;>
        simp [evPosUse, Spec.PosStale, Spec.PosAccepted, Spec.posMode, c1, c2, c3, c4, fusePos, St.act, velSrc]
    · rcases Bool.eq_false_or_eq_true (isTimedOut x.now s.tPos x.resetTimeout) with c3 | c3 <;>
        rcases Bool.eq_false_or_eq_true x.evPosOk with c4 | c4 <;>
        rcases Bool.eq_false_or_eq_true (isTimedOut x.now s.tOf 1000000) with c5 | c5 <;>
        rcases Bool.eq_false_or_eq_true (isTimedOut x.now s.tVel 1000000) with c6 | c6 <;>
        simp [evPosUse, Spec.PosStale, Spec.PosAccepted, Spec.VelUnaided, Spec.posMode, c1, c2, c3, c4, c5, c6, fusePos, resetPos, resetVel, St.act,
          velSrc, posSrc]
  obtain ⟨p1, p2, p3, p4, p5, p6, p7, p8, p9⟩ := hP
  generalize evPosUse x s = q at *
  have hst : (q.evVel = true ∧ isTimedOut x.now q.tVel x.resetTimeout = true ∧ isTimedOut x.now q.tOf 1000000 = true ∧
      isTimedOut x.now q.tPos 1000000 = true) ↔ Spec.VelStale x s := by
    rw [p3, p4, p5, p7]
    unfold Spec.VelStale
    by_cases a : Spec.PosAccepted x s
    · rw [if_pos a, hn]; simp [a]
    · rw [if_neg a]; simp [a]
  have hV : (evVelUse x q).log = q.log ++ (if Spec.VelStale x s then [.velReset (velSrc x s)] else []) ++
      (if s.evVel = true then [.fuseVelHor, .fuseVelVert] else []) ∧ (evVelUse x q).evts = q.evts ∧ (evVelUse x q).tPos = q.tPos ∧
      (evVelUse x q).tVel = (if s.evVel = true ∧ x.evVelOk = true then x.now else s.tVel) ∧ (evVelUse x q).tOf = q.tOf ∧
      (evVelUse x q).evPos = q.evPos ∧ (evVelUse x q).evVel = q.evVel ∧ (evVelUse x q).evYaw = q.evYaw := by
    simp only [← hst]
    rw [← p7, ← p4, ← p9]
    rcases Bool.eq_false_or_eq_true q.evVel with c1 | c1
    swap
    · have : evVelUse x q = q := by unfold evVelUse; rw [if_neg (by simp [c1])]
      rw [this]; simp [c1]
    rcases Bool.eq_false_or_eq_true (isTimedOut x.now q.tVel x.resetTimeout) with c3 | c3 <;>
      rcases Bool.eq_false_or_eq_true x.evVelOk with c4 | c4 <;>
      rcases Bool.eq_false_or_eq_true (isTimedOut x.now q.tOf 1000000) with c5 | c5 <;>
      rcases Bool.eq_false_or_eq_true (isTimedOut x.now q.tPos 1000000) with c6 | c6 <;>
      simp [evVelUse, c1, c3, c4, c5, c6, fuseVelHor, resetVel, St.act]
  obtain ⟨v1, v2, v3, v4, v5, v6, v7, v8⟩ := hV
  generalize evVelUse x q = w at *
  rw [p1] at v1
  rcases Bool.eq_false_or_eq_true s.evYaw with c | c
  · rw [if_pos (by rw [v8, p8, c])]
    refine ⟨?_, ?_, ?_, ?_, ?_, ?_, ?_, ?_⟩ <;> simp [St.act, *]
  · rw [if_neg (by rw [v8, p8, c]; simp)]
    refine ⟨?_, ?_, ?_, ?_, ?_, ?_, ?_, ?_⟩ <;> simp [*]

/-! ### Rejected vision velocities -/

/-- vision position and velocity in use and nothing else; the last velocity was accepted at `v`, the last position at `p` -/
structure Spec.VisionFlight (p v : UInt64) (s : St) : Prop where
  gps : s.gps = false
  tilt : s.tilt = true
  flow : s.optFlow = false
  evPos : s.evPos = true
  evVel : s.evVel = true
  tPos : s.tPos = p
  tVel : s.tVel = v

/-- one more filter step on a vehicle without GPS, flow, auxiliary velocity and magnetometer; vision goes on; if a vision sample is processed its position is
accepted, within the reset timeout of the previous one (at `p`), and its velocity is rejected -/
structure Spec.VelocityRejected (p : UInt64) (x : In) : Prop where
  noGps : x.gpsReady = false
  useGps : x.useGps = false
  noFlow : x.useOf = false
  noAux : x.auxReady = false
  noMag : x.magType = 5
  alive : isTimedOut x.now x.tEv x.resetTimeout = false
  regular : x.evReady = true → isTimedOut x.now p x.resetTimeout = false
  pos : x.evPosOk = true
  vel : x.evVelOk = false
  clock : x.now.toNat + 1000000 < 2 ^ 64

/-- the inputs of a history, each of them as in `VelocityRejected` for the time of the last vision sample before it -/
def Spec.Rejecting : UInt64 → List In → Prop
  | _, [] => True
  | p, x :: xs => Spec.VelocityRejected p x ∧ Spec.Rejecting (if x.evReady then x.now else p) xs

theorem vflight_stMag (x : In) (s : St) {p v : UInt64} (h : Spec.VisionFlight p v s) : Spec.VisionFlight p v (stMag x s) ∧ (stMag x s).log = [] := by
  have ht : ∀ t : St, t.tilt = true → tiltAlign x t = t := by
    intro t h; unfold tiltAlign; rw [if_neg (by simp [h])]
  have h0 : ∀ t : St, Spec.VisionFlight p v t → Spec.VisionFlight p v (requests x t) ∧ (requests x t).log = t.log := by
    intro t h
    unfold requests
    constructor
    · split_ifs <;> exact ⟨h.1, h.2, h.3, h.4, h.5, h.6, h.7⟩
    · split_ifs <;> rfl
  have hs : Spec.VisionFlight p v { s with log := [], evts := [] } := ⟨h.1, h.2, h.3, h.4, h.5, h.6, h.7⟩
  obtain ⟨h1, h2⟩ := h0 _ hs
  unfold stMag
  rw [ht _ h1.tilt]
  unfold flowArrival
  split_ifs
  · exact ⟨⟨h1.1, h1.2, h1.3, h1.4, h1.5, h1.6, h1.7⟩, h2⟩
  · exact ⟨h1, h2⟩

theorem vflight_mag (x : In) (s : St) {p v : UInt64} (h : Spec.VisionFlight p v s) (hx : Spec.VelocityRejected p x) (hl : s.log.any isReset = false) :
    Spec.VisionFlight p v (controlMag x s) ∧ (controlMag x s).log.any isReset = false := by
  unfold controlMag
  rw [if_neg (by rw [hx.noMag]; decide), if_pos hx.noMag]
  split_ifs
  · refine ⟨⟨h.1, h.2, h.3, h.4, h.5, h.6, h.7⟩, ?_⟩
    simp only [St.act, List.any_append, hl]; rfl
  · exact ⟨h, hl⟩

theorem vflight_flow (x : In) (s : St) {p v : UInt64} (h : Spec.VisionFlight p v s) (hu : x.useOf = false)
    (hl : s.log.any isReset = false) : Spec.VisionFlight p v (controlFlow x s) ∧ (controlFlow x s).log.any isReset = false := by
  have hw : ∀ t : St, t.optFlow = false → controlFlow x t =
      (if (flowQuality x (flowMotion x t)).flowReady then
        { flowQuality x (flowMotion x t) with flowInh := flowInhibit x (flowQuality x (flowMotion x t)) } else flowQuality x (flowMotion x t)) := by
    intro t ho
    have ho' : (flowQuality x (flowMotion x t)).optFlow = false := by simpa using ho
    unfold controlFlow
    dsimp only
    generalize flowQuality x (flowMotion x t) = q at *
    by_cases a : q.flowReady = true
    · rw [if_pos a, if_pos a]
      have e1 : flowStart x { q with flowInh := flowInhibit x q } = { q with flowInh := flowInhibit x q } := by
        unfold flowStart; rw [if_neg (by simp [hu])]
      rw [e1]
      unfold flowUse
      rw [if_neg (by simp [ho']), if_neg (by simp [ho'])]
    · rw [if_neg a, if_neg a, if_neg (by simp [ho'])]
  rw [hw s h.flow]
  have hq : Spec.VisionFlight p v (flowQuality x (flowMotion x s)) :=
    ⟨by simpa using h.1, by simpa using h.2, by simpa using h.3, by simpa using h.4, by simpa using h.5, by simpa using h.6, by simpa using h.7⟩
  have hql : (flowQuality x (flowMotion x s)).log.any isReset = false := by
    unfold flowQuality flowMotion
    split_ifs <;> simpa using hl
  generalize flowQuality x (flowMotion x s) = q at *
  split_ifs
  · exact ⟨⟨hq.1, hq.2, hq.3, hq.4, hq.5, hq.6, hq.7⟩, hql⟩
  · exact ⟨hq, hql⟩

theorem vflight_air (x : In) (s : St) {p v : UInt64} (h : Spec.VisionFlight p v s) (hl : s.log.any isReset = false) :
    Spec.VisionFlight p v (controlDrag x (controlBeta x (controlAir x s))) ∧
      (controlDrag x (controlBeta x (controlAir x s))).log.any isReset = false := by
  refine ⟨⟨by simpa using h.1, by simpa using h.2, by simpa using h.3, by simpa using h.4, by simpa using h.5, by simpa using h.6,
      by simpa using h.7⟩, ?_⟩
  have a : ∀ t : St, t.log.any isReset = false → (controlAir x t).log.any isReset = false := by
    intro t ht
    have e : isReset .windReset = false ∧ isReset .fuseAirspeed = false := ⟨rfl, rfl⟩
    unfold controlAir
    dsimp only
    split_ifs <;> simp [St.act, ht, e]
  have b : ∀ t : St, t.log.any isReset = false → (controlBeta x t).log.any isReset = false := by
    intro t ht
    have e : isReset .windReset = false ∧ isReset .fuseBeta = false := ⟨rfl, rfl⟩
    unfold controlBeta
    dsimp only
    split_ifs <;> simp [St.act, ht, e]
  have d : ∀ t : St, t.log.any isReset = false → (controlDrag x t).log.any isReset = false := by
    intro t ht
    have e : isReset .windReset = false ∧ isReset .fuseDrag = false := ⟨rfl, rfl⟩
    unfold controlDrag
    dsimp only
    split_ifs <;> simp [St.act, ht, e]
  exact d _ (b _ (a _ hl))

theorem vflight_ev (x : In) (s : St) {p v : UInt64} (h : Spec.VisionFlight p v s) (hx : Spec.VelocityRejected p x)
    (hl : s.log.any isReset = false) :
    Spec.VisionFlight (if x.evReady then x.now else p) v (controlEv x s) ∧ (controlEv x s).log.any isReset = false := by
  rcases Bool.eq_false_or_eq_true x.evReady with c | c
  swap
  · have e : controlEv x s = s := by
      unfold controlEv
      rw [if_neg (by simp [c]), if_neg (by simp [hx.alive])]
    rw [e, c]
    exact ⟨h, hl⟩
  -- a start of vision yaw resets the heading and nothing else
  have hy : evStart x s = s := by
    unfold evStart; simp [h.evPos, h.evVel]
  obtain ⟨t, ht, hf, htl⟩ : ∃ t : St, evYawStart x s = t ∧ Spec.VisionFlight p v t ∧ t.log.any isReset = false := by
    refine ⟨_, rfl, ⟨by simpa using h.1, by simpa using h.2, by simpa using h.3, by simpa using h.4, by simpa using h.5, by simpa using h.6,
      by simpa using h.7⟩, ?_⟩
    have hsy : (startEvYaw s).log.any isReset = false := by
      unfold startEvYaw stopMag3D stopMagHdg
      rcases Bool.eq_false_or_eq_true s.mag3D with m | m
      · simp only [St.act, St.evt, m, if_true, List.any_append, hl]; rfl
      · simp only [St.act, St.evt, m, Bool.false_eq_true, if_false, List.any_append, hl]; rfl
    unfold evYawStart
    split_ifs
    · exact hsy
    · exact hl
    · exact hl
  have hc : controlEv x s = if (evVelUse x (evPosUse x t)).evYaw then (evVelUse x (evPosUse x t)).act .fuseHeading else evVelUse x (evPosUse x t) := by
    unfold controlEv
    rw [if_pos c]
    dsimp only
    rw [hy, ht]
  have hP : evPosUse x t = { t with hposOdom := false, log := t.log ++ [.fusePos .visionAbs], tPos := x.now } := by
    unfold evPosUse
    rw [if_pos hf.evPos]
    dsimp only
    rw [hx.useGps, if_neg (by simp), if_neg (by rw [hf.tPos, hx.regular c]; simp)]
    unfold fusePos
    simp [hx.pos, St.act]
  have hn : isTimedOut x.now x.now 1000000 = false := not_timed_out_now _ _ (by simpa using hx.clock)
  have hV : evVelUse x (evPosUse x t) = { t with hposOdom := false, log := t.log ++ [.fusePos .visionAbs, .fuseVelHor, .fuseVelVert], tPos := x.now } := by
    rw [hP]
    unfold evVelUse
    rw [if_pos (by simpa using hf.evVel)]
    dsimp only
    rw [hn]
    simp [fuseVelHor, hx.vel, St.act]
  rw [hc, hV, if_pos c]
  have e : isReset .fuseVelHor = false ∧ isReset .fuseVelVert = false ∧ isReset (.fusePos .visionAbs) = false ∧ isReset .fuseHeading = false := ⟨rfl, rfl, rfl, rfl⟩
  split_ifs
  · exact ⟨⟨hf.1, hf.2, hf.3, hf.4, hf.5, rfl, hf.7⟩, by simp [St.act, htl, e]⟩
  · exact ⟨⟨hf.1, hf.2, hf.3, hf.4, hf.5, rfl, hf.7⟩, by simp [htl, e]⟩

theorem vflight_step (x : In) (s : St) {p v : UInt64} (h : Spec.VisionFlight p v s) (hx : Spec.VelocityRejected p x) :
    Spec.VisionFlight (if x.evReady then x.now else p) v (step x s) ∧ (step x s).log.any isReset = false := by
  rw [step_tail]
  obtain ⟨h1, l1⟩ := vflight_stMag x s h
  obtain ⟨h2, l2⟩ := vflight_mag x _ h1 hx (by rw [l1]; rfl)
  obtain ⟨h3, l3⟩ := vflight_flow x _ h2 hx.noFlow l2
  generalize controlFlow x (controlMag x (stMag x s)) = w at *
  have e : controlGps x w = w := by
    unfold controlGps
    rw [if_neg (by simp [hx.noGps]), if_neg (by simp [h3.gps]), if_neg (by simp [h3.gps])]
  rw [e]
  obtain ⟨h5, l5⟩ := vflight_air x _ h3 l3
  obtain ⟨h6, l6⟩ := vflight_ev x _ h5 hx l5
  generalize controlEv x (controlDrag x (controlBeta x (controlAir x w))) = u at *
  have e2 : controlAux x u = u := by
    unfold controlAux; rw [if_neg (by simp [hx.noAux])]
  have ha : (u.aid x).active = true := by simp [St.aid, Interface.AidFlags.active, Interface.AidFlags.count, h6.evPos]
  rw [e2]
  have e3 : controlFake x u = { u with synth := false } := by
    unfold controlFake
    rw [if_neg (by simp [ha])]
  rw [e3]
  exact ⟨⟨h6.1, h6.2, h6.3, h6.4, h6.5, h6.6, h6.7⟩, l6⟩

/-- **C173 (finding).** Vision position and velocity in use, positions accepted, velocities rejected: for any number of steps, however long ago the last velocity
was accepted, neither velocity nor position is reset, vision velocity stays "in use", and no velocity is taken. -/
theorem vision_velocity_ignored_forever (xs : List In) (s : St) (p v : UInt64) (h : Spec.VisionFlight p v s) (hx : Spec.Rejecting p xs) :
    ∀ t ∈ trace s xs, t.evVel = true ∧ t.tVel = v ∧ (∀ src, Act.velReset src ∉ t.log) ∧ (∀ src, Act.posReset src ∉ t.log) := by
  induction xs generalizing s p with
  | nil => intro t ht; cases ht
  | cons x xs ih =>
    obtain ⟨hx1, hx2⟩ := hx
    obtain ⟨h1, l1⟩ := vflight_step x s h hx1
    intro t ht
    have hn : ∀ a, isReset a = true → a ∉ (step x s).log := by
      intro a ha hm
      have : (step x s).log.any isReset = true := List.any_eq_true.2 ⟨a, hm, ha⟩
      rw [l1] at this; cases this
    rcases List.mem_cons.1 ht with rfl | ht'
    · exact ⟨h1.evVel, h1.tVel, fun src => hn _ rfl, fun src => hn _ rfl⟩
    · exact ih (step x s) _ h1 hx2 t ht'

/-! ### Concrete cases -/

/-- vision position and velocity (and heading if `yaw`) configured, no GPS, no magnetometer, one sample -/
def visionIn (posOk velOk : Bool) (t : UInt64) : In :=
  { now := t, tDel := t - 100000, tEv := t, resetTimeout := 7000000, tiltConverged := true, magType := 5, evReady := true, useEvPos := true,
    useEvVel := true, useEvYaw := true, evPosOk := posOk, evVelOk := velOk }

def visionPrefix : List In := [visionIn true true 6000000, visionIn true true 6100000, visionIn true true 6200000]

theorem vision_flight_reached : Spec.VisionFlight 6200000 6200000 (run {} visionPrefix) := by
  refine ⟨?_, ?_, ?_, ?_, ?_, ?_, ?_⟩ <;> decide +kernel

/-- sample number `k` of a stream of 10 Hz with a rejected velocity -/
def rejSample (k : ℕ) : In := visionIn true false (UInt64.ofNat (6300000 + 100000 * k))

theorem rej_chain (n k : ℕ) (h : n + k ≤ 100000000) :
    Spec.Rejecting (UInt64.ofNat (6200000 + 100000 * k)) ((List.range' k n).map rejSample) := by
  induction n generalizing k with
  | zero => trivial
  | succ n ih =>
    rw [List.range'_succ, List.map_cons]
    have e : UInt64.ofNat (6200000 + 100000 * (k + 1)) = (rejSample k).now := by
      show _ = UInt64.ofNat (6300000 + 100000 * k)
      congr 1; ring
    have hlt : ∀ m : ℕ, m ≤ 100000000 → (UInt64.ofNat (6200000 + 100000 * m)).toNat = 6200000 + 100000 * m := by
      intro m hm
      rw [UInt64.toNat_ofNat', Nat.mod_eq_of_lt (by omega)]
    have hto : ∀ (a b d : UInt64), a.toNat ≤ b.toNat + d.toNat → b.toNat + d.toNat < 2 ^ 64 → isTimedOut a b d = false := by
      intro a b d h1 h2
      unfold isTimedOut
      have : a ≤ b + d := by
        rw [UInt64.le_iff_toNat_le, UInt64.toNat_add, Nat.mod_eq_of_lt h2]; exact h1
      simp [this]
    have h7 : (7000000 : UInt64).toNat = 7000000 := rfl
    have hn : (rejSample k).now.toNat = 6200000 + 100000 * (k + 1) := by rw [← e]; exact hlt _ (by omega)
    have hk := hlt k (by omega)
    refine ⟨⟨rfl, rfl, rfl, rfl, rfl, ?_, ?_, rfl, rfl, by omega⟩, ?_⟩
    · show isTimedOut (rejSample k).now (rejSample k).now 7000000 = false
      exact hto _ _ _ (by omega) (by omega)
    · intro _
      show isTimedOut (rejSample k).now _ 7000000 = false
      exact hto _ _ _ (by omega) (by omega)
    · rw [if_pos (show (rejSample k).evReady = true from rfl), ← e]
      exact ih (k + 1) (by omega)

/-- **C173 (finding), reached from power-up:** three good samples, then a stream with rejected velocities for up to four months: no reset, ever. -/
theorem vision_velocity_ignored_reachable (n : ℕ) (hn : n ≤ 100000000) :
    ∀ t ∈ trace (run {} visionPrefix) ((List.range n).map rejSample), t.evVel = true ∧ t.tVel = 6200000 ∧ (∀ src, Act.velReset src ∉ t.log) ∧
      (∀ src, Act.posReset src ∉ t.log) := by
  rw [List.range_eq_range']
  exact vision_velocity_ignored_forever _ _ _ _ vision_flight_reached (rej_chain n 0 (by omega))

/-- Contrast: with the positions rejected as well the velocity is reset to vision (twice in the same sample), and the position. -/
example : (step (visionIn false false 13300000) (run {} visionPrefix)).log =
    [.velReset .vision, .posReset .vision, .fusePos .visionAbs, .velReset .vision, .fuseVelHor, .fuseVelVert, .fuseHeading] := by decide +kernel

/-- Non-vacuity of `vision_sample`: positions stale and rejected (everything reset), accepted (velocity reset once), and nothing stale. -/
example : let s := run {} visionPrefix
    Spec.VisionInUse (visionIn false false 13300000) s ∧ Spec.PosStale (visionIn false false 13300000) s ∧ Spec.VelUnaided (visionIn false false 13300000) s ∧
    Spec.VelStale (visionIn false false 13300000) s ∧ ¬ Spec.VelStale (visionIn true false 13300000) s ∧ ¬ Spec.PosStale (visionIn true false 6400000) s := by
  refine ⟨⟨?_, ?_, ?_, ?_, ?_⟩, ?_, ?_, ?_, ?_, ?_⟩
  all_goals try unfold Spec.PosStale
  all_goals try unfold Spec.VelUnaided
  all_goals try unfold Spec.VelStale Spec.PosAccepted
  all_goals decide +kernel

end Ecl.Aid
