import Verif.Aid.GsfReset

/-!
# What the filter does about failing GPS aiding, decision by decision (C163) — EKF/control.cpp:508-735
-/

namespace Ecl.Aid

/-- no fusion for longer than the reset timeout from any of the four horizontal sources, or no absolute position for twice that time -/
def Spec.AidingTimeout (x : In) (s : St) : Prop :=
  (isTimedOut x.now s.tPos x.resetTimeout = true ∧ isTimedOut x.now s.tDelpos x.resetTimeout = true ∧
    isTimedOut x.now s.tVel x.resetTimeout = true ∧ isTimedOut x.now s.tOf x.resetTimeout = true) ∨
  isTimedOut x.now s.tPos (2 * x.resetTimeout) = true

/-- in flight, velocity estimate and observation point in different directions, velocity was fused since take-off, and either the take-off was at most 30 s ago and
velocity has not been fused for the configured delay, or aiding timed out and the position was fused since take-off -/
def Spec.YawFailure (x : In) (s : St) : Prop :=
  x.inAir = true ∧ x.velAngleBad = true ∧ 0 < s.tVel ∧ x.tGround < s.tVel ∧
  ((isTimedOut x.now x.tGround 30000000 = false ∧ isTimedOut x.now s.tVel x.gsfDelay = true) ∨
    (Spec.AidingTimeout x s ∧ x.tGround < s.tPos))

/-- an emergency yaw reset is attempted: requested or needed, below the limit on their number, more than 5 s after the last one, and not within 1 s of GPS coming
back -/
def Spec.TriesYaw (x : In) (s : St) : Prop :=
  (s.doGsf = true ∨ Spec.YawFailure x s) ∧ s.gsfCount.toNat < x.countLimit ∧ isTimedOut x.now s.gsfTime 5000000 = true ∧
  isTimedOut x.now x.tPrevGps 1000000 = false

theorem timeout_iff (x : In) (s : St) : needVelPosReset x s = true ↔ Spec.AidingTimeout x s := by
  unfold needVelPosReset Spec.AidingTimeout
  simp only [Bool.or_eq_true, Bool.and_eq_true]
  tauto

theorem u64_not_le (a b : UInt64) : (!decide (a ≤ b)) = true ↔ b < a := by
  simp

theorem failure_iff (x : In) (s : St) : yawFailure x s = true ↔ Spec.YawFailure x s := by
  unfold yawFailure Spec.YawFailure
  rw [← timeout_iff]
  rw [show (0 < s.tVel) ↔ (!decide (s.tVel ≤ 0)) = true from (u64_not_le _ _).symm, show (x.tGround < s.tVel) ↔ (!decide (s.tVel ≤ x.tGround)) = true from (u64_not_le _ _).symm,
    show (x.tGround < s.tPos) ↔ (!decide (s.tPos ≤ x.tGround)) = true from (u64_not_le _ _).symm]
  generalize needVelPosReset x s = n
  generalize (!decide (s.tVel ≤ 0)) = a
  generalize (!decide (s.tVel ≤ x.tGround)) = b
  generalize (!decide (s.tPos ≤ x.tGround)) = c
  generalize isTimedOut x.now x.tGround 30000000 = d
  generalize isTimedOut x.now s.tVel x.gsfDelay = e
  generalize x.inAir = f
  generalize x.velAngleBad = g
  dsimp only
  cases f <;> cases g <;> cases a <;> cases b <;> revert n c d e <;> decide

theorem tries_iff (x : In) (s : St) : needGsfReset x s = true ↔ Spec.TriesYaw x s := by
  unfold needGsfReset Spec.TriesYaw
  rw [← failure_iff]
  have hd : (s.gsfCount.toNat < x.countLimit) ↔ decide (s.gsfCount.toNat < x.countLimit) = true := decide_eq_true_iff.symm
  refine Iff.trans ?_ (and_congr Iff.rfl (and_congr hd.symm Iff.rfl))
  generalize yawFailure x s = n
  generalize decide (s.gsfCount.toNat < x.countLimit) = a
  generalize isTimedOut x.now s.gsfTime 5000000 = b
  generalize isTimedOut x.now x.tPrevGps 1000000 = c
  generalize s.doGsf = d
  revert n a b c d
  decide

/-- GPS is in use, the GPS checks pass, and a sample without antenna heading is processed -/
structure Spec.GpsInUse (x : In) (s : St) : Prop where
  sample : x.gpsReady = true
  enabled : x.useGps = true
  used : s.gps = true
  passing : isTimedOut x.now x.lastPass 5000000 = false
  noAntennaHeading : x.useGpsYaw = false

theorem gps_inuse (x : In) (s : St) (h : Spec.GpsInUse x s) :
    controlGps x s = gpsFuse x (gpsResets x { s with gpsYaw := false }) := by
  obtain ⟨h1, h2, h3, h4, h5⟩ := h
  have e1 : controlGpsYaw x s = { s with gpsYaw := false } := by unfold controlGpsYaw; rw [if_pos (by simp [h5])]
  have e2 : gpsStart x { s with gpsYaw := false } = { s with gpsYaw := false } := by
    unfold gpsStart; rw [if_neg (by simp [h3]), if_neg (by simp [h2])]
  have e3 : gpsFailing x { s with gpsYaw := false } = { s with gpsYaw := false } := by
    unfold gpsFailing; rw [if_neg (by simp [h4])]
  have e4 : gsfAlign x { s with gpsYaw := false } = { s with gpsYaw := false } := by
    unfold gsfAlign; rw [if_neg (by simp [h3])]
  unfold controlGps
  rw [if_pos h1, e1, e2, e3, e4]

/-- the fusions of one GPS sample -/
def Spec.gpsFusions (x : In) (s : St) : List Act :=
  [.fuseVelHor, .fuseVelVert, .fusePos (if (s.aid x).isOther s.gps then .gpsFree else .gpsBounded)]

theorem fuseVelHor_eff (x : In) (ok : Bool) (s : St) : (fuseVelHor x ok s).log = s.log ++ [.fuseVelHor] ∧ (fuseVelHor x ok s).evts = s.evts ∧
    (fuseVelHor x ok s).gps = s.gps ∧ (fuseVelHor x ok s).tPos = s.tPos ∧ (fuseVelHor x ok s).tDelpos = s.tDelpos ∧
    ((fuseVelHor x ok s).tVel = s.tVel ∨ (fuseVelHor x ok s).tVel = x.now) := by
  cases ok
  · exact ⟨rfl, rfl, rfl, rfl, rfl, Or.inl rfl⟩
  · exact ⟨rfl, rfl, rfl, rfl, rfl, Or.inr rfl⟩

theorem fusePos_eff (x : In) (v : PosVar) (ok : Bool) (s : St) : (fusePos x v ok s).log = s.log ++ [.fusePos v] ∧ (fusePos x v ok s).evts = s.evts ∧
    (fusePos x v ok s).tVel = s.tVel ∧ ((fusePos x v ok s).tPos = s.tPos ∨ (fusePos x v ok s).tPos = x.now) ∧
    ((fusePos x v ok s).tDelpos = s.tDelpos ∨ (fusePos x v ok s).tDelpos = x.now) := by
  cases ok
  · exact ⟨rfl, rfl, rfl, Or.inl rfl, Or.inl rfl⟩
  · unfold fusePos
    dsimp only
    rw [if_pos rfl]
    split
    · exact ⟨rfl, rfl, rfl, Or.inr rfl, Or.inl rfl⟩
    · exact ⟨rfl, rfl, rfl, Or.inl rfl, Or.inr rfl⟩

theorem gpsFuse_log (x : In) (s : St) (h : s.gps = true) : (gpsFuse x s).log = s.log ++ Spec.gpsFusions x s ∧ (gpsFuse x s).evts = s.evts := by
  unfold gpsFuse Spec.gpsFusions
  rw [if_pos h]
  dsimp only
  obtain ⟨a1, a2, _⟩ := fusePos_eff x (if (s.aid x).isOther s.gps then PosVar.gpsFree else PosVar.gpsBounded) x.gpsPosOk ((fuseVelHor x x.gpsVelOk s).act .fuseVelVert)
  obtain ⟨b1, b2, _⟩ := fuseVelHor_eff x x.gpsVelOk s
  rw [a1, a2]
  exact ⟨by simp [St.act, b1], by simp [St.act, b2]⟩

theorem gpsFuse_time (x : In) (s : St) : (s.tPos = x.now → (gpsFuse x s).tPos = x.now) ∧ (s.tDelpos = x.now → (gpsFuse x s).tDelpos = x.now) ∧
    (s.tVel = x.now → (gpsFuse x s).tVel = x.now) := by
  unfold gpsFuse
  split
  swap
  · exact ⟨id, id, id⟩
  dsimp only
  obtain ⟨a1, a2, a3, a4, a5⟩ := fusePos_eff x (if (s.aid x).isOther s.gps then PosVar.gpsFree else PosVar.gpsBounded) x.gpsPosOk ((fuseVelHor x x.gpsVelOk s).act .fuseVelVert)
  obtain ⟨b1, b2, b3, b4, b5, b6⟩ := fuseVelHor_eff x x.gpsVelOk s
  refine ⟨fun h => ?_, fun h => ?_, fun h => ?_⟩
  · rcases a4 with a | a
    · rw [a]; exact b4.trans h
    · exact a
  · rcases a5 with a | a
    · rw [a]; exact b5.trans h
    · exact a
  · rw [a3]
    rcases b6 with b | b
    · exact b.trans h
    · exact b

/-- **C163.** One GPS sample while GPS is in use. (1) If an emergency yaw reset is to be attempted and the yaw estimator can deliver: exactly one yaw reset, with velocity and
position reset to GPS; the request is cleared, the count increased, the time recorded. (2) If it is to be attempted and the estimator cannot deliver: nothing is
reset, timeout or not. (3) If not, and aiding timed out: velocity and position are reset to GPS, the timeout is reported, a pending velocity and position reset request
is cleared (fixed wings in flight also realign the yaw first). (4) Otherwise nothing is reset and the sample is only fused. -/
theorem gps_recovery (x : In) (s : St) (h : Spec.GpsInUse x s) :
    let r := controlGps x s
    (Spec.TriesYaw x s → x.gsfOk = true →
      r.log = s.log ++ [.yawReset .gsf, .velReset (velSrc x s), .posReset .gps] ++ Spec.gpsFusions x s ∧ r.doGsf = false ∧ r.gsfCount = s.gsfCount + 1 ∧
      r.gsfTime = x.now ∧ r.tPos = x.now ∧ r.tDelpos = x.now ∧ r.tVel = x.now ∧ r.tOf = x.now ∧ r.yawAlign = true ∧ r.magFault = (s.magFault || decide (x.magType ≠ 5)) ∧
      r.velposReq = s.velposReq) ∧
    (Spec.TriesYaw x s → x.gsfOk = false → r.log = s.log ++ Spec.gpsFusions x s ∧ r.evts = s.evts ∧ r.doGsf = s.doGsf ∧ r.gsfCount = s.gsfCount ∧
      r.velposReq = s.velposReq) ∧
    (¬ Spec.TriesYaw x s → Spec.AidingTimeout x s →
      Evt.gpsTimeout ∈ r.evts ∧ r.velposReq = false ∧ (r.tPos = x.now ∧ r.tVel = x.now) ∧ r.gsfCount = s.gsfCount ∧ r.doGsf = s.doGsf ∧
      (¬ (x.fixedWing = true ∧ x.inAir = true) → r.log = s.log ++ [.velReset (velSrc x s), .posReset .gps] ++ Spec.gpsFusions x s ∧ r.evts = s.evts ++ [.gpsTimeout])) ∧
    (¬ Spec.TriesYaw x s → ¬ Spec.AidingTimeout x s → r.log = s.log ++ Spec.gpsFusions x s ∧ r.evts = s.evts ∧ r.velposReq = s.velposReq ∧
      r.gsfCount = s.gsfCount ∧ r.gsfTime = s.gsfTime) := by
  rw [gps_inuse x s h]
  have hg := h.used
  set t : St := { s with gpsYaw := false } with ht
  have htg : t.gps = true := hg
  have e1 : needGsfReset x t = needGsfReset x s := rfl
  have e2 : needVelPosReset x t = needVelPosReset x s := rfl
  have ef : ∀ r : St, r.gps = s.gps → r.optFlow = s.optFlow → r.evPos = s.evPos → r.evVel = s.evVel → r.fuseAspd = s.fuseAspd → Spec.gpsFusions x r = Spec.gpsFusions x s := by
    intro r a b c d e
    unfold Spec.gpsFusions St.aid
    rw [a, b, c, d, e]
  have ev : velSrc x t = velSrc x s := rfl
  have ep : posSrc x s = .gps := by unfold posSrc; rw [if_pos hg]
  dsimp only
  unfold gpsResets
  rw [if_pos htg, e1, e2]
  refine ⟨fun a b => ?_, fun a b => ?_, fun a b => ?_, fun a b => ?_⟩
  · rw [if_pos ((tries_iff x s).2 a)]
    have hk : (gsfReset x t).gps = true := by simpa using htg
    have hl := (gpsFuse_log x (gsfReset x t) hk).1
    rw [ef (gsfReset x t) (by simp [ht]) (by simp [ht]) (by simp [ht]) (by simp [ht]) (by simp [ht])] at hl
    have hr : (resetYawToGsf x t).2 = true := by unfold resetYawToGsf; rw [if_neg (by simp [b])]
    have hlog : (gsfReset x t).log = s.log ++ [.yawReset .gsf, .velReset (velSrc x s), .posReset .gps] := by
      unfold gsfReset
      dsimp only
      rw [if_pos hr]
      unfold resetYawToGsf
      rw [if_neg (by simp [b])]
      have e : s.log ++ [.yawReset .gsf, .velReset (velSrc x s), .posReset .gps] =
          s.log ++ [.yawReset .gsf] ++ [.velReset (velSrc x s)] ++ [.posReset (posSrc x s)] := by rw [ep]; simp
      rw [e]
      dsimp only
      split <;> rfl
    refine ⟨by rw [hl, hlog], ?_⟩
    have rest : (gsfReset x t).doGsf = false ∧ (gsfReset x t).gsfCount = s.gsfCount + 1 ∧ (gsfReset x t).gsfTime = x.now ∧ (gsfReset x t).tPos = x.now ∧
        (gsfReset x t).tDelpos = x.now ∧ (gsfReset x t).tVel = x.now ∧ (gsfReset x t).tOf = x.now ∧ (gsfReset x t).yawAlign = true ∧
        (gsfReset x t).magFault = (s.magFault || decide (x.magType ≠ 5)) ∧ (gsfReset x t).velposReq = s.velposReq := by
      unfold gsfReset
      dsimp only
      rw [if_pos hr]
      unfold resetYawToGsf
      rw [if_neg (by simp [b])]
      dsimp only
      by_cases m : x.magType = 5
      · rw [if_pos m]; simp [resetPos, resetVel, St.act, St.evt, ht, m]
      · rw [if_neg m]; simp [resetPos, resetVel, St.act, St.evt, ht, m]
    obtain ⟨r1, r2, r3, r4, r5, r6, r7, r8, r9, r10⟩ := rest
    obtain ⟨q1, q2, q3⟩ := gpsFuse_time x (gsfReset x t)
    exact ⟨by simpa using r1, by simpa using r2, by simpa using r3, q1 r4, q2 r5, q3 r6, by simpa using r7, by simpa using r8, by simpa using r9, by simpa using r10⟩
  · rw [if_pos ((tries_iff x s).2 a)]
    have hr : gsfReset x t = t := by
      unfold gsfReset resetYawToGsf
      simp [b]
    rw [hr]
    obtain ⟨l1, l2⟩ := gpsFuse_log x t htg
    refine ⟨by rw [l1]; rfl, by rw [l2], by simp [ht], by simp [ht], by simp [ht]⟩
  · rw [if_neg (by rw [tries_iff]; exact a), if_pos ((timeout_iff x s).2 b)]
    have hk : (gpsTimeoutReset x t).gps = true := by simpa using htg
    obtain ⟨l1, l2⟩ := gpsFuse_log x (gpsTimeoutReset x t) hk
    rw [ef (gpsTimeoutReset x t) (by simp [ht]) (by simp [ht]) (by simp [ht]) (by simp [ht]) (by simp [ht])] at l1
    refine ⟨?_, ?_, ?_, by simp [ht], by simp [ht], fun c => ?_⟩
    · rw [l2]; unfold gpsTimeoutReset; simp [St.evt]
    · have : (gpsTimeoutReset x t).velposReq = false := rfl
      simpa using this
    · obtain ⟨q1, q2, q3⟩ := gpsFuse_time x (gpsTimeoutReset x t)
      exact ⟨q1 rfl, q3 rfl⟩
    · have c' : (x.fixedWing && x.inAir) = false := by
        cases hf : x.fixedWing <;> cases hi : x.inAir <;> simp_all
      have hlog : (gpsTimeoutReset x t).log = s.log ++ [.velReset (velSrc x s), .posReset .gps] ∧ (gpsTimeoutReset x t).evts = s.evts ++ [.gpsTimeout] := by
        unfold gpsTimeoutReset
        simp only [c']
        constructor
        · have e : s.log ++ [.velReset (velSrc x s), .posReset .gps] = s.log ++ [.velReset (velSrc x s)] ++ [.posReset (posSrc x s)] := by rw [ep]; simp
          rw [e]
          rfl
        · rfl
      exact ⟨by rw [l1, hlog.1], by rw [l2, hlog.2]⟩
  · rw [if_neg (by rw [tries_iff]; exact a), if_neg (by rw [timeout_iff]; exact b)]
    obtain ⟨l1, l2⟩ := gpsFuse_log x t htg
    refine ⟨by rw [l1]; rfl, by rw [l2], by simp [ht], by simp [ht], by simp [ht]⟩

/-- heading established before GPS aiding starts: compass and its field usable -/
def Spec.StartHeading (x : In) (s : St) : Prop :=
  (s.yawAlign = false ∨ s.evYaw = true ∨ s.magInhReq = true) ∧ s.magDist = false ∧ x.magType ≠ 5

/-- **C163 (start).** GPS aiding starts with the first sample that finds the vehicle levelled, an origin set, the GPS checks not failed for 5 s, and the heading aligned, where the heading
is first reset to the compass if it is not aligned, or is from vision, or the compass was inhibited for long; that reset ends the use of vision yaw and clears the request left
by the inhibition, with the yaw gyro bias variance reset exactly in that case. -/
theorem gps_start_heading (x : In) (s : St) (hu : x.useGps = true) (hg : s.gps = false) (ht : s.tilt = true) (ho : x.nedInit = true)
    (hf : isTimedOut x.now x.lastFail 5000000 = true) :
    let r := gpsStart x s
    (Spec.StartHeading x s → r.magInhReq = false ∧ r.evYaw = false ∧ r.yawAlign = (resetMagHeading x { s with evYaw := false }).2 ∧
      (Act.gyroBiasCov ∈ r.log ↔ (Act.gyroBiasCov ∈ s.log ∨ s.magInhReq = true))) ∧
    (¬ Spec.StartHeading x s → r.magInhReq = s.magInhReq ∧ r.evYaw = s.evYaw ∧ r.yawAlign = s.yawAlign ∧ (Act.gyroBiasCov ∈ r.log ↔ Act.gyroBiasCov ∈ s.log)) ∧
    (r.gps = true ↔ r.yawAlign = true) := by
  have key : ((!s.yawAlign || s.evYaw || s.magInhReq) && canResetMagHeading x s) = true ↔ Spec.StartHeading x s := by
    unfold canResetMagHeading Spec.StartHeading
    simp only [Bool.and_eq_true, Bool.or_eq_true, Bool.not_eq_true', decide_eq_true_eq]
    tauto
  have hs : gpsStart x s = if (gpsHeading x s).yawAlign then startGps (gpsHeading x s) else gpsHeading x s := by
    unfold gpsStart
    rw [if_pos (by simp [hu, hg]), if_pos (by simp [ht, ho, hf])]
  have st : ∀ t : St, (startGps t).magInhReq = t.magInhReq ∧ (startGps t).evYaw = t.evYaw ∧ (startGps t).yawAlign = t.yawAlign ∧ (startGps t).gps = true ∧
      (Act.gyroBiasCov ∈ (startGps t).log ↔ Act.gyroBiasCov ∈ t.log) := by
    intro t
    unfold startGps
    dsimp only
    split <;> simp [St.act, St.evt]
  have hg' : (gpsHeading x s).gps = false := by simpa using hg
  have both : ∀ A : Prop, ∀ i e y : Bool, ((gpsHeading x s).magInhReq = i ∧ (gpsHeading x s).evYaw = e ∧ (gpsHeading x s).yawAlign = y ∧ (Act.gyroBiasCov ∈ (gpsHeading x s).log ↔ A)) →
      ((gpsStart x s).magInhReq = i ∧ (gpsStart x s).evYaw = e ∧ (gpsStart x s).yawAlign = y ∧ (Act.gyroBiasCov ∈ (gpsStart x s).log ↔ A)) := by
    rintro A i e y ⟨a, b, c, d⟩
    rw [hs]
    obtain ⟨s1, s2, s3, s4, s5⟩ := st (gpsHeading x s)
    split
    · exact ⟨s1.trans a, s2.trans b, s3.trans c, s5.trans d⟩
    · exact ⟨a, b, c, d⟩
  dsimp only
  refine ⟨fun k => both _ _ _ _ ?_, fun k => both _ _ _ _ ?_, ?_⟩
  · unfold gpsHeading
    rw [if_pos (key.2 k)]
    have m : ∀ t : St, t.evYaw = false → (resetMagHeading x t).1.magInhReq = t.magInhReq ∧ (resetMagHeading x t).1.evYaw = false ∧
        (Act.gyroBiasCov ∈ (resetMagHeading x t).1.log ↔ Act.gyroBiasCov ∈ t.log) := by
      intro t he
      unfold resetMagHeading
      rw [he]
      refine ⟨?_, ?_, ?_⟩
      all_goals
        split_ifs <;> simp_all [resetMagStates, stopMag, stopMag3D, stopMagHdg, clearMagCov, St.act]
      all_goals
        split_ifs <;> simp_all
    obtain ⟨m1, m2, m3⟩ := m { s with evYaw := false } rfl
    dsimp only
    by_cases q : s.magInhReq = true
    · rw [if_pos (by show (resetMagHeading x { s with evYaw := false }).1.magInhReq = true; rw [m1]; exact q)]
      refine ⟨rfl, m2, rfl, ?_⟩
      simp [St.act, q]
    · rw [if_neg (by show ¬ (resetMagHeading x { s with evYaw := false }).1.magInhReq = true; rw [m1]; exact q)]
      refine ⟨by rw [show ∀ (t : St) b, ({ t with yawAlign := b } : St).magInhReq = t.magInhReq from fun _ _ => rfl, m1]; simpa using q, m2, rfl, ?_⟩
      show Act.gyroBiasCov ∈ (resetMagHeading x { s with evYaw := false }).1.log ↔ _
      rw [m3]
      simp [q]
  · unfold gpsHeading
    rw [if_neg (fun c => k (key.1 c))]
    exact ⟨rfl, rfl, rfl, Iff.rfl⟩
  · rw [hs]
    obtain ⟨s1, s2, s3, s4, s5⟩ := st (gpsHeading x s)
    by_cases y : (gpsHeading x s).yawAlign = true
    · rw [if_pos y, s3, s4]; simp [y]
    · rw [if_neg y, hg']; simpa using y

/-- Non-vacuity: the four cases of `gps_recovery`. In the second and third the timers and the request differ only in the velocity direction. -/
example :
    let x : In := { gpsReady := true, useGps := true, lastPass := 100000000, now := 100000000, tPrevGps := 99900000, inAir := true, tGround := 80000000, countLimit := 3, gsfDelay := 1000000 }
    let s : St := { gps := true, yawAlign := true, tilt := true, tVel := 90000000, tPos := 90000000 }
    Spec.GpsInUse x s ∧ Spec.TriesYaw { x with velAngleBad := true } s ∧
    (controlGps { x with velAngleBad := true, gsfOk := true } s).gsfCount = 1 ∧
    (controlGps { x with velAngleBad := true } s).evts = [] ∧
    (controlGps x s).evts = [.gpsTimeout] ∧ Spec.AidingTimeout x s ∧
    (controlGps x { s with tPos := 99900000 }).evts = [] := by
  refine ⟨⟨rfl, rfl, rfl, by decide +kernel, rfl⟩, ?_, by decide +kernel, by decide +kernel, by decide +kernel, ?_, by decide +kernel⟩
  · exact (tries_iff _ _).1 (by decide +kernel)
  · exact (timeout_iff _ _).1 (by decide +kernel)

/-- Non-vacuity of `gps_start_heading`: a start with a heading reset after a long inhibition -/
example : let x : In := { useGps := true, nedInit := true, now := 10000000, tDel := 9000000 }
    let s : St := { tilt := true, yawAlign := true, magInhReq := true }
    Spec.StartHeading x s ∧ isTimedOut x.now x.lastFail 5000000 = true ∧ (gpsStart x s).gps = true ∧ (gpsStart x s).magInhReq = false := by
  refine ⟨⟨Or.inr (Or.inr rfl), rfl, by decide⟩, by decide +kernel, by decide +kernel, by decide +kernel⟩

end Ecl.Aid
