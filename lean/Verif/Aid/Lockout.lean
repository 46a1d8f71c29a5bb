import Verif.Aid.Odom
import Verif.Aid.GsfReset

/-!
# Property C149 — a rejected GPS position does not lock the filter out, unless a yaw reset is waited for

EKF/control.cpp:571-671: after `reset_timeout_max` without any horizontal aiding, or twice that time without an absolute position, the filter
resets to GPS.  The branch for the emergency yaw reset comes first and has no fallback.
-/

namespace Ecl.Aid

theorem mem_act (s : St) (a : Act) : a ∈ (s.act a).log := by simp [St.act]

/-- nothing asks for an emergency yaw reset in this step, or the yaw estimator is able to deliver one -/
def Spec.Unblocked (x : In) (s : St) : Prop := x.gsfOk = true ∨ (s.doGsf = false ∧ Quiet x)

/-- the state the GPS control works on, up to the decision about resets -/
theorem gps_flag (x : In) (m : St) (hr : x.gpsReady = true) (hg : (controlGps x m).gps = true) :
    (gpsFailing x (gpsStart x (controlGpsYaw x m))).gps = true ∧
    controlGps x m = gpsFuse x (gpsResets x (gpsFailing x (gpsStart x (controlGpsYaw x m)))) := by
  unfold controlGps at hg ⊢
  rw [if_pos hr] at hg ⊢
  have h : (gpsFailing x (gpsStart x (controlGpsYaw x m))).gps = true := by simpa using hg
  refine ⟨h, ?_⟩
  have : gsfAlign x (gpsFailing x (gpsStart x (controlGpsYaw x m))) = gpsFailing x (gpsStart x (controlGpsYaw x m)) := by
    unfold gsfAlign; rw [if_neg (by simp [h])]
  rw [this]

theorem posReset_gps (x : In) (s : St) (h : s.gps = true) : Act.posReset .gps ∈ (resetPos x s).log := by
  unfold resetPos
  have : posSrc x s = .gps := by unfold posSrc; rw [if_pos h]
  rw [this]; exact mem_act _ _

/-- the GPS step: a position older than the limit is replaced -/
theorem controlGps_recovers (x : In) (m : St) (hr : x.gpsReady = true) (hg : (controlGps x m).gps = true)
    (hb : x.gsfOk = true ∨ (m.doGsf = false ∧ x.velAngleBad = false))
    (ht : isTimedOut x.now m.tPos (2 * x.resetTimeout) = true ∨
      (isTimedOut x.now m.tPos x.resetTimeout = true ∧ isTimedOut x.now m.tDelpos x.resetTimeout = true ∧
        isTimedOut x.now m.tVel x.resetTimeout = true ∧ isTimedOut x.now m.tOf x.resetTimeout = true)) :
    Act.posReset .gps ∈ (controlGps x m).log := by
  obtain ⟨hf, he⟩ := gps_flag x m hr hg
  rw [he]
  have h1 : (gpsFailing x (gpsStart x (controlGpsYaw x m))).tPos = m.tPos := by simp
  have h2 : (gpsFailing x (gpsStart x (controlGpsYaw x m))).tDelpos = m.tDelpos := by simp
  have h3 : (gpsFailing x (gpsStart x (controlGpsYaw x m))).tVel = m.tVel := by simp
  have h4 : (gpsFailing x (gpsStart x (controlGpsYaw x m))).tOf = m.tOf := by simp
  have h5 : (gpsFailing x (gpsStart x (controlGpsYaw x m))).doGsf = m.doGsf := by simp
  generalize gpsFailing x (gpsStart x (controlGpsYaw x m)) = f at *
  apply gpsFuse_log_mem
  have hn : needVelPosReset x f = true := by
    unfold needVelPosReset
    rw [h1, h2, h3, h4]
    rcases ht with a | ⟨a, b, c, d⟩
    · simp [a]
    · simp [a, b, c, d]
  unfold gpsResets
  rw [if_pos hf]
  by_cases g : needGsfReset x f = true
  · rw [if_pos g]
    have hok : x.gsfOk = true := by
      rcases hb with h | ⟨h, h'⟩
      · exact h
      · exfalso
        rw [← h5] at h
        simp [needGsfReset, yawFailure, h, h'] at g
    unfold gsfReset resetYawToGsf
    simp only [hok, Bool.not_true, Bool.false_eq_true, if_false, if_true]
    have key : Act.posReset .gps ∈ (resetPos x (resetVel x (f.act (.yawReset .gsf)))).log :=
      posReset_gps x _ (by simpa using hf)
    split_ifs <;> simpa [St.evt] using key
  · rw [if_neg g, if_pos hn]
    unfold gpsTimeoutReset
    have key : ∀ t : St, t.gps = true → Act.posReset .gps ∈ (resetPos x (resetVel x t)).log := fun t h =>
      posReset_gps x _ (by simpa using h)
    simp only [St.evt]
    apply key
    split_ifs <;> simp [hf]

theorem step_tail (x : In) (s : St) : step x s = controlFake x (controlAux x (controlEv x (controlDrag x (controlBeta x (controlAir x
      (controlGps x (controlFlow x (controlMag x (stMag x s)))))))))  := rfl

theorem before_gps (x : In) (s : St) :
    (controlFlow x (controlMag x (stMag x s))).tPos = s.tPos ∧ (controlFlow x (controlMag x (stMag x s))).tDelpos = s.tDelpos ∧
    (controlFlow x (controlMag x (stMag x s))).tVel = s.tVel ∧
    (s.doGsf = false → Quiet x → (controlFlow x (controlMag x (stMag x s))).doGsf = false) := by
  refine ⟨by unfold stMag; simp, by unfold stMag; simp, by unfold stMag; simp, fun h hq => ?_⟩
  unfold stMag
  simp only [controlFlow_doGsf, controlMag_doGsf, flowArrival_doGsf, tiltAlign_doGsf]
  unfold requests
  simp only [hq.1, hq.2.1]
  split_ifs <;> simp_all

/-- **C149 (one step).** GPS data arrives, GPS is in use after the step, and no emergency yaw reset is pending or it can be made: if no absolute
position has been accepted for more than twice the reset timeout, the horizontal position is reset to GPS in this step. -/
theorem gps_recovers (x : In) (s : St) (hr : x.gpsReady = true) (hg : (step x s).gps = true) (hb : Spec.Unblocked x s)
    (ht : isTimedOut x.now s.tPos (2 * x.resetTimeout) = true) : Act.posReset .gps ∈ (step x s).log := by
  obtain ⟨h1, _, _, h4⟩ := before_gps x s
  have hgps : (controlGps x (controlFlow x (controlMag x (stMag x s)))).gps = true := by
    rw [step_tail] at hg; simpa using hg
  have key := controlGps_recovers x (controlFlow x (controlMag x (stMag x s))) hr hgps (by
    rcases hb with h | ⟨h, h'⟩
    · exact Or.inl h
    · exact Or.inr ⟨h4 h h', h'.2.2⟩) (Or.inl (by rw [h1]; exact ht))
  rw [step_tail]
  exact controlFake_log_mem _ _ _ (controlAux_log_mem _ _ _ (controlEv_log_mem _ _ _ (controlDrag_log_mem _ _ _
      (controlBeta_log_mem _ _ _ (controlAir_log_mem _ _ _ key)))))

/-! ### The position timer moves only with an accepted position or a reset -/

/-- a horizontal position was used in this step: one was fused and accepted, or the position was reset to GPS -/
def Spec.PositionTaken (x : In) (s : St) : Prop :=
  ((∃ v, Act.fusePos v ∈ (step x s).log) ∧ (x.gpsPosOk = true ∨ x.evPosOk = true ∨ x.fakeOk = true)) ∨
    Act.posReset .gps ∈ (step x s).log

theorem fusePos_tpos (x : In) (v : PosVar) (ok : Bool) (s : St) :
    (fusePos x v ok s).tPos = s.tPos ∨ (Act.fusePos v ∈ (fusePos x v ok s).log ∧ ok = true ∧ (fusePos x v ok s).tPos = x.now) := by
  unfold fusePos
  cases ok
  · exact Or.inl rfl
  · by_cases h : s.hposOdom = true
    · refine Or.inl ?_
      simp [St.act, h]
    · refine Or.inr ⟨?_, rfl, ?_⟩ <;> simp [St.act, h]

theorem gpsResets_tpos (x : In) (s : St) :
    (gpsResets x s).tPos = s.tPos ∨ (Act.posReset .gps ∈ (gpsResets x s).log ∧ (gpsResets x s).tPos = x.now) := by
  unfold gpsResets
  by_cases g : s.gps = true
  · rw [if_pos g]
    by_cases n : needGsfReset x s = true
    · rw [if_pos n]
      unfold gsfReset resetYawToGsf
      cases hok : x.gsfOk
      · exact Or.inl (by simp)
      · refine Or.inr ⟨?_, by simp⟩
        simp only [Bool.not_true, Bool.false_eq_true, if_false, if_true]
        have key : Act.posReset .gps ∈ (resetPos x (resetVel x (s.act (.yawReset .gsf)))).log :=
          posReset_gps x _ (by simpa using g)
        split_ifs <;> simpa [St.evt] using key
    · rw [if_neg n]
      by_cases r : needVelPosReset x s = true
      · rw [if_pos r]
        refine Or.inr ⟨?_, by unfold gpsTimeoutReset; rfl⟩
        unfold gpsTimeoutReset
        have key : ∀ t : St, t.gps = true → Act.posReset .gps ∈ (resetPos x (resetVel x t)).log := fun t h =>
          posReset_gps x _ (by simpa using h)
        simp only [St.evt]
        apply key
        split_ifs <;> simp [g]
      · rw [if_neg r]; exact Or.inl rfl
  · rw [if_neg g]; exact Or.inl rfl

theorem gpsFuse_tpos (x : In) (s : St) :
    (gpsFuse x s).tPos = s.tPos ∨
      ((∃ v, Act.fusePos v ∈ (gpsFuse x s).log) ∧ x.gpsPosOk = true ∧ (gpsFuse x s).tPos = x.now) := by
  unfold gpsFuse
  by_cases g : s.gps = true
  · rw [if_pos g]
    dsimp only
    rcases fusePos_tpos x (if (s.aid x).isOther s.gps then PosVar.gpsFree else PosVar.gpsBounded) x.gpsPosOk
      ((fuseVelHor x x.gpsVelOk s).act .fuseVelVert) with h | ⟨h1, h2, h3⟩
    · left; rw [h]; simp
    · right; exact ⟨⟨_, h1⟩, h2, h3⟩
  · rw [if_neg g]; exact Or.inl rfl

theorem controlGps_tpos (x : In) (s : St) :
    (controlGps x s).tPos = s.tPos ∨ ((controlGps x s).tPos = x.now ∧
      (((∃ v, Act.fusePos v ∈ (controlGps x s).log) ∧ x.gpsPosOk = true) ∨ Act.posReset .gps ∈ (controlGps x s).log)) := by
  unfold controlGps
  by_cases a : x.gpsReady = true
  · rw [if_pos a]
    have hb : (gsfAlign x (gpsFailing x (gpsStart x (controlGpsYaw x s)))).tPos = s.tPos := by simp
    generalize gsfAlign x (gpsFailing x (gpsStart x (controlGpsYaw x s))) = f at hb
    rcases gpsFuse_tpos x (gpsResets x f) with h | ⟨h1, h2, h3⟩
    · rcases gpsResets_tpos x f with k | ⟨k1, k2⟩
      · left; rw [h, k, hb]
      · right; exact ⟨by rw [h, k2], Or.inr (gpsFuse_log_mem x _ _ k1)⟩
    · right; exact ⟨h3, Or.inl ⟨h1, h2⟩⟩
  · rw [if_neg a]
    left
    split_ifs <;> simp

theorem evPosUse_tpos (x : In) (s : St) :
    (evPosUse x s).tPos = s.tPos ∨
      ((∃ v, Act.fusePos v ∈ (evPosUse x s).log) ∧ x.evPosOk = true ∧ (evPosUse x s).tPos = x.now) := by
  have key : ∀ (v : PosVar) (t : St), t.tPos = s.tPos → (fusePos x v x.evPosOk t).tPos = s.tPos ∨
      ((∃ v', Act.fusePos v' ∈ (fusePos x v x.evPosOk t).log) ∧ x.evPosOk = true ∧ (fusePos x v x.evPosOk t).tPos = x.now) := by
    intro v t ht
    rcases fusePos_tpos x v x.evPosOk t with h | ⟨h1, h2, h3⟩
    · left; rw [h, ht]
    · right; exact ⟨⟨_, h1⟩, h2, h3⟩
  unfold evPosUse
  by_cases a : s.evPos = true
  · rw [if_pos a]
    dsimp only
    by_cases u : x.useGps = true
    · rw [if_pos u]
      by_cases b : (!s.hposPrev) = true
      · rw [if_pos b]; exact key _ _ rfl
      · rw [if_neg b]; exact key _ _ rfl
    · rw [if_neg u]
      refine key _ _ ?_
      split_ifs <;> simp
  · rw [if_neg a]; exact Or.inl rfl

theorem controlEv_tpos (x : In) (s : St) :
    (controlEv x s).tPos = s.tPos ∨
      ((∃ v, Act.fusePos v ∈ (controlEv x s).log) ∧ x.evPosOk = true ∧ (controlEv x s).tPos = x.now) := by
  unfold controlEv
  by_cases a : x.evReady = true
  · rw [if_pos a]
    dsimp only
    have e : (evYawStart x (evStart x s)).tPos = s.tPos := by simp
    have h : (evVelUse x (evPosUse x (evYawStart x (evStart x s)))).tPos = (evPosUse x (evYawStart x (evStart x s))).tPos := by simp
    rcases evPosUse_tpos x (evYawStart x (evStart x s)) with k | ⟨⟨v, k1⟩, k2, k3⟩
    · left
      split_ifs <;> simp_all
    · right
      have m := evVelUse_log_mem x _ _ k1
      refine ⟨⟨v, ?_⟩, k2, ?_⟩
      · split_ifs
        · exact List.mem_append_left _ m
        · exact m
      · split_ifs <;> simp_all
  · rw [if_neg a]
    left
    split_ifs <;> simp

theorem controlFake_tpos (x : In) (s : St) :
    (controlFake x s).tPos = s.tPos ∨
      ((∃ v, Act.fusePos v ∈ (controlFake x s).log) ∧ x.fakeOk = true ∧ (controlFake x s).tPos = x.now) := by
  have key : ∀ (v : PosVar) (t : St), t.tPos = s.tPos → (fusePos x v x.fakeOk t).tPos = s.tPos ∨
      ((∃ v', Act.fusePos v' ∈ (fusePos x v x.fakeOk t).log) ∧ x.fakeOk = true ∧ (fusePos x v x.fakeOk t).tPos = x.now) := by
    intro v t ht
    rcases fusePos_tpos x v x.fakeOk t with h | ⟨h1, h2, h3⟩
    · left; rw [h, ht]
    · right; exact ⟨⟨_, h1⟩, h2, h3⟩
  unfold controlFake
  by_cases a : (!(s.aid x).active && !(s.fuseAspd && x.fuseBeta)) = true
  · rw [if_pos a]
    dsimp only
    by_cases b : isTimedOut x.now s.tFake 200000 = true
    · rw [if_pos b]
      refine key _ _ ?_
      dsimp only
      split_ifs <;> simp
    · rw [if_neg b]; exact Or.inl rfl
  · rw [if_neg a]; exact Or.inl rfl

/-- the time of the last horizontal position changes only in a step that takes a position, and then it is the time of that step -/
theorem position_time_changes (x : In) (s : St) (h : (step x s).tPos ≠ s.tPos) :
    (step x s).tPos = x.now ∧ Spec.PositionTaken x s := by
  obtain ⟨h1, _, _, _⟩ := before_gps x s
  unfold Spec.PositionTaken
  rw [step_tail] at h ⊢
  generalize controlFlow x (controlMag x (stMag x s)) = m at *
  have e1 : (controlDrag x (controlBeta x (controlAir x (controlGps x m)))).tPos = (controlGps x m).tPos := by simp
  have m1 : ∀ k, k ∈ (controlGps x m).log → k ∈ (controlDrag x (controlBeta x (controlAir x (controlGps x m)))).log := fun k hk =>
    controlDrag_log_mem _ _ _ (controlBeta_log_mem _ _ _ (controlAir_log_mem _ _ _ hk))
  generalize controlDrag x (controlBeta x (controlAir x (controlGps x m))) = d at *
  have e2 : (controlAux x (controlEv x d)).tPos = (controlEv x d).tPos := by simp
  have m2 : ∀ k, k ∈ (controlEv x d).log → k ∈ (controlAux x (controlEv x d)).log := fun k hk => controlAux_log_mem _ _ _ hk
  have m3 : ∀ k, k ∈ d.log → k ∈ (controlEv x d).log := fun k hk => controlEv_log_mem _ _ _ hk
  have m4 : ∀ k, k ∈ (controlAux x (controlEv x d)).log → k ∈ (controlFake x (controlAux x (controlEv x d))).log := fun k hk =>
    controlFake_log_mem _ _ _ hk
  rcases controlFake_tpos x (controlAux x (controlEv x d)) with f | ⟨f1, f2, f3⟩
  · rw [f, e2] at h ⊢
    rcases controlEv_tpos x d with g | ⟨⟨v, g1⟩, g2, g3⟩
    · rw [g, e1] at h ⊢
      rcases controlGps_tpos x m with k | ⟨k1, k2⟩
      · exact absurd (k.trans h1) h
      · refine ⟨k1, ?_⟩
        rcases k2 with ⟨⟨v, a⟩, b⟩ | a
        · exact Or.inl ⟨⟨v, m4 _ (m2 _ (m3 _ (m1 _ a)))⟩, Or.inl b⟩
        · exact Or.inr (m4 _ (m2 _ (m3 _ (m1 _ a))))
    · exact ⟨g3, Or.inl ⟨⟨v, m4 _ (m2 _ g1)⟩, Or.inr (Or.inl g2)⟩⟩
  · exact ⟨f3, Or.inl ⟨f1, Or.inr (Or.inr f2)⟩⟩

/-- **C149.** For every history: when GPS data arrives, GPS is in use, no emergency yaw reset is waited for, and more than twice the reset
timeout has passed since the last position known at the start of the history, then either a position was taken somewhere in between, or the
position is reset to GPS in this step. -/
theorem gps_lockout_bounded (xs : List In) (x : In) (s : St) (hr : x.gpsReady = true) (hg : (step x (run s xs)).gps = true)
    (hb : Spec.Unblocked x (run s xs)) (ht : isTimedOut x.now s.tPos (2 * x.resetTimeout) = true) :
    (∃ (pre : List In) (y : In) (post : List In), xs = pre ++ y :: post ∧ Spec.PositionTaken y (run s pre)) ∨
      Act.posReset .gps ∈ (step x (run s xs)).log := by
  induction xs generalizing s with
  | nil => exact Or.inr (gps_recovers x s hr hg hb ht)
  | cons y ys ih =>
    by_cases h : (step y s).tPos = s.tPos
    · have := ih (step y s) hg hb (by rw [h]; exact ht)
      rcases this with ⟨pre, z, post, e, hz⟩ | h'
      · exact Or.inl ⟨y :: pre, z, post, by rw [e]; rfl, hz⟩
      · exact Or.inr h'
    · exact Or.inl ⟨[], y, ys, rfl, (position_time_changes y s h).2⟩

/-! ### Finding: waiting for the yaw estimator blocks the reset -/

/-- the operation replaces the horizontal position or velocity -/
def isReset : Act → Bool
  | .posReset _ => true
  | .velReset _ => true
  | _ => false

/-- GPS aiding in flight after the magnetometer was declared faulty; no other source; the times of the last accepted position and velocity, of the
last yaw reset and the number of yaw resets are `p`, `v`, `g`, `c` -/
structure Spec.Waiting (p v g : UInt64) (c : UInt8) (s : St) : Prop where
  gps : s.gps = true
  tilt : s.tilt = true
  fault : s.magFault = true
  flow : s.optFlow = false
  evPos : s.evPos = false
  evVel : s.evVel = false
  evYaw : s.evYaw = false
  tPos : s.tPos = p
  tVel : s.tVel = v
  gsfTime : s.gsfTime = g
  gsfCount : s.gsfCount = c

/-- one more GPS sample in flight whose velocity points elsewhere than the estimate, rejected by the filter, while the yaw estimator has no answer -/
structure Spec.Mismatch (p v g : UInt64) (c : UInt8) (x : In) : Prop where
  ready : x.gpsReady = true
  useGps : x.useGps = true
  noGpsYaw : x.useGpsYaw = false
  noFlow : x.useOf = false
  noEv : x.evReady = false
  noAux : x.auxReady = false
  noOrigin : x.originSet = false
  inAir : x.inAir = true
  angle : x.velAngleBad = true
  gsf : x.gsfOk = false
  pos : x.gpsPosOk = false
  vel : x.gpsVelOk = false
  checks : isTimedOut x.now x.lastPass 5000000 = false
  signal : isTimedOut x.now x.tPrevGps 1000000 = false
  settled : isTimedOut x.now g 5000000 = true
  count : c.toNat < x.countLimit
  groundV : x.tGround < v
  groundP : x.tGround < p

theorem u64_nle {a b : UInt64} (h : a < b) : decide (b ≤ a) = false := by
  have := UInt64.lt_iff_toNat_lt.1 h
  simp only [decide_eq_false_iff_not, UInt64.le_iff_toNat_le]
  omega

theorem waiting_stMag (x : In) (s : St) {p v g : UInt64} {c : UInt8} (h : Spec.Waiting p v g c s) (hx : Spec.Mismatch p v g c x) :
    Spec.Waiting p v g c (stMag x s) ∧ (stMag x s).log = [] := by
  have ht : ∀ t : St, t.tilt = true → tiltAlign x t = t := by
    intro t h; unfold tiltAlign; rw [if_neg (by simp [h])]
  have h0 : ∀ t : St, Spec.Waiting p v g c t → Spec.Waiting p v g c (requests x t) ∧ (requests x t).log = t.log := by
    intro t h
    unfold requests
    simp only [hx.noOrigin]
    constructor
    · split_ifs <;> (try contradiction) <;> exact ⟨h.1, h.2, h.3, h.4, h.5, h.6, h.7, h.8, h.9, h.10, h.11⟩
    · split_ifs <;> (try contradiction) <;> rfl
  have hs : Spec.Waiting p v g c { s with log := [], evts := [] } :=
    ⟨h.1, h.2, h.3, h.4, h.5, h.6, h.7, h.8, h.9, h.10, h.11⟩
  obtain ⟨h1, h2⟩ := h0 _ hs
  unfold stMag
  rw [ht _ h1.tilt]
  unfold flowArrival
  split_ifs
  · exact ⟨⟨h1.1, h1.2, h1.3, h1.4, h1.5, h1.6, h1.7, h1.8, h1.9, h1.10, h1.11⟩, h2⟩
  · exact ⟨h1, h2⟩

theorem waiting_mag (x : In) (s : St) {p v g : UInt64} {c : UInt8} (h : Spec.Waiting p v g c s) (hl : s.log.any isReset = false) :
    Spec.Waiting p v g c (controlMag x s) ∧ (controlMag x s).log.any isReset = false := by
  unfold controlMag
  split_ifs with h1 h2 h3
  · exact ⟨h, hl⟩
  · refine ⟨⟨h.1, h.2, h.3, h.4, h.5, h.6, h.7, h.8, h.9, h.10, h.11⟩, ?_⟩
    simp only [St.act, List.any_append, hl]; rfl
  · exact ⟨h, hl⟩
  · unfold magMain
    dsimp only
    rw [if_pos (by simp [h.fault])]
    refine ⟨⟨by simpa using h.1, by simpa using h.2, by simpa using h.3, by simpa using h.4, by simpa using h.5, by simpa using h.6,
      by simpa using h.7, by simpa using h.8, by simpa using h.9, by simpa using h.10, by simpa using h.11⟩, ?_⟩
    unfold stopMag clearMagCov stopMagHdg stopMag3D magPrepare
    have e : isReset .saveMagCov = false ∧ isReset .zeroMagCov = false := ⟨rfl, rfl⟩
    simp only [St.act]
    split_ifs <;> simp [hl, e]

theorem waiting_flow (x : In) (s : St) {p v g : UInt64} {c : UInt8} (h : Spec.Waiting p v g c s) (hu : x.useOf = false)
    (hl : s.log.any isReset = false) : Spec.Waiting p v g c (controlFlow x s) ∧ (controlFlow x s).log.any isReset = false := by
  have hw : ∀ t : St, t.optFlow = false → controlFlow x t =
      (if (flowQuality x (flowMotion x t)).flowReady then
        { flowQuality x (flowMotion x t) with flowInh := flowInhibit x (flowQuality x (flowMotion x t)) } else flowQuality x (flowMotion x t)) := by
    intro t ho
    have ho' : (flowQuality x (flowMotion x t)).optFlow = false := by simpa using ho
    unfold controlFlow
    dsimp only
    generalize flowQuality x (flowMotion x t) = q at *
    by_cases a : q.flowReady = true
    · rw [if_pos a, if_pos a]
      have e1 : flowStart x { q with flowInh := flowInhibit x q } = { q with flowInh := flowInhibit x q } := by
        unfold flowStart; rw [if_neg (by simp [hu])]
      rw [e1]
      unfold flowUse
      rw [if_neg (by simp [ho']), if_neg (by simp [ho'])]
    · rw [if_neg a, if_neg a, if_neg (by simp [ho'])]
  rw [hw s h.flow]
  have hq : Spec.Waiting p v g c (flowQuality x (flowMotion x s)) :=
    ⟨by simpa using h.1, by simpa using h.2, by simpa using h.3, by simpa using h.4, by simpa using h.5, by simpa using h.6,
      by simpa using h.7, by simpa using h.8, by simpa using h.9, by simpa using h.10, by simpa using h.11⟩
  have hql : (flowQuality x (flowMotion x s)).log.any isReset = false := by
    unfold flowQuality flowMotion
    split_ifs <;> simpa using hl
  generalize flowQuality x (flowMotion x s) = q at *
  split_ifs
  · exact ⟨⟨hq.1, hq.2, hq.3, hq.4, hq.5, hq.6, hq.7, hq.8, hq.9, hq.10, hq.11⟩, hql⟩
  · exact ⟨hq, hql⟩

theorem waiting_gps (x : In) (s : St) {p v g : UInt64} {c : UInt8} (h : Spec.Waiting p v g c s) (hx : Spec.Mismatch p v g c x)
    (hl : s.log.any isReset = false) : Spec.Waiting p v g c (controlGps x s) ∧ (controlGps x s).log.any isReset = false := by
  unfold controlGps
  rw [if_pos hx.ready]
  have e1 : controlGpsYaw x s = { s with gpsYaw := false } := by
    unfold controlGpsYaw; rw [if_pos (by simp [hx.noGpsYaw])]
  rw [e1]
  have h1 : Spec.Waiting p v g c { s with gpsYaw := false } := ⟨h.1, h.2, h.3, h.4, h.5, h.6, h.7, h.8, h.9, h.10, h.11⟩
  have hl1 : ({ s with gpsYaw := false } : St).log.any isReset = false := hl
  generalize ({ s with gpsYaw := false } : St) = a at *
  have e2 : gpsStart x a = a := by
    unfold gpsStart; rw [if_neg (by simp [h1.gps]), if_neg (by simp [hx.useGps])]
  have e3 : gpsFailing x a = a := by
    unfold gpsFailing; rw [if_neg (by simp [hx.checks])]
  have e4 : gsfAlign x a = a := by
    unfold gsfAlign; rw [if_neg (by simp [h1.gps])]
  rw [e2, e3, e4]
  have e5 : gpsResets x a = a := by
    unfold gpsResets
    rw [if_pos h1.gps]
    have hfail : gsfReset x a = a := by
      unfold gsfReset resetYawToGsf
      simp [hx.gsf]
    by_cases n : needGsfReset x a = true
    · rw [if_pos n, hfail]
    · rw [if_neg n]
      have r : needVelPosReset x a = false := by
        by_contra r
        have r' : needVelPosReset x a = true := by simpa using r
        apply n
        have hv0 : (0 : UInt64) < v := by
          rw [UInt64.lt_iff_toNat_lt]
          have := UInt64.lt_iff_toNat_lt.1 hx.groundV
          have : (0 : UInt64).toNat = 0 := rfl
          omega
        unfold needGsfReset yawFailure
        simp only [r', hx.inAir, hx.angle, h1.tVel, h1.tPos, u64_nle hx.groundV, u64_nle hx.groundP, u64_nle hv0, h1.gsfTime,
          h1.gsfCount, hx.settled, hx.signal, hx.count, decide_true]
        simp
      rw [if_neg (by simp [r])]
  rw [e5]
  unfold gpsFuse fusePos
  rw [if_pos h1.gps]
  simp only [hx.pos, hx.vel, fuseVelHor]
  refine ⟨⟨by simpa using h1.1, by simpa using h1.2, by simpa using h1.3, by simpa using h1.4, by simpa using h1.5, by simpa using h1.6,
      by simpa using h1.7, by simpa using h1.8, by simpa using h1.9, by simpa using h1.10, by simpa using h1.11⟩, ?_⟩
  simp [St.act, hl1, isReset]

theorem waiting_air (x : In) (s : St) {p v g : UInt64} {c : UInt8} (h : Spec.Waiting p v g c s) (hl : s.log.any isReset = false) :
    Spec.Waiting p v g c (controlDrag x (controlBeta x (controlAir x s))) ∧
      (controlDrag x (controlBeta x (controlAir x s))).log.any isReset = false := by
  refine ⟨⟨by simpa using h.1, by simpa using h.2, by simpa using h.3, by simpa using h.4, by simpa using h.5, by simpa using h.6,
      by simpa using h.7, by simpa using h.8, by simpa using h.9, by simpa using h.10, by simpa using h.11⟩, ?_⟩
  have a : ∀ t : St, t.log.any isReset = false → (controlAir x t).log.any isReset = false := by
    intro t ht
    have e : isReset .windReset = false ∧ isReset .fuseAirspeed = false := ⟨rfl, rfl⟩
    unfold controlAir
    dsimp only
    split_ifs <;> simp [St.act, ht, e]
  have b : ∀ t : St, t.log.any isReset = false → (controlBeta x t).log.any isReset = false := by
    intro t ht
    have e : isReset .windReset = false ∧ isReset .fuseBeta = false := ⟨rfl, rfl⟩
    unfold controlBeta
    dsimp only
    split_ifs <;> simp [St.act, ht, e]
  have d : ∀ t : St, t.log.any isReset = false → (controlDrag x t).log.any isReset = false := by
    intro t ht
    have e : isReset .windReset = false ∧ isReset .fuseDrag = false := ⟨rfl, rfl⟩
    unfold controlDrag
    dsimp only
    split_ifs <;> simp [St.act, ht, e]
  exact d _ (b _ (a _ hl))

theorem waiting_rest (x : In) (s : St) {p v g : UInt64} {c : UInt8} (h : Spec.Waiting p v g c s) (hx : Spec.Mismatch p v g c x)
    (hl : s.log.any isReset = false) : Spec.Waiting p v g c (controlFake x (controlAux x (controlEv x s))) ∧
      (controlFake x (controlAux x (controlEv x s))).log.any isReset = false := by
  have e1 : controlEv x s = s := by
    unfold controlEv
    rw [if_neg (by simp [hx.noEv]), if_neg (by simp [h.evPos, h.evVel, h.evYaw])]
  have e2 : controlAux x s = s := by
    unfold controlAux; rw [if_neg (by simp [hx.noAux])]
  rw [e1, e2]
  unfold controlFake
  rw [if_neg (by simp [active_of_gps x s h.gps])]
  exact ⟨⟨h.1, h.2, h.3, h.4, h.5, h.6, h.7, h.8, h.9, h.10, h.11⟩, hl⟩

theorem waiting_step (x : In) (s : St) {p v g : UInt64} {c : UInt8} (h : Spec.Waiting p v g c s) (hx : Spec.Mismatch p v g c x) :
    Spec.Waiting p v g c (step x s) ∧ (step x s).log.any isReset = false := by
  rw [step_tail]
  obtain ⟨h1, l1⟩ := waiting_stMag x s h hx
  obtain ⟨h2, l2⟩ := waiting_mag x _ h1 (by rw [l1]; rfl)
  obtain ⟨h3, l3⟩ := waiting_flow x _ h2 hx.noFlow l2
  obtain ⟨h4, l4⟩ := waiting_gps x _ h3 hx l3
  obtain ⟨h5, l5⟩ := waiting_air x _ h4 l4
  exact waiting_rest x _ h5 hx l5

/-- **C149 (finding).** With a velocity mismatch that the yaw estimator cannot resolve, no number of steps leads to a reset: the filter keeps GPS
"in use", accepts none of its positions and velocities, and never replaces its own. -/
theorem gps_lockout_forever (xs : List In) (s : St) (p v g : UInt64) (c : UInt8) (h : Spec.Waiting p v g c s)
    (hx : ∀ x ∈ xs, Spec.Mismatch p v g c x) :
    ∀ t ∈ trace s xs, t.gps = true ∧ t.tPos = p ∧ t.tVel = v ∧ (∀ src, Act.posReset src ∉ t.log) ∧ (∀ src, Act.velReset src ∉ t.log) := by
  induction xs generalizing s with
  | nil => intro t ht; cases ht
  | cons x xs ih =>
    obtain ⟨h1, l1⟩ := waiting_step x s h (hx x (List.mem_cons_self ..))
    intro t ht
    have hn : ∀ a, isReset a = true → a ∉ (step x s).log := by
      intro a ha hm
      have : (step x s).log.any isReset = true := List.any_eq_true.2 ⟨a, hm, ha⟩
      rw [l1] at this; cases this
    rcases List.mem_cons.1 ht with rfl | ht'
    · exact ⟨h1.gps, h1.tPos, h1.tVel, fun src => hn _ rfl, fun src => hn _ rfl⟩
    · exact ih (step x s) h1 (fun y hy => hx y (List.mem_cons_of_mem _ hy)) t ht'

/-! ### Concrete histories -/

/-- alignment, start of GPS aiding in flight, an emergency yaw reset that disables the magnetometer -/
def lockPrefix : List In :=
  [ { now := 20000000, tDel := 19900000, tiltConverged := true },
    { now := 20100000, tDel := 20000000, tGround := 20000000, inAir := true, gpsReady := true, useGps := true, nedInit := true,
      lastPass := 20000000, tPrevGps := 20000000, gpsPosOk := true, gpsVelOk := true },
    { now := 20200000, tDel := 20100000, tGround := 20000000, inAir := true, gpsReady := true, useGps := true, nedInit := true,
      lastPass := 20100000, tPrevGps := 20100000, emergencyReq := true, gsfOk := true } ]

/-- GPS sample number `k` of the mismatch, ten samples per second -/
def lockSample (k : ℕ) : In :=
  { now := UInt64.ofNat (26000000 + 100000 * k), tDel := UInt64.ofNat (25900000 + 100000 * k), tGround := 20000000, inAir := true,
    gpsReady := true, useGps := true, nedInit := true, lastPass := UInt64.ofNat (26000000 + 100000 * k),
    tPrevGps := UInt64.ofNat (26000000 + 100000 * k), velAngleBad := true, magType := 0 }

theorem lock_reached : Spec.Waiting 20200000 20200000 20200000 1 (run {} lockPrefix) := by
  constructor <;> decide +kernel

theorem lockSample_mismatch (k : ℕ) (hk : k < 100000000000) : Spec.Mismatch 20200000 20200000 20200000 1 (lockSample k) := by
  have e0 : (UInt64.ofNat (26000000 + 100000 * k)).toNat = 26000000 + 100000 * k := by
    rw [UInt64.toNat_ofNat']
    apply Nat.mod_eq_of_lt
    omega
  have self : ∀ d : UInt64, d.toNat ≤ 5000000 → isTimedOut (lockSample k).now (lockSample k).now d = false := by
    intro d hd
    rw [← Bool.not_eq_true, isTimedOut_iff, UInt64.lt_iff_toNat_lt, UInt64.toNat_add]
    have e1 : (lockSample k).now.toNat = 26000000 + 100000 * k := e0
    rw [e1, Nat.mod_eq_of_lt (by omega)]
    omega
  refine ⟨rfl, rfl, rfl, rfl, rfl, rfl, rfl, rfl, rfl, rfl, rfl, rfl, self 5000000 (by decide +kernel), self 1000000 (by decide +kernel), ?_,
    (by show (1 : ℕ) < 3; omega), (by decide +kernel : (20000000 : UInt64) < 20200000), (by decide +kernel : (20000000 : UInt64) < 20200000)⟩
  rw [isTimedOut_iff, UInt64.lt_iff_toNat_lt]
  have e1 : (lockSample k).now.toNat = 26000000 + 100000 * k := e0
  have e2 : ((20200000 : UInt64) + 5000000).toNat = 25200000 := by decide +kernel
  rw [e1, e2]
  omega

/-- from power-on, for any number of GPS samples (300 years' worth): the filter stays on GPS and neither accepts nor resets anything -/
theorem gps_lockout_reachable (n : ℕ) (hn : n ≤ 100000000000) :
    ∀ t ∈ trace (run {} lockPrefix) ((List.range n).map lockSample),
      t.gps = true ∧ t.tPos = 20200000 ∧ t.tVel = 20200000 ∧ (∀ src, Act.posReset src ∉ t.log) ∧ (∀ src, Act.velReset src ∉ t.log) := by
  refine gps_lockout_forever _ _ 20200000 20200000 20200000 1 lock_reached (fun x hx => ?_)
  obtain ⟨k, hk, rfl⟩ := List.mem_map.1 hx
  exact lockSample_mismatch k (by have := List.mem_range.1 hk; omega)

/-- the same mismatch with the yaw estimator able to answer is resolved in the next step after the timeout, and so is a rejected position without
a velocity mismatch: the hypotheses of `gps_lockout_bounded` hold of these histories, with no position taken in between -/
example : (∀ x ∈ [{ lockSample 100 with gsfOk := true }, { lockSample 100 with velAngleBad := false }],
    x.gpsReady = true ∧ (step x (run (run {} lockPrefix) ((List.range 20).map lockSample))).gps = true ∧
    (x.gsfOk = true ∨ ((run (run {} lockPrefix) ((List.range 20).map lockSample)).doGsf = false ∧
      x.emergencyReq = false ∧ x.originSet = false ∧ x.velAngleBad = false)) ∧
    isTimedOut x.now (run {} lockPrefix).tPos (2 * x.resetTimeout) = true ∧
    Act.posReset .gps ∈ (step x (run (run {} lockPrefix) ((List.range 20).map lockSample))).log) ∧
    (step (lockSample 100) (run (run {} lockPrefix) ((List.range 20).map lockSample))).log = [Act.zeroMagCov, .fuseVelHor, .fuseVelVert, .fusePos .gpsBounded] := by
  decide +kernel

/-- a step that takes a position moves the timer -/
example : (step { lockSample 0 with gpsPosOk := true } (run {} lockPrefix)).tPos ≠ (run {} lockPrefix).tPos := by decide +kernel

end Ecl.Aid
