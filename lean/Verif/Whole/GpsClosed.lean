import Verif.Whole.GpsReset
import Verif.Aid.Recovery

/-!
# From the timers to the estimate: GPS aiding in a closed loop (C170)

`controlGpsFusion` (EKF/control.cpp:508-735): the decisions (`Aid.controlGps`) together with what they do to states and covariance
(`Meas.resetVelocity`, `Meas.resetHorizontalPosition`, `Meas.gpsFuse`), whose outcomes are in turn what the timers see.
-/

namespace Ecl.Whole

open Ecl.Cov Ecl.Fusion Ecl.Ekf Ecl.Meas
open scoped Matrix

noncomputable section

/-! ## Model -/

/-- what the numerical part of one GPS sample reads: limits and flags of the fusion, GPS parameters, attitude `_R_to_earth` and angular rate after the resets, the sample,
the measurements of the resets, the output buffers, and what the remaining operations (yaw and field resets) do to states and covariance -/
structure GpsEnv where
  vx : VPIn
  p : GpsPar
  R : M3 ℝ
  w : V3 ℝ
  g : GpsData
  rx : RIn
  aux : Est ℝ
  other : Aid.Act → Filt → Filt

/-- what a reset recorded by the control logic does to the filter: EKF/ekf_helper.cpp:66-72 (GPS), 74-104 (flow), 106-111 (vision), 113-120 (zero); 160-217 (position).
Fusions are not done here -/
def runReset (e : GpsEnv) (f : Filt) : Aid.Act → Filt
  | .velReset .gps => onEst (velToGps e.rx) e.aux f
  | .velReset .flow => onEst (velToFlow e.rx) e.aux f
  | .velReset .vision => onEst (velToVision e.rx) e.aux f
  | .velReset .zero => onEst velToZero e.aux f
  | .posReset .gps => onEst (posToGps e.rx) e.aux f
  | .posReset .vision => onEst (posToVision e.rx) e.aux f
  | .posReset .origin => onEst (fun q => { q with est := q.est.resetHorizontalPositionTo ![0, 0], P := uncorrSet 7 2 (fun _ => 0) q.P }) e.aux f
  | .posReset .lastKnownExact => onEst (fun q => { q with est := q.est.resetHorizontalPositionTo e.rx.lastKnown, P := uncorrSet 7 2 (fun _ => 0) q.P }) e.aux f
  | .posReset .lastKnown => onEst (fun q => { q with est := q.est.resetHorizontalPositionTo e.rx.lastKnown, P := uncorrSet 7 2 (fun _ => sq e.rx.noaid) q.P }) e.aux f
  | .fuseVelHor => f
  | .fuseVelVert => f
  | .fusePos _ => f
  | a => e.other a f

/-- `controlGpsFusion` with GPS in use, EKF/control.cpp:508-720, on states and covariance: the resets decided by `Aid.controlGps` in their order, then the three fusions
(the observation variance of the position depends on whether another source aids, EKF/control.cpp:691) -/
def gpsClosed (e : GpsEnv) (x : Aid.In) (s : Aid.St) (st : VPSt) : GpsFused :=
  gpsFuse e.vx e.p e.R e.w ((s.aid x).isOther s.gps) e.g { st with f := ((Aid.controlGps x s).log.drop s.log.length).foldl (runReset e) st.f }

/-! ## Specification -/

/-- the two halves look at the same situation: same sources in use, same sample; antenna sample
with accuracies between 1 mm and 1 km; variances not negative, and kept so by the remaining operations -/
structure Spec.SameSample (e : GpsEnv) (x : Aid.In) (s : Aid.St) (st : VPSt) : Prop where
  gps : e.rx.gps = s.gps
  flow : e.rx.optFlow = s.optFlow
  evVel : e.rx.evVel = s.evVel
  evPos : e.rx.evPos = s.evPos
  inAir : e.rx.inAir = x.inAir
  health : e.rx.gpsHealthy = isTimedOut x.now x.lastFail x.healthTime
  vel : e.rx.gpsVel = e.g.vel
  sacc : e.rx.gpsSacc = e.g.sacc
  pos : e.rx.gpsPos = e.g.pos
  hacc : e.rx.gpsHacc = e.g.hacc
  saccRange : 1 / 1000 ≤ e.g.sacc ∧ e.g.sacc ≤ 1000
  haccRange : 1 / 1000 ≤ e.g.hacc ∧ e.g.hacc ≤ 1000
  flowVar : 0 ≤ e.rx.flowVar
  visVelVar : ∀ i, 0 ≤ e.rx.visVelVar i
  evPosVar : ∀ i, 0 ≤ e.rx.evPosVar i
  accel : e.vx.badVertAccel = false
  var : ∀ i, 0 ≤ st.f.P i i
  keep : ∀ a f, (∀ i, 0 ≤ f.P i i) → ∀ i, 0 ≤ (e.other a f).P i i

/-- and the acceptance reported to the timers is that of the fusions -/
structure Spec.SameLoop (e : GpsEnv) (x : Aid.In) (s : Aid.St) (st : VPSt) : Prop extends Spec.SameSample e x s st where
  velOk : x.gpsVelOk = (gpsClosed e x s st).hvel.ret
  posOk : x.gpsPosOk = (gpsClosed e x s st).hpos.ret

/-- the estimate is as far from the motion of the IMU according to the sample as the antenna's motion relative to the IMU, at most: velocity and horizontal position -/
def Spec.AtSample (e : GpsEnv) (f : Filt) : Prop :=
  let a := e.R *ᵥ Fusion.cross3 e.w (e.p.gpsBody - e.p.imuBody)
  let b := e.R *ᵥ (e.p.gpsBody - e.p.imuBody)
  |f.s 4 - (e.g.vel 0 - a 0)| ≤ |a 0| ∧ |f.s 5 - (e.g.vel 1 - a 1)| ≤ |a 1| ∧ |f.s 6 - (e.g.vel 2 - a 2)| ≤ |a 2| ∧
  |f.s 7 - (e.g.pos 0 - b 0)| ≤ |b 0| ∧ |f.s 8 - (e.g.pos 1 - b 1)| ≤ |b 1|

/-! ## Theorems -/

/-- **C170 (the two halves agree).** The reset the control logic records is the one `resetVelocity` / `resetHorizontalPosition` does. -/
theorem recorded_reset_done (e : GpsEnv) (x : Aid.In) (s : Aid.St) (f : Filt) (h1 : e.rx.gps = s.gps) (h2 : e.rx.optFlow = s.optFlow) (h3 : e.rx.evVel = s.evVel)
    (h4 : e.rx.evPos = s.evPos) (h5 : e.rx.inAir = x.inAir) (h6 : e.rx.gpsHealthy = isTimedOut x.now x.lastFail x.healthTime) :
    ((Aid.resetVel x s).log.drop s.log.length).foldl (runReset e) f = onEst (Meas.resetVelocity e.rx) e.aux f ∧
    ((Aid.resetPos x s).log.drop s.log.length).foldl (runReset e) f = onEst (Meas.resetHorizontalPosition e.rx) e.aux f := by
  have ev : (Aid.resetVel x s).log = s.log ++ [.velReset (Aid.velSrc x s)] := rfl
  have ep : (Aid.resetPos x s).log = s.log ++ [.posReset (Aid.posSrc x s)] := rfl
  rw [ev, ep, List.drop_left, List.drop_left]
  constructor
  · rw [List.foldl_cons, List.foldl_nil]
    unfold Aid.velSrc Meas.resetVelocity
    rw [h1, h2, h3, h6]
    cases s.gps && isTimedOut x.now x.lastFail x.healthTime
    · cases s.optFlow
      · cases s.evVel <;> rfl
      · rfl
    · rfl
  · rw [List.foldl_cons, List.foldl_nil]
    unfold Aid.posSrc Meas.resetHorizontalPosition
    rw [h1, h2, h4, h5]
    cases s.gps
    · cases s.evPos
      · cases s.optFlow
        · rfl
        · cases x.inAir <;> rfl
      · rfl
    · rfl

/-- later operations are added to the record -/
def Grew (s t : Aid.St) : Prop := ∃ l, t.log = s.log ++ l

theorem Grew.refl (s : Aid.St) : Grew s s := ⟨[], by simp⟩
theorem Grew.trans {a b c : Aid.St} (h : Grew a b) (k : Grew b c) : Grew a c := by
  obtain ⟨l, hl⟩ := h
  obtain ⟨m, hm⟩ := k
  exact ⟨l ++ m, by rw [hm, hl, List.append_assoc]⟩
theorem Grew.of_eq {a b : Aid.St} (h : b.log = a.log) : Grew a b := ⟨[], by rw [h]; simp⟩
theorem grew_magStates (s : Aid.St) : Grew s (Aid.resetMagStates s) := by
  unfold Aid.resetMagStates
  dsimp only
  split
  · exact ⟨[.magStates, .saveMagCov], by simp [Aid.St.act]⟩
  · exact ⟨[.magStates], by simp [Aid.St.act]⟩
theorem grew_stopMag (s : Aid.St) : Grew s (Aid.stopMag s) := by
  unfold Aid.stopMag Aid.clearMagCov Aid.stopMagHdg Aid.stopMag3D
  split
  · exact ⟨[.saveMagCov, .zeroMagCov], by simp [Aid.St.act]⟩
  · exact ⟨[.zeroMagCov], by simp [Aid.St.act]⟩
theorem grew_act (s : Aid.St) (a : Aid.Act) : Grew s (s.act a) := ⟨[a], rfl⟩

theorem grew_realign (x : Aid.In) (s : Aid.St) : Grew s (Aid.realignYawGps x s).1 := by
  unfold Aid.realignYawGps
  split
  · unfold Aid.resetMagHeading
    split_ifs
    · exact Grew.refl _
    · exact grew_stopMag _
    · exact ((grew_act s (.yawReset .vision)).trans (grew_magStates _)).trans (Grew.of_eq rfl)
    · exact ((grew_act s (.yawReset .mag)).trans (grew_magStates _)).trans (Grew.of_eq rfl)
    · exact Grew.refl _
    · exact Grew.refl _
  · unfold Aid.courseAlign
    dsimp only
    have hd : ∀ t : Aid.St, Grew t (Aid.declareFault t) := fun t => by
      unfold Aid.declareFault
      split
      · exact Grew.of_eq rfl
      · exact Grew.refl _
    have hc : ∀ t : Aid.St, Grew t (Aid.courseYaw t) := fun t => by
      unfold Aid.courseYaw
      dsimp only
      split_ifs
      all_goals first
        | exact Grew.refl _
        | exact (grew_act t _).trans (Grew.of_eq rfl)
    have hb : Grew s (if Aid.badMagYaw x s then { s with nBad := s.nBad + 1 } else s) := by
      split
      · exact Grew.of_eq rfl
      · exact Grew.refl _
    refine hb.trans ?_
    generalize (if Aid.badMagYaw x s then { s with nBad := s.nBad + 1 } else s) = u
    split
    · refine Grew.trans (b := Aid.resetMagStates _) ?_ (Grew.of_eq rfl)
      exact Grew.trans (Grew.trans (Grew.trans (Grew.of_eq rfl) (hd (Aid.St.evt _ .badYawUsingCourse))) (hc _)) (grew_magStates _)
    · exact (grew_magStates _).trans (Grew.of_eq rfl)

theorem run_nonneg (e : GpsEnv) (h1 : 0 ≤ e.rx.flowVar) (h2 : ∀ i, 0 ≤ e.rx.visVelVar i) (h3 : ∀ i, 0 ≤ e.rx.evPosVar i)
    (hk : ∀ a f, (∀ i, 0 ≤ f.P i i) → ∀ i, 0 ≤ (e.other a f).P i i) (a : Aid.Act) (f : Filt) (hd : ∀ i, 0 ≤ f.P i i) : ∀ i, 0 ≤ (runReset e f a).P i i := by
  cases a with
  | velReset v =>
    cases v
    · exact uncorrSet_nonneg 4 3 (fun _ => sq e.rx.gpsSacc) f.P (fun _ _ => mul_self_nonneg _) hd
    · exact uncorrSet_nonneg 4 2 _ f.P (fun _ _ => mul_nonneg (mul_self_nonneg _) h1) hd
    · refine uncorrSet_nonneg 4 3 _ f.P (fun q _ => ?_) hd
      unfold blkVar
      beta_reduce
      split_ifs
      · exact h2 0
      · exact h2 1
      · exact h2 2
    · exact uncorrSet_nonneg 4 2 (fun _ => (25 : ℝ)) f.P (fun _ _ => by norm_num) hd
  | posReset v =>
    cases v
    · exact uncorrSet_nonneg 7 2 (fun _ => sq e.rx.gpsHacc) f.P (fun _ _ => mul_self_nonneg _) hd
    · refine uncorrSet_nonneg 7 2 _ f.P (fun q _ => ?_) hd
      unfold blkVar
      beta_reduce
      split_ifs
      · exact h3 0
      · exact h3 1
    · exact uncorrSet_nonneg 7 2 (fun _ => (0 : ℝ)) f.P (fun _ _ => le_rfl) hd
    · exact uncorrSet_nonneg 7 2 (fun _ => (0 : ℝ)) f.P (fun _ _ => le_rfl) hd
    · exact uncorrSet_nonneg 7 2 (fun _ => sq e.rx.noaid) f.P (fun _ _ => mul_self_nonneg _) hd
  | fuseVelHor => exact hd
  | fuseVelVert => exact hd
  | fusePos v => exact hd
  | _ => exact hk _ f hd

theorem run_all_nonneg (e : GpsEnv) (h1 : 0 ≤ e.rx.flowVar) (h2 : ∀ i, 0 ≤ e.rx.visVelVar i) (h3 : ∀ i, 0 ≤ e.rx.evPosVar i)
    (hk : ∀ a f, (∀ i, 0 ≤ f.P i i) → ∀ i, 0 ≤ (e.other a f).P i i) (l : List Aid.Act) : ∀ (f : Filt), (∀ i, 0 ≤ f.P i i) →
    ∀ i, 0 ≤ (l.foldl (runReset e) f).P i i := by
  induction l with
  | nil => exact fun f hd => hd
  | cons a l ih => exact fun f hd => ih _ (run_nonneg e h1 h2 h3 hk a f hd)

theorem run_fusions (e : GpsEnv) (x : Aid.In) (s : Aid.St) (f : Filt) : (Aid.Spec.gpsFusions x s).foldl (runReset e) f = f := by
  unfold Aid.Spec.gpsFusions
  split <;> rfl

/-- whatever was done before the resets, the filter ends at the sample and the sample is accepted up to the lever arm -/
theorem closed_at (e : GpsEnv) (x : Aid.In) (s : Aid.St) (st : VPSt) (h : Spec.SameSample e x s st) (hg : s.gps = true) (hh : isTimedOut x.now x.lastFail x.healthTime = true)
    (pre : List Aid.Act) (hl : (Aid.controlGps x s).log = s.log ++ pre ++ [.velReset .gps, .posReset .gps] ++ Aid.Spec.gpsFusions x s) :
    Spec.AtSample e (gpsClosed e x s st).hpos.st.f ∧
    (e.p.gpsBody = e.p.imuBody → (gpsClosed e x s st).hvel.ret = true ∧ (gpsClosed e x s st).vvel.ret = true ∧ (gpsClosed e x s st).hpos.ret = true) := by
  set f1 := pre.foldl (runReset e) st.f with hf1
  have hd := run_all_nonneg e h.flowVar h.visVelVar h.evPosVar h.keep pre st.f h.var
  rw [← hf1] at hd
  have e1 : e.rx.gps = true := h.gps.trans hg
  have e2 : e.rx.gpsHealthy = true := h.health.trans hh
  have hc : gpsClosed e x s st = gpsResetStep false e.vx e.p e.R e.w ((s.aid x).isOther s.gps) e.g e.rx e.aux { st with f := f1 } := by
    unfold gpsClosed gpsResetStep
    rw [hl, List.append_assoc, List.append_assoc, List.drop_left, List.foldl_append, ← hf1, List.foldl_append, run_fusions]
    rw [if_neg Bool.false_ne_true]
    have a : Meas.resetVelocity e.rx = velToGps e.rx := by funext q; unfold Meas.resetVelocity; rw [e1, e2]; rfl
    have b : ∀ f, onEst (Meas.resetHorizontalPosition e.rx) e.aux f = onEst (posToGps e.rx) e.aux f := by
      intro f; unfold Meas.resetHorizontalPosition; rw [e1]; rfl
    rw [b, a]
    rfl
  rw [hc]
  have A := gps_reset_then_fused false e.vx e.p e.R e.w ((s.aid x).isOther s.gps) e.g e.rx e.aux { st with f := f1 } h.accel (fun _ => ⟨e1, e2⟩) (fun c => absurd c (by decide))
    h.vel h.sacc h.pos h.hacc h.saccRange h.haccRange hd
  have B := gps_reset_no_lever_arm false e.vx e.p e.R e.w ((s.aid x).isOther s.gps) e.g e.rx e.aux { st with f := f1 } h.accel (fun _ => ⟨e1, e2⟩) (fun c => absurd c (by decide))
    h.vel h.sacc h.pos h.hacc h.saccRange h.haccRange hd
  refine ⟨?_, fun c => ⟨(B c).1, (B c).2.1, (B c).2.2.1⟩⟩
  clear B hc
  set out := gpsResetStep false e.vx e.p e.R e.w ((s.aid x).isOther s.gps) e.g e.rx e.aux { st with f := f1 } with hout
  clear_value out
  have key : ∀ z c P r y : ℝ, 0 ≤ P → 0 ≤ r → (y = Spec.afterReset z c P r ∨ y = z) → |y - (z - c)| ≤ |c| := by
    intro z c P r y hP hr hy
    have hk0 : 0 ≤ P / (P + r) := by positivity
    have hk1 : P / (P + r) ≤ 1 := div_le_one_of_le₀ (by linarith) (by linarith)
    rcases hy with rfl | rfl
    · unfold Spec.afterReset
      rw [show z - P / (P + r) * c - (z - c) = (1 - P / (P + r)) * c by ring, abs_mul, abs_of_nonneg (show 0 ≤ 1 - P / (P + r) by linarith)]
      have := abs_nonneg c
      nlinarith
    · rw [show y - (y - c) = c by ring]
  obtain ⟨a1, a2, b1, b2, c1, c2⟩ := A
  have q1 : 0 ≤ max e.g.sacc e.p.velNoise ^ 2 := sq_nonneg _
  have q2 : 0 ≤ 9 / 4 * max e.g.sacc e.p.velNoise ^ 2 := by linarith
  have q3 : 0 ≤ gpsPosVar e.p ((s.aid x).isOther s.gps) e.g := le_trans (by norm_num) (gps_noise e.p ((s.aid x).isOther s.gps) e.g).2.1
  refine ⟨key _ _ _ _ _ (sq_nonneg e.g.sacc) q1 ?_, key _ _ _ _ _ (sq_nonneg e.g.sacc) q1 ?_, key _ _ _ _ _ (sq_nonneg e.g.sacc) q2 ?_,
    key _ _ _ _ _ (sq_nonneg e.g.hacc) q3 ?_, key _ _ _ _ _ (sq_nonneg e.g.hacc) q3 ?_⟩
  · exact (em _).elim (fun c => Or.inl (a1 c).2.1) (fun c => Or.inr (a2 c).2.1)
  · exact (em _).elim (fun c => Or.inl (a1 c).2.2) (fun c => Or.inr (a2 c).2.2)
  · exact (em _).elim (fun c => Or.inl (b1 c).2) (fun c => Or.inr (b2 c).2)
  · exact (em _).elim (fun c => Or.inl (c1 c).2.1) (fun c => Or.inr (c2 c).2.1)
  · exact (em _).elim (fun c => Or.inl (c1 c).2.2) (fun c => Or.inr (c2 c).2.2)

theorem log_of_timeout (x : Aid.In) (s : Aid.St) (h : Aid.Spec.GpsInUse x s) (hh : isTimedOut x.now x.lastFail x.healthTime = true)
    (a : ¬ Aid.Spec.TriesYaw x s) (b : Aid.Spec.AidingTimeout x s) :
    ∃ pre, (Aid.controlGps x s).log = s.log ++ pre ++ [.velReset .gps, .posReset .gps] ++ Aid.Spec.gpsFusions x s := by
  rw [Aid.gps_inuse x s h]
  set t : Aid.St := { s with gpsYaw := false } with ht
  have htg : t.gps = true := h.used
  unfold Aid.gpsResets
  rw [if_pos htg, show Aid.needGsfReset x t = Aid.needGsfReset x s from rfl, show Aid.needVelPosReset x t = Aid.needVelPosReset x s from rfl,
    if_neg (by rw [Aid.tries_iff]; exact a), if_pos ((Aid.timeout_iff x s).2 b)]
  have hk : (Aid.gpsTimeoutReset x t).gps = true := by simpa using htg
  have l1 := (Aid.gpsFuse_log x (Aid.gpsTimeoutReset x t) hk).1
  have ef : Aid.Spec.gpsFusions x (Aid.gpsTimeoutReset x t) = Aid.Spec.gpsFusions x s := by
    unfold Aid.Spec.gpsFusions Aid.St.aid
    simp [ht]
  rw [ef] at l1
  have hr : ∀ u : Aid.St, u.gps = true → Grew s u → ∃ pre, ({ (Aid.resetPos x (Aid.resetVel x u)).evt .gpsTimeout with velposReq := false, tPos := x.now, tVel := x.now } : Aid.St).log =
      s.log ++ pre ++ [.velReset .gps, .posReset .gps] := by
    rintro u hu ⟨l, hl⟩
    have ev : Aid.velSrc x u = .gps := by unfold Aid.velSrc; rw [hu, hh]; rfl
    have ep : Aid.posSrc x (Aid.resetVel x u) = .gps := by
      unfold Aid.posSrc; rw [if_pos (show (Aid.resetVel x u).gps = true from hu)]
    refine ⟨l, ?_⟩
    show (u.log ++ [.velReset (Aid.velSrc x u)]) ++ [.posReset (Aid.posSrc x (Aid.resetVel x u))] = _
    rw [ev, ep, hl]
    simp
  have : ∃ pre, (Aid.gpsTimeoutReset x t).log = s.log ++ pre ++ [.velReset .gps, .posReset .gps] := by
    unfold Aid.gpsTimeoutReset
    dsimp only
    by_cases c : (x.fixedWing && x.inAir) = true
    · rw [if_pos c]
      refine hr _ ?_ ?_
      · simpa using htg
      · exact (Grew.of_eq rfl : Grew s t).trans ((grew_realign x t).trans (Grew.of_eq rfl))
    · rw [if_neg c]
      exact hr t htg (Grew.of_eq rfl)
  obtain ⟨pre, hp⟩ := this
  exact ⟨pre, by rw [l1, hp]⟩

/-- **C170 (recovery).** GPS in use, its checks passing and not failed for the health time.  If aiding timed out or an emergency yaw reset is to be made (and the yaw estimator can deliver),
then after this one sample velocity and horizontal position agree with the sample up to the motion of the antenna relative to the IMU — whatever the estimate, the covariance, the attitude
and the other flags were before — and the timers of position and velocity are restarted. -/
theorem gps_aiding_recovers (e : GpsEnv) (x : Aid.In) (s : Aid.St) (st : VPSt) (hu : Aid.Spec.GpsInUse x s) (h : Spec.SameSample e x s st)
    (hh : isTimedOut x.now x.lastFail x.healthTime = true) (hy : Aid.Spec.TriesYaw x s → x.gsfOk = true) (ht : Aid.Spec.TriesYaw x s ∨ Aid.Spec.AidingTimeout x s) :
    Spec.AtSample e (gpsClosed e x s st).hpos.st.f ∧
    (e.p.gpsBody = e.p.imuBody → (gpsClosed e x s st).hvel.ret = true ∧ (gpsClosed e x s st).vvel.ret = true ∧ (gpsClosed e x s st).hpos.ret = true) ∧
    (Aid.controlGps x s).tPos = x.now ∧ (Aid.controlGps x s).tVel = x.now := by
  obtain ⟨g1, -, g3, -⟩ := Aid.gps_recovery x s hu
  have sv : Aid.velSrc x s = .gps := by unfold Aid.velSrc; rw [hu.used, hh]; rfl
  by_cases a : Aid.Spec.TriesYaw x s
  · have r := g1 a (hy a)
    have hl : (Aid.controlGps x s).log = s.log ++ [.yawReset .gsf] ++ [.velReset .gps, .posReset .gps] ++ Aid.Spec.gpsFusions x s := by
      rw [r.1, sv]; simp
    obtain ⟨A, B⟩ := closed_at e x s st h hu.used hh _ hl
    exact ⟨A, B, r.2.2.2.2.1, r.2.2.2.2.2.2.1⟩
  · have b : Aid.Spec.AidingTimeout x s := ht.resolve_left a
    obtain ⟨pre, hl⟩ := log_of_timeout x s hu hh a b
    obtain ⟨A, B⟩ := closed_at e x s st h hu.used hh pre hl
    have r := g3 a b
    exact ⟨A, B, r.2.2.1.1, r.2.2.1.2⟩

/-- **C170 (otherwise nothing is reset).** Without timeout and request — and also, timeout or not, when an emergency yaw reset is to be made that the yaw estimator cannot deliver — the
sample is only fused, with its gates, into the estimate as it was. -/
theorem gps_aiding_only_fuses (e : GpsEnv) (x : Aid.In) (s : Aid.St) (st : VPSt) (hu : Aid.Spec.GpsInUse x s)
    (hn : (¬ Aid.Spec.TriesYaw x s ∧ ¬ Aid.Spec.AidingTimeout x s) ∨ (Aid.Spec.TriesYaw x s ∧ x.gsfOk = false)) :
    gpsClosed e x s st = gpsFuse e.vx e.p e.R e.w ((s.aid x).isOther s.gps) e.g st := by
  obtain ⟨-, g2, -, g4⟩ := Aid.gps_recovery x s hu
  have hl : (Aid.controlGps x s).log = s.log ++ Aid.Spec.gpsFusions x s := by
    rcases hn with ⟨a, b⟩ | ⟨a, b⟩
    · exact (g4 a b).1
    · exact (g2 a b).1
  unfold gpsClosed
  rw [hl, List.drop_left, run_fusions]

/-- the position of the sample passed the test against the estimate: innovation in both axes within the gate, for the variances at that point -/
def Spec.PositionPassed (e : GpsEnv) (x : Aid.In) (s : Aid.St) (st : VPSt) : Prop :=
  let b := e.R *ᵥ (e.p.gpsBody - e.p.imuBody)
  let K := max e.p.posGate 1
  let rp := gpsPosVar e.p ((s.aid x).isOther s.gps) e.g
  let P := (gpsClosed e x s st).vvel.st.f.P
  (st.f.s 7 - (e.g.pos 0 - b 0)) ^ 2 ≤ K ^ 2 * (P 7 7 + rp) ∧ (st.f.s 8 - (e.g.pos 1 - b 1)) ^ 2 ≤ K ^ 2 * (P 8 8 + rp)

theorem fuse_diag (x : VPIn) (innov v : ℝ) (o : Fin 6) (st : VPSt) (hd : ∀ i, 0 ≤ st.f.P i i) (i : Fin N) : 0 ≤ (fuseVelPosHeight x innov v o st).f.P i i := by
  obtain ⟨h1, h2⟩ := checkAndFix_spec (fun row col => st.f.P row (obsState o) / v * st.f.P (obsState o) col) st.f.P
  unfold fuseVelPosHeight
  dsimp only
  split
  · rename_i c
    have hc := h1.1 c
    refine fix_var_nonneg _ _ _ _ _ (fun a _ => ?_) i
    have := hc (accIdx a)
    show 0 ≤ (checkAndFix _ st.f.P).1 (accIdx a) (accIdx a) - _
    rw [h2, if_neg (by push Not; exact ⟨this, this⟩)]
    linarith
  · show 0 ≤ (checkAndFix _ st.f.P).1 i i
    rw [h2]
    split
    · exact le_rfl
    · exact hd i

theorem vel_diag (x : VPIn) (i0 i1 g r0 r1 i2 r2 : ℝ) (st : VPSt) (hd : ∀ i, 0 ≤ st.f.P i i) (i : Fin N) :
    0 ≤ (fuseVerticalVelocity x i2 g r2 (fuseHorizontalVelocity x i0 i1 g r0 r1 st).st).st.f.P i i := by
  have a : ∀ i, 0 ≤ (fuseHorizontalVelocity x i0 i1 g r0 r1 st).st.f.P i i := by
    unfold fuseHorizontalVelocity
    dsimp only
    split
    · exact fuse_diag x _ _ _ _ (fuse_diag x _ _ _ _ hd)
    · exact hd
  unfold fuseVerticalVelocity
  dsimp only
  split_ifs
  all_goals first
    | exact a i
    | (refine fuse_diag x _ _ _ _ ?_ i; exact a)

/-- one GPS sample of a flight -/
structure GpsStep where
  e : GpsEnv
  x : Aid.In
  s : Aid.St
  st : VPSt

/-- the estimate is consistent with the position of this sample: it passed the test, or was set to the sample -/
def Spec.Confirmed (k : GpsStep) : Prop := Spec.PositionPassed k.e k.x k.s k.st ∨ Spec.AtSample k.e (gpsClosed k.e k.x k.s k.st).hpos.st.f

/-- conditions on every sample: GPS in use, checks passing and not failed for the health time, an emergency yaw reset that is due can be made -/
structure Spec.GoodGps (k : GpsStep) : Prop where
  inUse : Aid.Spec.GpsInUse k.x k.s
  loop : Spec.SameLoop k.e k.x k.s k.st
  healthy : isTimedOut k.x.now k.x.lastFail k.x.healthTime = true
  yaw : Aid.Spec.TriesYaw k.x k.s → k.x.gsfOk = true

/-- a flight: between two samples the filter does anything to the estimate, but GPS is the only source of position, so that the position timer stays -/
def Spec.Flight : List GpsStep → Prop
  | [] => True
  | [k] => Spec.GoodGps k
  | k :: k' :: l => Spec.GoodGps k ∧ k'.s.tPos = (Aid.controlGps k.x k.s).tPos ∧ Spec.Flight (k' :: l)

theorem passed_of_ret (e : GpsEnv) (x : Aid.In) (s : Aid.St) (st : VPSt) (hc : gpsClosed e x s st = gpsFuse e.vx e.p e.R e.w ((s.aid x).isOther s.gps) e.g st)
    (hd : ∀ i, 0 ≤ st.f.P i i) (hr : (gpsClosed e x s st).hpos.ret = true) : Spec.PositionPassed e x s st := by
  unfold Spec.PositionPassed
  dsimp only
  have v7 := vel_diag e.vx ((gpsObs e.p e.R e.w e.g st.f.s).velInnov 0) ((gpsObs e.p e.R e.w e.g st.f.s).velInnov 1) (max e.p.velGate 1) ((gpsObs e.p e.R e.w e.g st.f.s).lastVelVar 0)
    ((gpsObs e.p e.R e.w e.g st.f.s).lastVelVar 1) ((gpsObs e.p e.R e.w e.g st.f.s).velInnov 2) ((gpsObs e.p e.R e.w e.g st.f.s).lastVelVar 2) st hd
  rw [hc] at hr ⊢
  have hrp : 0 < gpsPosVar e.p ((s.aid x).isOther s.gps) e.g := lt_of_lt_of_le (by norm_num) (gps_noise e.p ((s.aid x).isOther s.gps) e.g).2.1
  have hK : 0 < max e.p.posGate 1 := lt_of_lt_of_le one_pos (le_max_right _ _)
  change ∀ i, 0 ≤ (gpsFuse e.vx e.p e.R e.w ((s.aid x).isOther s.gps) e.g st).vvel.st.f.P i i at v7
  set F := gpsFuse e.vx e.p e.R e.w ((s.aid x).isOther s.gps) e.g st with hF
  have hp : F.hpos = fuseHorizontalPosition e.vx (st.f.s 7 - (e.g.pos 0 - (e.R *ᵥ (e.p.gpsBody - e.p.imuBody)) 0))
      (st.f.s 8 - (e.g.pos 1 - (e.R *ᵥ (e.p.gpsBody - e.p.imuBody)) 1)) (max e.p.posGate 1) (gpsPosVar e.p ((s.aid x).isOther s.gps) e.g)
      (gpsPosVar e.p ((s.aid x).isOther s.gps) e.g) false F.vvel.st := rfl
  rw [hp] at hr
  generalize st.f.s 7 - (e.g.pos 0 - (e.R *ᵥ (e.p.gpsBody - e.p.imuBody)) 0) = i0 at hr ⊢
  generalize st.f.s 8 - (e.g.pos 1 - (e.R *ᵥ (e.p.gpsBody - e.p.imuBody)) 1) = i1 at hr ⊢
  unfold fuseHorizontalPosition at hr
  dsimp only at hr
  split at hr
  · rename_i c
    have c' := c.resolve_right Bool.false_ne_true
    rw [max_le_iff, gate_lt _ _ _ _ hK (by have := v7 7; linarith), gate_lt _ _ _ _ hK (by have := v7 8; linarith)] at c'
    exact c'
  · exact absurd hr Bool.false_ne_true

/-- what one sample does to the position timer -/
theorem step_timer (k : GpsStep) (h : Spec.GoodGps k) :
    ((Aid.controlGps k.x k.s).tPos = k.x.now ∧ Spec.Confirmed k) ∨
    ((Aid.controlGps k.x k.s).tPos = k.s.tPos ∧ isTimedOut k.x.now k.s.tPos (2 * k.x.resetTimeout) = false) := by
  by_cases c : Aid.Spec.TriesYaw k.x k.s ∨ Aid.Spec.AidingTimeout k.x k.s
  · have r := gps_aiding_recovers k.e k.x k.s k.st h.inUse h.loop.toSameSample h.healthy h.yaw c
    exact Or.inl ⟨r.2.2.1, Or.inr r.1⟩
  · push Not at c
    have hc := gps_aiding_only_fuses k.e k.x k.s k.st h.inUse (Or.inl c)
    have hto : isTimedOut k.x.now k.s.tPos (2 * k.x.resetTimeout) = false := by
      by_contra q
      exact c.2 (Or.inr (by simpa using q))
    by_cases ok : k.x.gpsPosOk = true
    · have hr := h.loop.posOk.symm.trans ok
      have P := passed_of_ret k.e k.x k.s k.st hc h.loop.var hr
      rw [Aid.gps_inuse k.x k.s h.inUse]
      have e1 : Aid.gpsResets k.x { k.s with gpsYaw := false } = { k.s with gpsYaw := false } := by
        unfold Aid.gpsResets
        rw [if_pos (show ({ k.s with gpsYaw := false } : Aid.St).gps = true from h.inUse.used),
          show Aid.needGsfReset k.x { k.s with gpsYaw := false } = Aid.needGsfReset k.x k.s from rfl,
          show Aid.needVelPosReset k.x { k.s with gpsYaw := false } = Aid.needVelPosReset k.x k.s from rfl,
          if_neg (by rw [Aid.tries_iff]; exact c.1), if_neg (by rw [Aid.timeout_iff]; exact c.2)]
      rw [e1]
      unfold Aid.gpsFuse
      rw [if_pos (show ({ k.s with gpsYaw := false } : Aid.St).gps = true from h.inUse.used)]
      dsimp only
      obtain ⟨-, -, -, a4, -⟩ := Aid.fusePos_eff k.x (if (Aid.St.aid k.x { k.s with gpsYaw := false }).isOther k.s.gps then Aid.PosVar.gpsFree else Aid.PosVar.gpsBounded) k.x.gpsPosOk
        ((Aid.fuseVelHor k.x k.x.gpsVelOk { k.s with gpsYaw := false }).act .fuseVelVert)
      obtain ⟨-, -, -, b4, -⟩ := Aid.fuseVelHor_eff k.x k.x.gpsVelOk { k.s with gpsYaw := false }
      rcases a4 with a | a
      · exact Or.inr ⟨a.trans b4, hto⟩
      · exact Or.inl ⟨a, Or.inl P⟩
    · refine Or.inr ⟨?_, hto⟩
      rw [Aid.gps_inuse k.x k.s h.inUse]
      have e1 : Aid.gpsResets k.x { k.s with gpsYaw := false } = { k.s with gpsYaw := false } := by
        unfold Aid.gpsResets
        rw [if_pos (show ({ k.s with gpsYaw := false } : Aid.St).gps = true from h.inUse.used),
          show Aid.needGsfReset k.x { k.s with gpsYaw := false } = Aid.needGsfReset k.x k.s from rfl,
          show Aid.needVelPosReset k.x { k.s with gpsYaw := false } = Aid.needVelPosReset k.x k.s from rfl,
          if_neg (by rw [Aid.tries_iff]; exact c.1), if_neg (by rw [Aid.timeout_iff]; exact c.2)]
      rw [e1]
      unfold Aid.gpsFuse
      rw [if_pos (show ({ k.s with gpsYaw := false } : Aid.St).gps = true from h.inUse.used)]
      dsimp only
      rw [show k.x.gpsPosOk = false by simpa using ok]
      obtain ⟨-, -, -, b4, -⟩ := Aid.fuseVelHor_eff k.x k.x.gpsVelOk { k.s with gpsYaw := false }
      exact b4

/-- **C170 (no unnoticed divergence).** On a flight with GPS as the only source of position, healthy throughout, whatever happens to the estimate between the samples: at every sample, at
most two reset timeouts have passed since a sample — this or an earlier one — that the position estimate agreed with (it passed the test or was set to the sample), or since the position timer was last
started before the flight. -/
theorem gps_no_unnoticed_divergence (l : List GpsStep) (k : GpsStep) (h : Spec.Flight (l ++ [k])) :
    Spec.Confirmed k ∨ (∃ j ∈ l, Spec.Confirmed j ∧ isTimedOut k.x.now j.x.now (2 * k.x.resetTimeout) = false) ∨
    (∃ f, (l ++ [k]).head? = some f ∧ isTimedOut k.x.now f.s.tPos (2 * k.x.resetTimeout) = false) := by
  have last : ∀ (l : List GpsStep) (k : GpsStep), Spec.Flight (l ++ [k]) → Spec.GoodGps k ∧ ((∃ j ∈ l, Spec.Confirmed j ∧ k.s.tPos = j.x.now) ∨
      (∃ f, (l ++ [k]).head? = some f ∧ k.s.tPos = f.s.tPos)) := by
    intro l
    induction l with
    | nil => exact fun k h => ⟨h, Or.inr ⟨k, rfl, rfl⟩⟩
    | cons a l ih =>
      intro k h
      obtain ⟨hk, hl⟩ : Spec.GoodGps a ∧ ∃ k', (l ++ [k]).head? = some k' ∧ k'.s.tPos = (Aid.controlGps a.x a.s).tPos ∧ Spec.Flight (l ++ [k]) := by
        cases l with
        | nil => exact ⟨h.1, k, rfl, h.2.1, h.2.2⟩
        | cons b m => exact ⟨h.1, b, rfl, h.2.1, h.2.2⟩
      obtain ⟨k', e1, e2, e3⟩ := hl
      obtain ⟨g, r⟩ := ih k e3
      refine ⟨g, ?_⟩
      rcases r with ⟨j, hj, q⟩ | ⟨f, hf, q⟩
      · exact Or.inl ⟨j, List.mem_cons_of_mem _ hj, q⟩
      · rw [e1] at hf
        cases hf
        rcases step_timer a hk with ⟨t, c⟩ | ⟨t, -⟩
        · exact Or.inl ⟨a, List.mem_cons_self, c, q.trans (e2.trans t)⟩
        · exact Or.inr ⟨a, rfl, q.trans (e2.trans t)⟩
  obtain ⟨g, r⟩ := last l k h
  rcases step_timer k g with ⟨-, c⟩ | ⟨-, t⟩
  · exact Or.inl c
  · rcases r with ⟨j, hj, c, q⟩ | ⟨f, hf, q⟩
    · exact Or.inr (Or.inl ⟨j, hj, c, by rw [← q]; exact t⟩)
    · exact Or.inr (Or.inr ⟨f, hf, by rw [← q]; exact t⟩)

/-- control inputs of the example -/
def exIn (now : UInt64) (posOk : Bool) : Aid.In :=
  { gpsReady := true, useGps := true, now := now, lastPass := now, lastFail := 50000000, inAir := true, gpsVelOk := true, gpsPosOk := posOk }

/-- GPS in use, last accepted at time `T` -/
def exSt (T : UInt64) : Aid.St := { gps := true, tilt := true, yawAlign := true, tVel := T, tPos := T, tDelpos := T, tOf := T }

/-- a GPS sample at the origin -/
def exEnv (aux : Est ℝ) : GpsEnv :=
  { vx := ⟨⟨fun _ => false, true, true, 1 / 100, 0, false⟩, false, false⟩, p := ⟨0, 0, 1 / 2, 10, 3 / 10, 5, 5⟩, R := 1, w := 0, g := ⟨0, 0, 0, 1, 1⟩, rx := exGpsRIn, aux := aux, other := fun _ f => f }

theorem ex_same (aux : Est ℝ) (T now : UInt64) (ok : Bool) (f : Filt) (hh : isTimedOut now 50000000 10000000 = true) (hd : ∀ i, 0 ≤ f.P i i) :
    Spec.SameSample (exEnv aux) (exIn now ok) (exSt T) (exVP f) where
  gps := rfl
  flow := rfl
  evVel := rfl
  evPos := rfl
  inAir := rfl
  health := hh.symm
  vel := rfl
  sacc := rfl
  pos := rfl
  hacc := rfl
  saccRange := by norm_num [exEnv]
  haccRange := by norm_num [exEnv]
  flowVar := by norm_num [exEnv, exGpsRIn]
  visVelVar := fun i => by norm_num [exEnv, exGpsRIn]
  evPosVar := fun i => by norm_num [exEnv, exGpsRIn]
  accel := rfl
  var := hd
  keep := fun _ _ h => h

/-- the first sample after 50 s without: any estimate at all, with variances not negative, is set to the sample -/
theorem ex_first (aux : Est ℝ) (f : Filt) (hd : ∀ i, 0 ≤ f.P i i) :
    Spec.GoodGps ⟨exEnv aux, exIn 100000000 true, exSt 50000000, exVP f⟩ ∧ Aid.Spec.AidingTimeout (exIn 100000000 true) (exSt 50000000) := by
  have hh : isTimedOut (exIn 100000000 true).now (exIn 100000000 true).lastFail (exIn 100000000 true).healthTime = true := by decide +kernel
  have hs := ex_same aux 50000000 100000000 true f (by decide +kernel) hd
  have hu : Aid.Spec.GpsInUse (exIn 100000000 true) (exSt 50000000) := ⟨rfl, rfl, rfl, by decide +kernel, rfl⟩
  have ht : Aid.Spec.AidingTimeout (exIn 100000000 true) (exSt 50000000) := (Aid.timeout_iff _ _).1 (by decide +kernel)
  have hy : Aid.Spec.TriesYaw (exIn 100000000 true) (exSt 50000000) → (exIn 100000000 true).gsfOk = true :=
    fun c => absurd ((Aid.tries_iff _ _).2 c) (by decide +kernel)
  have q := (gps_aiding_recovers (exEnv aux) _ _ (exVP f) hu hs hh hy (Or.inr ht)).2.1 rfl
  have e1 : (exIn 100000000 true).gpsVelOk = true := rfl
  have e2 : (exIn 100000000 true).gpsPosOk = true := rfl
  have hl : Spec.SameLoop (exEnv aux) (exIn 100000000 true) (exSt 50000000) (exVP f) := ⟨hs, e1.trans q.1.symm, e2.trans q.2.2.symm⟩
  exact ⟨⟨hu, hl, hh, hy⟩, ht⟩

theorem ex_obs (aux : Est ℝ) (f : Filt) (hs : ∀ i, f.s i = if i = 7 then 1000 else 0) :
    gpsFuse (exEnv aux).vx (exEnv aux).p (exEnv aux).R (exEnv aux).w false (exEnv aux).g (exVP f) =
      let A := fuseHorizontalVelocity (exEnv aux).vx 0 0 (max 5 1) 1 1 (exVP f)
      let B := fuseVerticalVelocity (exEnv aux).vx 0 (max 5 1) (9 / 4) A.st
      ⟨A, B, fuseHorizontalPosition (exEnv aux).vx 1000 0 (max 5 1) 1 1 false B.st⟩ := by
  have zc : Fusion.cross3 (0 : V3 ℝ) 0 = 0 := by funext k; fin_cases k <;> simp [Fusion.cross3]
  have cg : gpsCorrect (exEnv aux).p (exEnv aux).R (exEnv aux).w (exEnv aux).g = ⟨0, 0, 0, 1, 1⟩ := by
    show (⟨(0 : V3 ℝ) - (1 : M3 ℝ) *ᵥ Fusion.cross3 (0 : V3 ℝ) ((0 : V3 ℝ) - 0), fun i => (0 : ℝ) - ((1 : M3 ℝ) *ᵥ ((0 : V3 ℝ) - 0)) i.castSucc,
      (0 : ℝ) + ((1 : M3 ℝ) *ᵥ ((0 : V3 ℝ) - 0)) 2, 1, 1⟩ : GpsData) = _
    rw [sub_zero, zc, Matrix.mulVec_zero]
    simp only [sub_zero, Pi.zero_apply, add_zero]
    rfl
  have e0 : (exEnv aux).p.velGate = 5 := rfl
  have e1 : (exEnv aux).p.posGate = 5 := rfl
  have hv : gpsVelVar (exEnv aux).p ⟨0, 0, 0, 1, 1⟩ = ![1, 1, 9 / 4] := by
    unfold gpsVelVar sq
    have : max (1 : ℝ) (exEnv aux).p.velNoise = 1 := max_eq_left (by norm_num [exEnv])
    dsimp only
    rw [this]
    norm_num
  have hp : gpsPosVar (exEnv aux).p false ⟨0, 0, 0, 1, 1⟩ = 1 := by
    rw [(gps_noise _ false _).1]
    norm_num [exEnv]
  unfold gpsFuse gpsObs
  dsimp only
  rw [cg, hv, hp, e0, e1, show (exVP f).f = f from rfl, hs, hs, hs, hs, hs]
  simp only [Matrix.cons_val_zero, Matrix.cons_val_one, Matrix.cons_val, Pi.zero_apply, sub_zero]
  rw [if_neg (by decide), if_neg (by decide), if_neg (by decide), if_true, if_neg (by decide)]

/-- the next one 0.2 s later, when the estimate has jumped 1 km north: its position is rejected -/
theorem ex_second (aux : Est ℝ) (f : Filt) (hP : ∀ i j, f.P i j = if i = j then 1 else 0) (hs : ∀ i, f.s i = if i = 7 then 1000 else 0) :
    Spec.GoodGps ⟨exEnv aux, exIn 100200000 false, exSt 100000000, exVP f⟩ := by
  have hd : ∀ i, 0 ≤ f.P i i := fun i => by rw [hP, if_pos rfl]; norm_num
  have hl : ∀ q, Lone f.P q := fun q r hr => ⟨by rw [hP, if_neg hr], by rw [hP, if_neg (Ne.symm hr)]⟩
  have h1 : ∀ q, f.P q q = 1 := fun q => by rw [hP, if_pos rfl]
  have b1 : ∀ q, InLim (f.P q q) := fun q => by rw [h1]; unfold InLim; norm_num
  have bo : InLim 1 := by unfold InLim; norm_num
  have hh : isTimedOut (exIn 100200000 false).now (exIn 100200000 false).lastFail (exIn 100200000 false).healthTime = true := by decide +kernel
  have hsm := ex_same aux 100000000 100200000 false f (by decide +kernel) hd
  have hu : Aid.Spec.GpsInUse (exIn 100200000 false) (exSt 100000000) := ⟨rfl, rfl, rfl, by decide +kernel, rfl⟩
  have hny : ¬ Aid.Spec.TriesYaw (exIn 100200000 false) (exSt 100000000) := fun c => absurd ((Aid.tries_iff _ _).2 c) (by decide +kernel)
  have hnt : ¬ Aid.Spec.AidingTimeout (exIn 100200000 false) (exSt 100000000) := fun c => absurd ((Aid.timeout_iff _ _).2 c) (by decide +kernel)
  have hc := (gps_aiding_only_fuses (exEnv aux) _ _ (exVP f) hu (Or.inl ⟨hny, hnt⟩)).trans (ex_obs aux f hs)
  have g5 : (0 : ℝ) < max 5 1 := by norm_num
  obtain ⟨A1, -, KA⟩ := hvel_lone_gps (exEnv aux).vx 0 0 (max 5 1) 1 1 (exVP f) g5 one_pos one_pos (hl 4) (hl 5) hd (b1 5)
  have rA := (A1 (by constructor <;> (show (0 : ℝ) ^ 2 ≤ (max 5 1) ^ 2 * (f.P _ _ + 1); rw [h1]; norm_num))).1
  set A := fuseHorizontalVelocity (exEnv aux).vx 0 0 (max 5 1) 1 1 (exVP f) with hA
  obtain ⟨-, -, KB⟩ := vvel_lone_gps (exEnv aux).vx 0 (max 5 1) (9 / 4) A.st rfl g5 (by norm_num) (KA.lone 6 (hl 6)) KA.nonneg
  set B := fuseVerticalVelocity (exEnv aux).vx 0 (max 5 1) (9 / 4) A.st with hB
  have p7 : A.st.f.P 7 7 = 1 := (KA.var 7 (by decide) (by decide) (by decide) (b1 7)).trans (h1 7)
  have p8 : A.st.f.P 8 8 = 1 := (KA.var 8 (by decide) (by decide) (by decide) (b1 8)).trans (h1 8)
  have q7 : B.st.f.P 7 7 = 1 := (KB.var 7 (by decide) (by decide) (by decide) (by rw [p7]; exact bo)).trans p7
  have q8 : B.st.f.P 8 8 = 1 := (KB.var 8 (by decide) (by decide) (by decide) (by rw [p8]; exact bo)).trans p8
  obtain ⟨-, C1, -⟩ := hpos_lone_gps (exEnv aux).vx 1000 0 (max 5 1) 1 1 B.st g5 one_pos one_pos (KB.lone 7 (KA.lone 7 (hl 7))) (KB.lone 8 (KA.lone 8 (hl 8))) KB.nonneg (by rw [q8]; exact bo)
  have rC := (C1 (by rw [q7]; norm_num)).1
  refine ⟨hu, ⟨hsm, ?_, ?_⟩, hh, fun c => absurd c hny⟩
  · rw [hc]; exact rA.symm
  · rw [hc]; exact rC.symm

/-- Non-vacuity: a flight of two samples: at the first aiding has timed out, at the second the position is 1 km off and rejected -/
example (aux : Est ℝ) : ∃ f g : Filt, Spec.Flight [⟨exEnv aux, exIn 100000000 true, exSt 50000000, exVP f⟩, ⟨exEnv aux, exIn 100200000 false, exSt 100000000, exVP g⟩] ∧
    f.s = g.s ∧ Spec.AtSample (exEnv aux) (gpsClosed (exEnv aux) (exIn 100000000 true) (exSt 50000000) (exVP f)).hpos.st.f := by
  let f : Filt := { exFilt with s := fun i => if i = 7 then 1000 else 0 }
  have hP : ∀ i j, f.P i j = if i = j then 1 else 0 := fun _ _ => rfl
  have h1 := ex_first aux f fun i => by rw [hP, if_pos rfl]; norm_num
  have h2 := ex_second aux f hP fun _ => rfl
  have r := gps_aiding_recovers (exEnv aux) (exIn 100000000 true) (exSt 50000000) (exVP f) h1.1.inUse h1.1.loop.toSameSample h1.1.healthy h1.1.yaw (Or.inr h1.2)
  have t : (exSt 100000000).tPos = (exIn 100000000 true).now := rfl
  exact ⟨f, f, ⟨h1.1, t.trans r.2.2.1.symm, h2⟩, rfl, r.1⟩

end

end Ecl.Whole
