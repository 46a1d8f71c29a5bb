import Verif.Whole.ShiftFuse
import Verif.Whole.Extra

/-!
# Where the local origin is does not matter (C158)
-/

namespace Ecl.Whole

open Ecl.Cov Ecl.Fusion Ecl.Ekf
open Ecl.ImuDownSampler (ImuSample AxisAngleLib)
open scoped Matrix

noncomputable section

/-! ## Specification -/

/-- the filter described in a local frame whose origin is moved by `-d`: the position is displaced, all other members are the same -/
def Spec.displacedW (d : Fin 3 → ℝ) (w : W) : W := { w with f := { w.f with s := Spec.displaced d w.f.s } }

/-- the same step described in that frame: every position handed to it is displaced too — the height of the terrain, the GPS, vision and last known
positions of a position reset, the height references and the vision heights of a height reset.  The innovations of the position fusions (estimate
minus observation) and everything else are unchanged. -/
def Spec.relocated (d : Fin 3 → ℝ) : Op → Op
  | .flow x a => .flow { x with terrain := x.terrain + d 2 } a
  | .velocityReset x a => .velocityReset { x with terrain := x.terrain + d 2 } a
  | .positionReset x a => .positionReset
      { x with
        gpsPos := ![x.gpsPos 0 + d 0, x.gpsPos 1 + d 1], lastKnown := ![x.lastKnown 0 + d 0, x.lastKnown 1 + d 1]
        evPosMeas := x.evPosMeas + (if x.rotateEv then x.REvᵀ *ᵥ d else d) } a
  | .heightReset x h => .heightReset { x with evNewest := x.evNewest + d 2, evDelayed := x.evDelayed + d 2 }
      { h with offset := h.offset + d 2, baroOffset := h.baroOffset + d 2 }
  | op => op

/-- the step does not refer to the origin itself: not the re-initialisation, and not a position reset on the ground with optical flow alone (which
sets the position to zero); a rotation of vision data is orthogonal -/
def Spec.OriginFree : Op → Prop
  | .reset => False
  | .positionReset x _ => (x.gps = true ∨ x.evPos = true ∨ x.optFlow = false ∨ x.inAir = true) ∧ (x.rotateEv = true → x.REv * x.REvᵀ = 1)
  | _ => True

/-- the position is inside the limits of the estimator (1000 km along each axis) in both frames -/
def Spec.Inside (d : Fin 3 → ℝ) (w : W) : Prop :=
  |w.f.s 7| < 1000000 ∧ |w.f.s 8| < 1000000 ∧ |w.f.s 9| < 1000000 ∧
  |w.f.s 7 + d 0| < 1000000 ∧ |w.f.s 8 + d 1| < 1000000 ∧ |w.f.s 9 + d 2| < 1000000

/-! ## Proof -/

/-- displaced state record -/
def movedSt (d : Fin 3 → ℝ) (t : State ℝ) : State ℝ := { t with pos := ![t.pos 0 + d 0, t.pos 1 + d 1, t.pos 2 + d 2] }

theorem toState_moved (d : Fin 3 → ℝ) (s : Vec ℝ) : toState (Spec.displaced d s) = movedSt d (toState s) := rfl

theorem ofState_moved (d : Fin 3 → ℝ) (t : State ℝ) : ofState (movedSt d t) = Spec.displaced d (ofState t) := by
  funext i
  fin_cases i <;> rfl

theorem constrain_inside {v : ℝ} (h : |constrain v (-1000000) 1000000| < 1000000) : constrain v (-1000000) 1000000 = v := by
  have := abs_lt.mp h
  unfold constrain at this ⊢
  split_ifs at this ⊢ <;> first | rfl | (exfalso; linarith [this.1, this.2])

theorem constrain_keep {v : ℝ} (h : |v| < 1000000) : constrain v (-1000000) 1000000 = v := by
  have := abs_lt.mp h
  unfold constrain
  split_ifs <;> first | rfl | (exfalso; linarith [this.1, this.2])

theorem vec3_eq {v : Fin 3 → ℝ} {a b c : ℝ} (h0 : v 0 = a) (h1 : v 1 = b) (h2 : v 2 = c) : v = ![a, b, c] := by
  funext i; fin_cases i
  · exact h0
  · exact h1
  · exact h2

theorem moved_strap (d : Fin 3 → ℝ) (L : AxisAngleLib) (lim : ℝ) (er : V3 ℝ) (imu : ImuSample) (s : Strap)
    (h : ∀ i, |(Strap.predict L lim er imu s).state.pos i| < 1000000 ∧ |(Strap.predict L lim er imu s).state.pos i + d i| < 1000000) :
    Strap.predict L lim er imu { s with state := movedSt d s.state } =
      { Strap.predict L lim er imu s with state := movedSt d (Strap.predict L lim er imu s).state } := by
  obtain ⟨p, hp⟩ : ∃ p : V3 ℝ, ∀ i, (Strap.predict L lim er imu s).state.pos i = constrain (p i) (-1000000) 1000000 ∧
      (Strap.predict L lim er imu { s with state := movedSt d s.state }).state.pos i = constrain (p i + d i) (-1000000) 1000000 := by
    refine ⟨s.state.pos + (imu.deltaVelDt * (1 / 2)) • (s.state.vel + ![(s.state.vel + (Strap.predict L lim er imu s).R *ᵥ (imu.deltaVel - s.state.dVelBias)) 0,
      (s.state.vel + (Strap.predict L lim er imu s).R *ᵥ (imu.deltaVel - s.state.dVelBias)) 1,
      (s.state.vel + (Strap.predict L lim er imu s).R *ᵥ (imu.deltaVel - s.state.dVelBias)) 2 + oneG * imu.deltaVelDt]), fun i => ⟨rfl, ?_⟩⟩
    have hc : ∀ v : V3 ℝ, (constrain (((movedSt d s.state).pos + v) i) (-1000000) 1000000 : ℝ) = constrain ((s.state.pos + v) i + d i) (-1000000) 1000000 := by
      intro v
      have : (movedSt d s.state).pos i = s.state.pos i + d i := by fin_cases i <;> rfl
      rw [Pi.add_apply, Pi.add_apply, this]
      congr 1
      ring
    exact hc _
  have e : ∀ i, (Strap.predict L lim er imu { s with state := movedSt d s.state }).state.pos i = (Strap.predict L lim er imu s).state.pos i + d i := by
    intro i
    obtain ⟨a, b⟩ := hp i
    have hi := h i
    rw [a] at hi
    rw [b, a, constrain_inside hi.1]
    rw [constrain_inside hi.1] at hi
    exact constrain_keep hi.2
  have hpos := vec3_eq (e 0) (e 1) (e 2)
  have hs : (Strap.predict L lim er imu { s with state := movedSt d s.state }).state = movedSt d (Strap.predict L lim er imu s).state := by
    unfold movedSt
    rw [← hpos]
    rfl
  rw [← hs]
  rfl

variable (d : Fin 3 → ℝ)

theorem shift_predict (x : PredictIn) (w : W) (h : Spec.Inside d (predict x w)) :
    predict x (Spec.displacedW d w) = Spec.displacedW d (predict x w) := by
  have hm := moved_strap d x.L x.accBiasLim x.earthRate x.imu ⟨toState w.f.s, w.R, w.accelLpf, w.dtEkfAvg, w.angRateRaw⟩ (by
    obtain ⟨a, b, c, a', b', c'⟩ := h
    intro i
    fin_cases i
    · exact ⟨a, a'⟩
    · exact ⟨b, b'⟩
    · exact ⟨c, c'⟩)
  unfold predict
  simp only [Spec.displacedW, toState_moved]
  dsimp only at hm
  rw [hm]
  simp only [ofState_moved]
  rfl

theorem shift_onEst (g g' : Meas.Flt → Meas.Flt) (aux : Est ℝ) (f : Filt)
    (h : ∀ t : State ℝ, (g' ⟨{ aux with state := movedSt d t }, f.P, true⟩).est.state = movedSt d (g ⟨{ aux with state := t }, f.P, true⟩).est.state ∧
      (g' ⟨{ aux with state := movedSt d t }, f.P, true⟩).P = (g ⟨{ aux with state := t }, f.P, true⟩).P) :
    onEst g' aux (Spec.displacedF d f) = Spec.displacedF d (onEst g aux f) := by
  obtain ⟨h1, h2⟩ := h (toState f.s)
  unfold onEst
  dsimp only
  rw [dF_s, dF_P, toState_moved, h1, h2, ofState_moved]
  rfl

/-- displaced yaw reset data -/
def movedY (s : Yaw.St) : Yaw.St := { s with est := { s.est with state := movedSt d s.est.state } }

theorem shift_onYaw (g : Yaw.St → Yaw.St) (aux : Yaw.St) (w : W) (h : ∀ s, g (movedY d s) = movedY d (g s)) :
    onYaw g aux (Spec.displacedW d w) = Spec.displacedW d (onYaw g aux w) := by
  have := h { aux with est := { aux.est with state := toState w.f.s }, R := w.R, cov := w.f.M }
  have e : g { aux with est := { aux.est with state := toState (Spec.displacedW d w).f.s }, R := w.R, cov := w.f.M } =
      movedY d (g { aux with est := { aux.est with state := toState w.f.s }, R := w.R, cov := w.f.M }) := this
  have e1 : onYaw g aux (Spec.displacedW d w) =
      (fun r : Yaw.St => ({ w with f := { w.f with s := ofState r.est.state, M := r.cov }, R := r.R } : W))
        (g { aux with est := { aux.est with state := toState (Spec.displacedW d w).f.s }, R := w.R, cov := w.f.M }) := rfl
  rw [e1, e]
  dsimp only [movedY]
  rw [ofState_moved]
  rfl

theorem shiftY_quat (L : Yaw.Lib) (y v : ℝ) (b : Bool) (s : Yaw.St) : Yaw.resetQuatStateYaw L y v b (movedY d s) = movedY d (Yaw.resetQuatStateYaw L y v b s) := rfl

theorem shiftY_magI (m : V3 ℝ) (s : Yaw.St) : Yaw.setMagI m (movedY d s) = movedY d (Yaw.setMagI m s) := rfl

theorem shiftY_mag (L : Yaw.Lib) (x : Yaw.In) (m : V3 ℝ) (i u : Bool) (s : Yaw.St) :
    Yaw.resetMagHeading L x m i u (movedY d s) = (movedY d (Yaw.resetMagHeading L x m i u s).1, (Yaw.resetMagHeading L x m i u s).2) := by
  have h1 : Yaw.getMagDeclination x (movedY d s) = Yaw.getMagDeclination x s := rfl
  have h2 : (movedY d s).tAlign = s.tAlign ∧ (movedY d s).evYaw = s.evYaw ∧ (movedY d s).inhibited = s.inhibited ∧ (movedY d s).R = s.R ∧
      (movedY d s).cov = s.cov := ⟨rfl, rfl, rfl, rfl, rfl⟩
  unfold Yaw.resetMagHeading
  simp only [shiftY_quat, shiftY_magI, h1, h2.1, h2.2.1, h2.2.2.1, h2.2.2.2.1, h2.2.2.2.2]
  by_cases c1 : x.tDel = s.tAlign
  · simp only [c1, if_true]
  by_cases c2 : x.magType ≥ 5
  · simp only [c1, c2, if_true, if_false]; rfl
  by_cases c3 : s.evYaw = true
  · simp only [c1, c2, c3, if_true, if_false]; rfl
  by_cases c4 : x.magType ≤ 2
  · simp only [c1, c2, c3, c4, if_true, if_false]; rfl
  by_cases c5 : x.magType = 4 ∧ s.inhibited = true
  · simp only [c1, c2, c3, c4, c5, if_true, if_false, and_self]; rfl
  · have c3' : s.evYaw = false := by simpa using c3
    simp only [c1, c2, c3', c4, c5, if_false, Bool.false_eq_true]

/-- last part of the course alignment -/
def courseEnd (L : Yaw.Lib) (x : Yaw.In) (bad : Bool) (yaw : ℝ) (s : Yaw.St) : Yaw.St :=
  let s := Yaw.resetQuatStateYaw L yaw (Yaw.courseVar x s) true s
  let s := { s with est := { s.est with state := { s.est.state with magB := 0 } }, R := s.est.state.quat.dcm }
  let s := Yaw.setMagI x.mag s
  { s with cov := resetMagCov x.magNoise s.cov, tAlign := x.tDel, velposReq := bad }

def courseFault (s : Yaw.St) : Yaw.St := if s.magAligned && decide (2 ≤ s.nBad) && !s.magFault then { s with magFault := true } else s

def courseMark (s : Yaw.St) : Yaw.St := if !s.magAligned then { s with magAligned := true } else s

def courseCount (bad : Bool) (s : Yaw.St) : Yaw.St := if bad then { s with nBad := s.nBad + 1 } else s

theorem shiftC_end (L : Yaw.Lib) (x : Yaw.In) (bad : Bool) (yaw : ℝ) (s : Yaw.St) : courseEnd L x bad yaw (movedY d s) = movedY d (courseEnd L x bad yaw s) := rfl

theorem shiftC_fault (s : Yaw.St) : courseFault (movedY d s) = movedY d (courseFault s) := by
  have h : (movedY d s).magAligned = s.magAligned ∧ (movedY d s).nBad = s.nBad ∧ (movedY d s).magFault = s.magFault := ⟨rfl, rfl, rfl⟩
  unfold courseFault
  rw [h.1, h.2.1, h.2.2]
  split <;> rfl

theorem shiftC_mark (s : Yaw.St) : courseMark (movedY d s) = movedY d (courseMark s) := by
  have h : (movedY d s).magAligned = s.magAligned := rfl
  unfold courseMark
  rw [h]
  split <;> rfl

theorem shiftC_count (b : Bool) (s : Yaw.St) : courseCount b (movedY d s) = movedY d (courseCount b s) := by
  cases b <;> rfl

theorem courseAlign_eq (L : Yaw.Lib) (x : Yaw.In) (s : Yaw.St) : Yaw.courseAlign L x s =
    (fun t => if Yaw.badMagYaw x s || !t.yawAlign then (fun u => courseEnd L x (Yaw.badMagYaw x s) (Yaw.yawFromCourse x u) (courseMark u)) (courseFault t)
      else (fun t : Yaw.St => { t with cov := resetMagCov x.magNoise t.cov, tAlign := x.tDel }) (Yaw.setMagI x.mag t)) (courseCount (Yaw.badMagYaw x s) s) := rfl

theorem shiftC_from (x : Yaw.In) (s : Yaw.St) : Yaw.yawFromCourse x (movedY d s) = Yaw.yawFromCourse x s := rfl

theorem shiftY_course (L : Yaw.Lib) (x : Yaw.In) (s : Yaw.St) : Yaw.courseAlign L x (movedY d s) = movedY d (Yaw.courseAlign L x s) := by
  have hb : Yaw.badMagYaw x (movedY d s) = Yaw.badMagYaw x s := rfl
  rw [courseAlign_eq, courseAlign_eq, hb]
  generalize Yaw.badMagYaw x s = bad
  dsimp only
  rw [shiftC_count]
  generalize courseCount bad s = t
  have hy : (movedY d t).yawAlign = t.yawAlign := rfl
  rw [hy, shiftC_fault, shiftC_from, shiftC_mark, shiftC_end]
  split <;> rfl

theorem shiftY_realign (L : Yaw.Lib) (x : Yaw.In) (s : Yaw.St) :
    Yaw.realignYawGps L x (movedY d s) = (movedY d (Yaw.realignYawGps L x s).1, (Yaw.realignYawGps L x s).2) := by
  unfold Yaw.realignYawGps
  split
  · exact shiftY_mag d L x _ _ _ s
  · rw [shiftY_course]

theorem shiftY_gsf (L : Yaw.Lib) (x : Yaw.In) (s : Yaw.St) :
    Yaw.resetYawToGsf L x (movedY d s) = (movedY d (Yaw.resetYawToGsf L x s).1, (Yaw.resetYawToGsf L x s).2) := by
  unfold Yaw.resetYawToGsf
  split
  · rfl
  · split
    · rfl
    · dsimp only
      split <;> rfl

theorem shift_velReset (x : Meas.RIn) (aux : Est ℝ) (f : Filt) :
    onEst (Meas.resetVelocity { x with terrain := x.terrain + d 2 }) aux (Spec.displacedF d f) = Spec.displacedF d (onEst (Meas.resetVelocity x) aux f) := by
  refine shift_onEst d _ _ aux f fun t => ?_
  have hr : Meas.flowResetRange { x with terrain := x.terrain + d 2 } (movedSt d t) = Meas.flowResetRange x t := by
    unfold Meas.flowResetRange
    show max (x.terrain + d 2 - (t.pos 2 + d 2)) x.clearance / x.cosTilt = _
    congr 2
    ring
  unfold Meas.resetVelocity
  dsimp only
  split
  · exact ⟨rfl, rfl⟩
  split
  · unfold Meas.velToFlow
    dsimp only
    rw [hr]
    split <;> exact ⟨rfl, rfl⟩
  split <;> exact ⟨rfl, rfl⟩

theorem setXY_moved (t : State ℝ) (p : Fin 2 → ℝ) :
    ({ movedSt d t with pos := setXY (movedSt d t).pos ![p 0 + d 0, p 1 + d 1] } : State ℝ) = movedSt d { t with pos := setXY t.pos p } := by
  unfold movedSt
  congr 1

theorem shift_posReset (x : Meas.RIn) (aux : Est ℝ) (f : Filt)
    (h1 : x.gps = true ∨ x.evPos = true ∨ x.optFlow = false ∨ x.inAir = true) (h2 : x.rotateEv = true → x.REv * x.REvᵀ = 1) :
    onEst (Meas.resetHorizontalPosition
      { x with
        gpsPos := ![x.gpsPos 0 + d 0, x.gpsPos 1 + d 1], lastKnown := ![x.lastKnown 0 + d 0, x.lastKnown 1 + d 1]
        evPosMeas := x.evPosMeas + (if x.rotateEv then x.REvᵀ *ᵥ d else d) }) aux (Spec.displacedF d f) =
      Spec.displacedF d (onEst (Meas.resetHorizontalPosition x) aux f) := by
  refine shift_onEst d _ _ aux f fun t => ?_
  have hev : (if x.rotateEv = true then x.REv *ᵥ (x.evPosMeas + (if x.rotateEv = true then x.REvᵀ *ᵥ d else d)) else x.evPosMeas + (if x.rotateEv = true then x.REvᵀ *ᵥ d else d)) =
      (if x.rotateEv = true then x.REv *ᵥ x.evPosMeas else x.evPosMeas) + d := by
    cases hr : x.rotateEv
    · simp
    · simp only [if_true]
      rw [Matrix.mulVec_add, Matrix.mulVec_mulVec, h2 hr, Matrix.one_mulVec]
  unfold Meas.resetHorizontalPosition
  dsimp only
  by_cases c1 : x.gps = true
  · rw [if_pos c1, if_pos c1]
    exact ⟨setXY_moved d t x.gpsPos, rfl⟩
  rw [if_neg c1, if_neg c1]
  by_cases c2 : x.evPos = true
  · rw [if_pos c2, if_pos c2]
    refine ⟨?_, rfl⟩
    unfold Meas.posToVision
    dsimp only
    rw [hev]
    exact setXY_moved d t ![(if x.rotateEv = true then x.REv *ᵥ x.evPosMeas else x.evPosMeas) 0, (if x.rotateEv = true then x.REv *ᵥ x.evPosMeas else x.evPosMeas) 1]
  rw [if_neg c2, if_neg c2]
  by_cases c3 : x.optFlow = true
  · rw [if_pos c3, if_pos c3]
    have c4 : x.inAir = true := by
      rcases h1 with h | h | h | h
      · exact absurd h c1
      · exact absurd h c2
      · rw [h] at c3; cases c3
      · exact h
    rw [c4]
    exact ⟨setXY_moved d t x.lastKnown, rfl⟩
  · rw [if_neg c3, if_neg c3]
    exact ⟨setXY_moved d t x.lastKnown, rfl⟩

theorem disp_set9 (s : Vec ℝ) (p : ℝ) : Function.update (Spec.displaced d s) 9 (p + d 2) = Spec.displaced d (Function.update s 9 p) := by
  funext i
  by_cases h : i = 9
  · subst h; rw [Function.update_self, disp_9, Function.update_self]
  · rw [Function.update_of_ne h]
    have h9 : i.val ≠ 9 := fun e => h (Fin.ext e)
    unfold Spec.displaced
    rw [Function.update_of_ne h, if_neg h9]

theorem disp_set6 (s : Vec ℝ) (p : ℝ) : Function.update (Spec.displaced d s) 6 p = Spec.displaced d (Function.update s 6 p) := by
  funext i
  by_cases h : i = 6
  · subst h; rw [Function.update_self, disp_6, Function.update_self]
  · rw [Function.update_of_ne h]
    unfold Spec.displaced
    rw [Function.update_of_ne h]

theorem shift_heightReset (x : Control.HIn) (h : Control.HSt) (f : Filt) :
    resetHeight { x with evNewest := x.evNewest + d 2, evDelayed := x.evDelayed + d 2 }
      { h with offset := h.offset + d 2, baroOffset := h.baroOffset + d 2 } (Spec.displacedF d f) = Spec.displacedF d (resetHeight x h f) := by
  have e1 : h.offset + d 2 - x.dist = (h.offset - x.dist) + d 2 := by ring
  have e2 : -x.baroHgtNew + (h.baroOffset + d 2) = (-x.baroHgtNew + h.baroOffset) + d 2 := by ring
  have e3 : h.offset + d 2 - x.gpsHgtNew + x.gpsAltRef = (h.offset - x.gpsHgtNew + x.gpsAltRef) + d 2 := by ring
  have e4 : (if x.tNewestEv ≥ x.tDelayedEv then x.evNewest + d 2 else x.evDelayed + d 2) = (if x.tNewestEv ≥ x.tDelayedEv then x.evNewest else x.evDelayed) + d 2 := by
    split <;> rfl
  unfold resetHeight
  dsimp only
  rw [e1, e2, e3, e4]
  simp only [dF_s, dF_M, disp_set9]
  split_ifs <;> simp only [Spec.displacedF, disp_set6]

theorem disp_setS3 (k : ℕ) (hk : 9 < k) (v : Fin 3 → ℝ) (s : Vec ℝ) : setS3 k v (Spec.displaced d s) = Spec.displaced d (setS3 k v s) := by
  funext i
  by_cases h : k ≤ i.val ∧ i.val < k + 3
  · rw [disp_other _ _ _ (by omega)]
    unfold setS3; rw [dif_pos h, dif_pos h]
  · have e : setS3 k v s i = s i := by unfold setS3; rw [dif_neg h]
    have e' : setS3 k v (Spec.displaced d s) i = Spec.displaced d s i := by unfold setS3; rw [dif_neg h]
    rw [e']
    unfold Spec.displaced
    rw [e]

/-- one step -/
theorem shift_step (w : W) (op : Op) (ho : Spec.OriginFree op) (hi : Spec.Inside d (step w op)) :
    step (Spec.displacedW d w) (Spec.relocated d op) = Spec.displacedW d (step w op) := by
  cases op with
  | reset => exact ho.elim
  | tilt a g =>
    simp only [Spec.relocated, step]
    cases initialiseTilt a g with
    | none => rfl
    | some q =>
      dsimp only
      have : ofState { toState (Spec.displacedW d w).f.s with quat := q } = Spec.displaced d (ofState { toState w.f.s with quat := q }) := by
        rw [← ofState_moved]; rfl
      rw [this]; rfl
  | initCov x => rfl
  | predict x => exact shift_predict d x w hi
  | hvel x i0 i1 g r0 r1 a => exact congrArg (fun f => ({ w with f := f } : W)) (d_hvel d x i0 i1 g r0 r1 { a with f := w.f })
  | vvel x i g r a => exact congrArg (fun f => ({ w with f := f } : W)) (d_vvel d x i g r { a with f := w.f })
  | hpos x i0 i1 g r0 r1 b a => exact congrArg (fun f => ({ w with f := f } : W)) (d_hpos d x i0 i1 g r0 r1 b { a with f := w.f })
  | vpos x i g r a => exact congrArg (fun f => ({ w with f := f } : W)) (d_vpos d x i g r { a with f := w.f })
  | mag x a => exact congrArg (fun f => ({ w with f := f } : W)) (d_fuseMag d x { a with f := w.f })
  | declination x fx sg a => exact congrArg (fun f => ({ w with f := f } : W)) (d_fuseDecl d x fx sg { a with f := w.f })
  | heading x a =>
    have := d_heading d x { a with y := { a.y with f := w.f }, Rte := w.R }
    simp only [Spec.relocated, step]
    dsimp only at this
    simp only [Spec.displacedF] at this
    simp only [Spec.displacedW]
    rw [this]
  | gpsYaw x a => exact congrArg (fun f => ({ w with f := f } : W)) (d_gpsYaw d x { a with f := w.f })
  | airspeed x a => exact congrArg (fun f => ({ w with f := f } : W)) (d_airspeed d x { a with f := w.f })
  | sideslip x a => exact congrArg (fun f => ({ w with f := f } : W)) (d_sideslip d x { a with f := w.f })
  | drag x a => exact congrArg (fun f => ({ w with f := f } : W)) (d_drag d x { a with f := w.f })
  | flow x a => exact congrArg (fun f => ({ w with f := f } : W)) (d_flow d x { a with f := w.f })
  | wind x => exact congrArg (fun f => ({ w with f := f } : W)) (d_resetWind d x w.f)
  | velocityReset x a => exact congrArg (fun f => ({ w with f := f } : W)) (shift_velReset d x a w.f)
  | positionReset x a => exact congrArg (fun f => ({ w with f := f } : W)) (shift_posReset d x a w.f ho.1 ho.2)
  | heightReset x h => exact congrArg (fun f => ({ w with f := f } : W)) (shift_heightReset d x h w.f)
  | magYaw L x m i u a => exact shift_onYaw d (fun s => (Yaw.resetMagHeading L x m i u s).1) a w fun s => by rw [shiftY_mag]
  | courseYaw L x a => exact shift_onYaw d (fun s => (Yaw.realignYawGps L x s).1) a w fun s => by rw [shiftY_realign]
  | gsfYaw L x a => exact shift_onYaw d (fun s => (Yaw.resetYawToGsf L x s).1) a w fun s => by rw [shiftY_gsf]
  | evYaw L x a => exact shift_onYaw d _ a w fun s => rfl
  | yawReset L y v u a => exact shift_onYaw d _ a w fun s => rfl
  | yawVariance v => rfl
  | resetMagCov n => rfl
  | clearMagCov => rfl
  | startMag3D => rfl
  | startMagHdg => rfl
  | stopMag3D => rfl
  | stopMagHdg => rfl
  | gyroBias sw =>
    simp only [Spec.relocated, step, Spec.displacedW]
    rw [disp_setS3 d 10 (by omega)]
  | accelBias sw =>
    simp only [Spec.relocated, step, Spec.displacedW]
    rw [disp_setS3 d 13 (by omega)]
  | magBias n =>
    simp only [Spec.relocated, step, Spec.displacedW]
    rw [disp_setS3 d 19 (by omega)]
  | yawGyroVariance sw => rfl

/-- **C158.** The estimate does not depend on where the origin of the local frame is.  Take any history of steps that do not refer to the origin
itself, and describe it in a frame displaced by any vector: the estimator then computes, after every step, exactly the same attitude, velocity,
sensor biases, magnetic field, wind, covariance and stored values, and a position that is displaced by the same vector — as long as the
position stays within the limits of the estimator. -/
theorem origin_irrelevant (l : List Op) (w : W) (ho : ∀ op ∈ l, Spec.OriginFree op) (hi : ∀ p, p <+: l → Spec.Inside d (run w p)) :
    run (Spec.displacedW d w) (l.map (Spec.relocated d)) = Spec.displacedW d (run w l) := by
  induction l generalizing w with
  | nil => rfl
  | cons op l ih =>
    have h1 := shift_step d w op (ho op (by simp)) (hi [op] ⟨l, rfl⟩)
    show run (step (Spec.displacedW d w) (Spec.relocated d op)) (l.map (Spec.relocated d)) = Spec.displacedW d (run (step w op) l)
    rw [h1]
    refine ih (step w op) (fun o h => ho o (by simp [h])) (fun p hp => ?_)
    obtain ⟨q, rfl⟩ := hp
    exact hi (op :: p) ⟨q, rfl⟩

/-- The hypotheses can be met: a reset to a GPS position of (7, 8) m from the origin followed by a prediction over 10 ms of free fall, in a frame whose
origin is 100 km away in each direction. -/
example (x : PredictIn) (a : Est ℝ) (h1 : x.imu.deltaVel = 0) (h2 : x.imu.deltaVelDt = 1 / 100) :
    (∀ op ∈ [Op.positionReset Meas.exRIn a, .predict x], Spec.OriginFree op) ∧
    ∀ p, p <+: [Op.positionReset Meas.exRIn a, .predict x] → Spec.Inside (fun _ => 100000) (run powerOn p) := by
  have hs : (step powerOn (.positionReset Meas.exRIn a)).f.s = fun i => if i.val = 0 then 1 else if i.val = 7 then 7 else if i.val = 8 then 8 else 0 := by
    simp only [step, onEst]
    unfold Meas.resetHorizontalPosition
    funext i
    fin_cases i <;> simp [ofState, Meas.posToGps, Meas.exRIn, Est.resetHorizontalPositionTo, setXY, toState, powerOn, attQuat]
    all_goals first | rfl | (rw [if_neg (by decide)]) | skip
  refine ⟨?_, fun p hp => ?_⟩
  · intro op h
    simp only [List.mem_cons, List.mem_nil_iff, or_false] at h
    rcases h with rfl | rfl
    · exact ⟨Or.inl rfl, fun h => by simp [Meas.exRIn] at h⟩
    · trivial
  · have n1 : ∀ c : ℝ, |c| ≤ 10 → |c| < 1000000 ∧ |c + 100000| < 1000000 := by
      intro c hc
      have := abs_le.mp hc
      exact ⟨by linarith, abs_lt.mpr ⟨by linarith, by linarith⟩⟩
    have n2 : ∀ w : W, |w.f.s 7| ≤ 10 → |w.f.s 8| ≤ 10 → |w.f.s 9| ≤ 10 → Spec.Inside (fun _ => 100000) w := fun w a b c =>
      ⟨(n1 _ a).1, (n1 _ b).1, (n1 _ c).1, (n1 _ a).2, (n1 _ b).2, (n1 _ c).2⟩
    obtain ⟨q, hq⟩ := hp
    rcases p with _ | ⟨o1, p⟩
    · refine n2 _ ?_ ?_ ?_ <;> simp [run, powerOn]
    rw [List.cons_append, List.cons.injEq] at hq
    obtain ⟨rfl, hq⟩ := hq
    rcases p with _ | ⟨o2, p⟩
    · have e : run powerOn [Op.positionReset Meas.exRIn a] = step powerOn (.positionReset Meas.exRIn a) := rfl
      refine n2 _ ?_ ?_ ?_ <;> rw [e, hs] <;> norm_num [N, abs_of_pos]
    rw [List.cons_append, List.cons.injEq] at hq
    obtain ⟨rfl, hq⟩ := hq
    have hp : p = [] := (List.append_eq_nil_iff.mp hq).1
    subst hp
    have e : run powerOn [Op.positionReset Meas.exRIn a, .predict x] = predict x (step powerOn (.positionReset Meas.exRIn a)) := rfl
    rw [e]
    generalize step powerOn (.positionReset Meas.exRIn a) = w at hs
    have hb : ∀ i : Fin 3, (toState w.f.s).dVelBias i = 0 := by
      intro i; rw [hs]; fin_cases i <;> rfl
    have hz : (toState w.f.s).dVelBias = 0 := funext hb
    have key : ∀ i : Fin 3, ∃ R : Matrix (Fin 3) (Fin 3) ℝ,
        (Strap.predict x.L x.accBiasLim x.earthRate x.imu ⟨toState w.f.s, w.R, w.accelLpf, w.dtEkfAvg, w.angRateRaw⟩).state.pos i =
        constrain (((toState w.f.s).pos + (x.imu.deltaVelDt * (1 / 2)) • ((toState w.f.s).vel +
          ![((toState w.f.s).vel + R *ᵥ (x.imu.deltaVel - (toState w.f.s).dVelBias)) 0, ((toState w.f.s).vel + R *ᵥ (x.imu.deltaVel - (toState w.f.s).dVelBias)) 1,
            ((toState w.f.s).vel + R *ᵥ (x.imu.deltaVel - (toState w.f.s).dVelBias)) 2 + oneG * x.imu.deltaVelDt])) i) (-1000000) 1000000 :=
      fun i => ⟨_, rfl⟩
    have kk : ∀ i : Fin 3, |(Strap.predict x.L x.accBiasLim x.earthRate x.imu ⟨toState w.f.s, w.R, w.accelLpf, w.dtEkfAvg, w.angRateRaw⟩).state.pos i| ≤ 10 := by
      intro i
      obtain ⟨R, hR⟩ := key i
      rw [hR, hz, h1, h2, hs, sub_zero, Matrix.mulVec_zero]
      have hc : ∀ v : ℝ, |v| ≤ 10 → |constrain v (-1000000) 1000000| ≤ 10 := fun v hv => by
        rw [constrain_keep (by linarith)]; exact hv
      apply hc
      fin_cases i <;> simp [toState, oneG, N] <;> norm_num [abs_of_pos]
    exact n2 _ (kk 0) (kk 1) (kk 2)

end

end Ecl.Whole
