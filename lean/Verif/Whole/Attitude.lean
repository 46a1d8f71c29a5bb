import Verif.Whole.History
import Verif.Yaw.Props
import Mathlib.Data.List.Induction
import Verif.Ekf.QuatLib

/-!
# Every history: the attitude quaternion and the limits of the states (C138)
-/

namespace Ecl.Whole

open Ecl.Cov Ecl.Fusion Ecl.Ekf
open Ecl.ImuDownSampler (ImuSample AxisAngleLib normalize)

theorem att_ofState (t : State ℝ) : attQuat (ofState t) = t.quat := rfl

theorem toState_ofState (t : State ℝ) : toState (ofState t) = t := by
  obtain ⟨q, v, p, a, b, mi, mb, wi⟩ := t
  simp only [toState, State.mk.injEq]
  refine ⟨rfl, ?_, ?_, ?_, ?_, ?_, ?_, ?_⟩ <;> funext i <;> fin_cases i <;> rfl

theorem ofState_toState (s : Vec ℝ) : ofState (toState s) = s := by
  funext i; fin_cases i <;> rfl

/-- quaternion of unit length, or the zero quaternion, which stands for the code's 0/0 -/
def Att (s : Vec ℝ) : Prop := (attQuat s).normSq = 1 ∨ (attQuat s).normSq = 0

theorem att_congr {s t : Vec ℝ} (h : ∀ i : Fin N, i.val < 4 → t i = s i) (ha : Att s) : Att t := by
  have e : attQuat t = attQuat s := by
    unfold attQuat
    rw [h 0 (by decide), h 1 (by decide), h 2 (by decide), h 3 (by decide)]
  unfold Att; rw [e]; exact ha

theorem att_fuse (s k : Vec ℝ) (v : ℝ) : Att (fuseState s k v) := by
  by_cases h : ∃ i : Fin N, i.val < 4 ∧ s i - k i * v ≠ 0
  · exact Or.inl (fuseState_unit s k v h)
  · push Not at h
    right
    have z : ∀ i : Fin N, i.val < 4 → fuseState s k v i = 0 := by
      intro i hi
      unfold fuseState
      simp only
      rw [if_pos hi, h i hi, zero_div]
    unfold attQuat Quat.normSq
    rw [z 0 (by decide), z 1 (by decide), z 2 (by decide), z 3 (by decide)]; ring

/-- the primitive corrections -/
theorem att_closed : Closed fun f => Att f.s where
  upd x k h v f hf := by
    unfold update
    split
    · exact att_fuse _ _ _
    · exact hf
  ini x f hf := hf
  magRel x f hf := hf
  wind x f _ hf := by
    refine att_congr (fun i hi => ?_) hf
    unfold resetWind resetWindStates
    simp only
    rw [if_neg (fun e => by subst e; exact absurd hi (by decide)), if_neg (fun e => by subst e; exact absurd hi (by decide))]
  setS f s h hf := att_congr h hf
  yaw x sel _ c j v f _ hf := by
    unfold applyYaw
    simp only
    split
    · exact att_fuse _ _ _
    · exact hf
  direct x v S o st hf := by
    unfold fuseVelPosHeight
    simp only
    split
    · exact att_fuse _ _ _
    · exact hf

/-- strap-down prediction with any stored rotation matrix -/
theorem att_strap (L : AxisAngleLib) (lim : ℝ) (e : V3 ℝ) (imu : ImuSample) (s : Strap) (hq : s.state.quat.normSq = 1) :
    (s.predict L lim e imu).state.quat.normSq = 1 ∧ (s.predict L lim e imu).R = (s.predict L lim e imu).state.quat.dcm := by
  set dq := L.exp (imu.deltaAng - s.state.dAngBias - imu.deltaAngDt • (s.R.transpose.mulVec e)) with hdqd
  have hu : (s.state.quat.mul dq).normSq = 1 := by rw [Quat.normSq_mul, hq, hdqd, L.exp_unit, one_mul]
  have hn : normalize (s.state.quat.mul dq) = s.state.quat.mul dq := ImuDownSampler.normalize_unit hu
  have hb : ∀ x : Quat ℝ, x.normSq = 1 → |x.w| ≤ 1 ∧ |x.x| ≤ 1 ∧ |x.y| ≤ 1 ∧ |x.z| ≤ 1 := by
    intro x hx
    unfold Quat.normSq at hx
    refine ⟨?_, ?_, ?_, ?_⟩ <;> rw [← sq_le_one_iff_abs_le_one] <;>
      nlinarith [mul_self_nonneg x.w, mul_self_nonneg x.x, mul_self_nonneg x.y, mul_self_nonneg x.z]
  obtain ⟨b0, b1, b2, b3⟩ := hb _ hu
  have hs : (s.predict L lim e imu).state.quat = s.state.quat.mul dq := by
    show Quat.mk (constrain (normalize (s.state.quat.mul dq)).w (-1) 1) (constrain (normalize (s.state.quat.mul dq)).x (-1) 1)
      (constrain (normalize (s.state.quat.mul dq)).y (-1) 1) (constrain (normalize (s.state.quat.mul dq)).z (-1) 1) = _
    rw [hn, constrain_abs_id b0, constrain_abs_id b1, constrain_abs_id b2, constrain_abs_id b3]
  refine ⟨by rw [hs]; exact hu, ?_⟩
  rw [hs]
  show (normalize (s.state.quat.mul dq)).dcm = _
  rw [hn]

/-- the library's conversions between rotation matrices and quaternions are the mathematical ones -/
def Op.LibOk : Op → Prop
  | .magYaw L .. => QuatLib L.ofDcm L.normalize
  | .courseYaw L .. => QuatLib L.ofDcm L.normalize
  | .gsfYaw L .. => QuatLib L.ofDcm L.normalize
  | .evYaw L .. => QuatLib L.ofDcm L.normalize
  | .yawReset L .. => QuatLib L.ofDcm L.normalize
  | _ => True

theorem unit_yaw (L : Yaw.Lib) (lib : QuatLib L.ofDcm L.normalize) (y v : ℝ) (u : Bool) (s : Yaw.St) (hq : s.est.state.quat.normSq = 1) :
    (Yaw.resetQuatStateYaw L y v u s).est.state.quat.normSq = 1 :=
  lib.ofDcm_unit _ (Yaw.updateYaw_rot y (Utils.isRotation_of_orth (Quat.dcm_mul_transpose _ hq) (Quat.dcm_det _ hq)))

theorem unit_magHeading (L : Yaw.Lib) (lib : QuatLib L.ofDcm L.normalize) (x : Yaw.In) (m : V3 ℝ) (i u : Bool) (s : Yaw.St)
    (hq : s.est.state.quat.normSq = 1) : (Yaw.resetMagHeading L x m i u s).1.est.state.quat.normSq = 1 := by
  have fin : ∀ y v, (Yaw.setMagI m (Yaw.resetQuatStateYaw L y v u s)).est.state.quat.normSq = 1 := fun y v => unit_yaw L lib y v u s hq
  unfold Yaw.resetMagHeading
  simp only
  repeat' split
  all_goals first | exact hq | exact fin _ _

theorem unit_course (L : Yaw.Lib) (lib : QuatLib L.ofDcm L.normalize) (x : Yaw.In) (s : Yaw.St) (hq : s.est.state.quat.normSq = 1) :
    (Yaw.realignYawGps L x s).1.est.state.quat.normSq = 1 := by
  unfold Yaw.realignYawGps
  split
  · exact unit_magHeading _ lib _ _ _ _ _ hq
  · have hq' : ∀ (y v : ℝ) (t : Yaw.St), t.est = s.est → (Yaw.resetQuatStateYaw L y v true t).est.state.quat.normSq = 1 :=
      fun y v t e => unit_yaw _ lib _ _ _ _ (e ▸ hq)
    unfold Yaw.courseAlign
    extract_lets bad s1
    have h1 : s1.est = s.est := by simp only [s1]; split <;> rfl
    clear_value s1
    split
    · rename_i s2 yaw s3 _ _ _ _ _ _ _
      have h3 : s3.est = s.est := by
        have h2 : s2.est = s.est := by simp only [s2]; split <;> exact h1
        simp only [s3]; split <;> exact h2
      exact hq' _ 0 _ h3
    · show s1.est.state.quat.normSq = 1
      rw [h1]; exact hq

theorem unit_gsf (L : Yaw.Lib) (lib : QuatLib L.ofDcm L.normalize) (x : Yaw.In) (s : Yaw.St) (hq : s.est.state.quat.normSq = 1) :
    (Yaw.resetYawToGsf L x s).1.est.state.quat.normSq = 1 := by
  unfold Yaw.resetYawToGsf
  simp only
  repeat' split
  all_goals first | exact hq | exact unit_yaw _ lib _ 0 true _ hq

theorem unit_evYaw (L : Yaw.Lib) (lib : QuatLib L.ofDcm L.normalize) (x : Yaw.In) (s : Yaw.St) (hq : s.est.state.quat.normSq = 1) :
    (Yaw.startEvYaw L x s).est.state.quat.normSq = 1 := unit_yaw _ lib _ 0 true _ hq

theorem setS3_att (k : ℕ) (hk : 4 ≤ k) (v : Fin 3 → ℝ) (s : Vec ℝ) (i : Fin N) (hi : i.val < 4) : setS3 k v s i = s i := by
  unfold setS3; rw [dif_neg (by omega)]

/-- every step from a unit attitude -/
theorem att_step (w : W) (op : Op) (hok : op.Ok) (hl : op.LibOk) (hq : (attQuat w.f.s).normSq = 1) : Att (step w op).f.s := by
  have C := att_closed
  have h : Att w.f.s := Or.inl hq
  have hu : ∀ t : State ℝ, t.quat.normSq = 1 → Att (ofState t) := fun t e => Or.inl e
  cases op with
  | reset => left; simp [step, reset, attQuat, Quat.normSq]
  | tilt a g =>
    simp only [step]
    split
    · next q e => exact Or.inl ((initialiseTilt_spec a g).2 q e).1
    · exact h
  | initCov x => exact C.ini x _ h
  | predict x => exact Or.inl (att_strap x.L x.accBiasLim x.earthRate x.imu ⟨toState w.f.s, w.R, w.accelLpf, w.dtEkfAvg, w.angRateRaw⟩ hq).1
  | hvel x i0 i1 g r0 r1 a => exact (closed_velpos C { a with f := w.f } x h).1 _ _ _ _ _
  | vvel x i g r a => exact (closed_velpos C { a with f := w.f } x h).2.1 _ _ _
  | hpos x i0 i1 g r0 r1 b a => exact (closed_velpos C { a with f := w.f } x h).2.2.1 _ _ _ _ _ _
  | vpos x i g r a => exact (closed_velpos C { a with f := w.f } x h).2.2.2 _ _ _
  | mag x a => exact closed_fuseMag C x { a with f := w.f } h
  | declination x fx sg a => exact closed_fuseDeclination C x fx sg { a with f := w.f } h
  | heading x a => exact closed_fuseHeading C x { a with y := { a.y with f := w.f }, Rte := w.R } h
  | gpsYaw x a => exact closed_fuseGpsYaw C x { a with f := w.f } h
  | airspeed x a => exact closed_fuseAirspeed C x { a with f := w.f } hok h
  | sideslip x a => exact closed_fuseSideslip C x { a with f := w.f } hok h
  | drag x a => exact closed_fuseDrag C x { a with f := w.f } h
  | flow x a => exact closed_fuseOptFlow C x { a with f := w.f } h
  | wind x => exact C.wind x _ hok h
  | velocityReset x a =>
    refine hu _ ?_
    unfold Meas.resetVelocity Meas.velToFlow
    simp only
    repeat' split
    all_goals exact hq
  | positionReset x a =>
    refine hu _ ?_
    unfold Meas.resetHorizontalPosition
    simp only
    repeat' split
    all_goals exact hq
  | heightReset x s =>
    refine att_congr (s := w.f.s) (fun i hi => ?_) h
    have h9 : i ≠ 9 := fun e => by subst e; exact absurd hi (by decide)
    have h6 : i ≠ 6 := fun e => by subst e; exact absurd hi (by decide)
    simp only [step, resetHeight]
    repeat' split
    all_goals simp [h9, h6]
  | magYaw L x m i u a => exact hu _ (unit_magHeading L hl x m i u _ hq)
  | courseYaw L x a => exact hu _ (unit_course L hl x _ hq)
  | gsfYaw L x a => exact hu _ (unit_gsf L hl x _ hq)
  | evYaw L x a => exact hu _ (unit_evYaw L hl x _ hq)
  | yawReset L y v u a => exact hu _ (unit_yaw L hl y v u _ hq)
  | yawVariance v => exact h
  | resetMagCov n => exact h
  | clearMagCov => exact h
  | startMag3D => exact h
  | startMagHdg => exact h
  | stopMag3D => exact h
  | stopMagHdg => exact h
  | gyroBias sw => exact att_congr (setS3_att 10 (by norm_num) _ _) h
  | accelBias sw => exact att_congr (setS3_att 13 (by norm_num) _ _) h
  | magBias n => exact att_congr (setS3_att 19 (by norm_num) _ _) h
  | yawGyroVariance sw => exact h

/-- **C138 (attitude).** After power-on and any sequence of predictions, fusions and resets the attitude is a unit quaternion, unless at some earlier
point a correction cancelled the quaternion exactly (the code then divides 0 by 0). -/
theorem attitude_unit (l : List Op) (hok : ∀ op ∈ l, op.Ok ∧ op.LibOk) (hz : ∀ p, p <+: l → (attQuat (run powerOn p).f.s).normSq ≠ 0) :
    (attQuat (run powerOn l).f.s).normSq = 1 := by
  induction l using List.reverseRecOn with
  | nil => simp [run, powerOn, attQuat, Quat.normSq]
  | append_singleton l a ih =>
    have h1 := ih (fun o ho => hok o (List.mem_append_left _ ho)) fun p hp => hz p (hp.trans (List.prefix_append _ _))
    have h2 := att_step (run powerOn l) a (hok a (by simp)).1 (hok a (by simp)).2 h1
    have e : run powerOn (l ++ [a]) = step (run powerOn l) a := by rw [run_append]; rfl
    rw [e]
    refine h2.resolve_right ?_
    rw [← e]
    exact hz _ List.prefix_rfl

/-- the average filter period stays within its limits -/
theorem dt_step (w : W) (op : Op) (h : w.dtEkfAvg ∈ Set.Icc (1 / 200 : ℝ) (1 / 50)) : (step w op).dtEkfAvg ∈ Set.Icc (1 / 200 : ℝ) (1 / 50) := by
  cases op with
  | predict x => exact dtEkfAvg_range h _ _
  | reset => simp only [step, reset, filterPeriod]; norm_num
  | tilt a g => simp only [step]; split <;> exact h
  | _ => exact h

theorem dt_run (l : List Op) : (run powerOn l).dtEkfAvg ∈ Set.Icc (1 / 200 : ℝ) (1 / 50) := by
  induction l using List.reverseRecOn with
  | nil => simp only [run, powerOn, filterPeriod, List.foldl]; norm_num
  | append_singleton l a ih => rw [run_append]; exact dt_step _ a ih

/-- **C138 (limits).** After any history that ends with a prediction, every state is within its limits: velocity 1000 m/s, position 1000 km, gyro bias
20 deg/s and accelerometer bias the configured limit (times at most 1/50 s, the largest average filter period), earth field 1 Gauss, body field 0.5
Gauss, wind 100 m/s.  If the attitude before was a unit quaternion it is one after, and the stored rotation matrix is that of the attitude. -/
theorem states_limited (l : List Op) (x : PredictIn) (hb : 0 ≤ x.accBiasLim) :
    let w := run powerOn (l ++ [.predict x])
    (∀ i : Fin N, i.val < 4 → |w.f.s i| ≤ 1) ∧ (∀ i : Fin N, 4 ≤ i.val → i.val < 7 → |w.f.s i| ≤ 1000) ∧
    (∀ i : Fin N, 7 ≤ i.val → i.val < 10 → |w.f.s i| ≤ 1000000) ∧
    (∀ i : Fin N, 10 ≤ i.val → i.val < 13 → |w.f.s i| ≤ 20 * Real.pi / 180 * (1 / 50)) ∧
    (∀ i : Fin N, 13 ≤ i.val → i.val < 16 → |w.f.s i| ≤ x.accBiasLim * (1 / 50)) ∧
    (∀ i : Fin N, 16 ≤ i.val → i.val < 19 → |w.f.s i| ≤ 1) ∧ (∀ i : Fin N, 19 ≤ i.val → i.val < 22 → |w.f.s i| ≤ 1 / 2) ∧
    (∀ i : Fin N, 22 ≤ i.val → |w.f.s i| ≤ 100) ∧
    ((attQuat (run powerOn l).f.s).normSq = 1 → (attQuat w.f.s).normSq = 1 ∧ w.R = (attQuat w.f.s).dcm) := by
  have e : run powerOn (l ++ [.predict x]) = predict x (run powerOn l) := by rw [run_append]; rfl
  obtain ⟨d1, d2⟩ := dt_run l
  rw [e]
  set w0 := run powerOn l with hw0
  have k := constrainStates_within w0.dtEkfAvg x.accBiasLim (by linarith) hb
  have key : ∃ t, (predict x w0).f.s = ofState (constrainStates w0.dtEkfAvg x.accBiasLim t) := ⟨_, rfl⟩
  have hu : (attQuat w0.f.s).normSq = 1 → (attQuat (predict x w0).f.s).normSq = 1 ∧ (predict x w0).R = (attQuat (predict x w0).f.s).dcm :=
    fun h => att_strap x.L x.accBiasLim x.earthRate x.imu ⟨toState w0.f.s, w0.R, w0.accelLpf, w0.dtEkfAvg, w0.angRateRaw⟩ h
  obtain ⟨t, et⟩ := key
  have kt := k t
  have hp := Real.pi_pos
  have hg : 20 * Real.pi / 180 * w0.dtEkfAvg ≤ 20 * Real.pi / 180 * (1 / 50) := mul_le_mul_of_nonneg_left d2 (by positivity)
  have ha : x.accBiasLim * w0.dtEkfAvg ≤ x.accBiasLim * (1 / 50) := mul_le_mul_of_nonneg_left d2 hb
  refine ⟨?_, ?_, ?_, ?_, ?_, ?_, ?_, ?_, hu⟩
  · intro i h1; rw [et]
    have : i = 0 ∨ i = 1 ∨ i = 2 ∨ i = 3 := by revert i; decide
    rcases this with rfl | rfl | rfl | rfl
    exacts [kt.quat.1, kt.quat.2.1, kt.quat.2.2.1, kt.quat.2.2.2]
  · intro i h1 h2; rw [et]
    have : i = 4 ∨ i = 5 ∨ i = 6 := by revert i; decide
    rcases this with rfl | rfl | rfl
    exacts [kt.vel 0, kt.vel 1, kt.vel 2]
  · intro i h1 h2; rw [et]
    have : i = 7 ∨ i = 8 ∨ i = 9 := by revert i; decide
    rcases this with rfl | rfl | rfl
    exacts [kt.pos 0, kt.pos 1, kt.pos 2]
  · intro i h1 h2; rw [et]
    have : i = 10 ∨ i = 11 ∨ i = 12 := by revert i; decide
    rcases this with rfl | rfl | rfl
    exacts [(kt.gyro 0).trans hg, (kt.gyro 1).trans hg, (kt.gyro 2).trans hg]
  · intro i h1 h2; rw [et]
    have : i = 13 ∨ i = 14 ∨ i = 15 := by revert i; decide
    rcases this with rfl | rfl | rfl
    exacts [(kt.acc 0).trans ha, (kt.acc 1).trans ha, (kt.acc 2).trans ha]
  · intro i h1 h2; rw [et]
    have : i = 16 ∨ i = 17 ∨ i = 18 := by revert i; decide
    rcases this with rfl | rfl | rfl
    exacts [kt.magI 0, kt.magI 1, kt.magI 2]
  · intro i h1 h2; rw [et]
    have : i = 19 ∨ i = 20 ∨ i = 21 := by revert i; decide
    rcases this with rfl | rfl | rfl
    exacts [kt.magB 0, kt.magB 1, kt.magB 2]
  · intro i h1; rw [et]
    have : i = 22 ∨ i = 23 := by revert i; decide
    rcases this with rfl | rfl
    exacts [kt.wind 0, kt.wind 1]

end Ecl.Whole
