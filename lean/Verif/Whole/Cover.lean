import Verif.Whole.CoverFuse
import Verif.Whole.Shift

/-!
# The two quaternions of one attitude give the same estimate (C162)

A unit quaternion and its negative describe the same attitude, and the code picks one of them in places (matrix to quaternion conversion, Euler
angles) and lets the other appear in others (integration, state correction). All steps of `Whole.Model` (EKF/ekf.cpp, covariance.cpp, all fusion files,
the resets of ekf_helper.cpp) are covered. The choice is not free of traps: the covariance of a fresh attitude (`resetQuatCov`, `initialiseQuatCovariances`)
goes through a rotation vector that is not the same for the two quaternions at a half turn; it agrees because the three tilt and yaw variances are equal.
-/

namespace Ecl.Whole

open Ecl.Cov Ecl.Fusion Ecl.Ekf
open Ecl.ImuDownSampler (ImuSample AxisAngleLib)
open scoped Matrix

noncomputable section

/-! ## Specification -/

/-- the filter that stores the other quaternion of the same attitude: the four quaternion states change sign, and with them their covariances with
the other states; everything else is the same -/
def Spec.otherQuat (w : W) : W :=
  { w with f := { w.f with
    s := fun i => if i.val < 4 then -w.f.s i else w.f.s i
    M := { w.f.M with P := fun i j => if (i.val < 4 ↔ j.val < 4) then w.f.M.P i j else -w.f.M.P i j } } }

/-- two filters that report the same: the rotation matrix of the attitude, all other states, the variances of all states, the covariances among the
quaternion states and among the other states, and all stored values -/
structure Spec.SameEstimate (w v : W) : Prop where
  attitude : (attQuat v.f.s).dcm = (attQuat w.f.s).dcm
  states : ∀ i : Fin N, 4 ≤ i.val → v.f.s i = w.f.s i
  variances : ∀ i, v.f.M.P i i = w.f.M.P i i
  covariances : ∀ i j : Fin N, (i.val < 4 ↔ j.val < 4) → v.f.M.P i j = w.f.M.P i j
  stored : v.f.prevVar = w.f.prevVar ∧ v.f.timeCheck = w.f.timeCheck ∧ v.f.badAccBias = w.f.badAccBias ∧ v.f.M.saved = w.f.M.saved ∧
    v.f.M.mag3D = w.f.M.mag3D ∧ v.f.M.magHdg = w.f.M.magHdg ∧ v.f.M.declReset = w.f.M.declReset
  members : v.R = w.R ∧ v.accelLpf = w.accelLpf ∧ v.dtEkfAvg = w.dtEkfAvg ∧ v.angRateRaw = w.angRateRaw ∧ v.inhibit = w.inhibit ∧ v.angFilt = w.angFilt ∧
    v.accFilt = w.accFilt ∧ v.heightRate = w.heightRate ∧ v.acc = w.acc ∧ v.clip = w.clip

/-- the steps that overwrite the quaternion and leave the covariance matrix for `initCov` to overwrite -/
def Spec.Initialises : Op → Prop
  | .reset => True
  | .tilt _ _ => True
  | _ => False

/-- the steps that run between a reset and the initialisation of the covariance (EKF/ekf.cpp:54-96, 138-234): the reset, the tilt and the yaw
initialisation, and the bias resets, which are public -/
def Spec.BeforeInit : Op → Prop
  | .reset => True
  | .tilt _ _ => True
  | .magYaw .. => True
  | .gyroBias _ => True
  | .accelBias _ => True
  | .magBias _ => True
  | _ => False

/-- the order of steps in the code: tilt initialisation only after a reset, and no fusion or prediction between a reset and the initialisation of the
covariance; the flag says that this initialisation is pending -/
def Spec.InOrder : Bool → List Op → Prop
  | _, [] => True
  | false, .reset :: l => Spec.InOrder true l
  | false, .tilt _ _ :: _ => False
  | false, _ :: l => Spec.InOrder false l
  | true, .initCov _ :: l => Spec.InOrder false l
  | true, op :: l => Spec.BeforeInit op ∧ Spec.InOrder true l

/-! ## Proof -/

local notation "κ" => Spec.covSign

/-- the sign change on the filter -/
def coverW (w : W) : W := { w with f := sgF κ w.f }

theorem c_save (s : MagSave ℝ) : sgSave κ s = s := by
  unfold sgSave
  congr 1
  funext i j
  rw [cov_high _ (by show ¬ 16 + i.val < 4; omega), cov_high _ (by show ¬ 16 + j.val < 4; omega)]
  ring

theorem otherQuat_eq (w : W) : Spec.otherQuat w = coverW w := by
  unfold Spec.otherQuat coverW sgF sgMag
  rw [c_save]
  have h1 : (fun i : Fin N => if i.val < 4 then -w.f.s i else w.f.s i) = sgV κ w.f.s := by
    funext i
    unfold sgV
    by_cases c : i.val < 4
    · rw [if_pos c, cov_low i c]; ring
    · rw [if_neg c, cov_high i c]; ring
  have h2 : (fun i j : Fin N => if (i.val < 4 ↔ j.val < 4) then w.f.M.P i j else -w.f.M.P i j) = sgM κ w.f.M.P := by
    funext i j
    unfold sgM
    by_cases c : i.val < 4 <;> by_cases d : j.val < 4
    · rw [if_pos (by tauto), cov_low i c, cov_low j d]; ring
    · rw [if_neg (by tauto), cov_low i c, cov_high j d]; ring
    · rw [if_neg (by tauto), cov_high i c, cov_low j d]; ring
    · rw [if_pos (by tauto), cov_high i c, cov_high j d]; ring
  rw [h1, h2]

def negSt (t : State ℝ) : State ℝ := { t with quat := negQ t.quat }

theorem toState_neg (s : Vec ℝ) : toState (sgV κ s) = negSt (toState s) := by
  unfold toState negSt
  rw [cov_att]
  congr 1
  all_goals (funext i; fin_cases i <;> exact sg_high s _ (by decide))

theorem ofState_neg (t : State ℝ) : ofState (negSt t) = sgV κ (ofState t) := by
  funext i
  by_cases c : i.val < 4
  · unfold sgV
    rw [cov_low i c]
    have : ∀ i : Fin N, i.val < 4 → ofState (negSt t) i = -1 * ofState t i := by
      intro i
      fin_cases i
      · intro _; exact (neg_one_mul t.quat.w).symm
      · intro _; exact (neg_one_mul t.quat.x).symm
      · intro _; exact (neg_one_mul t.quat.y).symm
      · intro _; exact (neg_one_mul t.quat.z).symm
      all_goals (intro h; exact absurd h (by decide))
    exact this i c
  · rw [sg_high _ i (by omega)]
    have : ∀ i : Fin N, ¬ i.val < 4 → ofState (negSt t) i = ofState t i := by
      intro i
      fin_cases i <;> first | (intro _; rfl) | (intro h; exact absurd (by decide) h)
    exact this i c

theorem negQ_mul (p q : Quat ℝ) : (negQ p).mul q = negQ (p.mul q) := by
  unfold negQ Quat.mul
  simp only [Quat.mk.injEq]
  refine ⟨?_, ?_, ?_, ?_⟩ <;> ring

theorem negQ_normSq (q : Quat ℝ) : (negQ q).normSq = q.normSq := by
  unfold negQ Quat.normSq
  ring

theorem negQ_normalize (q : Quat ℝ) : ImuDownSampler.normalize (negQ q) = negQ (ImuDownSampler.normalize q) := by
  unfold ImuDownSampler.normalize
  rw [negQ_normSq]
  simp only [negQ, neg_div]

theorem constrain_neg1 (v : ℝ) : constrain (-v) (-1) 1 = -constrain v (-1) 1 := by
  unfold constrain
  split_ifs <;> linarith

theorem c_strap (L : AxisAngleLib) (lim : ℝ) (er : V3 ℝ) (imu : ImuSample) (s : Strap) :
    Strap.predict L lim er imu { s with state := negSt s.state } =
      { Strap.predict L lim er imu s with state := negSt (Strap.predict L lim er imu s).state } := by
  have hq : ImuDownSampler.normalize ((negSt s.state).quat.mul (L.exp (imu.deltaAng - s.state.dAngBias - imu.deltaAngDt • (s.Rᵀ *ᵥ er)))) =
      negQ (ImuDownSampler.normalize (s.state.quat.mul (L.exp (imu.deltaAng - s.state.dAngBias - imu.deltaAngDt • (s.Rᵀ *ᵥ er))))) := by
    show ImuDownSampler.normalize ((negQ s.state.quat).mul _) = _
    rw [negQ_mul, negQ_normalize]
  unfold Strap.predict
  dsimp only
  rw [show (negSt s.state).dAngBias = s.state.dAngBias from rfl, hq, negQ_dcm]
  generalize ImuDownSampler.normalize (s.state.quat.mul (L.exp (imu.deltaAng - s.state.dAngBias - imu.deltaAngDt • (s.Rᵀ *ᵥ er)))) = q
  have hc : ∀ t : State ℝ, constrainStates s.dtEkfAvg lim (negSt t) = negSt (constrainStates s.dtEkfAvg lim t) := by
    intro t
    unfold constrainStates negSt negQ
    simp only [constrain_neg1]
  rw [← hc]
  rfl

theorem c_predict (x : PredictIn) (w : W) : predict x (coverW w) = coverW (predict x w) := by
  have hs := c_strap x.L x.accBiasLim x.earthRate x.imu ⟨toState w.f.s, w.R, w.accelLpf, w.dtEkfAvg, w.angRateRaw⟩
  dsimp only at hs
  unfold predict
  rw [show (coverW w).f.s = sgV κ w.f.s from rfl, toState_neg, show (coverW w).R = w.R from rfl, show (coverW w).accelLpf = w.accelLpf from rfl,
    show (coverW w).dtEkfAvg = w.dtEkfAvg from rfl, show (coverW w).angRateRaw = w.angRateRaw from rfl, hs]
  generalize Strap.predict x.L x.accBiasLim x.earthRate x.imu ⟨toState w.f.s, w.R, w.accelLpf, w.dtEkfAvg, w.angRateRaw⟩ = p
  dsimp only
  rw [show (coverW w).f.M.mag3D = w.f.M.mag3D from rfl, show (negSt p.state).quat = negQ p.state.quat from rfl, show (negSt p.state).dAngBias = p.state.dAngBias from rfl,
    show (negSt p.state).dVelBias = p.state.dVelBias from rfl, show (negSt p.state).vel = p.state.vel from rfl]
  set c : CovIn ℝ :=
    { inh := { x.inh with rot2 := p.R 2, clipping := x.imu.clip, dAngNorm := norm3 x.imu.deltaAng, dVelNorm := norm3 x.imu.deltaVel }
      nz := { x.nz with mag3D := w.f.M.mag3D, clipping := x.imu.clip, velD := p.state.vel 2 }
      quat := p.state.quat, dAng := x.imu.deltaAng, dVel := x.imu.deltaVel, dAngBias := p.state.dAngBias, dVelBias := p.state.dVelBias
      dtEkfAvg := p.dtEkfAvg, now := x.now, badAccBias := x.badAccBias } with hcd
  set c' : CovIn ℝ :=
    { inh := { x.inh with rot2 := p.R 2, clipping := x.imu.clip, dAngNorm := norm3 x.imu.deltaAng, dVelNorm := norm3 x.imu.deltaVel }
      nz := { x.nz with mag3D := w.f.M.mag3D, clipping := x.imu.clip, velD := p.state.vel 2 }
      quat := negQ p.state.quat, dAng := x.imu.deltaAng, dVel := x.imu.deltaVel, dAngBias := p.state.dAngBias, dVelBias := p.state.dVelBias
      dtEkfAvg := p.dtEkfAvg, now := x.now, badAccBias := x.badAccBias } with hcd'
  have hp := sg_predictCovariance cov_isSign c c'
    ⟨⟨w.angFilt, w.accFilt, w.inhibit, w.f.prevVar, w.f.P⟩, w.heightRate, w.acc, w.f.timeCheck, w.f.badAccBias, w.clip⟩
    (fun P i j => Cover.p_all P c.predIn i j) (fun _ => rfl) (fun _ _ _ => rfl) rfl rfl rfl rfl
  have e : (⟨⟨(coverW w).angFilt, (coverW w).accFilt, (coverW w).inhibit, (coverW w).f.prevVar, (coverW w).f.P⟩, (coverW w).heightRate, (coverW w).acc,
      (coverW w).f.timeCheck, (coverW w).f.badAccBias, (coverW w).clip⟩ : CovSt ℝ) =
      sgC κ ⟨⟨w.angFilt, w.accFilt, w.inhibit, w.f.prevVar, w.f.P⟩, w.heightRate, w.acc, w.f.timeCheck, w.f.badAccBias, w.clip⟩ := rfl
  rw [e, hp, ofState_neg]
  rfl

/-! ### yaw resets -/

def covY (s : Yaw.St) : Yaw.St := { s with est := { s.est with state := negSt s.est.state }, cov := sgMag κ s.cov }

/-- the same filter data -/
def YSame (s t : Yaw.St) : Prop := t.est.state = s.est.state ∧ t.R = s.R ∧ t.cov = s.cov

theorem uncorr_fixed (P : Mat ℝ) : sgM κ (uncorrelateQuat P) = uncorrelateQuat P := by
  funext i j
  unfold sgM uncorrelateQuat
  by_cases c : i.val < 4 <;> by_cases d : j.val < 4
  · rw [cov_low i c, cov_low j d]; ring
  · rw [if_pos (by omega)]; ring
  · rw [if_pos (by omega)]; ring
  · rw [cov_high i c, cov_high j d]; ring

theorem y_quat (L : Yaw.Lib) (y v : ℝ) (b : Bool) (s : Yaw.St) : YSame (Yaw.resetQuatStateYaw L y v b s) (Yaw.resetQuatStateYaw L y v b (covY s)) := by
  have e : (covY s).est.state.quat.dcm = s.est.state.quat.dcm := negQ_dcm _
  have ha : ∀ t : Yaw.St, (Yaw.resetQuatStateYaw L y v b t).est.state.quat = L.ofDcm (Utils.updateYawInRotMat y t.est.state.quat.dcm) := fun _ => rfl
  refine ⟨?_, ?_, ?_⟩
  · show ({ (covY s).est.state with quat := L.ofDcm (Utils.updateYawInRotMat y (covY s).est.state.quat.dcm) } : State ℝ) = _
    rw [e]; rfl
  · show Utils.updateYawInRotMat y (covY s).est.state.quat.dcm = _
    rw [e]; rfl
  · show ({ (covY s).cov with P := if v > Yaw.fltEps then increaseQuatYawErrVariance (L.ofDcm (Utils.updateYawInRotMat y (covY s).est.state.quat.dcm)) v (uncorrelateQuat (covY s).cov.P) else uncorrelateQuat (covY s).cov.P } : MagState ℝ) = _
    rw [e, show (covY s).cov.P = sgM κ s.cov.P from rfl, sg_uncorrelateQuat, uncorr_fixed]
    unfold covY sgMag
    rw [c_save]
    rfl

/-- either the data are the same, or the quaternion has the other sign -/
def YRel (q : Quat ℝ) (s t : Yaw.St) : Prop := YSame s t ∨ (t.est.state = negSt s.est.state ∧ t.R = s.R ∧ t.cov = sgMag κ s.cov ∧ s.est.state.quat = q)

theorem yrel_cov (s : Yaw.St) : YRel s.est.state.quat s (covY s) := Or.inr ⟨rfl, rfl, rfl, rfl⟩

theorem ysame_finish {s t : Yaw.St} (h : YSame s t) (m : V3 ℝ) (n : ℝ) (T : UInt64) :
    YSame { Yaw.setMagI m s with cov := Cov.resetMagCov n (Yaw.setMagI m s).cov, tAlign := T }
      { Yaw.setMagI m t with cov := Cov.resetMagCov n (Yaw.setMagI m t).cov, tAlign := T } := by
  obtain ⟨h1, h2, h3⟩ := h
  refine ⟨?_, h2, ?_⟩
  · show ({ t.est.state with magI := t.R *ᵥ m } : State ℝ) = { s.est.state with magI := s.R *ᵥ m }
    rw [h1, h2]
  · show Cov.resetMagCov n t.cov = Cov.resetMagCov n s.cov
    rw [h3]

theorem y_decl (x : Yaw.In) (s : Yaw.St) : Yaw.getMagDeclination x (covY s) = Yaw.getMagDeclination x s := rfl

theorem y_mag (L : Yaw.Lib) (x : Yaw.In) (m : V3 ℝ) (i u : Bool) (s : Yaw.St) :
    YRel s.est.state.quat (Yaw.resetMagHeading L x m i u s).1 (Yaw.resetMagHeading L x m i u (covY s)).1 := by
  have hf : ∀ y v, YRel s.est.state.quat { Yaw.setMagI m (Yaw.resetQuatStateYaw L y v u s) with
        cov := Cov.resetMagCov x.magNoise (Yaw.setMagI m (Yaw.resetQuatStateYaw L y v u s)).cov, tAlign := x.tDel }
      { Yaw.setMagI m (Yaw.resetQuatStateYaw L y v u (covY s)) with
        cov := Cov.resetMagCov x.magNoise (Yaw.setMagI m (Yaw.resetQuatStateYaw L y v u (covY s))).cov, tAlign := x.tDel } :=
    fun y v => Or.inl (ysame_finish (y_quat L y v u s) m x.magNoise x.tDel)
  have h2 : (covY s).tAlign = s.tAlign ∧ (covY s).evYaw = s.evYaw ∧ (covY s).inhibited = s.inhibited ∧ (covY s).R = s.R := ⟨rfl, rfl, rfl, rfl⟩
  unfold Yaw.resetMagHeading
  rw [h2.1, h2.2.1, h2.2.2.1, h2.2.2.2, y_decl]
  by_cases c1 : x.tDel = s.tAlign
  · rw [if_pos c1, if_pos c1]; exact yrel_cov s
  rw [if_neg c1, if_neg c1]
  by_cases c2 : x.magType ≥ 5
  · rw [if_pos c2, if_pos c2]
    exact Or.inr ⟨rfl, rfl, sg_stopMag cov_isSign s.cov, rfl⟩
  rw [if_neg c2, if_neg c2]
  dsimp only
  by_cases c3 : s.evYaw = true
  · rw [if_pos c3, if_pos c3]; exact hf _ _
  rw [if_neg c3, if_neg c3]
  by_cases c4 : x.magType ≤ 2
  · rw [if_pos c4, if_pos c4]; exact hf _ _
  rw [if_neg c4, if_neg c4]
  by_cases c5 : x.magType = 4 ∧ s.inhibited = true
  · rw [if_pos c5, if_pos c5]; exact yrel_cov s
  · rw [if_neg c5, if_neg c5]; exact yrel_cov s

theorem y_fault (s : Yaw.St) : courseFault (covY s) = covY (courseFault s) := by
  have h : (covY s).magAligned = s.magAligned ∧ (covY s).nBad = s.nBad ∧ (covY s).magFault = s.magFault := ⟨rfl, rfl, rfl⟩
  unfold courseFault
  rw [h.1, h.2.1, h.2.2]
  split <;> rfl

theorem y_mark (s : Yaw.St) : courseMark (covY s) = covY (courseMark s) := by
  have h : (covY s).magAligned = s.magAligned := rfl
  unfold courseMark
  rw [h]
  split <;> rfl

theorem y_count (b : Bool) (s : Yaw.St) : courseCount b (covY s) = covY (courseCount b s) := by
  cases b <;> rfl

theorem y_from (x : Yaw.In) (s : Yaw.St) : Yaw.yawFromCourse x (covY s) = Yaw.yawFromCourse x s := by
  unfold Yaw.yawFromCourse
  rw [show (covY s).est.state.quat = negQ s.est.state.quat from rfl, negQ_yaw]
  rfl

theorem y_end (L : Yaw.Lib) (x : Yaw.In) (bad : Bool) (yaw : ℝ) (s : Yaw.St) : YSame (courseEnd L x bad yaw s) (courseEnd L x bad yaw (covY s)) := by
  have hv : Yaw.courseVar x (covY s) = Yaw.courseVar x s := by
    unfold Yaw.courseVar
    rw [show (covY s).cov.P = sgM κ s.cov.P from rfl, sgM_diag cov_isSign, sgM_diag cov_isSign]
  obtain ⟨h1, h2, h3⟩ := y_quat L yaw (Yaw.courseVar x s) true s
  have hs : ∀ t : Yaw.St, (courseEnd L x bad yaw t).est.state =
      { (Yaw.resetQuatStateYaw L yaw (Yaw.courseVar x t) true t).est.state with
        magB := 0, magI := (Yaw.resetQuatStateYaw L yaw (Yaw.courseVar x t) true t).est.state.quat.dcm *ᵥ x.mag } := fun _ => rfl
  refine ⟨?_, ?_, ?_⟩
  · rw [hs, hs, hv, h1]
  · show (Yaw.resetQuatStateYaw L yaw (Yaw.courseVar x (covY s)) true (covY s)).est.state.quat.dcm = _
    rw [hv, h1]; rfl
  · show Cov.resetMagCov x.magNoise (Yaw.resetQuatStateYaw L yaw (Yaw.courseVar x (covY s)) true (covY s)).cov = _
    rw [hv, h3]; rfl

theorem y_course (L : Yaw.Lib) (x : Yaw.In) (s : Yaw.St) : YRel s.est.state.quat (Yaw.courseAlign L x s) (Yaw.courseAlign L x (covY s)) := by
  have hb : Yaw.badMagYaw x (covY s) = Yaw.badMagYaw x s := rfl
  rw [courseAlign_eq, courseAlign_eq, hb]
  generalize Yaw.badMagYaw x s = bad
  dsimp only
  rw [y_count, show s.est.state.quat = (courseCount bad s).est.state.quat by cases bad <;> rfl]
  generalize courseCount bad s = t
  have hy : (covY t).yawAlign = t.yawAlign := rfl
  rw [hy, y_fault, y_from, y_mark]
  split
  · exact Or.inl (y_end L x bad _ _)
  · refine Or.inr ⟨rfl, rfl, ?_, rfl⟩
    exact sg_resetMagCov cov_isSign _ t.cov

theorem y_realign (L : Yaw.Lib) (x : Yaw.In) (s : Yaw.St) : YRel s.est.state.quat (Yaw.realignYawGps L x s).1 (Yaw.realignYawGps L x (covY s)).1 := by
  unfold Yaw.realignYawGps
  split
  · exact y_mag L x _ _ _ s
  · exact y_course L x s

theorem y_gsf (L : Yaw.Lib) (x : Yaw.In) (s : Yaw.St) : YRel s.est.state.quat (Yaw.resetYawToGsf L x s).1 (Yaw.resetYawToGsf L x (covY s)).1 := by
  unfold Yaw.resetYawToGsf
  split
  · exact yrel_cov s
  · split
    · exact yrel_cov s
    · obtain ⟨h1, h2, h3⟩ := y_quat L x.gsfYaw x.gsfVar true s
      dsimp only
      split <;> exact Or.inl ⟨h1, h2, h3⟩

theorem y_ev (L : Yaw.Lib) (x : Yaw.In) (s : Yaw.St) : YRel s.est.state.quat (Yaw.startEvYaw L x s) (Yaw.startEvYaw L x (covY s)) := by
  obtain ⟨h1, h2, h3⟩ := y_quat L (Utils.getEuler321YawQ x.evQuat) (mmax x.evAngVar (sq (1 / 100))) true s
  refine Or.inl ⟨h1, h2, ?_⟩
  show Cov.stopMag3D (Cov.stopMagHdg (Yaw.resetQuatStateYaw L _ _ true (covY s)).cov) = _
  rw [h3]
  rfl

/-- the two filters are equal, or differ in the sign of the quaternion -/
def Rel (w v : W) : Prop := v = w ∨ (v = coverW w ∧ Att w.f.s)

theorem c_onYaw (g : Yaw.St → Yaw.St) (aux : Yaw.St) (w : W) (hg : ∀ s, YRel s.est.state.quat (g s) (g (covY s))) (h : Att w.f.s) :
    Rel (onYaw g aux w) (onYaw g aux (coverW w)) := by
  set s0 : Yaw.St := { aux with est := { aux.est with state := toState w.f.s }, R := w.R, cov := w.f.M } with hs0
  have e0 : onYaw g aux w = { w with f := { w.f with s := ofState (g s0).est.state, M := (g s0).cov }, R := (g s0).R } := rfl
  have e1 : onYaw g aux (coverW w) = { w with f := { w.f with s := ofState (g (covY s0)).est.state, M := (g (covY s0)).cov }, R := (g (covY s0)).R } := by
    have : ({ aux with est := { aux.est with state := toState (coverW w).f.s }, R := (coverW w).R, cov := (coverW w).f.M } : Yaw.St) = covY s0 := by
      rw [show (coverW w).f.s = sgV κ w.f.s from rfl, toState_neg]; rfl
    unfold onYaw
    rw [this]
    rfl
  rw [e0, e1]
  rcases hg s0 with ⟨h1, h2, h3⟩ | ⟨h1, h2, h3, h4⟩
  · left
    rw [h1, h2, h3]
  · right
    refine ⟨?_, ?_⟩
    · rw [h1, h2, h3, ofState_neg]; rfl
    · show Att (ofState (g s0).est.state)
      unfold Att
      rw [att_ofState, h4]
      exact h

/-! ### the remaining steps -/

theorem c_onEst (g : Meas.Flt → Meas.Flt) (aux : Est ℝ) (f : Filt)
    (hg : ∀ t : State ℝ, (g ⟨{ aux with state := negSt t }, sgM κ f.P, true⟩).est.state = negSt (g ⟨{ aux with state := t }, f.P, true⟩).est.state ∧
      (g ⟨{ aux with state := negSt t }, sgM κ f.P, true⟩).P = sgM κ (g ⟨{ aux with state := t }, f.P, true⟩).P) :
    onEst g aux (sgF κ f) = sgF κ (onEst g aux f) := by
  obtain ⟨h1, h2⟩ := hg (toState f.s)
  unfold onEst
  dsimp only
  rw [sgF_s, sgF_P, toState_neg, h1, h2, ofState_neg]
  rfl

theorem c_velReset (x : Meas.RIn) (aux : Est ℝ) (f : Filt) : onEst (Meas.resetVelocity x) aux (sgF κ f) = sgF κ (onEst (Meas.resetVelocity x) aux f) := by
  refine c_onEst _ aux f fun t => ?_
  have hr : Meas.flowResetRange x (negSt t) = Meas.flowResetRange x t := rfl
  unfold Meas.resetVelocity
  split
  · exact ⟨rfl, sg_uncorrSet cov_isSign _ _ _ _⟩
  split
  · unfold Meas.velToFlow
    dsimp only
    rw [hr]
    split <;> exact ⟨rfl, sg_uncorrSet cov_isSign _ _ _ _⟩
  split <;> exact ⟨rfl, sg_uncorrSet cov_isSign _ _ _ _⟩

theorem c_posReset (x : Meas.RIn) (aux : Est ℝ) (f : Filt) :
    onEst (Meas.resetHorizontalPosition x) aux (sgF κ f) = sgF κ (onEst (Meas.resetHorizontalPosition x) aux f) := by
  refine c_onEst _ aux f fun t => ?_
  unfold Meas.resetHorizontalPosition
  dsimp only
  split
  · exact ⟨rfl, sg_uncorrSet cov_isSign _ _ _ _⟩
  split
  · exact ⟨rfl, sg_uncorrSet cov_isSign _ _ _ _⟩
  split
  · split <;> exact ⟨rfl, sg_uncorrSet cov_isSign _ _ _ _⟩
  · exact ⟨rfl, sg_uncorrSet cov_isSign _ _ _ _⟩

theorem c_set (k : Fin N) (hk : ¬ k.val < 4) (v : ℝ) (s : Vec ℝ) : Function.update (sgV κ s) k v = sgV κ (Function.update s k v) :=
  sg_set (by rw [cov_high k hk, one_mul]) s

theorem c_heightReset (x : Control.HIn) (h : Control.HSt) (f : Filt) : resetHeight x h (sgF κ f) = sgF κ (resetHeight x h f) := by
  have h9 := fun v s => c_set 9 (by decide) v s
  have h6 := fun v s => c_set 6 (by decide) v s
  unfold resetHeight
  dsimp only
  simp only [sgF_s, sgF_M]
  split_ifs <;> simp only [sgF, sgMag, h9, h6, sg_uncorrSet cov_isSign]

theorem c_setS3 (k : ℕ) (hk : 4 ≤ k) (v : Fin 3 → ℝ) (s : Vec ℝ) : setS3 k v (sgV κ s) = sgV κ (setS3 k v s) :=
  sg_setS3 k v v (fun i c => by rw [cov_high i (by omega), one_mul]) s

theorem c_yawVar (q : Quat ℝ) (v : ℝ) (P : Mat ℝ) : increaseQuatYawErrVariance (negQ q) v (sgM κ P) = sgM κ (increaseQuatYawErrVariance q v P) := by
  have hy : yawVarInc (negQ q) v = yawVarInc q v := by
    have h0 : sq (-q.w) = sq q.w ∧ sq (-q.x) = sq q.x ∧ sq (-q.y) = sq q.y ∧ sq (-q.z) = sq q.z := by
      refine ⟨?_, ?_, ?_, ?_⟩ <;> (unfold sq; ring)
    unfold yawVarInc negQ
    simp only [h0.1, h0.2.1, h0.2.2.1, h0.2.2.2]
    funext i j
    fin_cases i <;> fin_cases j <;> (simp only [sq]; simp; first | done | ring1 | (left; ring1))
  funext i j
  unfold increaseQuatYawErrVariance
  rw [hy]
  show _ = κ i * κ j * _
  beta_reduce
  by_cases c : i.val < 4 ∧ j.val < 4
  · rw [dif_pos c, dif_pos c]
    unfold sgM
    rw [cov_low i c.1, cov_low j c.2]; ring
  · rw [dif_neg c, dif_neg c]; rfl

theorem att_windFault (w : WindResetIn) (ini : InitIn) (b : Bool) (f : Filt) (h : Att f.s) : Att (windFault w ini b f).s := by
  unfold windFault
  split
  · refine att_congr (s := f.s) (fun i hi => ?_) h
    have h2 : i ≠ 22 := fun e => by subst e; exact absurd hi (by decide)
    have h3 : i ≠ 23 := fun e => by subst e; exact absurd hi (by decide)
    simp [resetWind, resetWindStates, h2, h3]
  · refine att_congr (s := f.s) (fun i hi => ?_) h
    have h2 : i ≠ 22 := fun e => by subst e; exact absurd hi (by decide)
    have h3 : i ≠ 23 := fun e => by subst e; exact absurd hi (by decide)
    simp [resetFull, initCov, h2, h3]

theorem att_airspeed (x : AspIn) (st : AspSt) (h : Att st.f.s) : Att (fuseAirspeed x st).f.s := by
  unfold fuseAirspeed
  simp only
  split
  · exact h
  · split
    · exact att_windFault _ _ _ _ h
    · split
      · exact h
      · split
        · exact att_update _ _ _ _ _ h
        · exact att_update _ _ _ _ _ h

theorem att_sideslip (x : BetaIn) (st : BetaSt) (h : Att st.f.s) : Att (fuseSideslip x st).f.s := by
  unfold fuseSideslip
  simp only
  split
  · split
    · exact att_windFault _ _ _ _ h
    · split
      · exact h
      · split
        · exact att_update _ _ _ _ _ h
        · exact att_update _ _ _ _ _ h
  · exact h

theorem att_predict (x : PredictIn) (w : W) (h : Att w.f.s) : Att (predict x w).f.s := by
  rcases h with h | h
  · exact Or.inl (att_strap x.L x.accBiasLim x.earthRate x.imu ⟨toState w.f.s, w.R, w.accelLpf, w.dtEkfAvg, w.angRateRaw⟩ h).1
  · right
    set dq := x.L.exp (x.imu.deltaAng - (toState w.f.s).dAngBias - x.imu.deltaAngDt • (w.Rᵀ *ᵥ x.earthRate)) with hdq
    have e : (attQuat (predict x w).f.s) = ⟨constrain (ImuDownSampler.normalize ((attQuat w.f.s).mul dq)).w (-1) 1,
        constrain (ImuDownSampler.normalize ((attQuat w.f.s).mul dq)).x (-1) 1, constrain (ImuDownSampler.normalize ((attQuat w.f.s).mul dq)).y (-1) 1,
        constrain (ImuDownSampler.normalize ((attQuat w.f.s).mul dq)).z (-1) 1⟩ := rfl
    have hn : ((attQuat w.f.s).mul dq).normSq = 0 := by rw [Quat.normSq_mul, h, zero_mul]
    rw [e]
    unfold ImuDownSampler.normalize
    simp only [hn, Real.sqrt_zero, div_zero]
    have h0 : constrain (0 : ℝ) (-1) 1 = 0 := by unfold constrain; norm_num
    simp only [h0, Quat.normSq, mul_zero, add_zero]

theorem att_setS3 (k : ℕ) (hk : 4 ≤ k) (v : Fin 3 → ℝ) (s : Vec ℝ) (h : Att s) : Att (setS3 k v s) := by
  refine att_congr (s := s) (fun i hi => ?_) h
  unfold setS3
  rw [dif_neg (by omega)]

/-- one step -/
theorem c_step (w v : W) (op : Op) (ho : ¬ Spec.Initialises op) (h : Rel w v) : Rel (step w op) (step v op) := by
  rcases h with rfl | ⟨rfl, ha⟩
  · exact Or.inl rfl
  have F : ∀ {f f' : Filt}, f' = sgF κ f → Att f.s → Rel { w with f := f } { coverW w with f := f' } := by
    rintro f f' rfl h
    exact Or.inr ⟨rfl, h⟩
  have C := att_closed
  cases op with
  | reset => exact absurd trivial ho
  | tilt a g => exact absurd trivial ho
  | initCov x => exact F (c_initCov x w.f ha) (C.ini x _ ha)
  | predict x => exact Or.inr ⟨c_predict x w, att_predict x w ha⟩
  | hvel x i0 i1 g r0 r1 a =>
    have := sg_hvel cov_isSign x i0 i1 g r0 r1 { a with f := w.f }
    rw [cov_4, cov_5, one_mul, one_mul] at this
    exact F this ((closed_velpos C { a with f := w.f } x ha).1 _ _ _ _ _)
  | vvel x i g r a => exact F (sg_vvel cov_isSign cov_6 x i g r { a with f := w.f }) ((closed_velpos C { a with f := w.f } x ha).2.1 _ _ _)
  | hpos x i0 i1 g r0 r1 b a =>
    have := sg_hpos cov_isSign x i0 i1 g r0 r1 b { a with f := w.f }
    rw [cov_7, cov_8, one_mul, one_mul] at this
    exact F this ((closed_velpos C { a with f := w.f } x ha).2.2.1 _ _ _ _ _ _)
  | vpos x i g r a => exact F (sg_vpos cov_isSign cov_9 x i g r { a with f := w.f }) ((closed_velpos C { a with f := w.f } x ha).2.2.2 _ _ _)
  | mag x a => exact F (c_fuseMag x { a with f := w.f } ha) (closed_fuseMag C x { a with f := w.f } ha)
  | declination x fx sg a => exact F (c_fuseDecl x fx sg { a with f := w.f }) (closed_fuseDeclination C x fx sg { a with f := w.f } ha)
  | heading x a =>
    obtain ⟨h1, h2⟩ := c_heading x { a with y := { a.y with f := w.f }, Rte := w.R } ha
    have hc := closed_fuseHeading C x { a with y := { a.y with f := w.f }, Rte := w.R } ha
    right
    refine ⟨?_, hc⟩
    simp only [step]
    dsimp only at h1 h2
    rw [show (coverW w).f = sgF κ w.f from rfl, show (coverW w).R = w.R from rfl, h1, h2]
    rfl
  | gpsYaw x a => exact F (c_gpsYaw x { a with f := w.f } ha) (closed_fuseGpsYaw C x { a with f := w.f } ha)
  | airspeed x a => exact F (c_airspeed x { a with f := w.f } ha) (att_airspeed x { a with f := w.f } ha)
  | sideslip x a => exact F (c_sideslip x { a with f := w.f } ha) (att_sideslip x { a with f := w.f } ha)
  | drag x a => exact F (c_drag x { a with f := w.f }) (closed_fuseDrag C x { a with f := w.f } ha)
  | flow x a => exact F (c_flow x { a with f := w.f } ha) (closed_fuseOptFlow C x { a with f := w.f } ha)
  | wind x =>
    refine F (c_resetWind x w.f) (att_congr (s := w.f.s) (fun i hi => ?_) ha)
    have h2 : i ≠ 22 := fun e => by subst e; exact absurd hi (by decide)
    have h3 : i ≠ 23 := fun e => by subst e; exact absurd hi (by decide)
    simp [resetWind, resetWindStates, h2, h3]
  | velocityReset x a =>
    refine F (c_velReset x a w.f) ?_
    unfold Att onEst Meas.resetVelocity Meas.velToFlow
    simp only
    repeat' split
    all_goals exact ha
  | positionReset x a =>
    refine F (c_posReset x a w.f) ?_
    unfold Att onEst Meas.resetHorizontalPosition
    simp only
    repeat' split
    all_goals exact ha
  | heightReset x s =>
    refine F (c_heightReset x s w.f) (att_congr (s := w.f.s) (fun i hi => ?_) ha)
    have h9 : i ≠ 9 := fun e => by subst e; exact absurd hi (by decide)
    have h6 : i ≠ 6 := fun e => by subst e; exact absurd hi (by decide)
    simp only [resetHeight]
    repeat' split
    all_goals simp [h9, h6]
  | magYaw L x m i u a => exact c_onYaw (fun s => (Yaw.resetMagHeading L x m i u s).1) a w (fun s => y_mag L x m i u s) ha
  | courseYaw L x a => exact c_onYaw (fun s => (Yaw.realignYawGps L x s).1) a w (fun s => y_realign L x s) ha
  | gsfYaw L x a => exact c_onYaw (fun s => (Yaw.resetYawToGsf L x s).1) a w (fun s => y_gsf L x s) ha
  | evYaw L x a => exact c_onYaw _ a w (fun s => y_ev L x s) ha
  | yawReset L y v u a => exact c_onYaw _ a w (fun s => Or.inl (y_quat L y v u s)) ha
  | yawVariance v =>
    refine F ?_ ha
    rw [show (coverW w).f = sgF κ w.f from rfl, sgF_s, sgF_MP, cov_att, c_yawVar]
    rfl
  | resetMagCov n => exact F (congrArg (fun m => ({ sgF κ w.f with M := m } : Filt)) (sg_resetMagCov cov_isSign n w.f.M)) ha
  | clearMagCov => exact F (congrArg (fun m => ({ sgF κ w.f with M := m } : Filt)) (sg_clearMagCov cov_isSign w.f.M)) ha
  | startMag3D => exact F (congrArg (fun m => ({ sgF κ w.f with M := m } : Filt)) (sg_startMag3D cov_isSign w.f.M)) ha
  | startMagHdg => exact F (congrArg (fun m => ({ sgF κ w.f with M := m } : Filt)) (sg_startMagHdg cov_isSign w.f.M)) ha
  | stopMag3D => exact F (congrArg (fun m => ({ sgF κ w.f with M := m } : Filt)) (sg_stopMag3D cov_isSign w.f.M)) ha
  | stopMagHdg => exact F (congrArg (fun m => ({ sgF κ w.f with M := m } : Filt)) (sg_stopMagHdg w.f.M)) ha
  | gyroBias sw =>
    refine F ?_ (att_setS3 10 (by decide) _ w.f.s ha)
    rw [show (coverW w).f = sgF κ w.f from rfl, sgF_s, sgF_P]
    have h1 : (resetGyroBias sw (sgM κ w.f.P)).1 = (resetGyroBias sw w.f.P).1 := rfl
    have h2 : (resetGyroBias sw (sgM κ w.f.P)).2 = sgM κ (resetGyroBias sw w.f.P).2 := sg_uncorrSet cov_isSign _ _ _ _
    rw [h1, h2, c_setS3 10 (by decide)]
    rfl
  | accelBias sw =>
    refine F ?_ (att_setS3 13 (by decide) _ w.f.s ha)
    rw [show (coverW w).f = sgF κ w.f from rfl, sgF_s, sgF_P]
    have h1 : (resetAccelBias sw (sgM κ w.f.P)).1 = (resetAccelBias sw w.f.P).1 := rfl
    have h2 : (resetAccelBias sw (sgM κ w.f.P)).2.1 = sgM κ (resetAccelBias sw w.f.P).2.1 := sg_uncorrSet cov_isSign _ _ _ _
    have h3 : (resetAccelBias sw (sgM κ w.f.P)).2.2 = (resetAccelBias sw w.f.P).2.2 := by
      funext i
      show (resetAccelBias sw (sgM κ w.f.P)).2.1 _ _ = (resetAccelBias sw w.f.P).2.1 _ _
      rw [h2, sgM_diag cov_isSign]
    rw [h1, h2, h3, c_setS3 13 (by decide)]
    rfl
  | magBias n =>
    refine F ?_ (att_setS3 19 (by decide) _ w.f.s ha)
    rw [show (coverW w).f = sgF κ w.f from rfl, sgF_s, sgF_M]
    have h1 : (resetMagBias n (sgMag κ w.f.M)).1 = (resetMagBias n w.f.M).1 := rfl
    have h2 : (resetMagBias n (sgMag κ w.f.M)).2 = sgMag κ (resetMagBias n w.f.M).2 := by
      unfold resetMagBias
      dsimp only [sgMag]
      rw [sg_uncorrSet cov_isSign]
      rfl
    rw [h1, h2, c_setS3 19 (by decide)]
    rfl
  | yawGyroVariance sw =>
    refine F ?_ ha
    rw [show (coverW w).f = sgF κ w.f from rfl, sgF_MP, sg_uncorrSet cov_isSign]
    rfl

/-! ### initialisation -/

/-- same states, and the sign of the quaternion covariances changed -/
def pendW (w : W) : W := { w with f := { w.f with M := sgMag κ w.f.M } }

theorem p_reset (w : W) : reset (coverW w) = pendW (reset w) := rfl

theorem p_initCov (x : InitIn) (w : W) : initCov x (pendW w).f = initCov x w.f := by
  have e : ∀ Q : Mat ℝ, ({ sgMag κ w.f.M with P := Q } : MagState ℝ) = { w.f.M with P := Q } := by
    intro Q
    unfold sgMag
    rw [c_save]
  unfold initCov initialiseCovariance pendW
  simp only [e]

theorem p_mag (L : Yaw.Lib) (x : Yaw.In) (m : V3 ℝ) (i u : Bool) (s : Yaw.St) :
    let t := (Yaw.resetMagHeading L x m i u { s with cov := sgMag κ s.cov }).1
    let r := (Yaw.resetMagHeading L x m i u s).1
    YSame r t ∨ (t.est.state = r.est.state ∧ t.R = r.R ∧ t.cov = sgMag κ r.cov) := by
  have hq : ∀ y v, YSame (Yaw.resetQuatStateYaw L y v u s) (Yaw.resetQuatStateYaw L y v u { s with cov := sgMag κ s.cov }) := by
    intro y v
    refine ⟨rfl, rfl, ?_⟩
    show ({ sgMag κ s.cov with P := if v > Yaw.fltEps then increaseQuatYawErrVariance (L.ofDcm (Utils.updateYawInRotMat y s.est.state.quat.dcm)) v (uncorrelateQuat (sgM κ s.cov.P)) else uncorrelateQuat (sgM κ s.cov.P) } : MagState ℝ) = _
    rw [sg_uncorrelateQuat, uncorr_fixed]
    unfold sgMag
    rw [c_save]
    rfl
  have hf := fun y v => ysame_finish (hq y v) m x.magNoise x.tDel
  dsimp only
  unfold Yaw.resetMagHeading
  rw [show Yaw.getMagDeclination x { s with cov := sgMag κ s.cov } = Yaw.getMagDeclination x s from rfl]
  by_cases c1 : x.tDel = s.tAlign
  · rw [if_pos c1, if_pos c1]; exact Or.inr ⟨rfl, rfl, rfl⟩
  rw [if_neg c1, if_neg c1]
  by_cases c2 : x.magType ≥ 5
  · rw [if_pos c2, if_pos c2]
    exact Or.inr ⟨rfl, rfl, sg_stopMag cov_isSign s.cov⟩
  rw [if_neg c2, if_neg c2]
  dsimp only
  by_cases c3 : s.evYaw = true
  · rw [if_pos c3, if_pos c3]; exact Or.inl (hf _ _)
  rw [if_neg c3, if_neg c3]
  by_cases c4 : x.magType ≤ 2
  · rw [if_pos c4, if_pos c4]; exact Or.inl (hf _ _)
  rw [if_neg c4, if_neg c4]
  by_cases c5 : x.magType = 4 ∧ s.inhibited = true
  · rw [if_pos c5, if_pos c5]; exact Or.inr ⟨rfl, rfl, rfl⟩
  · rw [if_neg c5, if_neg c5]; exact Or.inr ⟨rfl, rfl, rfl⟩

theorem p_step (w : W) (op : Op) (ho : Spec.BeforeInit op) : step (pendW w) op = step w op ∨ step (pendW w) op = pendW (step w op) := by
  cases op with
  | reset => exact Or.inr rfl
  | tilt a g =>
    right
    simp only [step]
    split <;> rfl
  | magYaw L x m i u a =>
    set s0 : Yaw.St := { a with est := { a.est with state := toState w.f.s }, R := w.R, cov := w.f.M } with hs0
    have e0 : step w (.magYaw L x m i u a) = { w with f := { w.f with s := ofState (Yaw.resetMagHeading L x m i u s0).1.est.state, M := (Yaw.resetMagHeading L x m i u s0).1.cov }, R := (Yaw.resetMagHeading L x m i u s0).1.R } := rfl
    have e1 : step (pendW w) (.magYaw L x m i u a) = { w with f := { w.f with s := ofState (Yaw.resetMagHeading L x m i u { s0 with cov := sgMag κ s0.cov }).1.est.state, M := (Yaw.resetMagHeading L x m i u { s0 with cov := sgMag κ s0.cov }).1.cov }, R := (Yaw.resetMagHeading L x m i u { s0 with cov := sgMag κ s0.cov }).1.R } := rfl
    rw [e0, e1]
    rcases p_mag L x m i u s0 with ⟨h1, h2, h3⟩ | ⟨h1, h2, h3⟩
    · left; rw [h1, h2, h3]
    · right; rw [h1, h2, h3]; rfl
  | gyroBias sw =>
    right
    have h2 : (resetGyroBias sw (sgM κ w.f.P)).2 = sgM κ (resetGyroBias sw w.f.P).2 := sg_uncorrSet cov_isSign _ _ _ _
    simp only [step]
    rw [show (pendW w).f.P = sgM κ w.f.P from rfl, h2]
    rfl
  | accelBias sw =>
    right
    have h2 : (resetAccelBias sw (sgM κ w.f.P)).2.1 = sgM κ (resetAccelBias sw w.f.P).2.1 := sg_uncorrSet cov_isSign _ _ _ _
    have h3 : (resetAccelBias sw (sgM κ w.f.P)).2.2 = (resetAccelBias sw w.f.P).2.2 := by
      funext i
      show (resetAccelBias sw (sgM κ w.f.P)).2.1 _ _ = (resetAccelBias sw w.f.P).2.1 _ _
      rw [h2, sgM_diag cov_isSign]
    simp only [step]
    rw [show (pendW w).f.P = sgM κ w.f.P from rfl, h2, h3]
    rfl
  | magBias n =>
    right
    have h2 : (resetMagBias n (sgMag κ w.f.M)).2 = sgMag κ (resetMagBias n w.f.M).2 := by
      unfold resetMagBias
      dsimp only [sgMag]
      rw [sg_uncorrSet cov_isSign]
      rfl
    simp only [step]
    rw [show (pendW w).f.M = sgMag κ w.f.M from rfl, h2]
    rfl
  | _ => exact ho.elim

/-- the relation along a history; the flag says that the covariance initialisation is pending -/
def RelB (b : Bool) (w v : W) : Prop := v = w ∨ if b then v = pendW w else (v = coverW w ∧ Att w.f.s)

theorem c_run (l : List Op) : ∀ (b : Bool) (w v : W), Spec.InOrder b l → RelB b w v → ∃ b', RelB b' (run w l) (run v l) := by
  induction l with
  | nil => exact fun b w v _ h => ⟨b, h⟩
  | cons op l ih =>
    intro b w v ho h
    have go : ∀ b', Spec.InOrder b' l → RelB b' (step w op) (step v op) → ∃ b'', RelB b'' (run w (op :: l)) (run v (op :: l)) :=
      fun b' h1 h2 => ih b' _ _ h1 h2
    rcases h with rfl | h
    · exact ⟨b, Or.inl rfl⟩
    cases b with
    | false =>
      obtain ⟨rfl, ha⟩ := h
      have hs := fun hn => c_step w (coverW w) op hn (Or.inr ⟨rfl, ha⟩)
      have fin : ∀ hn : ¬ Spec.Initialises op, RelB false (step w op) (step (coverW w) op) := by
        intro hn
        rcases hs hn with e | e
        · exact Or.inl e
        · exact Or.inr e
      cases op with
      | reset => exact go true ho (Or.inr rfl)
      | tilt a g => exact ho.elim
      | _ => exact go false ho (fin (fun c => c))
    | true =>
      have h' : v = pendW w := h
      subst h'
      have hs := fun hb => p_step w op hb
      have fin : Spec.BeforeInit op ∧ Spec.InOrder true l → ∃ b'', RelB b'' (run w (op :: l)) (run (pendW w) (op :: l)) := by
        rintro ⟨hb, hl⟩
        rcases hs hb with e | e
        · exact go true hl (Or.inl e)
        · exact go true hl (Or.inr e)
      cases op with
      | initCov x =>
        refine go false ho (Or.inl ?_)
        simp only [step]
        rw [p_initCov]
        rfl
      | _ => exact fin ho

theorem same_refl (w : W) : Spec.SameEstimate w w :=
  ⟨rfl, fun _ _ => rfl, fun _ => rfl, fun _ _ _ => rfl, ⟨rfl, rfl, rfl, rfl, rfl, rfl, rfl⟩, ⟨rfl, rfl, rfl, rfl, rfl, rfl, rfl, rfl, rfl, rfl⟩⟩

theorem k_same (i j : Fin N) (h : i.val < 4 ↔ j.val < 4) : κ i * κ j = 1 := by
  by_cases c : i.val < 4
  · rw [cov_low i c, cov_low j (h.1 c)]; ring
  · rw [cov_high i c, cov_high j (fun d => c (h.2 d))]; ring

theorem same_cover (w : W) : Spec.SameEstimate w (coverW w) := by
  refine ⟨?_, fun i hi => sg_high w.f.s i hi, fun i => sgM_diag cov_isSign _ _, fun i j h => ?_, ⟨rfl, rfl, rfl, c_save _, rfl, rfl, rfl⟩, ⟨rfl, rfl, rfl, rfl, rfl, rfl, rfl, rfl, rfl, rfl⟩⟩
  · show (attQuat (sgV κ w.f.s)).dcm = _
    rw [cov_att, negQ_dcm]
  · show κ i * κ j * _ = _
    rw [k_same i j h, one_mul]

theorem same_pend (w : W) : Spec.SameEstimate w (pendW w) := by
  refine ⟨rfl, fun _ _ => rfl, fun i => sgM_diag cov_isSign _ _, fun i j h => ?_, ⟨rfl, rfl, rfl, c_save _, rfl, rfl, rfl⟩, ⟨rfl, rfl, rfl, rfl, rfl, rfl, rfl, rfl, rfl, rfl⟩⟩
  show κ i * κ j * _ = _
  rw [k_same i j h, one_mul]

/-! ## Theorems -/

/-- **C162.** The estimate depends on the attitude, not on which of its two quaternions is stored: from any filter with a unit quaternion and any covariance
matrix, for every history, the filter started with the other quaternion reports the same attitude, states, variances, covariances and stored values. -/
theorem other_quaternion_same_estimate (w : W) (hq : (attQuat w.f.s).normSq = 1) (l : List Op) (hl : Spec.InOrder false l) :
    Spec.SameEstimate (run w l) (run (Spec.otherQuat w) l) := by
  obtain ⟨b, h⟩ := c_run l false w (Spec.otherQuat w) hl (Or.inr ⟨otherQuat_eq w, Or.inl hq⟩)
  rcases h with h | h
  · rw [h]; exact same_refl _
  · cases b with
    | false => rw [show run (Spec.otherQuat w) l = coverW (run w l) from h.1]; exact same_cover _
    | true => rw [show run (Spec.otherQuat w) l = pendW (run w l) from h]; exact same_pend _

theorem rel_run (l : List Op) : ∀ (w v : W), (∀ op ∈ l, ¬ Spec.Initialises op) → Rel w v → Rel (run w l) (run v l) := by
  induction l with
  | nil => exact fun _ _ _ h => h
  | cons op l ih => exact fun w v hl h => ih _ _ (fun o ho => hl o (List.mem_cons_of_mem _ ho)) (c_step w v op (hl op List.mem_cons_self) h)

/-- **C162 (exactly).** Without a reset in between, the two filters are at every time either identical (after a yaw reset) or the two quaternions of one
estimate. -/
theorem other_quaternion_run (w : W) (hq : (attQuat w.f.s).normSq = 1) (l : List Op) (hl : ∀ op ∈ l, ¬ Spec.Initialises op) :
    run (Spec.otherQuat w) l = run w l ∨ run (Spec.otherQuat w) l = Spec.otherQuat (run w l) := by
  rcases rel_run l w (Spec.otherQuat w) hl (Or.inr ⟨otherQuat_eq w, Or.inl hq⟩) with h | ⟨h, _⟩
  · exact Or.inl h
  · exact Or.inr (by rw [h, otherQuat_eq])

/-- a unit quaternion, correlated with the velocity: the two filters differ -/
example : let w : W := { powerOn with f := { powerOn.f with M := { powerOn.f.M with P := fun i j => if (i = 2 ∧ j = 4) ∨ (i = 4 ∧ j = 2) then 1 else 0 } } }
    (attQuat w.f.s).normSq = 1 ∧ (Spec.otherQuat w).f.s 0 = -1 ∧ (Spec.otherQuat w).f.M.P 2 4 = -1 ∧ w.f.M.P 2 4 = 1 := by
  refine ⟨?_, ?_, ?_, ?_⟩
  · show (if (0 : Fin N) = 0 then (1 : ℝ) else 0) * (if (0 : Fin N) = 0 then (1 : ℝ) else 0) + (if (1 : Fin N) = 0 then (1 : ℝ) else 0) * (if (1 : Fin N) = 0 then (1 : ℝ) else 0) + (if (2 : Fin N) = 0 then (1 : ℝ) else 0) * (if (2 : Fin N) = 0 then (1 : ℝ) else 0) + (if (3 : Fin N) = 0 then (1 : ℝ) else 0) * (if (3 : Fin N) = 0 then (1 : ℝ) else 0) = 1
    rw [if_pos rfl, if_neg (by decide), if_neg (by decide), if_neg (by decide)]
    norm_num
  · show (if (0 : Fin N).val < 4 then -(if (0 : Fin N) = 0 then (1 : ℝ) else 0) else (if (0 : Fin N) = 0 then (1 : ℝ) else 0)) = -1
    rw [if_pos (by decide), if_pos rfl]
  · show (if ((2 : Fin N).val < 4 ↔ (4 : Fin N).val < 4) then (if ((2 : Fin N) = 2 ∧ (4 : Fin N) = 4) ∨ ((2 : Fin N) = 4 ∧ (4 : Fin N) = 2) then (1 : ℝ) else 0) else -(if ((2 : Fin N) = 2 ∧ (4 : Fin N) = 4) ∨ ((2 : Fin N) = 4 ∧ (4 : Fin N) = 2) then (1 : ℝ) else 0)) = _
    rw [if_neg (by decide), if_pos (by decide)]
  · show (if ((2 : Fin N) = 2 ∧ (4 : Fin N) = 4) ∨ ((2 : Fin N) = 4 ∧ (4 : Fin N) = 2) then (1 : ℝ) else 0) = 1
    rw [if_pos (by decide)]

/-- a history of the kind meant: prediction, fusion, yaw reset, restart -/
example (x : PredictIn) (v : VPIn) (a : VPSt) (m : MagIn) (b : MagSt) (L : Yaw.Lib) (y : Yaw.In) (s : Yaw.St) (i : InitIn) (acc gyro : V3 ℝ) :
    Spec.InOrder false [.predict x, .hvel v 1 2 3 1 1 a, .mag m b, .gsfYaw L y s, .mag m b, .reset, .tilt acc gyro, .tilt acc gyro,
      .magYaw L y 0 false false s, .initCov i, .yawVariance 1, .predict x] :=
  ⟨trivial, trivial, trivial, trivial⟩

end

end Ecl.Whole
