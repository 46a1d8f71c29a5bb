import Verif.Whole.PsdPred
import Verif.Whole.PsdFuse
import Verif.Whole.Attitude

/-!
# Regular histories: the covariance stays positive semi-definite (C140)
-/

namespace Ecl.Whole

open Ecl.Cov Ecl.Fusion Ecl.Ekf

/-- the stored magnetic covariances are those of a valid covariance -/
def SavedOk (M : MagState ℝ) : Prop := ∃ Q, Spec.PSD Q ∧ M.saved = saveMagCov Q

/-- covariance and stored magnetic covariances valid -/
def ValidMag (M : MagState ℝ) : Prop := Spec.PSD M.P ∧ SavedOk M

theorem psd_zeroMag {P : Mat ℝ} (h : Spec.PSD P) : Spec.PSD (zeroMagCov P) := by
  unfold zeroMagCov
  exact psd_uncorrSet (psd_uncorrSet h fun _ _ => le_rfl) fun _ _ => le_rfl

theorem psd_load {Q P : Mat ℝ} (hQ : Spec.PSD Q) (hP : Spec.PSD P) : Spec.PSD (loadMagCov (saveMagCov Q) (zeroMagCov P)) := by
  have := mag_cov_restart_valid ⟨Q, saveMagCov Q, true, false, false⟩ rfl P hQ hP
  exact this

theorem save_reset (n : ℝ) (P : Mat ℝ) : SavedOk ⟨P, saveMagCov (uncorrSet 19 3 (fun _ => sq n) (uncorrSet 16 3 (fun _ => sq n) (zeroMagCov P))), false, false, false⟩ := by
  refine ⟨fun i j => if i = j then sq n else 0, psd_diag fun _ => mul_self_nonneg _, ?_⟩
  have hz : ∀ i j : Fin N, 16 ≤ i.val → i.val < 22 → uncorrSet 19 3 (fun _ => sq n) (uncorrSet 16 3 (fun _ => sq n) (zeroMagCov P)) i j = if i = j then sq n else 0 := by
    intro i j h1 h2
    unfold uncorrSet
    by_cases h3 : inBlk 19 3 i ∨ inBlk 19 3 j
    · rw [if_pos h3]
    · rw [if_neg h3, if_pos (Or.inl (by unfold inBlk at *; omega))]
  unfold saveMagCov
  simp only [MagSave.mk.injEq]
  constructor
  · funext i
    rw [hz _ _ (by show 16 ≤ i.val + 18; omega) (by show i.val + 18 < 22; omega), if_pos rfl, if_pos trivial]
  · funext i j
    rw [hz _ _ (by show 16 ≤ 16 + i.val; omega) (by show 16 + i.val < 22; omega)]

theorem saved_resetMagCov (n : ℝ) {M : MagState ℝ} (h : SavedOk M) : SavedOk (resetMagCov n M) := by
  unfold resetMagCov clearMagCov
  simp only
  split
  · exact save_reset n M.P
  · exact h

theorem valid_resetMagCov (n : ℝ) {M : MagState ℝ} (h : ValidMag M) : ValidMag (resetMagCov n M) := by
  refine ⟨?_, saved_resetMagCov n h.2⟩
  have : (resetMagCov n M).P = uncorrSet 19 3 (fun _ => sq n) (uncorrSet 16 3 (fun _ => sq n) (zeroMagCov M.P)) := by
    unfold resetMagCov clearMagCov
    simp only
    split <;> rfl
  rw [this]
  exact psd_uncorrSet (psd_uncorrSet (psd_zeroMag h.1) fun _ _ => mul_self_nonneg _) fun _ _ => mul_self_nonneg _

/-- all corrections keep the stored magnetic covariances valid -/
theorem saved_closed : Closed fun f => SavedOk f.M where
  upd x k h v f hf := by unfold update; split <;> exact hf
  ini x f hf := by
    show SavedOk (initialiseCovariance _ _).1
    unfold initialiseCovariance
    simp only
    exact saved_resetMagCov _ hf
  magRel x f hf := saved_resetMagCov _ hf
  wind x f _ hf := hf
  setS f s _ hf := hf
  yaw x sel _ c j v f _ hf := by unfold applyYaw; simp only; split <;> exact hf
  direct x v S o st hf := by unfold fuseVelPosHeight; simp only; split <;> exact hf

theorem valid_clear {M : MagState ℝ} (h : ValidMag M) : ValidMag (clearMagCov M) := ⟨psd_zeroMag h.1, h.2⟩

theorem valid_stop3D {M : MagState ℝ} (h : ValidMag M) : ValidMag (stopMag3D M) := by
  unfold stopMag3D
  split
  · exact ⟨h.1, M.P, h.1, rfl⟩
  · exact h

theorem valid_stop {M : MagState ℝ} (h : ValidMag M) : ValidMag (stopMag M) :=
  valid_clear (show ValidMag (stopMagHdg (stopMag3D M)) from valid_stop3D h)

theorem valid_start3D {M : MagState ℝ} (h : ValidMag M) : ValidMag (startMag3D M) := by
  unfold startMag3D
  split
  · obtain ⟨hP, Q, hQ, e⟩ := h
    refine ⟨?_, Q, hQ, e⟩
    show Spec.PSD (loadMagCov M.saved (zeroMagCov M.P))
    rw [e]; exact psd_load hQ hP
  · exact h

theorem psd_uncorrelateQuat {P : Mat ℝ} (h : Spec.PSD P) : Spec.PSD (uncorrelateQuat P) := by
  refine psd_congr (fun i j => ?_) (psd_add (psd_mask h fun i : Fin N => i.val < 4) (psd_mask h fun i : Fin N => 4 ≤ i.val))
  unfold uncorrelateQuat
  by_cases hi : i.val < 4 <;> by_cases hj : j.val < 4
  · rw [if_neg (by omega), if_pos (Or.inl hi), if_neg (by omega), zero_add]
  · rw [if_pos (by omega), if_pos (Or.inl hi), if_pos (by omega), zero_add]
  · rw [if_pos (by omega), if_pos (Or.inr hj), if_pos (by omega), zero_add]
  · rw [if_neg (by omega), if_neg (by omega), if_pos (by omega), add_zero]

theorem psd_yawInc {q : Quat ℝ} (hq : q.normSq = 1) {v : ℝ} (hv : 0 ≤ v) {P : Mat ℝ} (h : Spec.PSD P) : Spec.PSD (increaseQuatYawErrVariance q v P) :=
  (yaw_variance_increase_valid q (by unfold Quat.normSq at hq; linarith) v hv P h).1

theorem valid_quatYaw (L : Yaw.Lib) (lib : QuatLib L.ofDcm L.normalize) (y v : ℝ) (u : Bool) (s : Yaw.St) (hq : s.est.state.quat.normSq = 1) (h : ValidMag s.cov) :
    ValidMag (Yaw.resetQuatStateYaw L y v u s).cov := by
  have hu := unit_yaw L lib y v u s hq
  refine ⟨?_, h.2⟩
  unfold Yaw.resetQuatStateYaw at hu ⊢
  simp only at hu ⊢
  split
  · next hv =>
    refine psd_yawInc hu (le_of_lt (lt_trans ?_ hv)) (psd_uncorrelateQuat h.1)
    unfold Yaw.fltEps; positivity
  · exact psd_uncorrelateQuat h.1

theorem valid_magHeading (L : Yaw.Lib) (lib : QuatLib L.ofDcm L.normalize) (x : Yaw.In) (m : V3 ℝ) (i u : Bool) (s : Yaw.St) (hq : s.est.state.quat.normSq = 1)
    (h : ValidMag s.cov) : ValidMag (Yaw.resetMagHeading L x m i u s).1.cov := by
  have fin : ∀ y v, ValidMag (resetMagCov x.magNoise (Yaw.setMagI m (Yaw.resetQuatStateYaw L y v u s)).cov) :=
    fun y v => valid_resetMagCov _ (valid_quatYaw L lib y v u s hq h)
  unfold Yaw.resetMagHeading
  simp only
  repeat' split
  all_goals first | exact h | exact valid_stop h | exact fin _ _

theorem valid_course (L : Yaw.Lib) (lib : QuatLib L.ofDcm L.normalize) (x : Yaw.In) (s : Yaw.St) (hq : s.est.state.quat.normSq = 1)
    (h : ValidMag s.cov) : ValidMag (Yaw.realignYawGps L x s).1.cov := by
  unfold Yaw.realignYawGps
  split
  · exact valid_magHeading _ lib _ _ _ _ _ hq h
  · have hq' : ∀ (y v : ℝ) (t : Yaw.St), t.cov = s.cov → t.est = s.est → ValidMag (Yaw.resetQuatStateYaw L y v true t).cov :=
      fun y v t e e' => valid_quatYaw _ lib _ _ _ _ (e' ▸ hq) (e ▸ h)
    unfold Yaw.courseAlign
    extract_lets bad s1
    have h1 : s1.cov = s.cov := by simp only [s1]; split <;> rfl
    have e1 : s1.est = s.est := by simp only [s1]; split <;> rfl
    clear_value s1
    split
    · rename_i s2 yaw s3 _ _ _ _ _ _ _
      have h3 : s3.cov = s.cov := by
        have h2 : s2.cov = s.cov := by simp only [s2]; split <;> exact h1
        simp only [s3]; split <;> exact h2
      have e3 : s3.est = s.est := by
        have h2 : s2.est = s.est := by simp only [s2]; split <;> exact e1
        simp only [s3]; split <;> exact h2
      exact valid_resetMagCov _ (hq' _ _ _ h3 e3)
    · exact valid_resetMagCov _ (show ValidMag s1.cov from h1 ▸ h)

theorem valid_gsf (L : Yaw.Lib) (lib : QuatLib L.ofDcm L.normalize) (x : Yaw.In) (s : Yaw.St) (hq : s.est.state.quat.normSq = 1)
    (h : ValidMag s.cov) : ValidMag (Yaw.resetYawToGsf L x s).1.cov := by
  unfold Yaw.resetYawToGsf
  simp only
  repeat' split
  all_goals first | exact h | exact valid_quatYaw _ lib _ _ _ _ hq h

theorem valid_evYaw (L : Yaw.Lib) (lib : QuatLib L.ofDcm L.normalize) (x : Yaw.In) (s : Yaw.St) (hq : s.est.state.quat.normSq = 1)
    (h : ValidMag s.cov) : ValidMag (Yaw.startEvYaw L x s).cov := by
  unfold Yaw.startEvYaw
  exact valid_stop3D (show ValidMag (stopMagHdg _) from valid_quatYaw _ lib _ _ _ _ hq h)

theorem psd_heightReset (x : Control.HIn) (s : Control.HSt) (f : Filt) (h : Spec.PSD f.P) : Spec.PSD (resetHeight x s f).P := by
  have hu : ∀ (k : ℕ) (g : Filt) (v : ℝ), 0 ≤ v → Spec.PSD g.P → Spec.PSD (uncorrSet k 1 (fun _ => v) g.M.P) :=
    fun k g v hv hg => psd_uncorrSet hg fun _ _ => hv
  have hv : ∀ g : Filt, Spec.PSD g.P → Spec.PSD (if (x.gpsAid && !x.gpsIntermittent) = true then
      { g with s := Function.update g.s 6 x.gpsVelDNew, M := { g.M with P := uncorrSet 6 1 (fun _ => sq ((3 / 2) * x.gpsSaccNew)) g.M.P } } else
      { g with s := Function.update g.s 6 0, M := { g.M with P := uncorrSet 6 1 (fun _ => 10) g.M.P } } : Filt).P := by
    intro g hg
    split
    · exact hu 6 g _ (mul_self_nonneg _) hg
    · exact hu 6 g _ (by norm_num) hg
  unfold resetHeight
  refine hv _ ?_
  repeat' split
  all_goals first | exact h | exact hu _ _ _ (mul_self_nonneg _) h

theorem saved_heightReset (x : Control.HIn) (s : Control.HSt) (f : Filt) : (resetHeight x s f).M.saved = f.M.saved := by
  unfold resetHeight
  simp only
  repeat' split
  all_goals rfl

/-- the conditioning at an update uses the filter's averaged period and its record of inhibited accelerometer axes -/
def Spec.SameCfg (w : W) (x : FixIn ℝ) : Prop := x.inhibit = w.inhibit ∧ x.dtEkfAvg = w.dtEkfAvg

/-- the step is one that is not known to break a valid covariance: measurement noise is positive (above 1e-6 for the second component of a horizontal
velocity or position); the update corrects all states in use (magnetometer fusion after its first 5 s, airspeed and sideslip fusion while dead
reckoning with wind, heading fusion without 3-axis magnetometer fusion); no drag and no optical flow update; a wind reset has time stamps in order; the
horizontal position variances have not reached the value at which their growth is stopped -/
def Spec.Regular (w : W) : Op → Prop
  | .predict _ => w.f.P 7 7 + w.f.P 8 8 ≤ 10000
  | .hvel x _ _ _ r0 r1 _ => Spec.SameCfg w x.fx ∧ 0 < r0 ∧ 1 / 1000000 < r1
  | .vvel x _ _ r _ => Spec.SameCfg w x.fx ∧ 0 < r
  | .hpos x _ _ _ r0 r1 _ _ => Spec.SameCfg w x.fx ∧ 0 < r0 ∧ 1 / 1000000 < r1
  | .vpos x _ _ r _ => Spec.SameCfg w x.fx ∧ 0 < r
  | .mag x _ => Spec.SameCfg w x.fx ∧ 0 < x.noise ∧ 5000000 < (x.imuTime - x.alignStart).toNat
  | .declination _ fx sigma _ => Spec.SameCfg w fx ∧ sigma ≠ 0
  | .heading x _ => Spec.SameCfg w x.h.fx ∧ x.h.fx.mag3D = false
  | .gpsYaw x _ => Spec.SameCfg w x.fx
  | .airspeed x _ => Spec.SameCfg w x.fx ∧ x.windDR = true
  | .sideslip x _ => Spec.SameCfg w x.fx ∧ x.windDR = true ∧ x.betaNoise ≠ 0
  | .drag .. => False
  | .flow .. => False
  | .wind x => x.tasTime ≤ x.imuTime
  | _ => True

theorem magAll_of {x : MagIn} (h : 5000000 < (x.imuTime - x.alignStart).toNat) : magAll x = true := by
  unfold magAll
  exact decide_eq_true (UInt64.lt_iff_toNat_lt.mpr h)

/-- one regular step -/
theorem valid_step (w : W) (op : Op) (hok : op.Ok) (hl : op.LibOk) (hr : Spec.Regular w op) (hq : (attQuat w.f.s).normSq = 1)
    (hdt : w.dtEkfAvg ∈ Set.Icc (1 / 200 : ℝ) (1 / 50)) (hb : Spec.BelowLimits w.dtEkfAvg w.f.P) (hi : ∀ a, w.inhibit a = false)
    (hacc : ∀ a, w.acc.ang a = 0 ∧ w.acc.vel a = 0) (h : ValidMag w.f.M)
    (hb' : Spec.BelowLimits (step w op).dtEkfAvg (step w op).f.P) (hi' : ∀ a, (step w op).inhibit a = false) : ValidMag (step w op).f.M := by
  have hg : Good w.dtEkfAvg w.f := ⟨h.1, hb⟩
  have hs : SavedOk w.f.M := h.2
  have C := saved_closed
  have hc : ∀ {x : FixIn ℝ}, Spec.SameCfg w x → Cond w.dtEkfAvg x := fun {x} hx => ⟨fun a => by rw [hx.1]; exact hi a, hx.2, by have := hdt.1; linarith⟩
  have hd0 : ∀ i : Fin N, 4 ≤ i.val → i.val < 10 → 0 ≤ w.f.P i i := fun i _ _ => diag_nonneg h.1 i
  have hwind : ∀ x : WindResetIn, 0 ≤ x.initialWindUnc → x.tasTime ≤ x.imuTime → Spec.PSD (resetWind x w.f).P := fun x h1 h2 =>
    resetWind_valid _ _ h.1 h1 h2
  cases op with
  | reset => exact ⟨h.1, h.2⟩
  | tilt a g =>
    simp only [step]
    split
    · exact h
    · exact h
  | initCov x => exact ⟨init_valid _ _, C.ini x _ hs⟩
  | predict x =>
    have hdt' : (step w (.predict x)).dtEkfAvg ∈ Set.Icc (1 / 200 : ℝ) (1 / 50) := dt_step w (.predict x) hdt
    simp only [step, predict] at hb' hi' hdt' ⊢
    refine ⟨?_, hs⟩
    exact psd_predictCovariance (by have := hdt'.1; exact lt_of_lt_of_le (by norm_num) this) h.1 hacc hi hi' hr hb'
  | hvel x i0 i1 g r0 r1 a =>
    exact ⟨((good_velpos (hc hr.1) { a with f := w.f } hg hd0).1 i0 i1 g r0 r1 hr.2.1 hr.2.2).1, (closed_velpos C { a with f := w.f } x hs).1 _ _ _ _ _⟩
  | vvel x i g r a =>
    exact ⟨((good_velpos (hc hr.1) { a with f := w.f } hg hd0).2.1 i g r hr.2).1, (closed_velpos C { a with f := w.f } x hs).2.1 _ _ _⟩
  | hpos x i0 i1 g r0 r1 b a =>
    exact ⟨((good_velpos (hc hr.1) { a with f := w.f } hg hd0).2.2.1 i0 i1 g r0 r1 b hr.2.1 hr.2.2).1, (closed_velpos C { a with f := w.f } x hs).2.2.1 _ _ _ _ _ _⟩
  | vpos x i g r a =>
    exact ⟨((good_velpos (hc hr.1) { a with f := w.f } hg hd0).2.2.2 i g r hr.2).1, (closed_velpos C { a with f := w.f } x hs).2.2.2 _ _ _⟩
  | mag x a => exact ⟨(good_fuseMag (hc hr.1) hr.2.1 (magAll_of hr.2.2) { a with f := w.f } hg).1, closed_fuseMag C x { a with f := w.f } hs⟩
  | declination x fx sg a =>
    exact ⟨(good_fuseDeclination (x := x) (hc hr.1) hr.2 { a with f := w.f } hg).1, closed_fuseDeclination C x fx sg { a with f := w.f } hs⟩
  | heading x a =>
    exact ⟨(good_fuseHeading (hc hr.1) hr.2 { a with y := { a.y with f := w.f }, Rte := w.R } hg).1, closed_fuseHeading C x { a with y := { a.y with f := w.f }, Rte := w.R } hs⟩
  | gpsYaw x a => exact ⟨(good_fuseGpsYaw (hc hr) { a with f := w.f } hg).1, closed_fuseGpsYaw C x { a with f := w.f } hs⟩
  | airspeed x a => exact ⟨(good_fuseAirspeed (hc hr.1) hr.2 { a with f := w.f } hg).1, closed_fuseAirspeed C x { a with f := w.f } hok hs⟩
  | sideslip x a => exact ⟨(good_fuseSideslip (hc hr.1) hr.2.1 hr.2.2 { a with f := w.f } hg).1, closed_fuseSideslip C x { a with f := w.f } hok hs⟩
  | drag x a => exact hr.elim
  | flow x a => exact hr.elim
  | wind x => exact ⟨hwind x hok hr, C.wind x _ hok hs⟩
  | velocityReset x a => exact ⟨(Meas.reset_valid { x with evPosVar := fun _ => 0 } ⟨{ a with state := toState w.f.s }, w.f.P, true⟩ h.1 hok.1 hok.2 fun _ => le_rfl).1, hs⟩
  | positionReset x a =>
    exact ⟨(Meas.reset_valid { x with flowVar := 0, visVelVar := fun _ => 0 } ⟨{ a with state := toState w.f.s }, w.f.P, true⟩ h.1 le_rfl (fun _ => le_rfl) hok).2, hs⟩
  | heightReset x s =>
    refine ⟨psd_heightReset x s _ h.1, ?_⟩
    obtain ⟨Q, hQ, e⟩ := hs
    exact ⟨Q, hQ, (saved_heightReset x s w.f).trans e⟩
  | magYaw L x m i u a => exact valid_magHeading L hl x m i u { a with est := { a.est with state := toState w.f.s }, R := w.R, cov := w.f.M } hq h
  | courseYaw L x a => exact valid_course L hl x { a with est := { a.est with state := toState w.f.s }, R := w.R, cov := w.f.M } hq h
  | gsfYaw L x a => exact valid_gsf L hl x { a with est := { a.est with state := toState w.f.s }, R := w.R, cov := w.f.M } hq h
  | evYaw L x a => exact valid_evYaw L hl x { a with est := { a.est with state := toState w.f.s }, R := w.R, cov := w.f.M } hq h
  | yawReset L y v u a => exact valid_quatYaw L hl y v u { a with est := { a.est with state := toState w.f.s }, R := w.R, cov := w.f.M } hq h
  | yawVariance v => exact ⟨psd_yawInc hq hok h.1, hs⟩
  | resetMagCov n => exact valid_resetMagCov n h
  | clearMagCov => exact valid_clear h
  | startMag3D => exact valid_start3D h
  | startMagHdg => exact (show ValidMag (startMagHdg w.f.M) from valid_stop3D h)
  | stopMag3D => exact valid_stop3D h
  | stopMagHdg => exact h
  | gyroBias sw => exact ⟨psd_uncorrSet h.1 fun _ _ => mul_self_nonneg _, hs⟩
  | accelBias sw => exact ⟨psd_uncorrSet h.1 fun _ _ => mul_self_nonneg _, hs⟩
  | magBias n =>
    refine ⟨psd_uncorrSet h.1 fun _ _ => mul_self_nonneg _, ?_⟩
    obtain ⟨Q, hQ, e⟩ := hs
    refine ⟨uncorrSet 19 3 (fun _ => 0) Q, psd_uncorrSet hQ fun _ _ => le_rfl, ?_⟩
    simp only [step, resetMagBias, e]
    unfold saveMagCov uncorrSet inBlk
    simp only [MagSave.mk.injEq]
    constructor
    · funext i
      by_cases hi : i.val = 0
      · rw [if_pos hi, if_neg (by omega)]
      · rw [if_neg hi, if_pos (by left; constructor <;> omega)]; simp
    · funext i j
      rw [if_neg (by omega)]
  | yawGyroVariance sw => exact ⟨psd_uncorrSet h.1 fun _ _ => mul_self_nonneg _, hs⟩

/-- the compensation of the bias variance sums is zero throughout -/
theorem acc_run (l : List Op) (a : Fin 3) : (run powerOn l).acc.ang a = 0 ∧ (run powerOn l).acc.vel a = 0 := by
  induction l using List.reverseRecOn with
  | nil => exact ⟨rfl, rfl⟩
  | append_singleton l op ih =>
    rw [run_append]
    show (step (run powerOn l) op).acc.ang a = 0 ∧ (step (run powerOn l) op).acc.vel a = 0
    cases op with
    | predict x => exact accumulators_zero _ _ a
    | tilt b g => simp only [step]; split <;> exact ih
    | _ => exact ih

/-- **C140.** After any history of regular steps (see `Spec.Regular`) during which no variance reaches its upper limit, no accelerometer axis is
inhibited and no update cancels the attitude quaternion exactly, the covariance is symmetric positive semi-definite: no combination of states has a negative
variance. -/
theorem covariance_valid (l : List Op) (hok : ∀ op ∈ l, op.Ok ∧ op.LibOk) (hz : ∀ p, p <+: l → (attQuat (run powerOn p).f.s).normSq ≠ 0)
    (hb : ∀ p, p <+: l → Spec.BelowLimits (run powerOn p).dtEkfAvg (run powerOn p).f.P ∧ ∀ a, (run powerOn p).inhibit a = false)
    (hr : ∀ p op, p ++ [op] <+: l → Spec.Regular (run powerOn p) op) :
    (∀ i j, (run powerOn l).f.P i j = (run powerOn l).f.P j i) ∧
    ∀ v : Fin N → ℝ, 0 ≤ ∑ i, ∑ j, v i * (run powerOn l).f.P i j * v j := by
  have key : ValidMag (run powerOn l).f.M := by
    induction l using List.reverseRecOn with
    | nil =>
      have h0 : Spec.PSD (fun _ _ : Fin N => (0 : ℝ)) := psd_congr (fun _ _ => by simp) (psd_diag (d := fun _ => (0 : ℝ)) fun _ => le_rfl)
      exact ⟨h0, _, h0, rfl⟩
    | append_singleton l a ih =>
      have pre : ∀ p, p <+: l → p <+: l ++ [a] := fun p hp => hp.trans (List.prefix_append _ _)
      have h1 := ih (fun o ho => hok o (List.mem_append_left _ ho)) (fun p hp => hz p (pre p hp)) (fun p hp => hb p (pre p hp)) (fun p op hp => hr p op (pre _ hp))
      have hq := attitude_unit l (fun o ho => hok o (List.mem_append_left _ ho)) (fun p hp => hz p (pre p hp))
      have e : run powerOn (l ++ [a]) = step (run powerOn l) a := by rw [run_append]; rfl
      have hbl := hb l (List.prefix_append _ _)
      have hbe := hb (l ++ [a]) (List.prefix_refl _)
      rw [e] at hbe ⊢
      exact valid_step _ a (hok a (by simp)).1 (hok a (by simp)).2 (hr l a (List.prefix_refl _)) hq (dt_run l) hbl.1 hbl.2 (acc_run l) h1 hbe.1 hbe.2
  exact ⟨key.1.symm, key.1.nonneg⟩

end Ecl.Whole
