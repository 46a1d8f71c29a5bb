import Verif.Whole.Model

/-!
# Every history: the covariance stays symmetric with non-negative variances (C137)
-/

namespace Ecl.Whole

open Ecl.Cov Ecl.Fusion Ecl.Ekf

/-- covariance and stored magnetic covariances -/
def SaneMag (M : MagState ℝ) : Prop :=
  Spec.Sane M.P ∧ (∀ i, 0 ≤ M.saved.bf i) ∧ (∀ i j, M.saved.ef i j = M.saved.ef j i) ∧ ∀ i, 0 ≤ M.saved.ef i i

theorem saneFilt_iff (f : Filt) : SaneFilt f ↔ SaneMag f.M ∧ ∀ a, 0 ≤ f.prevVar a :=
  ⟨fun h => ⟨⟨h.P, h.bf, h.efSym, h.ef⟩, h.prev⟩, fun h => ⟨h.1.1, h.2, h.1.2.1, h.1.2.2.1, h.1.2.2.2⟩⟩

theorem saneMag_resetMagCov (n : ℝ) {M : MagState ℝ} (h : SaneMag M) : SaneMag (resetMagCov n M) :=
  ((saneFilt_iff _).mp (sane_resetMagCov n ⟨fun _ => 0, M, fun _ => 0, 0, false⟩ ((saneFilt_iff _).mpr ⟨h, fun _ => le_rfl⟩))).1

theorem saneMag_P {M : MagState ℝ} (h : SaneMag M) {P : Mat ℝ} (hP : Spec.Sane P) : SaneMag { M with P := P } := ⟨hP, h.2⟩

theorem saneMag_clear {M : MagState ℝ} (h : SaneMag M) : SaneMag (clearMagCov M) := by
  refine ⟨?_, h.2⟩
  unfold clearMagCov zeroMagCov
  exact sane_uncorrSet (sane_uncorrSet h.1 fun _ _ => le_rfl) fun _ _ => le_rfl

theorem saneMag_stop3D {M : MagState ℝ} (h : SaneMag M) : SaneMag (stopMag3D M) := by
  unfold stopMag3D
  split
  · exact ⟨h.1, sane_save h.1⟩
  · exact h

theorem saneMag_stopHdg {M : MagState ℝ} (h : SaneMag M) : SaneMag (stopMagHdg M) := h

theorem saneMag_startHdg {M : MagState ℝ} (h : SaneMag M) : SaneMag (startMagHdg M) := saneMag_stop3D h

theorem saneMag_stop {M : MagState ℝ} (h : SaneMag M) : SaneMag (stopMag M) := saneMag_clear (saneMag_stopHdg (saneMag_stop3D h))

theorem sane_load {sv : MagSave ℝ} (hb : ∀ i, 0 ≤ sv.bf i) (hs : ∀ i j, sv.ef i j = sv.ef j i) (he : ∀ i, 0 ≤ sv.ef i i) {P : Mat ℝ} (h : Spec.Sane P) :
    Spec.Sane (loadMagCov sv P) := by
  constructor
  · intro i j
    unfold loadMagCov
    by_cases d : i = j
    · subst d; rfl
    by_cases c : (16 ≤ i.val ∧ i.val < 18) ∧ (16 ≤ j.val ∧ j.val < 18)
    · rw [dif_pos c, dif_pos c.symm]; exact hs _ _
    · have c' : ¬((16 ≤ j.val ∧ j.val < 18) ∧ (16 ≤ i.val ∧ i.val < 18)) := fun h => c h.symm
      have d1 : ¬(i = j ∧ 18 ≤ i.val ∧ i.val < 22) := fun h => d h.1
      have d2 : ¬(j = i ∧ 18 ≤ j.val ∧ j.val < 22) := fun h => d h.1.symm
      rw [dif_neg c, dif_neg c', dif_neg d1, dif_neg d2]; exact h.sym i j
  · intro i
    unfold loadMagCov
    split
    · exact he _
    · split
      · exact hb _
      · exact h.var i

theorem saneMag_start3D {M : MagState ℝ} (h : SaneMag M) : SaneMag (startMag3D M) := by
  unfold startMag3D
  split
  · refine ⟨sane_load h.2.1 h.2.2.1 h.2.2.2 ?_, h.2⟩
    unfold zeroMagCov stopMagHdg
    exact sane_uncorrSet (sane_uncorrSet h.1 fun _ _ => le_rfl) fun _ _ => le_rfl
  · exact h

theorem sane_yawInc (q : Quat ℝ) (v : ℝ) (hv : 0 ≤ v) {P : Mat ℝ} (h : Spec.Sane P) : Spec.Sane (increaseQuatYawErrVariance q v P) := by
  have hv' : 0 ≤ min v (1 / 100) := le_min hv (by norm_num)
  have sqn : ∀ a : ℝ, 0 ≤ min v (1 / 100) * sq a := fun a => mul_nonneg hv' (mul_self_nonneg a)
  have hs : ∀ a b : Fin 4, yawVarInc q v a b = yawVarInc q v b a := by
    intro a b
    unfold yawVarInc
    fin_cases a <;> fin_cases b <;> simp
  have hd : ∀ a : Fin 4, 0 ≤ yawVarInc q v a a := by
    intro a
    unfold yawVarInc
    fin_cases a <;> simp <;> exact mul_nonneg (by simpa using hv) (mul_self_nonneg _)
  unfold increaseQuatYawErrVariance
  constructor
  · intro i j
    by_cases c : i.val < 4 ∧ j.val < 4
    · rw [dif_pos c, dif_pos c.symm, h.sym i j, hs]
    · rw [dif_neg c, dif_neg (fun h => c h.symm)]; exact h.sym i j
  · intro i
    split
    · exact add_nonneg (h.var i) (hd _)
    · exact h.var i

theorem sane_uncorrelateQuat {P : Mat ℝ} (h : Spec.Sane P) : Spec.Sane (uncorrelateQuat P) := by
  unfold uncorrelateQuat
  constructor
  · intro i j
    by_cases c : (4 ≤ i.val ∧ j.val < 4) ∨ (i.val < 4 ∧ 4 ≤ j.val)
    · rw [if_pos c, if_pos (by tauto)]
    · rw [if_neg c, if_neg (by tauto)]; exact h.sym i j
  · intro i
    rw [if_neg (by omega)]; exact h.var i

theorem saneMag_quatYaw (L : Yaw.Lib) (y v : ℝ) (u : Bool) (s : Yaw.St) (h : SaneMag s.cov) : SaneMag (Yaw.resetQuatStateYaw L y v u s).cov := by
  unfold Yaw.resetQuatStateYaw
  simp only
  refine saneMag_P h ?_
  split
  · next hv =>
    refine sane_yawInc _ _ (le_of_lt (lt_trans ?_ hv)) (sane_uncorrelateQuat h.1)
    unfold Yaw.fltEps; positivity
  · exact sane_uncorrelateQuat h.1

theorem saneMag_magHeading (L : Yaw.Lib) (x : Yaw.In) (m : V3 ℝ) (i u : Bool) (s : Yaw.St) (h : SaneMag s.cov) : SaneMag (Yaw.resetMagHeading L x m i u s).1.cov := by
  have fin : ∀ y v, SaneMag (resetMagCov x.magNoise (Yaw.setMagI m (Yaw.resetQuatStateYaw L y v u s)).cov) :=
    fun y v => saneMag_resetMagCov _ (saneMag_quatYaw L y v u s h)
  unfold Yaw.resetMagHeading
  simp only
  repeat' split
  all_goals first | exact h | exact saneMag_stop h | exact fin _ _

theorem saneMag_course (L : Yaw.Lib) (x : Yaw.In) (s : Yaw.St) (h : SaneMag s.cov) : SaneMag (Yaw.realignYawGps L x s).1.cov := by
  unfold Yaw.realignYawGps
  split
  · exact saneMag_magHeading _ _ _ _ _ _ h
  · have hq : ∀ (y v : ℝ) (t : Yaw.St), t.cov = s.cov → SaneMag (Yaw.resetQuatStateYaw L y v true t).cov := fun y v t e => saneMag_quatYaw _ _ _ _ _ (e ▸ h)
    unfold Yaw.courseAlign
    extract_lets bad s1
    have h1 : s1.cov = s.cov := by simp only [s1]; split <;> rfl
    clear_value s1
    split
    · rename_i s2 yaw s3 _ _ _ _ _ _ _
      have h3 : s3.cov = s.cov := by
        have h2 : s2.cov = s.cov := by simp only [s2]; split <;> exact h1
        simp only [s3]; split <;> exact h2
      exact saneMag_resetMagCov _ (hq _ _ _ h3)
    · exact saneMag_resetMagCov _ (show SaneMag s1.cov from h1 ▸ h)

theorem saneMag_gsf (L : Yaw.Lib) (x : Yaw.In) (s : Yaw.St) (h : SaneMag s.cov) : SaneMag (Yaw.resetYawToGsf L x s).1.cov := by
  unfold Yaw.resetYawToGsf
  simp only
  repeat' split
  all_goals first | exact h | exact saneMag_quatYaw _ _ _ _ _ h

theorem saneMag_evYaw (L : Yaw.Lib) (x : Yaw.In) (s : Yaw.St) (h : SaneMag s.cov) : SaneMag (Yaw.startEvYaw L x s).cov := by
  unfold Yaw.startEvYaw
  exact saneMag_stop3D (saneMag_stopHdg (saneMag_quatYaw _ _ _ _ _ h))

theorem sane_velReset (x : Meas.RIn) (f : Meas.Flt) (h1 : 0 ≤ x.flowVar) (h2 : ∀ i, 0 ≤ x.visVelVar i) (h : Spec.Sane f.P) : Spec.Sane (Meas.resetVelocity x f).P := by
  unfold Meas.resetVelocity
  split
  · exact sane_uncorrSet h fun _ _ => mul_self_nonneg _
  · split
    · exact sane_uncorrSet h fun _ _ => mul_nonneg (mul_self_nonneg _) h1
    · split
      · refine sane_uncorrSet h fun i _ => ?_
        unfold Meas.blkVar
        simp only
        repeat' split
        all_goals exact h2 _
      · exact sane_uncorrSet h fun _ _ => by norm_num

theorem sane_posReset (x : Meas.RIn) (f : Meas.Flt) (h2 : ∀ i, 0 ≤ x.evPosVar i) (h : Spec.Sane f.P) : Spec.Sane (Meas.resetHorizontalPosition x f).P := by
  unfold Meas.resetHorizontalPosition
  simp only
  split
  · exact sane_uncorrSet h fun _ _ => mul_self_nonneg _
  · split
    · refine sane_uncorrSet h fun i _ => ?_
      unfold Meas.blkVar
      simp only
      split
      all_goals exact h2 _
    · split
      · exact sane_uncorrSet h fun _ _ => le_rfl
      · exact sane_uncorrSet h fun _ _ => mul_self_nonneg _

theorem sane_heightReset (x : Control.HIn) (s : Control.HSt) (f : Filt) (h : SaneFilt f) : SaneFilt (resetHeight x s f) := by
  have hu : ∀ (k : ℕ) (g : Filt) (t : Vec ℝ) (v : ℝ), 0 ≤ v → SaneFilt g → SaneFilt { g with s := t, M := { g.M with P := uncorrSet k 1 (fun _ => v) g.M.P } } :=
    fun k g t v hv hg => ⟨sane_uncorrSet hg.P fun _ _ => hv, hg.prev, hg.bf, hg.efSym, hg.ef⟩
  have hs : ∀ (g : Filt) (t : Vec ℝ), SaneFilt g → SaneFilt { g with s := t } := fun g t hg => ⟨hg.P, hg.prev, hg.bf, hg.efSym, hg.ef⟩
  have hv : ∀ g : Filt, SaneFilt g → SaneFilt (if (x.gpsAid && !x.gpsIntermittent) = true then
      { g with s := Function.update g.s 6 x.gpsVelDNew, M := { g.M with P := uncorrSet 6 1 (fun _ => sq ((3 / 2) * x.gpsSaccNew)) g.M.P } } else
      { g with s := Function.update g.s 6 0, M := { g.M with P := uncorrSet 6 1 (fun _ => 10) g.M.P } }) := by
    intro g hg
    split
    · exact hu _ _ _ _ (mul_self_nonneg _) hg
    · exact hu _ _ _ _ (by norm_num) hg
  unfold resetHeight
  refine hv _ ?_
  repeat' split
  all_goals first | exact h | exact hs _ _ h | exact hu _ _ _ _ (mul_self_nonneg _) h

theorem sane_inhibitStep (x : InhibitIn ℝ) (g c : ℝ) (s : InhibitState ℝ) (a : Fin 3) (hP : Spec.Sane s.P) (hv : ∀ a, 0 ≤ s.prevVar a) :
    Spec.Sane (inhibitStep x g c s a).P ∧ ∀ b, 0 ≤ (inhibitStep x g c s a).prevVar b := by
  unfold inhibitStep
  split
  · split
    · refine ⟨hP, fun b => ?_⟩
      simp only [Function.update_apply]
      split
      · exact hP.var _
      · exact hv b
    · exact ⟨hP, hv⟩
  · split
    · refine ⟨⟨fun i j => ?_, fun i => ?_⟩, hv⟩
      · simp only
        by_cases e : i = accIdx a ∧ j = accIdx a
        · rw [if_pos e, if_pos e.symm]
        · rw [if_neg e, if_neg (fun h => e h.symm)]; exact hP.sym i j
      · simp only
        split
        · exact hv a
        · exact hP.var i
    · exact ⟨hP, hv⟩

theorem sane_inhibitUpdate (x : InhibitIn ℝ) (s : InhibitState ℝ) (hP : Spec.Sane s.P) (hv : ∀ a, 0 ≤ s.prevVar a) :
    Spec.Sane (inhibitUpdate x s).P ∧ ∀ b, 0 ≤ (inhibitUpdate x s).prevVar b := by
  unfold inhibitUpdate
  simp only [List.foldl]
  obtain ⟨h1, v1⟩ := sane_inhibitStep x (envelope x s).1 (envelope x s).2 { s with angFilt := (envelope x s).1, accFilt := (envelope x s).2 } 0 hP hv
  obtain ⟨h2, v2⟩ := sane_inhibitStep x (envelope x s).1 (envelope x s).2 _ 1 h1 v1
  exact sane_inhibitStep x (envelope x s).1 (envelope x s).2 _ 2 h2 v2

theorem sane_predictCovariance (x : CovIn ℝ) (s : CovSt ℝ) (hP : Spec.Sane s.ist.P) (hv : ∀ a, 0 ≤ s.ist.prevVar a) :
    Spec.Sane (predictCovariance x s).ist.P ∧ ∀ a, 0 ≤ (predictCovariance x s).ist.prevVar a := by
  obtain ⟨h1, v1⟩ := sane_inhibitUpdate x.inh s.ist hP hv
  unfold predictCovariance
  simp only
  refine ⟨?_, v1⟩
  unfold predictCov
  refine sane_fix _ _ _ _ _ (predictRaw_symm _ _ _) fun a ha => ?_
  have e := ((predictRaw_entry ⟨x.predIn, processNoise x.nz (heightRateLpf s.heightRate x.nz.velD) (inhibitUpdate x.inh s.ist).P, (inhibitUpdate x.inh s.ist).inhibit,
    (inhibitUpdate x.inh s.ist).prevVar, x.nz.mag3D, x.nz.wind⟩ s.acc (inhibitUpdate x.inh s.ist).P h1.sym (accIdx a) (accIdx a) le_rfl).2 (fun h => by
      have := h.2; have : (accIdx a).val = 13 + a.val := rfl; omega)).2.1 a ha rfl
  rw [e, if_pos rfl]
  exact v1 a

/-- every step keeps the covariance sane -/
theorem sane_step (w : W) (op : Op) (hok : op.Ok) (h : SaneFilt w.f) : SaneFilt (step w op).f := by
  have C := sane_closed
  have hm := ((saneFilt_iff _).mp h).1
  have mk : ∀ (s : Vec ℝ) (M : MagState ℝ), SaneMag M → SaneFilt { w.f with s := s, M := M } := fun s M hM => (saneFilt_iff _).mpr ⟨hM, h.prev⟩
  cases op with
  | reset => exact ⟨h.P, fun _ => le_rfl, h.bf, h.efSym, h.ef⟩
  | tilt a g =>
    simp only [step]
    split
    · exact mk _ _ hm
    · exact h
  | initCov x => exact C.ini x _ h
  | predict x =>
    have := sane_predictCovariance
    simp only [step, predict]
    exact (saneFilt_iff _).mpr ⟨saneMag_P hm (sane_predictCovariance _ _ h.P h.prev).1, (sane_predictCovariance _ _ h.P h.prev).2⟩
  | hvel x i0 i1 g r0 r1 a => exact (closed_velpos C { a with f := w.f } x h).1 _ _ _ _ _
  | vvel x i g r a => exact (closed_velpos C { a with f := w.f } x h).2.1 _ _ _
  | hpos x i0 i1 g r0 r1 b a => exact (closed_velpos C { a with f := w.f } x h).2.2.1 _ _ _ _ _ _
  | vpos x i g r a => exact (closed_velpos C { a with f := w.f } x h).2.2.2 _ _ _
  | mag x a => exact closed_fuseMag C x { a with f := w.f } h
  | declination x fx sg a => exact closed_fuseDeclination C x fx sg { a with f := w.f } h
  | heading x a => exact closed_fuseHeading C x { a with y := { a.y with f := w.f }, Rte := w.R } h
  | gpsYaw x a => exact closed_fuseGpsYaw C x { a with f := w.f } h
  | airspeed x a => exact closed_fuseAirspeed C x { a with f := w.f } hok h
  | sideslip x a => exact closed_fuseSideslip C x { a with f := w.f } hok h
  | drag x a => exact closed_fuseDrag C x { a with f := w.f } h
  | flow x a => exact closed_fuseOptFlow C x { a with f := w.f } h
  | wind x => exact C.wind x _ hok h
  | velocityReset x a => exact mk _ _ (saneMag_P hm (sane_velReset x _ hok.1 hok.2 h.P))
  | positionReset x a => exact mk _ _ (saneMag_P hm (sane_posReset x _ hok h.P))
  | heightReset x s => exact sane_heightReset x s _ h
  | magYaw L x m i u a => exact mk _ _ (saneMag_magHeading L x m i u { a with est := { a.est with state := toState w.f.s }, R := w.R, cov := w.f.M } hm)
  | courseYaw L x a => exact mk _ _ (saneMag_course L x { a with est := { a.est with state := toState w.f.s }, R := w.R, cov := w.f.M } hm)
  | gsfYaw L x a => exact mk _ _ (saneMag_gsf L x { a with est := { a.est with state := toState w.f.s }, R := w.R, cov := w.f.M } hm)
  | evYaw L x a => exact mk _ _ (saneMag_evYaw L x { a with est := { a.est with state := toState w.f.s }, R := w.R, cov := w.f.M } hm)
  | yawReset L y v u a => exact mk _ _ (saneMag_quatYaw L y v u { a with est := { a.est with state := toState w.f.s }, R := w.R, cov := w.f.M } hm)
  | yawVariance v => exact mk _ _ (saneMag_P hm (sane_yawInc _ _ hok hm.1))
  | resetMagCov n => exact mk _ _ (saneMag_resetMagCov n hm)
  | clearMagCov => exact mk _ _ (saneMag_clear hm)
  | startMag3D => exact mk _ _ (saneMag_start3D hm)
  | startMagHdg => exact mk _ _ (saneMag_startHdg hm)
  | stopMag3D => exact mk _ _ (saneMag_stop3D hm)
  | stopMagHdg => exact mk _ _ (saneMag_stopHdg hm)
  | gyroBias sw => exact mk _ _ (saneMag_P hm (sane_uncorrSet hm.1 fun _ _ => mul_self_nonneg _))
  | accelBias sw =>
    have hP : Spec.Sane (resetAccelBias sw w.f.P).2.1 := sane_uncorrSet hm.1 fun _ _ => mul_self_nonneg _
    exact (saneFilt_iff _).mpr ⟨saneMag_P hm hP, fun a => hP.var _⟩
  | magBias n =>
    refine mk _ _ ⟨sane_uncorrSet hm.1 fun _ _ => mul_self_nonneg _, fun i => ?_, hm.2.2⟩
    simp only [resetMagBias]
    split
    · exact hm.2.1 i
    · exact le_rfl
  | yawGyroVariance sw => exact mk _ _ (saneMag_P hm (sane_uncorrSet hm.1 fun _ _ => mul_self_nonneg _))

theorem run_append (w : W) (a b : List Op) : run w (a ++ b) = run (run w a) b := List.foldl_append

theorem sane_powerOn : SaneFilt powerOn.f := by
  refine ⟨⟨fun _ _ => rfl, fun _ => le_rfl⟩, fun _ => le_rfl, fun _ => le_rfl, fun _ _ => rfl, fun _ => le_rfl⟩

/-- **C137.** After power-on and any sequence of predictions, sensor fusions, resets and mode changes, with any sensor data and parameters (only the
variances that come from vision data and the wind uncertainty parameter are assumed not negative), the covariance is symmetric and no variance is
negative; the same holds for the variances stored for later use. -/
theorem covariance_sane (l : List Op) (hok : ∀ op ∈ l, op.Ok) :
    (∀ i j, (run powerOn l).f.P i j = (run powerOn l).f.P j i) ∧ ∀ i, 0 ≤ (run powerOn l).f.P i i := by
  have : ∀ (l : List Op) (w : W), (∀ op ∈ l, op.Ok) → SaneFilt w.f → SaneFilt (run w l).f := by
    intro l
    induction l with
    | nil => exact fun w _ h => h
    | cons a l ih => exact fun w hok h => ih (step w a) (fun o ho => hok o (List.mem_cons_of_mem _ ho)) (sane_step w a (hok a List.mem_cons_self) h)
  have h := this l powerOn hok sane_powerOn
  exact ⟨h.P.sym, h.P.var⟩

end Ecl.Whole
