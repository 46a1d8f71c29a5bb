import Verif.Yaw.Turn
import Verif.Cov.BookkeepProps

/-!
# Heading resets: compass and vision (C116)
-/

namespace Ecl.Yaw

open Ecl.Ekf Ecl.Utils Ecl.Cov Real
open scoped Matrix

noncomputable section

variable (L : Lib)

/-- the angle `a` brought into (-π, π] -/
def Spec.norm (a : ℝ) : ℝ := atan2 (sin a) (cos a)

theorem norm_cos_sin (a : ℝ) : cos (Spec.norm a) = cos a ∧ sin (Spec.norm a) = sin a := by
  have hn : cos a ^ 2 + sin a ^ 2 = 1 := cos_sq_add_sin_sq a
  unfold Spec.norm
  exact ⟨by rw [cos_atan2 (by rw [hn]; norm_num), hn]; simp, by rw [sin_atan2, hn]; simp⟩

theorem norm_self {a : ℝ} (h : a ∈ Set.Ioc (-π) π) : Spec.norm a = a := by
  have := atan2_polar (r := 1) one_pos h
  rw [one_mul, one_mul] at this
  exact this

theorem updateYaw_norm (yaw : ℝ) (R : M3 ℝ) : updateYawInRotMat yaw R = updateYawInRotMat (Spec.norm yaw) R := by
  obtain ⟨hc, hs⟩ := norm_cos_sin yaw
  unfold updateYawInRotMat updateEuler321YawInRotMat updateEuler312YawInRotMat dcmOfEuler taitBryan312ToRotMat
  simp only [Matrix.cons_val, hc, hs]

theorem updateYaw_rot (yaw : ℝ) {R : M3 ℝ} (h : IsRotation R) : IsRotation (updateYawInRotMat yaw R) := by
  rw [updateYaw_norm]
  exact (updateYaw_spec _ (atan2_mem _ _) R h).1

theorem updateYaw_tilt (yaw : ℝ) {R : M3 ℝ} (h : IsRotation R) (j : Fin 3) : updateYawInRotMat yaw R 2 j = R 2 j := by
  rw [updateYaw_norm]
  exact congrFun (updateYaw_spec _ (atan2_mem _ _) R h).2.1 j

/-- the heading after replacing the yaw is the requested one -/
theorem heading_updateYaw (yaw : ℝ) {R : M3 ℝ} (h : IsRotation R) : Spec.heading (updateYawInRotMat yaw R) = Spec.norm yaw := by
  have ht := updateYaw_tilt yaw h
  obtain ⟨-, -, h1, h2⟩ := updateYaw_spec (Spec.norm yaw) (atan2_mem _ _) R h
  rw [← updateYaw_norm] at h1 h2
  unfold Spec.heading
  rw [ht 0, ht 1]
  by_cases hs : |R 2 0| < |R 2 1|
  · rw [if_pos hs]; exact h1 hs
  · rw [if_neg hs]; exact h2 hs

theorem heading_mem (R : M3 ℝ) : Spec.heading R ∈ Set.Ioc (-π) π := by
  unfold Spec.heading; split_ifs <;> exact atan2_mem _ _

/-- the tilt and the heading determine the attitude -/
theorem tilt_heading_unique {R R' : M3 ℝ} (h : IsRotation R) (h' : IsRotation R') (ht : ∀ j, R' 2 j = R 2 j)
    (hh : Spec.heading R' = Spec.heading R) : R' = R := by
  have e : updateYawInRotMat (Spec.heading R') R' = updateYawInRotMat (Spec.heading R') R := by
    unfold updateYawInRotMat updateEuler321YawInRotMat updateEuler312YawInRotMat shouldUse321 eulerOfDcm
    simp only [ht]
    split_ifs <;> rfl
  rw [updateYaw_turns _ h', updateYaw_turns _ h, hh, sub_self, turn_zero, Matrix.one_mul, Matrix.one_mul] at e
  exact e

/-! ## The common part: `resetQuatStateYaw` -/

theorem quat_rot {q : Quat ℝ} (h : q.normSq = 1) : IsRotation q.dcm := isRotation_of_orth (Quat.dcm_mul_transpose _ h) (Quat.dcm_det _ h)

/-- the variance really added to the heading by a yaw reset -/
def Spec.addedVar (var : ℝ) : ℝ := if 1 / 2 ^ 23 < var then min var (1 / 100) else 0

/-- **C116 (reset).** A yaw reset to any angle keeps a unit quaternion, turns the attitude about the vertical so that its heading becomes the
requested angle, keeps tilt, velocity, position, biases, field and wind states, and leaves the rotation matrix used by the filter consistent
with the attitude. -/
theorem yaw_reset (lib : QuatLib L.ofDcm L.normalize) (s : St) (hq : s.est.state.quat.normSq = 1) (yaw var : ℝ) (ub : Bool) :
    let s' := resetQuatStateYaw L yaw var ub s
    s'.est.state = { s.est.state with quat := s'.est.state.quat } ∧ s'.est.state.quat.normSq = 1 ∧
    s'.est.state.quat.dcm = Spec.turn (yaw - Spec.heading s.est.state.quat.dcm) * s.est.state.quat.dcm ∧
    Spec.heading s'.est.state.quat.dcm = Spec.norm yaw ∧
    s'.R = s'.est.state.quat.dcm := by
  intro s'
  have hr := quat_rot hq
  have hd : s'.est.state.quat.dcm = updateYawInRotMat yaw s.est.state.quat.dcm := lib.ofDcm_dcm _ (updateYaw_rot yaw hr)
  refine ⟨rfl, lib.ofDcm_unit _ (updateYaw_rot yaw hr), ?_, ?_, hd.symm⟩
  · rw [hd, updateYaw_turns _ hr]
  · rw [hd, heading_updateYaw _ hr]

/-- **C116 (reset, covariance).** A yaw reset removes every correlation between attitude and the other states, keeps the covariance of the
other states, and adds to the attitude covariance the given yaw variance, limited to 0.01 rad², along the direction of a turn about the
vertical (nothing if the given variance is below the float epsilon). -/
theorem yaw_reset_cov (lib : QuatLib L.ofDcm L.normalize) (s : St) (hq : s.est.state.quat.normSq = 1) (yaw var : ℝ) (ub : Bool) (i j : Fin N) :
    let s' := resetQuatStateYaw L yaw var ub s
    (i.val < 4 → j.val < 4 → s'.cov.P i j = s.cov.P i j + Spec.addedVar var * (Cov.Spec.yawDir s'.est.state.quat i * Cov.Spec.yawDir s'.est.state.quat j)) ∧
    ((i.val < 4 ↔ ¬ j.val < 4) → s'.cov.P i j = 0) ∧ (4 ≤ i.val → 4 ≤ j.val → s'.cov.P i j = s.cov.P i j) := by
  intro s'
  have hr := quat_rot hq
  have hu : s'.est.state.quat.normSq = 1 := lib.ofDcm_unit _ (updateYaw_rot yaw hr)
  have hu' : s'.est.state.quat.w ^ 2 + s'.est.state.quat.x ^ 2 + s'.est.state.quat.y ^ 2 + s'.est.state.quat.z ^ 2 = 1 := by
    unfold Quat.normSq at hu; linarith
  have hz : ∀ k : Fin N, 4 ≤ k.val → Cov.Spec.yawDir s'.est.state.quat k = 0 := by
    intro k hk
    unfold Cov.Spec.yawDir
    rw [if_neg (by omega), if_neg (by omega), if_neg (by omega), if_neg (by omega)]
  have hP : s'.cov.P i j = uncorrelateQuat s.cov.P i j +
      Spec.addedVar var * (Cov.Spec.yawDir s'.est.state.quat i * Cov.Spec.yawDir s'.est.state.quat j) := by
    show (if var > fltEps then increaseQuatYawErrVariance s'.est.state.quat var (uncorrelateQuat s.cov.P) else uncorrelateQuat s.cov.P) i j = _
    unfold Spec.addedVar fltEps
    by_cases h : 1 / 2 ^ 23 < var
    · rw [if_pos h, if_pos h, yaw_variance_increase _ hu']
    · rw [if_neg h, if_neg h]; ring
  refine ⟨fun hi hj => ?_, fun hij => ?_, fun hi hj => ?_⟩
  · rw [hP]; unfold uncorrelateQuat; rw [if_neg (by omega)]
  · rw [hP]; unfold uncorrelateQuat
    rw [if_pos (by omega)]
    by_cases hi : i.val < 4
    · rw [hz j (by have := hij.mp hi; omega)]; ring
    · rw [hz i (by omega)]; ring
  · rw [hP, hz i hi]; unfold uncorrelateQuat; rw [if_neg (by omega)]; ring

/-! ## Compass -/

/-- the declination a user expects: the direction of the field states once they have been learned in flight, else the value for the GPS
position if configured and known, else the parameter -/
def Spec.declination (x : In) (s : St) (d : ℝ) : Prop :=
  (s.magAligned = true ∧ d = atan2 (s.est.state.magI 1) (s.est.state.magI 0)) ∨
  (s.magAligned = false ∧ x.useGeoDecl = true ∧ x.declGps = some d) ∨
  (s.magAligned = false ∧ (x.useGeoDecl = false ∨ (x.declGps = none ∧ x.originInit = false)) ∧ d = x.declParam)

theorem declination_spec (x : In) (s : St) (h : x.originInit = true → x.declGps.isSome = true) :
    Spec.declination x s (getMagDeclination x s) := by
  unfold getMagDeclination Spec.declination
  cases hm : s.magAligned
  · cases hg : x.useGeoDecl
    · simp
    · cases hd : x.declGps with
      | none =>
        cases ho : x.originInit
        · simp
        · have := h ho; rw [hd] at this; simp at this
      | some d => simp
  · simp

/-- **C116 (compass).** A heading reset with the compass (any of the magnetometer modes that use it) turns the attitude about the vertical,
keeps the tilt, and sets the earth field states to the measured field: their horizontal part points to the declination in use and has the
measured horizontal strength, their vertical part is the measured one, and rotating them into the body gives back the measurement.  All other
states stay. -/
theorem compass_reset (lib : QuatLib L.ofDcm L.normalize) (x : In) (m : V3 ℝ) (iv ub : Bool) (s : St) (hq : s.est.state.quat.normSq = 1)
    (hR : s.R = s.est.state.quat.dcm) (ht : x.tDel ≠ s.tAlign) (hm : x.magType ≤ 2) (he : s.evYaw = false) :
    let r := resetMagHeading L x m iv ub s
    let f := s.est.state.quat.dcm *ᵥ m
    let d := getMagDeclination x s
    r.2 = true ∧ r.1.est.state.quat.normSq = 1 ∧
    (∃ a, r.1.est.state.quat.dcm = Spec.turn a * s.est.state.quat.dcm) ∧
    r.1.est.state.magI 0 = √(f 0 ^ 2 + f 1 ^ 2) * cos d ∧ r.1.est.state.magI 1 = √(f 0 ^ 2 + f 1 ^ 2) * sin d ∧ r.1.est.state.magI 2 = f 2 ∧
    r.1.est.state.quat.dcmᵀ *ᵥ r.1.est.state.magI = m ∧
    r.1.est.state = { s.est.state with quat := r.1.est.state.quat, magI := r.1.est.state.magI } ∧
    r.1.R = r.1.est.state.quat.dcm ∧ r.1.tAlign = x.tDel := by
  intro r f d
  have hr := quat_rot hq
  have hM0 : updateYawInRotMat 0 s.R *ᵥ m = Spec.turn (-Spec.heading s.est.state.quat.dcm) *ᵥ f := by
    rw [hR, updateYaw_turns _ hr, zero_sub, ← Matrix.mulVec_mulVec]
  obtain ⟨me, hme⟩ : ∃ v, v = updateYawInRotMat 0 s.R *ᵥ m := ⟨_, rfl⟩
  obtain ⟨yaw, hyaw⟩ : ∃ y, y = -atan2 (me 1) (me 0) + d := ⟨_, rfl⟩
  obtain ⟨var, hvar⟩ : ∃ v, v = (if iv then sq (mmax x.hdgNoise (1 / 100)) else 0) := ⟨_, rfl⟩
  obtain ⟨b1, b2, b3, b4, b5⟩ := yaw_reset L lib s hq yaw var ub
  obtain ⟨s', hs'⟩ : ∃ s', s' = resetQuatStateYaw L yaw var ub s := ⟨_, rfl⟩
  have hnot5 : ¬ x.magType ≥ 5 := by omega
  have hres : r = ({ setMagI m s' with
      cov := resetMagCov x.magNoise (setMagI m s').cov
      tAlign := x.tDel }, true) := by
    show resetMagHeading L x m iv ub s = _
    unfold resetMagHeading
    rw [if_neg ht, if_neg hnot5]
    simp only [he, Bool.false_eq_true, if_false, if_pos hm]
    rw [hs', hyaw, hvar, hme]
  rw [← hs'] at b1 b2 b3 b4 b5
  have q' : r.1.est.state.quat = s'.est.state.quat := by rw [hres]; rfl
  have i' : r.1.est.state.magI = s'.est.state.quat.dcm *ᵥ m := by rw [hres, ← b5]; rfl
  have hI : r.1.est.state.magI = Spec.turn yaw *ᵥ me := by
    rw [i', b3, hme, hM0, Matrix.mulVec_mulVec, turn_mul, ← Matrix.mulVec_mulVec, sub_eq_add_neg]
  have hm0 := turn_apply (-Spec.heading s.est.state.quat.dcm) f
  rw [← hM0, ← hme] at hm0
  have hsum : me 0 ^ 2 + me 1 ^ 2 = f 0 ^ 2 + f 1 ^ 2 := by
    rw [hm0.1, hm0.2.1]
    linear_combination (f 0 ^ 2 + f 1 ^ 2) * sin_sq_add_cos_sq (-Spec.heading s.est.state.quat.dcm)
  have hp := polar_of (me 0) (me 1)
  rw [hsum] at hp
  have ha := turn_apply yaw me
  rw [← hI] at ha
  refine ⟨by rw [hres], by rw [q']; exact b2, ⟨_, by rw [q']; exact b3⟩, ?_, ?_, ?_, ?_, ?_, ?_, by rw [hres]⟩
  · rw [ha.1]
    have : cos yaw * cos (atan2 (me 1) (me 0)) - sin yaw * sin (atan2 (me 1) (me 0)) = cos d := by
      rw [← cos_add, hyaw]; congr 1; ring
    linear_combination cos yaw * hp.1 - sin yaw * hp.2 + (√(f 0 ^ 2 + f 1 ^ 2)) * this
  · rw [ha.2.1]
    have : sin yaw * cos (atan2 (me 1) (me 0)) + cos yaw * sin (atan2 (me 1) (me 0)) = sin d := by
      rw [← sin_add, hyaw]; congr 1; ring
    linear_combination sin yaw * hp.1 + cos yaw * hp.2 + (√(f 0 ^ 2 + f 1 ^ 2)) * this
  · rw [ha.2.2, hm0.2.2]
  · rw [i', q', Matrix.mulVec_mulVec, (quat_rot b2).orth', Matrix.one_mulVec]
  · have : r.1.est.state = { s'.est.state with magI := r.1.est.state.magI } := by rw [hres]; rfl
    rw [this, b1]
  · rw [q', hres, ← b5]; rfl

/-- **C116.** A heading already reset in this frame is not reset again: the call changes nothing and reports success. -/
theorem no_second_reset (x : In) (m : V3 ℝ) (iv ub : Bool) (s : St) (h : x.tDel = s.tAlign) :
    resetMagHeading L x m iv ub s = (s, true) := by
  unfold resetMagHeading; rw [if_pos h]

/-- **C116.** When the heading cannot be observed (no vision yaw and a mode without compass heading) the call does not touch the attitude; it
reports success only in the indoor mode while yaw fusion is inhibited, and mode "none" stops all magnetometer fusion. -/
theorem no_heading_source (x : In) (m : V3 ℝ) (iv ub : Bool) (s : St) (ht : x.tDel ≠ s.tAlign) (hm : 2 < x.magType)
    (he : s.evYaw = false ∨ 5 ≤ x.magType) :
    let r := resetMagHeading L x m iv ub s
    r.1.est = s.est ∧ r.1.R = s.R ∧ r.1.tAlign = s.tAlign ∧ (r.2 = true ↔ x.magType = 4 ∧ s.inhibited = true) ∧
    (5 ≤ x.magType → r.1.cov.mag3D = false ∧ r.1.cov.magHdg = false) ∧ (x.magType < 5 → r.1 = s) := by
  intro r
  by_cases h5 : x.magType ≥ 5
  · have hr : r = ({ s with cov := Cov.stopMag s.cov }, false) := by
      show resetMagHeading L x m iv ub s = _
      unfold resetMagHeading; rw [if_neg ht, if_pos h5]
    rw [hr]
    refine ⟨rfl, rfl, rfl, ?_, fun _ => ?_, fun h => absurd h5 (not_le.mpr h)⟩
    · constructor
      · intro h; simp at h
      · rintro ⟨h, -⟩; omega
    · unfold Cov.stopMag Cov.clearMagCov Cov.stopMagHdg Cov.stopMag3D
      cases hh : s.cov.mag3D <;> simp [hh]
  · have hev : s.evYaw = false := by
      rcases he with h | h
      · exact h
      · exact absurd h h5
    have h2 : ¬ x.magType ≤ 2 := not_le.mpr hm
    have hr : r = if x.magType = 4 ∧ s.inhibited = true then (s, true) else (s, false) := by
      show resetMagHeading L x m iv ub s = _
      unfold resetMagHeading; rw [if_neg ht, if_neg h5]
      simp only [hev, Bool.false_eq_true, if_false, if_neg h2]
    rw [hr]
    by_cases hc : x.magType = 4 ∧ s.inhibited = true
    · rw [if_pos hc]; exact ⟨rfl, rfl, rfl, by simp [hc], fun h => absurd h h5, fun _ => rfl⟩
    · rw [if_neg hc]; exact ⟨rfl, rfl, rfl, by simp; exact fun h => by simpa using fun h' => hc ⟨h, h'⟩, fun h => absurd h h5, fun _ => rfl⟩

/-! ## Vision -/

/-- **C116 (vision, while vision yaw is fused).** With an attitude for which the code uses the 312 sequence and whose tilt agrees with the vision
attitude, the reset makes the filter's attitude equal to the vision attitude. -/
theorem vision_reset (lib : QuatLib L.ofDcm L.normalize) (x : In) (m : V3 ℝ) (iv ub : Bool) (s : St) (hq : s.est.state.quat.normSq = 1)
    (hv : x.evQuat.normSq = 1) (ht : x.tDel ≠ s.tAlign) (hm : x.magType < 5) (he : s.evYaw = true)
    (htilt : ∀ j, s.est.state.quat.dcm 2 j = x.evQuat.dcm 2 j) (hseq : |x.evQuat.dcm 2 1| ≤ |x.evQuat.dcm 2 0|) :
    (resetMagHeading L x m iv ub s).2 = true ∧ (resetMagHeading L x m iv ub s).1.est.state.quat.dcm = x.evQuat.dcm := by
  have hr := quat_rot hq
  obtain ⟨yaw, hyaw⟩ : ∃ y, y = getEuler312YawQ x.evQuat := ⟨_, rfl⟩
  obtain ⟨var, hvar⟩ : ∃ v, v = (if iv then mmax x.evAngVar (sq (1 / 100)) else 0) := ⟨_, rfl⟩
  obtain ⟨b1, b2, b3, b4, b5⟩ := yaw_reset L lib s hq yaw var ub
  have hres : (resetMagHeading L x m iv ub s).2 = true ∧
      (resetMagHeading L x m iv ub s).1.est.state.quat = (resetQuatStateYaw L yaw var ub s).est.state.quat := by
    unfold resetMagHeading
    rw [if_neg ht, if_neg (not_le.mpr hm)]
    simp only [he, if_true]
    rw [hyaw, hvar]
    exact ⟨trivial, rfl⟩
  refine ⟨hres.1, ?_⟩
  rw [hres.2]
  refine tilt_heading_unique (quat_rot hv) (quat_rot b2) (fun j => ?_) ?_
  · rw [b3]
    unfold Spec.turn
    rw [← htilt j]
    simp [Matrix.mul_apply, Fin.sum_univ_three]
  · rw [b4, hyaw, (yaw_extractors_agree _).2]
    unfold getEuler312Yaw
    rw [norm_self (atan2_mem _ _)]
    unfold Spec.heading
    rw [if_neg (not_lt.mpr hseq)]

/-- **C116 (start of vision yaw fusion).** The same with the 321 sequence. -/
theorem vision_start (lib : QuatLib L.ofDcm L.normalize) (x : In) (s : St) (hq : s.est.state.quat.normSq = 1)
    (hv : x.evQuat.normSq = 1)
    (htilt : ∀ j, s.est.state.quat.dcm 2 j = x.evQuat.dcm 2 j) (hseq : |x.evQuat.dcm 2 0| < |x.evQuat.dcm 2 1|) :
    (startEvYaw L x s).est.state.quat.dcm = x.evQuat.dcm ∧ (startEvYaw L x s).yawAlign = true ∧ (startEvYaw L x s).evYaw = true ∧
    (startEvYaw L x s).cov.mag3D = false ∧ (startEvYaw L x s).cov.magHdg = false ∧ (startEvYaw L x s).magDec = false := by
  obtain ⟨b1, b2, b3, b4, b5⟩ := yaw_reset L lib s hq (getEuler321YawQ x.evQuat) (mmax x.evAngVar (sq (1 / 100))) true
  refine ⟨?_, rfl, rfl, ?_, ?_, rfl⟩
  · show (resetQuatStateYaw L (getEuler321YawQ x.evQuat) (mmax x.evAngVar (sq (1 / 100))) true s).est.state.quat.dcm = _
    refine tilt_heading_unique (quat_rot hv) (quat_rot b2) (fun j => ?_) ?_
    · rw [b3]
      unfold Spec.turn
      rw [← htilt j]
      simp [Matrix.mul_apply, Fin.sum_univ_three]
    · rw [b4, (yaw_extractors_agree _).1]
      unfold getEuler321Yaw
      rw [norm_self (atan2_mem _ _)]
      unfold Spec.heading
      rw [if_pos hseq]
  · show (Cov.stopMag3D (Cov.stopMagHdg (resetQuatStateYaw L (getEuler321YawQ x.evQuat) (mmax x.evAngVar (sq (1 / 100))) true s).cov)).mag3D = false
    generalize (resetQuatStateYaw L (getEuler321YawQ x.evQuat) (mmax x.evAngVar (sq (1 / 100))) true s).cov = c
    unfold Cov.stopMag3D Cov.stopMagHdg
    cases hh : c.mag3D <;> simp [hh]
  · show (Cov.stopMag3D (Cov.stopMagHdg (resetQuatStateYaw L (getEuler321YawQ x.evQuat) (mmax x.evAngVar (sq (1 / 100))) true s).cov)).magHdg = false
    generalize (resetQuatStateYaw L (getEuler321YawQ x.evQuat) (mmax x.evAngVar (sq (1 / 100))) true s).cov = c
    unfold Cov.stopMag3D Cov.stopMagHdg
    cases hh : c.mag3D <;> simp [hh]

/-- **C116 (start of vision yaw fusion, outputs).** The attitude of the current output and of every stored output is turned by the change of the attitude estimate, so the
output attitude relative to the estimate is unchanged, and the change is reported; velocities and positions of the outputs are not touched. -/
theorem vision_start_outputs (lib : QuatLib L.ofDcm L.normalize) (x : In) (s : St) (hq : s.est.state.quat.normSq = 1) :
    let e := s.est
    let e' := (startEvYaw L x s).est
    e'.reset.quat.mul e.state.quat = e'.state.quat ∧ e'.reset.quatCounter = e.reset.quatCounter + 1 ∧
    e'.outNew = { e.outNew with quat := e'.reset.quat.mul e.outNew.quat } ∧
    e'.outBuf.live = e.outBuf.live.map (fun o => ⟨o.time_us, { o.data with quat := e'.reset.quat.mul o.data.quat }⟩) ∧
    ∀ q : Quat ℝ, e'.state.quat.inversed.mul (e'.reset.quat.mul q) = e.state.quat.inversed.mul q := by
  intro e e'
  have h := Ekf.resetQuatStateYaw_spec lib s.est (getEuler321YawQ x.evQuat) (by
    unfold getEuler321YawQ; exact ⟨(atan2_mem _ _).1, (atan2_mem _ _).2⟩) hq true
  obtain ⟨-, -, -, -, -, h6, -, h8, h9, -⟩ := h
  obtain ⟨g1, g2, g3⟩ := h9 rfl
  exact ⟨h6, by show (Est.resetQuatStateYaw _ _ _ _ _).reset.quatCounter = _; rw [h8], g1, g2, g3⟩

theorem sin_pos_ne {a b c d : ℝ} (h1 : 0 < a) (h2 : c < 0) : atan2 a b ≠ atan2 c d := by
  intro h
  have hs := congrArg sin h
  rw [sin_atan2, sin_atan2] at hs
  have p1 : 0 < a / √(b ^ 2 + a ^ 2) := div_pos h1 (Real.sqrt_pos.mpr (by positivity))
  have p2 : c / √(d ^ 2 + c ^ 2) < 0 := div_neg_of_neg_of_pos h2 (Real.sqrt_pos.mpr (by nlinarith [sq_nonneg d]))
  linarith

/-- **C116, finding.** Where the code uses the 321 sequence, a reset to vision changes the attitude even when the vision attitude is exactly
the filter's: the vision yaw is taken with the other sequence. -/
theorem vision_reset_disturbs (lib : QuatLib L.ofDcm L.normalize) (x : In) (m : V3 ℝ) (iv ub : Bool) (s : St)
    (hs : s.est.state.quat = ⟨2 / 9, 4 / 9, 5 / 9, 6 / 9⟩) (hv : x.evQuat = s.est.state.quat)
    (ht : x.tDel ≠ s.tAlign) (hm : x.magType < 5) (he : s.evYaw = true) :
    (resetMagHeading L x m iv ub s).1.est.state.quat.dcm ≠ s.est.state.quat.dcm := by
  have hq : s.est.state.quat.normSq = 1 := by rw [hs]; unfold Quat.normSq; norm_num
  obtain ⟨yaw, hyaw⟩ : ∃ y, y = getEuler312YawQ x.evQuat := ⟨_, rfl⟩
  obtain ⟨var, hvar⟩ : ∃ v, v = (if iv then mmax x.evAngVar (sq (1 / 100)) else 0) := ⟨_, rfl⟩
  obtain ⟨b1, b2, b3, b4, b5⟩ := yaw_reset L lib s hq yaw var ub
  have hres : (resetMagHeading L x m iv ub s).1.est.state.quat = (resetQuatStateYaw L yaw var ub s).est.state.quat := by
    unfold resetMagHeading
    rw [if_neg ht, if_neg (not_le.mpr hm)]
    simp only [he, if_true]
    rw [hyaw, hvar]
    rfl
  rw [hres]
  intro hc
  rw [hc, hyaw, (yaw_extractors_agree _).2, hv] at b4
  unfold getEuler312Yaw at b4
  rw [norm_self (atan2_mem _ _), hs] at b4
  unfold Spec.heading Quat.dcm at b4
  rw [if_pos (by simp; norm_num [abs_of_pos])] at b4
  exact sin_pos_ne (by simp; norm_num) (by simp; norm_num) b4

/-- **C116, finding.** And where the code uses the 312 sequence, starting vision yaw fusion does the same. -/
theorem vision_start_disturbs (lib : QuatLib L.ofDcm L.normalize) (x : In) (s : St)
    (hs : s.est.state.quat = ⟨4 / 9, 6 / 9, -5 / 9, 2 / 9⟩) (hv : x.evQuat = s.est.state.quat) :
    (startEvYaw L x s).est.state.quat.dcm ≠ s.est.state.quat.dcm := by
  have hq : s.est.state.quat.normSq = 1 := by rw [hs]; unfold Quat.normSq; norm_num
  obtain ⟨b1, b2, b3, b4, b5⟩ := yaw_reset L lib s hq (getEuler321YawQ x.evQuat) (mmax x.evAngVar (sq (1 / 100))) true
  show (resetQuatStateYaw L (getEuler321YawQ x.evQuat) (mmax x.evAngVar (sq (1 / 100))) true s).est.state.quat.dcm ≠ _
  intro hc
  rw [hc, (yaw_extractors_agree _).1, hv] at b4
  unfold getEuler321Yaw at b4
  rw [norm_self (atan2_mem _ _), hs] at b4
  unfold Spec.heading Quat.dcm at b4
  rw [if_neg (by simp; norm_num [abs_of_pos])] at b4
  exact sin_pos_ne (by simp; norm_num) (by simp; norm_num) b4

end

end Ecl.Yaw
