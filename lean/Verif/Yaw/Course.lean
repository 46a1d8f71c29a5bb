import Verif.Yaw.Props
import Verif.Ekf.QuatLib

/-!
# Heading from the GPS course and from the emergency yaw estimator (C117)
-/

namespace Ecl.Yaw

open Ecl.Ekf Ecl.Utils Ecl.Cov Real
open scoped Matrix

noncomputable section

variable (L : Lib)

/-- the GPS course can be used for alignment: more than 5 m/s, speed accuracy below 15 % of the speed -/
def Spec.courseUsable (x : In) : Prop :=
  5 < √(x.gpsVel 0 ^ 2 + x.gpsVel 1 ^ 2) ∧ x.sacc < 15 / 100 * √(x.gpsVel 0 ^ 2 + x.gpsVel 1 ^ 2)

theorem gpsSpeed_eq (x : In) : gpsSpeed x = √(x.gpsVel 0 ^ 2 + x.gpsVel 1 ^ 2) := by
  unfold gpsSpeed sq; congr 1; ring

/-- **C117.** Without a usable course the realignment is a compass reset with the filtered magnetometer data. -/
theorem course_unusable (x : In) (s : St) (h : ¬ Spec.courseUsable x) :
    realignYawGps L x s = resetMagHeading L x x.magLpf true true s := by
  unfold realignYawGps
  rw [gpsSpeed_eq, if_pos (by exact h)]

/-- the heading is judged wrong: GPS is used, its velocity innovation fails the test and the courses of filter and GPS differ by more than 0.5 rad -/
def Spec.headingWrong (x : In) (s : St) : Prop :=
  s.gps = true ∧ 1 < x.velRatio ∧ 1 / 2 < |wrapPi (atan2 (x.gpsVel 1) (x.gpsVel 0) - atan2 (s.est.state.vel 1) (s.est.state.vel 0))|

theorem bad_iff (x : In) (s : St) : badMagYaw x s = true ↔ Spec.headingWrong x s := by
  unfold badMagYaw Spec.headingWrong courseErr
  simp only [Bool.and_eq_true, decide_eq_true_eq, gt_iff_lt]
  tauto

/-- the state on which the new heading is computed: event counter and fault flag already updated -/
theorem realign_eq (x : In) (s : St) (h : Spec.courseUsable x) : realignYawGps L x s = (courseAlign L x s, true) := by
  unfold realignYawGps
  rw [gpsSpeed_eq, if_neg (by rw [not_not]; exact h)]

/-- what a course realignment does to the state when a new heading is set -/
theorem course_eq (x : In) (s : St) (h : Spec.headingWrong x s ∨ s.yawAlign = false) :
    ∃ s1 : St, s1.est = s.est ∧ s1.cov = s.cov ∧
      let s' := resetQuatStateYaw L (yawFromCourse x s) (courseVar x s) true s1
      let c := courseAlign L x s
      c.est.state = { s'.est.state with magB := 0, magI := s'.est.state.quat.dcm *ᵥ x.mag } ∧ c.R = s'.est.state.quat.dcm ∧
      c.cov = resetMagCov x.magNoise s'.cov ∧ c.est.reset = s'.est.reset ∧ c.tAlign = x.tDel ∧ (c.velposReq = true ↔ Spec.headingWrong x s) ∧
      c.magAligned = true ∧ c.yawAlign = s.yawAlign := by
  rw [← bad_iff] at *
  obtain ⟨s0, hs0⟩ : ∃ s0 : St, s0 = if badMagYaw x s then { s with nBad := s.nBad + 1 } else s := ⟨_, rfl⟩
  obtain ⟨s1, hs1⟩ : ∃ s1 : St, s1 = if s0.magAligned && decide (2 ≤ s0.nBad) && !s0.magFault then { s0 with magFault := true } else s0 := ⟨_, rfl⟩
  obtain ⟨s2, hs2⟩ : ∃ s2 : St, s2 = if !s1.magAligned then { s1 with magAligned := true } else s1 := ⟨_, rfl⟩
  have f0 : s0.est = s.est ∧ s0.cov = s.cov ∧ s0.magAligned = s.magAligned ∧ s0.wind = s.wind ∧ s0.yawAlign = s.yawAlign := by
    rw [hs0]; split_ifs <;> exact ⟨rfl, rfl, rfl, rfl, rfl⟩
  have f1 : s1.est = s.est ∧ s1.cov = s.cov ∧ s1.magAligned = s.magAligned ∧ s1.wind = s.wind ∧ s1.yawAlign = s.yawAlign := by
    rw [hs1]; split_ifs <;> exact f0
  have f2 : s2.est = s.est ∧ s2.cov = s.cov ∧ s2.magAligned = true ∧ s2.yawAlign = s.yawAlign := by
    rw [hs2]
    cases hm : s1.magAligned
    · exact ⟨f1.1, f1.2.1, rfl, f1.2.2.2.2⟩
    · exact ⟨f1.1, f1.2.1, hm, f1.2.2.2.2⟩
  have hy : yawFromCourse x s1 = yawFromCourse x s := by
    unfold yawFromCourse courseErr; rw [f1.1, f1.2.2.1, f1.2.2.2.1]
  have hv : courseVar x s2 = courseVar x s := by unfold courseVar; rw [f2.2.1]
  refine ⟨s2, f2.1, f2.2.1, ?_⟩
  have hc : courseAlign L x s = { setMagI x.mag { resetQuatStateYaw L (yawFromCourse x s1) (courseVar x s2) true s2 with
        est := { (resetQuatStateYaw L (yawFromCourse x s1) (courseVar x s2) true s2).est with
          state := { (resetQuatStateYaw L (yawFromCourse x s1) (courseVar x s2) true s2).est.state with magB := 0 } }
        R := (resetQuatStateYaw L (yawFromCourse x s1) (courseVar x s2) true s2).est.state.quat.dcm } with
      cov := resetMagCov x.magNoise (resetQuatStateYaw L (yawFromCourse x s1) (courseVar x s2) true s2).cov
      tAlign := x.tDel
      velposReq := badMagYaw x s } := by
    unfold courseAlign
    simp only []
    rw [← hs0, if_pos (by rw [f0.2.2.2.2]; rcases h with h | h <;> simp [h]), ← hs1, ← hs2]
    rfl
  rw [hy, hv] at hc
  simp only []
  rw [hc]
  exact ⟨rfl, rfl, rfl, rfl, rfl, Iff.rfl, f2.2.2.1, f2.2.2.2⟩

/-- a horizontal vector turned so that it points along another one -/
def Spec.alignedWith (u v : ℝ × ℝ) : Prop := ∃ k : ℝ, 0 ≤ k ∧ u.1 = k * v.1 ∧ u.2 = k * v.2

theorem turn_to_course {vx vy gx gy : ℝ} (hg : 0 < √(gx ^ 2 + gy ^ 2)) :
    let e := wrapPi (atan2 gy gx - atan2 vy vx)
    Spec.alignedWith (cos e * vx - sin e * vy, sin e * vx + cos e * vy) (gx, gy) := by
  intro e
  have hc : cos e = cos (atan2 gy gx - atan2 vy vx) := cos_wrapPi _
  have hs : sin e = sin (atan2 gy gx - atan2 vy vx) := sin_wrapPi _
  obtain ⟨p1, p2⟩ := polar_of vx vy
  obtain ⟨g1, g2⟩ := polar_of gx gy
  refine ⟨√(vx ^ 2 + vy ^ 2) / √(gx ^ 2 + gy ^ 2), by positivity, ?_, ?_⟩
  · show cos e * vx - sin e * vy = _ * gx
    have k : cos e * cos (atan2 vy vx) - sin e * sin (atan2 vy vx) = cos (atan2 gy gx) := by
      rw [hc, hs, ← cos_add]; congr 1; ring
    have : cos e * vx - sin e * vy = √(vx ^ 2 + vy ^ 2) * cos (atan2 gy gx) := by
      linear_combination cos e * p1 - sin e * p2 + √(vx ^ 2 + vy ^ 2) * k
    rw [this]
    field_simp
    linear_combination -√(vx ^ 2 + vy ^ 2) * g1
  · show sin e * vx + cos e * vy = _ * gy
    have k : sin e * cos (atan2 vy vx) + cos e * sin (atan2 vy vx) = sin (atan2 gy gx) := by
      rw [hc, hs, ← sin_add]; congr 1; ring
    have : sin e * vx + cos e * vy = √(vx ^ 2 + vy ^ 2) * sin (atan2 gy gx) := by
      linear_combination sin e * p1 + cos e * p2 + √(vx ^ 2 + vy ^ 2) * k
    rw [this]
    field_simp
    linear_combination -√(vx ^ 2 + vy ^ 2) * g2

/-- **C117 (first alignment in flight).** For attitudes where the code uses the 321 sequence, the first realignment from the GPS course turns the
attitude about the vertical by the angle that carries the filter's horizontal velocity onto the direction of the GPS velocity. -/
theorem course_first (lib : QuatLib L.ofDcm L.normalize) (x : In) (s : St) (hq : s.est.state.quat.normSq = 1) (hu : Spec.courseUsable x)
    (h : Spec.headingWrong x s ∨ s.yawAlign = false) (hm : s.magAligned = false)
    (hseq : |s.est.state.quat.dcm 2 0| < |s.est.state.quat.dcm 2 1|) :
    ∃ a, (realignYawGps L x s).1.est.state.quat.dcm = Spec.turn a * s.est.state.quat.dcm ∧
      Spec.alignedWith ((Spec.turn a *ᵥ s.est.state.vel) 0, (Spec.turn a *ᵥ s.est.state.vel) 1) (x.gpsVel 0, x.gpsVel 1) := by
  obtain ⟨s1, e1, e2, c⟩ := course_eq L x s h
  simp only [] at c
  have hq1 : s1.est.state.quat.normSq = 1 := by rw [e1]; exact hq
  obtain ⟨b1, b2, b3, b4, b5⟩ := yaw_reset L lib s1 hq1 (yawFromCourse x s) (courseVar x s) true
  rw [realign_eq L x s hu]
  have hq' : (courseAlign L x s).est.state.quat = (resetQuatStateYaw L (yawFromCourse x s) (courseVar x s) true s1).est.state.quat := by
    rw [c.1]
  refine ⟨courseErr x s, ?_, ?_⟩
  · show (courseAlign L x s).est.state.quat.dcm = _
    rw [hq', b3, e1]
    congr 2
    unfold yawFromCourse
    rw [hm, (yaw_extractors_agree _).1]
    unfold Spec.heading getEuler321Yaw
    rw [if_pos hseq]
    simp
  · rw [(turn_apply _ _).1, (turn_apply _ _).2.1]
    exact turn_to_course (by have := hu.1; linarith)

/-- **C117 (later alignments).** Once aligned in flight, the realignment sets the heading to the direction of the GPS velocity relative to the
estimated wind if wind is estimated, and to the direction of the GPS velocity otherwise. -/
theorem course_later (lib : QuatLib L.ofDcm L.normalize) (x : In) (s : St) (hq : s.est.state.quat.normSq = 1) (hu : Spec.courseUsable x)
    (h : Spec.headingWrong x s ∨ s.yawAlign = false) (hm : s.magAligned = true) :
    let s' := (realignYawGps L x s).1
    (∃ a, s'.est.state.quat.dcm = Spec.turn a * s.est.state.quat.dcm) ∧
    (s.wind = true → Spec.heading s'.est.state.quat.dcm = atan2 (x.gpsVel 1 - s.est.state.wind 1) (x.gpsVel 0 - s.est.state.wind 0)) ∧
    (s.wind = false → Spec.heading s'.est.state.quat.dcm = atan2 (x.gpsVel 1) (x.gpsVel 0)) := by
  obtain ⟨s1, e1, e2, c⟩ := course_eq L x s h
  simp only [] at c
  have hq1 : s1.est.state.quat.normSq = 1 := by rw [e1]; exact hq
  obtain ⟨b1, b2, b3, b4, b5⟩ := yaw_reset L lib s1 hq1 (yawFromCourse x s) (courseVar x s) true
  rw [realign_eq L x s hu]
  have hq' : (courseAlign L x s).est.state.quat = (resetQuatStateYaw L (yawFromCourse x s) (courseVar x s) true s1).est.state.quat := by
    rw [c.1]
  simp only []
  rw [hq']
  refine ⟨⟨_, by rw [b3, e1]⟩, fun hw => ?_, fun hw => ?_⟩
  · rw [b4]; unfold yawFromCourse; rw [hm, hw]; exact norm_self (atan2_mem _ _)
  · rw [b4]; unfold yawFromCourse; rw [hm, hw]; exact norm_self (atan2_mem _ _)

/-- **C117 (field states and flags).** A realignment from the course keeps velocity, position, biases and wind, zeroes the body field, sets the earth
field so that it reproduces the present measurement, and requests a velocity and position reset exactly when the heading was judged wrong. -/
theorem course_states (lib : QuatLib L.ofDcm L.normalize) (x : In) (s : St) (hq : s.est.state.quat.normSq = 1) (hu : Spec.courseUsable x)
    (h : Spec.headingWrong x s ∨ s.yawAlign = false) :
    let s' := (realignYawGps L x s).1
    (realignYawGps L x s).2 = true ∧ s'.est.state.quat.normSq = 1 ∧ s'.R = s'.est.state.quat.dcm ∧
    s'.est.state = { s.est.state with quat := s'.est.state.quat, magB := 0, magI := s'.est.state.magI } ∧
    s'.est.state.quat.dcmᵀ *ᵥ s'.est.state.magI = x.mag ∧
    s'.tAlign = x.tDel ∧ (s'.velposReq = true ↔ Spec.headingWrong x s) ∧ s'.magAligned = true := by
  obtain ⟨s1, e1, e2, c⟩ := course_eq L x s h
  simp only [] at c
  have hq1 : s1.est.state.quat.normSq = 1 := by rw [e1]; exact hq
  obtain ⟨b1, b2, b3, b4, b5⟩ := yaw_reset L lib s1 hq1 (yawFromCourse x s) (courseVar x s) true
  rw [realign_eq L x s hu]
  obtain ⟨c1, c2, c3, c4, c5, c6, c7, c8⟩ := c
  have hq' : (courseAlign L x s).est.state.quat = (resetQuatStateYaw L (yawFromCourse x s) (courseVar x s) true s1).est.state.quat := by
    rw [c1]
  simp only []
  refine ⟨by trivial, by rw [hq']; exact b2, by rw [c2, hq'], ?_, ?_, c5, c6, c7⟩
  · rw [c1, b1, e1]
  · rw [c1]
    show (resetQuatStateYaw L (yawFromCourse x s) (courseVar x s) true s1).est.state.quat.dcmᵀ *ᵥ _ = _
    rw [Matrix.mulVec_mulVec, (quat_rot b2).orth', Matrix.one_mulVec]

/-- **C117 (courses agree).** With an aligned heading that is not judged wrong, a usable course only re-initialises the earth field states from the
measurement: the attitude stays. -/
theorem course_agrees (x : In) (s : St) (hu : Spec.courseUsable x) (h : ¬ Spec.headingWrong x s) (hy : s.yawAlign = true) :
    (realignYawGps L x s).2 = true ∧
    (realignYawGps L x s).1.est = { s.est with state := { s.est.state with magI := s.R *ᵥ x.mag } } ∧
    (realignYawGps L x s).1.tAlign = x.tDel ∧ (realignYawGps L x s).1.velposReq = s.velposReq ∧
    (realignYawGps L x s).1.magFault = s.magFault ∧ (realignYawGps L x s).1.nBad = s.nBad := by
  rw [realign_eq L x s hu]
  have hb : badMagYaw x s = false := by rw [Bool.eq_false_iff]; exact fun hc => h ((bad_iff x s).mp hc)
  unfold courseAlign
  simp only [hb, hy, Bool.false_eq_true, if_false, Bool.not_true, Bool.or_self]
  exact ⟨trivial, rfl, trivial, rfl, rfl, rfl⟩

/-- **C117 (heading uncertainty).** The standard deviation that goes with a course heading is the angle between 0 and 90° whose sine is the ratio of the
combined speed error to the GPS speed (90° if the error is larger than the speed). -/
theorem course_uncertainty (x : In) (s : St) (hu : Spec.courseUsable x) :
    let err := √(x.sacc ^ 2 + s.cov.P 4 4 + s.cov.P 5 5)
    let v := √(x.gpsVel 0 ^ 2 + x.gpsVel 1 ^ 2)
    0 ≤ √(courseVar x s) ∧ √(courseVar x s) ≤ π / 2 ∧ sin (√(courseVar x s)) * v = min err v := by
  intro err v
  have hv : 0 < v := by have := hu.1; show 0 < √(x.gpsVel 0 ^ 2 + x.gpsVel 1 ^ 2); linarith
  have he : 0 ≤ err := Real.sqrt_nonneg _
  have h1 : courseVar x s = sq (arcsin (constrain (err / v) 0 1)) := by
    unfold courseVar; rw [gpsSpeed_eq, show sq x.sacc = x.sacc ^ 2 from (pow_two _).symm]
  have hc : constrain (err / v) 0 1 = min (err / v) 1 := by
    have h0 : 0 ≤ err / v := div_nonneg he hv.le
    unfold constrain
    rw [if_neg (by linarith)]
    split_ifs with h
    · rw [min_eq_right h.le]
    · rw [min_eq_left (not_lt.mp h)]
  have hr : 0 ≤ min (err / v) 1 := le_min (div_nonneg he hv.le) zero_le_one
  have ha : 0 ≤ arcsin (min (err / v) 1) := arcsin_nonneg.mpr hr
  have hs : √(courseVar x s) = arcsin (min (err / v) 1) := by
    rw [h1, hc]; unfold sq; exact Real.sqrt_mul_self ha
  rw [hs]
  refine ⟨ha, arcsin_le_pi_div_two _, ?_⟩
  rw [sin_arcsin (by linarith) (min_le_right _ _), min_mul_of_nonneg _ _ hv.le, one_mul, div_mul_cancel₀ _ hv.ne']

/-- **C117 (covariance).** After a course realignment the attitude covariance is the previous one plus the course variance **limited to 0.01 rad²**
along the heading direction. -/
theorem course_cov (lib : QuatLib L.ofDcm L.normalize) (x : In) (s : St) (hq : s.est.state.quat.normSq = 1) (hu : Spec.courseUsable x)
    (h : Spec.headingWrong x s ∨ s.yawAlign = false) (i j : Fin N) (hi : i.val < 4) (hj : j.val < 4) :
    let s' := (realignYawGps L x s).1
    s'.cov.P i j = s.cov.P i j + Spec.addedVar (courseVar x s) * (Cov.Spec.yawDir s'.est.state.quat i * Cov.Spec.yawDir s'.est.state.quat j) ∧
    Spec.addedVar (courseVar x s) ≤ 1 / 100 := by
  obtain ⟨s1, e1, e2, c⟩ := course_eq L x s h
  simp only [] at c
  have hq1 : s1.est.state.quat.normSq = 1 := by rw [e1]; exact hq
  have b := (yaw_reset_cov L lib s1 hq1 (yawFromCourse x s) (courseVar x s) true i j).1 hi hj
  rw [realign_eq L x s hu]
  obtain ⟨c1, c2, c3, c4, c5, c6, c7, c8⟩ := c
  simp only []
  constructor
  · have hq' : (courseAlign L x s).est.state.quat = (resetQuatStateYaw L (yawFromCourse x s) (courseVar x s) true s1).est.state.quat := by
      rw [c1]
    rw [c3, hq', ← e2, ← b]
    generalize (resetQuatStateYaw L (yawFromCourse x s) (courseVar x s) true s1).cov = k
    have hk : (resetMagCov x.magNoise k).P = uncorrSet 19 3 (fun _ => sq x.magNoise) (uncorrSet 16 3 (fun _ => sq x.magNoise) (zeroMagCov k.P)) := by
      unfold resetMagCov clearMagCov
      simp only []
      split_ifs <;> rfl
    rw [hk]
    have hne : ∀ (a : ℕ) (f : Fin N → ℝ) (Q : Mat ℝ), 4 ≤ a → uncorrSet a 3 f Q i j = Q i j := by
      intro a f Q ha
      unfold uncorrSet
      rw [if_neg (by omega)]
    unfold zeroMagCov
    simp only [hne _ _ _ (show 4 ≤ 19 by norm_num), hne _ _ _ (show 4 ≤ 16 by norm_num)]
  · unfold Spec.addedVar
    split_ifs
    · exact min_le_right _ _
    · norm_num

/-- **C117 (emergency yaw).** The reset to the yaw estimator happens exactly when that estimator has data with a variance below the square of the
configured limit; then the heading is its yaw, the yaw is flagged as aligned, and a magnetometer in use is declared faulty. -/
theorem gsf_reset (lib : QuatLib L.ofDcm L.normalize) (x : In) (s : St) (hq : s.est.state.quat.normSq = 1) :
    let r := resetYawToGsf L x s
    (r.2 = true ↔ x.gsfOk = true ∧ x.gsfVar < x.gsfErrMax ^ 2) ∧
    (r.2 = false → r.1 = s) ∧
    (r.2 = true → Spec.heading r.1.est.state.quat.dcm = Spec.norm x.gsfYaw ∧
      (∃ a, r.1.est.state.quat.dcm = Spec.turn a * s.est.state.quat.dcm) ∧ r.1.yawAlign = true ∧ r.1.tAlign = x.tDel ∧
      (r.1.magFault = true ↔ s.magFault = true ∨ x.magType ≠ 5)) := by
  intro r
  obtain ⟨b1, b2, b3, b4, b5⟩ := yaw_reset L lib s hq x.gsfYaw x.gsfVar true
  by_cases h1 : x.gsfOk = true
  · by_cases h2 : x.gsfVar < x.gsfErrMax ^ 2
    · have hr : r = (if x.magType = 5 then { resetQuatStateYaw L x.gsfYaw x.gsfVar true s with tAlign := x.tDel, yawAlign := true }
          else { resetQuatStateYaw L x.gsfYaw x.gsfVar true s with tAlign := x.tDel, yawAlign := true, magFault := true }, true) := by
        show resetYawToGsf L x s = _
        unfold resetYawToGsf
        rw [if_neg (by simp [h1]), if_neg (by rw [not_not]; unfold sq; rw [← pow_two]; exact h2)]
      rw [hr]
      refine ⟨by simp [h1, h2], fun h => by simp at h, fun _ => ?_⟩
      by_cases hm : x.magType = 5
      · rw [if_pos hm]
        refine ⟨b4, ⟨_, b3⟩, rfl, rfl, ?_⟩
        show s.magFault = true ↔ _
        simp [hm]
      · rw [if_neg hm]
        refine ⟨b4, ⟨_, b3⟩, rfl, rfl, ?_⟩
        simp [hm]
    · have hr : r = (s, false) := by
        show resetYawToGsf L x s = _
        unfold resetYawToGsf
        rw [if_neg (by simp [h1]), if_pos (by unfold sq; rw [← pow_two]; exact h2)]
      rw [hr]; simp [h2]
  · have hr : r = (s, false) := by
      show resetYawToGsf L x s = _
      unfold resetYawToGsf
      rw [if_pos (by simpa using h1)]
    rw [hr]; simp [h1]

/-- **C117, finding.** Where the code uses the 312 sequence, the first realignment turns the attitude even when the courses agree exactly: the present
yaw is read with the 321 sequence and written with the 312 sequence. -/
theorem course_first_disturbs (lib : QuatLib L.ofDcm L.normalize) (x : In) (s : St) (hu : Spec.courseUsable x)
    (hs : s.est.state.quat = ⟨4 / 9, 6 / 9, -5 / 9, 2 / 9⟩) (hy : s.yawAlign = false) (hm : s.magAligned = false)
    (hsame : s.est.state.vel = x.gpsVel) :
    (realignYawGps L x s).1.est.state.quat.dcm ≠ s.est.state.quat.dcm := by
  have hq : s.est.state.quat.normSq = 1 := by rw [hs]; unfold Quat.normSq; norm_num
  obtain ⟨s1, e1, e2, c⟩ := course_eq L x s (Or.inr hy)
  simp only [] at c
  have hq1 : s1.est.state.quat.normSq = 1 := by rw [e1]; exact hq
  obtain ⟨b1, b2, b3, b4, b5⟩ := yaw_reset L lib s1 hq1 (yawFromCourse x s) (courseVar x s) true
  rw [realign_eq L x s hu]
  have hq' : (courseAlign L x s).est.state.quat = (resetQuatStateYaw L (yawFromCourse x s) (courseVar x s) true s1).est.state.quat := by
    rw [c.1]
  intro hc
  have hc' : (courseAlign L x s).est.state.quat.dcm = s.est.state.quat.dcm := hc
  rw [hq'] at hc'
  rw [hc'] at b4
  have hy0 : yawFromCourse x s = getEuler321Yaw s.est.state.quat.dcm := by
    unfold yawFromCourse courseErr
    rw [hm, hsame, sub_self, wrapPi_of_mem ⟨by linarith [pi_pos], pi_pos⟩, (yaw_extractors_agree _).1]
    simp
  rw [hy0] at b4
  unfold getEuler321Yaw at b4
  rw [norm_self (atan2_mem _ _), hs] at b4
  unfold Spec.heading Quat.dcm at b4
  rw [if_neg (by simp; norm_num [abs_of_pos])] at b4
  exact sin_pos_ne (by simp; norm_num) (by simp; norm_num) b4

/-! ## Agreement with the model of the control logic -/

/-- the flags of the numerical state and of the control logic model agree -/
def Match (s : St) (a : Aid.St) : Prop :=
  s.gps = a.gps ∧ s.yawAlign = a.yawAlign ∧ s.magAligned = a.magAligned ∧ s.wind = a.wind ∧ s.evYaw = a.evYaw ∧ s.magFault = a.magFault ∧
  s.inhibited = a.inhibited ∧ s.nBad = a.nBad ∧ s.tAlign = a.tAlign ∧ s.velposReq = a.velposReq ∧ s.cov.mag3D = a.mag3D ∧
  s.cov.magHdg = a.magHdg ∧ s.cov.declReset = a.declCovReset

/-- the abstract inputs of the control logic model are what the numerical code computes -/
def InputsMatch (x : In) (s : St) (i : Aid.In) : Prop :=
  i.tDel = x.tDel ∧ i.magType = x.magType ∧ (i.courseOk = true ↔ Spec.courseUsable x) ∧
  (i.courseBad = true ↔ 1 / 2 < |wrapPi (atan2 (x.gpsVel 1) (x.gpsVel 0) - atan2 (s.est.state.vel 1) (s.est.state.vel 0))|) ∧
  (i.velRatioBad = true ↔ 1 < x.velRatio)

theorem match_stopMag {s : St} {a : Aid.St} (h : Match s a) : Match { s with cov := Cov.stopMag s.cov } (Aid.stopMag a) := by
  obtain ⟨h1, h2, h3, h4, h5, h6, h7, h8, h9, h10, h11, h12, h13⟩ := h
  have e : (Cov.stopMag s.cov).mag3D = false ∧ (Cov.stopMag s.cov).magHdg = false ∧ (Cov.stopMag s.cov).declReset = false := by
    unfold Cov.stopMag Cov.clearMagCov Cov.stopMagHdg Cov.stopMag3D
    cases hh : s.cov.mag3D <;> simp [hh]
  have e' : (Aid.stopMag a) = { Aid.stopMag a with
      gps := a.gps, yawAlign := a.yawAlign, magAligned := a.magAligned, wind := a.wind, evYaw := a.evYaw, magFault := a.magFault, inhibited := a.inhibited,
      nBad := a.nBad, tAlign := a.tAlign, velposReq := a.velposReq, mag3D := false, magHdg := false, declCovReset := false } := by
    unfold Aid.stopMag Aid.clearMagCov Aid.stopMagHdg Aid.stopMag3D
    cases hh : a.mag3D <;> simp [hh, Aid.St.act]
  rw [e']
  exact ⟨h1, h2, h3, h4, h5, h6, h7, h8, h9, h10, e.1, e.2.1, e.2.2⟩

theorem resetMagCov_flags (n : ℝ) (c : MagState ℝ) :
    (resetMagCov n c).mag3D = c.mag3D ∧ (resetMagCov n c).magHdg = c.magHdg ∧ (resetMagCov n c).declReset = false := by
  unfold resetMagCov clearMagCov
  simp only []
  split_ifs <;> exact ⟨rfl, rfl, rfl⟩

theorem resetMagStates_flags (a : Aid.St) :
    (Aid.resetMagStates a) = { a with log := (Aid.resetMagStates a).log, declCovReset := false } := by
  unfold Aid.resetMagStates Aid.St.act
  simp only []
  split_ifs <;> rfl

theorem match_bad {s : St} {a : Aid.St} (h : Match s a) : Match { s with nBad := s.nBad + 1 } { a with nBad := a.nBad + 1 } := by
  obtain ⟨h1, h2, h3, h4, h5, h6, h7, h8, h9, h10, h11, h12, h13⟩ := h
  exact ⟨h1, h2, h3, h4, h5, h6, h7, by rw [h8], h9, h10, h11, h12, h13⟩

theorem match_fault {s : St} {a : Aid.St} (h : Match s a) :
    Match (if s.magAligned && decide (2 ≤ s.nBad) && !s.magFault then { s with magFault := true } else s)
      (Aid.declareFault (a.evt .badYawUsingCourse)) := by
  obtain ⟨h1, h2, h3, h4, h5, h6, h7, h8, h9, h10, h11, h12, h13⟩ := h
  unfold Aid.declareFault
  have e : (a.evt .badYawUsingCourse).magAligned = s.magAligned ∧ (a.evt .badYawUsingCourse).nBad = s.nBad ∧
      (a.evt .badYawUsingCourse).magFault = s.magFault := ⟨h3.symm, h8.symm, h6.symm⟩
  rw [e.1, e.2.1, e.2.2]
  by_cases hc : (s.magAligned && decide (2 ≤ s.nBad) && !s.magFault) = true
  · rw [if_pos hc, if_pos hc]
    exact ⟨h1, h2, h3, h4, h5, rfl, h7, h8, h9, h10, h11, h12, h13⟩
  · rw [if_neg hc, if_neg hc]
    exact ⟨h1, h2, h3, h4, h5, h6, h7, h8, h9, h10, h11, h12, h13⟩

theorem match_aligned {s : St} {a : Aid.St} (h : Match s a) :
    Match (if !s.magAligned then { s with magAligned := true } else s) (Aid.courseYaw a) := by
  obtain ⟨h1, h2, h3, h4, h5, h6, h7, h8, h9, h10, h11, h12, h13⟩ := h
  unfold Aid.courseYaw
  rw [← h3, ← h4]
  cases hm : s.magAligned
  · exact ⟨h1, h2, rfl, h4, h5, h6, h7, h8, h9, h10, h11, h12, h13⟩
  · simp only [Bool.not_true, Bool.false_eq_true, if_false]
    split_ifs <;> exact ⟨h1, h2, h3, h4, h5, h6, h7, h8, h9, h10, h11, h12, h13⟩

theorem match_fields {s s' : St} {a : Aid.St} (h : Match s a) (n : ℝ) (t : UInt64) (b : Bool)
    (hs : s' = { s with est := s'.est, R := s'.R, cov := s'.cov, tAlign := s'.tAlign, velposReq := s'.velposReq })
    (hc : s'.cov.mag3D = s.cov.mag3D ∧ s'.cov.magHdg = s.cov.magHdg) :
    Match { s' with
      cov := resetMagCov n s'.cov
      tAlign := t
      velposReq := b } { Aid.resetMagStates a with
      tAlign := t
      velposReq := b } := by
  obtain ⟨h1, h2, h3, h4, h5, h6, h7, h8, h9, h10, h11, h12, h13⟩ := h
  rw [resetMagStates_flags]
  obtain ⟨f1, f2, f3⟩ := resetMagCov_flags n s'.cov
  refine ⟨?_, ?_, ?_, ?_, ?_, ?_, ?_, ?_, rfl, rfl, f1.trans (hc.1.trans h11), f2.trans (hc.2.trans h12), f3⟩ <;> simp only [] <;> rw [hs]
  · exact h1
  · exact h2
  · exact h3
  · exact h4
  · exact h5
  · exact h6
  · exact h7
  · exact h8

/-- `courseAlign` after the event counter has been updated -/
def courseTail (x : In) (bad : Bool) (s : St) : St :=
  if bad || !s.yawAlign then
    let s := if s.magAligned && decide (2 ≤ s.nBad) && !s.magFault then { s with magFault := true } else s
    let yaw := yawFromCourse x s
    let s := if !s.magAligned then { s with magAligned := true } else s
    let s := resetQuatStateYaw L yaw (courseVar x s) true s
    let s := { s with est := { s.est with state := { s.est.state with magB := 0 } }, R := s.est.state.quat.dcm }
    let s := setMagI x.mag s
    { s with
      cov := resetMagCov x.magNoise s.cov
      tAlign := x.tDel
      velposReq := bad }
  else
    let s := setMagI x.mag s
    { s with
      cov := resetMagCov x.magNoise s.cov
      tAlign := x.tDel }

/-- the same part of the control logic model -/
def courseTailA (i : Aid.In) (bad : Bool) (s : Aid.St) : Aid.St :=
  if bad || !s.yawAlign then
    { Aid.resetMagStates (Aid.courseYaw (Aid.declareFault (s.evt .badYawUsingCourse))) with
      tAlign := i.tDel
      velposReq := bad }
  else { Aid.resetMagStates s with tAlign := i.tDel }

theorem match_head (x : In) (yaw : ℝ) (bad : Bool) {s : St} {a : Aid.St} (h : Match s a) :
    Match { setMagI x.mag { resetQuatStateYaw L yaw (courseVar x s) true s with
        est := { (resetQuatStateYaw L yaw (courseVar x s) true s).est with
          state := { (resetQuatStateYaw L yaw (courseVar x s) true s).est.state with magB := 0 } }
        R := (resetQuatStateYaw L yaw (courseVar x s) true s).est.state.quat.dcm } with
      cov := resetMagCov x.magNoise (resetQuatStateYaw L yaw (courseVar x s) true s).cov
      tAlign := x.tDel
      velposReq := bad } { Aid.resetMagStates a with
      tAlign := x.tDel
      velposReq := bad } :=
  match_fields h x.magNoise x.tDel bad (s' := setMagI x.mag { resetQuatStateYaw L yaw (courseVar x s) true s with
        est := { (resetQuatStateYaw L yaw (courseVar x s) true s).est with
          state := { (resetQuatStateYaw L yaw (courseVar x s) true s).est.state with magB := 0 } }
        R := (resetQuatStateYaw L yaw (courseVar x s) true s).est.state.quat.dcm }) rfl ⟨rfl, rfl⟩

theorem match_tail (x : In) (i : Aid.In) (bad : Bool) {s : St} {a : Aid.St} (h : Match s a) (i1 : i.tDel = x.tDel) :
    Match (courseTail L x bad s) (courseTailA i bad a) := by
  unfold courseTail courseTailA
  rw [i1, ← h.2.1]
  by_cases hc : (bad || !s.yawAlign) = true
  · rw [if_pos hc, if_pos hc]
    exact match_head L x _ bad (match_aligned (match_fault h))
  · rw [if_neg hc, if_neg hc]
    obtain ⟨k1, k2, k3, k4, k5, k6, k7, k8, k9, k10, k11, k12, k13⟩ := h
    rw [resetMagStates_flags]
    exact ⟨k1, k2, k3, k4, k5, k6, k7, k8, rfl, k10, (resetMagCov_flags _ _).1.trans k11, (resetMagCov_flags _ _).2.1.trans k12, (resetMagCov_flags _ _).2.2⟩

/-- **C117 (consistency of the two models).** For matching flags and inputs, the numerical realignment and the one in the control logic model report the
same result and leave matching flags: what is proved about histories of the control logic (C105, C114) holds for the code with numbers. -/
theorem realign_matches (x : In) (s : St) (i : Aid.In) (a : Aid.St) (h : Match s a) (hi : InputsMatch x s i) :
    Match (realignYawGps L x s).1 (Aid.realignYawGps i a).1 ∧ (realignYawGps L x s).2 = (Aid.realignYawGps i a).2 := by
  obtain ⟨i1, i2, i3, i4, i5⟩ := hi
  have hm := h
  obtain ⟨h1, h2, h3, h4, h5, h6, h7, h8, h9, h10, h11, h12, h13⟩ := h
  by_cases hu : Spec.courseUsable x
  · rw [realign_eq L x s hu]
    unfold Aid.realignYawGps
    rw [if_neg (by simp [i3.mpr hu])]
    refine ⟨?_, rfl⟩
    show Match (courseAlign L x s) (Aid.courseAlign i a)
    have hbad : badMagYaw x s = Aid.badMagYaw i a := by
      rw [Bool.eq_iff_iff, bad_iff]
      unfold Aid.badMagYaw Spec.headingWrong
      simp only [Bool.and_eq_true, i4, i5, h1]
      tauto
    have hstart : Match (if badMagYaw x s then { s with nBad := s.nBad + 1 } else s) (if badMagYaw x s then { a with nBad := a.nBad + 1 } else a) := by
      by_cases hb : badMagYaw x s = true
      · rw [if_pos hb, if_pos hb]; exact match_bad hm
      · rw [if_neg hb, if_neg hb]; exact hm
    rw [show courseAlign L x s = courseTail L x (badMagYaw x s) (if badMagYaw x s then { s with nBad := s.nBad + 1 } else s) from rfl,
      show Aid.courseAlign i a = courseTailA i (Aid.badMagYaw i a) (if Aid.badMagYaw i a then { a with nBad := a.nBad + 1 } else a) from rfl, ← hbad]
    exact match_tail L x i _ hstart i1
  · rw [course_unusable L x s hu]
    unfold Aid.realignYawGps
    rw [if_pos (by have : i.courseOk = false := by rw [Bool.eq_false_iff]; exact fun hc => hu (i3.mp hc)
                   rw [this]; rfl)]
    unfold resetMagHeading Aid.resetMagHeading
    rw [i1, i2, ← h9]
    by_cases ht : x.tDel = s.tAlign
    · rw [if_pos ht, if_pos ht]; exact ⟨hm, rfl⟩
    rw [if_neg ht, if_neg ht]
    by_cases h5' : x.magType ≥ 5
    · rw [if_pos h5', if_pos h5']; exact ⟨match_stopMag hm, rfl⟩
    rw [if_neg h5', if_neg h5', ← h5]
    simp only []
    have fin : ∀ (yaw var : ℝ) (b : Aid.St), b = { a with log := b.log } →
        Match { setMagI x.magLpf (resetQuatStateYaw L yaw var true s) with
          cov := resetMagCov x.magNoise (setMagI x.magLpf (resetQuatStateYaw L yaw var true s)).cov
          tAlign := x.tDel } { Aid.resetMagStates b with tAlign := i.tDel } := by
      intro yaw var b hb
      rw [resetMagStates_flags, hb]
      exact ⟨h1, h2, h3, h4, h5, h6, h7, h8, i1.symm, h10, (resetMagCov_flags _ _).1.trans h11, (resetMagCov_flags _ _).2.1.trans h12, (resetMagCov_flags _ _).2.2⟩
    rw [i1] at fin
    by_cases he : s.evYaw = true
    · rw [if_pos he, if_pos he]
      exact ⟨fin _ _ (a.act (.yawReset .vision)) rfl, rfl⟩
    rw [if_neg he, if_neg he]
    by_cases h2' : x.magType ≤ 2
    · rw [if_pos h2', if_pos h2']
      exact ⟨fin _ _ (a.act (.yawReset .mag)) rfl, rfl⟩
    rw [if_neg h2', if_neg h2', h7]
    by_cases hc : x.magType = 4 ∧ a.inhibited = true
    · rw [if_pos hc, if_pos hc]; exact ⟨hm, rfl⟩
    · rw [if_neg hc, if_neg hc]; exact ⟨hm, rfl⟩

/-! ## Non-vacuity -/

/-- the library as modelled -/
def exLib : Lib := ⟨quatOfDcm, quatNormalized⟩

def exEst (q : Quat ℝ) (v : V3 ℝ) : Est ℝ where
  state := ⟨q, v, 0, 0, 0, ![1 / 5, 0, 2 / 5], ![1 / 10, 0, 0], 0⟩
  outBuf := ⟨some [⟨10, ⟨q, v, 0⟩⟩], 0, 0, 1, false⟩
  vertBuf := ⟨some [⟨10, ⟨1, 2, 0⟩⟩], 0, 0, 1, false⟩
  outNew := ⟨q, v, 0⟩
  vertNew := ⟨1, 2, 0⟩
  reset := ⟨0, 0, 0, 0, ⟨1, 0, 0, 0⟩, 0, 0, 0, 0, 255⟩

def exSt (q : Quat ℝ) (v : V3 ℝ) (ya ma ev : Bool) : St where
  est := exEst q v
  R := q.dcm
  cov := ⟨fun i j => if i = j then 1 else 0, ⟨0, 0⟩, false, true, true⟩
  gps := true
  yawAlign := ya
  magAligned := ma
  wind := false
  evYaw := ev
  magDec := false
  magFault := false
  inhibited := false
  nBad := 0
  tAlign := 0
  velposReq := false

def exIn (q : Quat ℝ) : In where
  tDel := 7
  gpsVel := ![10, 0, 0]
  sacc := 1
  velRatio := 2
  mag := ![1 / 5, 1 / 10, 2 / 5]
  magLpf := ![1 / 5, 1 / 10, 2 / 5]
  magType := 0
  hdgNoise := 1 / 5
  magNoise := 1 / 20
  evQuat := q
  evAngVar := 1 / 100
  useGeoDecl := true
  declParam := 0
  originInit := true
  declGps := some (1 / 10)
  gsfOk := true
  gsfYaw := 1
  gsfVar := 1 / 100
  gsfErrMax := 1 / 4

theorem exUsable (q : Quat ℝ) : Spec.courseUsable (exIn q) := by
  have e : √((exIn q).gpsVel 0 ^ 2 + (exIn q).gpsVel 1 ^ 2) = 10 := by
    show √((10 : ℝ) ^ 2 + 0 ^ 2) = 10
    rw [show (10 : ℝ) ^ 2 + 0 ^ 2 = 10 ^ 2 by norm_num]
    exact Real.sqrt_sq (by norm_num)
  unfold Spec.courseUsable
  rw [e]
  exact ⟨by norm_num, by show (1 : ℝ) < _; norm_num⟩

/-- a heading judged wrong: the filter flies east, GPS says north -/
example (q : Quat ℝ) : Spec.headingWrong (exIn q) (exSt q ![0, 10, 0] true true false) := by
  refine ⟨rfl, by show (1 : ℝ) < 2; norm_num, ?_⟩
  have e1 : atan2 ((exIn q).gpsVel 1) ((exIn q).gpsVel 0) = 0 := by
    have := atan2_polar (r := 10) (t := 0) (by norm_num) ⟨by linarith [pi_pos], pi_pos.le⟩
    show atan2 0 10 = 0
    simpa using this
  have e2 : atan2 ((exSt q ![0, 10, 0] true true false).est.state.vel 1) ((exSt q ![0, 10, 0] true true false).est.state.vel 0) = π / 2 := by
    have := atan2_polar (r := 10) (t := π / 2) (by norm_num) ⟨by linarith [pi_pos], by linarith [pi_pos]⟩
    show atan2 10 0 = π / 2
    simpa using this
  rw [e1, e2, wrapPi_of_mem ⟨by linarith [pi_pos], by linarith [pi_pos]⟩, zero_sub, abs_neg, abs_of_pos (by linarith [pi_pos])]
  linarith [two_le_pi]

/-- the hypotheses of `course_first` and of `compass_reset` hold for a rolled attitude with the modelled library -/
example : QuatLib exLib.ofDcm exLib.normalize ∧ (⟨2 / 9, 4 / 9, 5 / 9, 6 / 9⟩ : Quat ℝ).normSq = 1 ∧
    |(⟨2 / 9, 4 / 9, 5 / 9, 6 / 9⟩ : Quat ℝ).dcm 2 0| < |(⟨2 / 9, 4 / 9, 5 / 9, 6 / 9⟩ : Quat ℝ).dcm 2 1| := by
  refine ⟨quatLib, by unfold Quat.normSq; norm_num, ?_⟩
  unfold Quat.dcm; simp; norm_num [abs_of_pos]

/-- `course_first_disturbs` is about a real situation -/
example : (realignYawGps exLib (exIn ⟨1, 0, 0, 0⟩) (exSt ⟨4 / 9, 6 / 9, -5 / 9, 2 / 9⟩ ![10, 0, 0] false false false)).1.est.state.quat.dcm ≠
    (⟨4 / 9, 6 / 9, -5 / 9, 2 / 9⟩ : Quat ℝ).dcm :=
  course_first_disturbs exLib quatLib _ _ (exUsable _) rfl rfl rfl rfl

/-- `vision_reset_disturbs` is about a real situation -/
example (m : V3 ℝ) :
    (resetMagHeading exLib (exIn ⟨2 / 9, 4 / 9, 5 / 9, 6 / 9⟩) m true true (exSt ⟨2 / 9, 4 / 9, 5 / 9, 6 / 9⟩ 0 true true true)).1.est.state.quat.dcm ≠
    (⟨2 / 9, 4 / 9, 5 / 9, 6 / 9⟩ : Quat ℝ).dcm :=
  vision_reset_disturbs exLib quatLib _ m true true _ rfl rfl (by show (7 : UInt64) ≠ 0; decide) (by show (0 : ℤ) < 5; norm_num) rfl

/-- the emergency reset happens for a converged estimate -/
example (q : Quat ℝ) (hq : q.normSq = 1) : (resetYawToGsf exLib (exIn q) (exSt q 0 true true false)).2 = true :=
  (gsf_reset exLib quatLib (exIn q) (exSt q 0 true true false) hq).1.mpr ⟨rfl, by show (1 / 100 : ℝ) < (1 / 4) ^ 2; norm_num⟩

end

end Ecl.Yaw
