import Verif.Whole.Attitude

/-!
# Covariance limits after a prediction, the unchecked vision variances, agreement with the height model, examples (C137, C138)
-/

namespace Ecl.Whole

open Ecl.Cov Ecl.Fusion Ecl.Ekf

/-- **C137 (limits).** After any history that ends with a prediction: attitude and gyro bias variances are in [0, 1], velocity and position variances
in [1e-6, 1e6], magnetic field variances in [0, 1] and zero while 3-axis magnetometer fusion is off, wind variances in [0, 1e6] and zero while wind is
not estimated. -/
theorem variances_limited (l : List Op) (x : PredictIn) :
    let w := run powerOn (l ++ [.predict x])
    (∀ i : Fin N, i.val < 4 ∨ (10 ≤ i.val ∧ i.val < 13) → 0 ≤ w.f.P i i ∧ w.f.P i i ≤ 1) ∧
    (∀ i : Fin N, 4 ≤ i.val → i.val < 10 → 1 / 1000000 ≤ w.f.P i i ∧ w.f.P i i ≤ 1000000) ∧
    (∀ i : Fin N, 16 ≤ i.val → i.val < 22 → 0 ≤ w.f.P i i ∧ w.f.P i i ≤ 1 ∧ (w.f.M.mag3D = false → ∀ j, w.f.P i j = 0 ∧ w.f.P j i = 0)) ∧
    (∀ i : Fin N, 22 ≤ i.val → 0 ≤ w.f.P i i ∧ w.f.P i i ≤ 1000000 ∧ (x.nz.wind = false → ∀ j, w.f.P i j = 0 ∧ w.f.P j i = 0)) := by
  have e : run powerOn (l ++ [.predict x]) = predict x (run powerOn l) := by rw [run_append]; rfl
  rw [e]
  set w0 := run powerOn l
  obtain ⟨y, t, fl, P, hm, hw, hP⟩ : ∃ (y : FixIn ℝ) (t : UInt64) (fl : Bool) (P : Mat ℝ), y.mag3D = w0.f.M.mag3D ∧ y.wind = x.nz.wind ∧
      (predict x w0).f.P = (fixCovarianceErrors y false t fl P).1 := ⟨_, _, _, _, rfl, rfl, rfl⟩
  have hmm : (predict x w0).f.M.mag3D = w0.f.M.mag3D := rfl
  have k := fix_variance_limits y false t fl P
  have kb := fix_unused_zero y false t fl P
  have mm : ∀ (c : Bool) (v m : ℝ), 0 ≤ m → 0 ≤ (if c then max 0 (min v m) else 0) ∧ (if c then max 0 (min v m) else 0) ≤ m := by
    intro c v m h
    cases c
    · exact ⟨le_rfl, h⟩
    · exact ⟨le_max_left _ _, max_le h (min_le_right _ _)⟩
  simp only [hP, hmm]
  refine ⟨fun i hi => ?_, fun i h1 h2 => ?_, fun i h1 h2 => ?_, fun i h1 => ?_⟩
  · obtain ⟨a, -, c, -, -⟩ := k i
    rcases hi with hi | ⟨h1, h2⟩
    · rw [a hi]; exact mm true _ 1 (by norm_num)
    · rw [c h1 h2]; exact mm true _ 1 (by norm_num)
  · obtain ⟨-, b, -, -, -⟩ := k i
    rw [b h1 h2]; exact ⟨le_max_left _ _, max_le (by norm_num) (min_le_right _ _)⟩
  · obtain ⟨-, -, -, d, -⟩ := k i
    refine ⟨?_, ?_, fun h j => ⟨(kb i j).1 (hm.trans h) (Or.inl ⟨h1, h2⟩), (kb j i).1 (hm.trans h) (Or.inr ⟨h1, h2⟩)⟩⟩ <;> rw [d h1 h2]
    · exact (mm _ _ 1 (by norm_num)).1
    · exact (mm _ _ 1 (by norm_num)).2
  · obtain ⟨-, -, -, -, d⟩ := k i
    refine ⟨?_, ?_, fun h j => ⟨(kb i j).2 (hw.trans h) (Or.inl h1), (kb j i).2 (hw.trans h) (Or.inr h1)⟩⟩ <;> rw [d h1]
    · exact (mm _ _ 1000000 (by norm_num)).1
    · exact (mm _ _ 1000000 (by norm_num)).2

/-- the height reset of the whole filter makes the choices of `Control.resetHeight` (C28 and following): same vertical position and velocity, same
variances -/
theorem resetHeight_agrees (x : Control.HIn) (h : Control.HSt) (f : Filt) (h1 : f.s 9 = h.posD) (h2 : f.P 9 9 = h.varPos) :
    (resetHeight x h f).s 9 = (Control.resetHeight x h).posD ∧ (resetHeight x h f).s 6 = (Control.resetHeight x h).velD ∧
    (resetHeight x h f).P 9 9 = (Control.resetHeight x h).varPos ∧ (resetHeight x h f).P 6 6 = (Control.resetHeight x h).varVel ∧
    ∀ i : Fin N, i ≠ 9 → i ≠ 6 → (resetHeight x h f).s i = f.s i := by
  have e1 : (9 : Fin N) ≠ 6 := by decide
  have e2 : ((9 : Fin N) : ℕ) = 9 := rfl
  have e3 : ((6 : Fin N) : ℕ) = 6 := rfl
  have h2' : f.M.P 9 9 = h.varPos := h2
  unfold resetHeight Control.resetHeight
  simp only
  repeat' split
  all_goals (refine ⟨?_, ?_, ?_, ?_, fun i hi hj => ?_⟩ <;> simp_all [uncorrSet, inBlk, Filt.P, Function.update_apply, N])

/-- Vision data with a negative variance (nothing in the interface or the estimator rejects it): the position reset puts it into the covariance, so
the hypothesis of `covariance_sane` cannot be dropped. -/
theorem negative_vision_variance (a : Est ℝ) : (run powerOn [.positionReset { Meas.exRIn with gps := false, evPos := true, evPosVar := ![-1, 2, 3] } a]).f.P 7 7 = -1 := by
  simp only [run, List.foldl, step, onEst]
  unfold Meas.resetHorizontalPosition
  simp [Filt.P, Meas.posToVision, Meas.blkVar, uncorrSet, inBlk, N]

/-- vertical fusion parameters of the example: nothing inhibited, magnetometer and wind used -/
noncomputable def exV : VPIn := ⟨⟨fun _ => false, true, true, 1 / 100, 0, false⟩, false, false⟩

/-- example history: covariance set up, yaw uncertainty added, a vertical position observed, accelerometer bias and horizontal position reset -/
noncomputable def exL (x : InitIn) (a : Est ℝ) : List Op :=
  [.vpos exV 1 3 1 (exVP exFilt), .initCov x, .yawVariance (1 / 100), .accelBias (1 / 10), .positionReset Meas.exRIn a]

/-- the hypotheses of `covariance_sane` and `attitude_unit` hold for it, and its covariance is not trivial -/
theorem exL_ok (x : InitIn) (a : Est ℝ) : (∀ op ∈ exL x a, op.Ok ∧ op.LibOk) ∧ (∀ p, p <+: exL x a → (attQuat (run powerOn p).f.s).normSq ≠ 0) ∧
    (run powerOn (exL x a)).f.P 7 7 = 9 ∧ (run powerOn (exL x a)).f.s 7 = 7 := by
  have last : ∀ w : W, (step w (.positionReset Meas.exRIn a)).f.P 7 7 = 9 ∧ (step w (.positionReset Meas.exRIn a)).f.s 7 = 7 := by
    intro w
    simp only [step, onEst]
    unfold Meas.resetHorizontalPosition
    constructor
    · simp [Filt.P, Meas.posToGps, Meas.exRIn, uncorrSet, inBlk, N, sq]
      norm_num
    · simp [ofState, Meas.posToGps, Meas.exRIn, Est.resetHorizontalPositionTo, setXY]
  have hv : (attQuat (step powerOn (.vpos exV 1 3 1 (exVP exFilt))).f.s).normSq = 1 := by
    have hp : (fuseVerticalPosition exV 1 3 1 { exVP exFilt with f := powerOn.f }).st.f = (fuseVelPosHeight exV 1 (0 + 1) 5 { exVP exFilt with
        f := powerOn.f, vposRatio := 1 / Real.sqrt (0 + 1), tVposTry := 0, tHgt := 0, rejVpos := false }).f := by
      unfold fuseVerticalPosition
      simp [exV, powerOn, Filt.P, sq]
      norm_num
    simp only [step]
    rw [hp]
    unfold fuseVelPosHeight
    simp only
    split
    · exact fuseState_unit _ _ _ ⟨0, by decide, by simp [powerOn, Filt.P]⟩
    · simp [powerOn, attQuat, Quat.normSq]
  refine ⟨?_, ?_, ?_, ?_⟩
  · intro op h
    simp only [exL, List.mem_cons, List.mem_nil_iff, or_false] at h
    rcases h with rfl | rfl | rfl | rfl | rfl
    · exact ⟨trivial, trivial⟩
    · exact ⟨trivial, trivial⟩
    · exact ⟨by show (0 : ℝ) ≤ 1 / 100; norm_num, trivial⟩
    · exact ⟨trivial, trivial⟩
    · refine ⟨?_, trivial⟩
      intro i; fin_cases i <;> simp [Meas.exRIn]
  · intro p hp
    have h0 : (attQuat (run powerOn []).f.s).normSq = 1 := by simp [run, powerOn, attQuat, Quat.normSq]
    obtain ⟨r, hr⟩ := hp
    unfold exL at hr
    rcases p with _ | ⟨a1, p⟩
    · rw [h0]; norm_num
    rw [List.cons_append, List.cons.injEq] at hr
    obtain ⟨rfl, hr⟩ := hr
    rcases p with _ | ⟨a1, p⟩
    · show (attQuat (step powerOn (.vpos exV 1 3 1 (exVP exFilt))).f.s).normSq ≠ 0
      rw [hv]; norm_num
    rw [List.cons_append, List.cons.injEq] at hr
    obtain ⟨rfl, hr⟩ := hr
    rcases p with _ | ⟨a1, p⟩
    · show (attQuat (step powerOn (.vpos exV 1 3 1 (exVP exFilt))).f.s).normSq ≠ 0
      rw [hv]; norm_num
    rw [List.cons_append, List.cons.injEq] at hr
    obtain ⟨rfl, hr⟩ := hr
    rcases p with _ | ⟨a1, p⟩
    · show (attQuat (step powerOn (.vpos exV 1 3 1 (exVP exFilt))).f.s).normSq ≠ 0
      rw [hv]; norm_num
    rw [List.cons_append, List.cons.injEq] at hr
    obtain ⟨rfl, hr⟩ := hr
    rcases p with _ | ⟨a1, p⟩
    · show (attQuat (step powerOn (.vpos exV 1 3 1 (exVP exFilt))).f.s).normSq ≠ 0
      rw [hv]; norm_num
    rw [List.cons_append, List.cons.injEq] at hr
    obtain ⟨rfl, hr⟩ := hr
    rw [List.append_eq_nil_iff] at hr
    obtain ⟨rfl, -⟩ := hr
    show (attQuat (step powerOn (.vpos exV 1 3 1 (exVP exFilt))).f.s).normSq ≠ 0
    rw [hv]; norm_num
  · exact (last _).1
  · exact (last _).2

end Ecl.Whole
