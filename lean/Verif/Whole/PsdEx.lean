import Verif.Whole.PsdHist
import Verif.Whole.Extra

/-!
# A regular history: the hypotheses of `covariance_valid` are met (C140)
-/

namespace Ecl.Whole

open Ecl.Cov Ecl.Fusion Ecl.Ekf
open Ecl.ImuDownSampler (AxisAngleLib)

/-- a vehicle at rest with noise parameters 0, flying flag set -/
noncomputable def exPred (L : AxisAngleLib) : PredictIn where
  L := L
  imu := ⟨10000, 0, 0, 1 / 100, 1 / 100, fun _ => false⟩
  accBiasLim := 4 / 10
  earthRate := 0
  inh := ⟨1 / 2, 3, 25, false, false, true, 0, fun _ => false, 0, 0⟩
  nz := ⟨0, 0, 0, 0, 0, 0, 1, 0, 0, false, false, false, fun _ => false, 0⟩
  now := 0
  badAccBias := false

/-- vertical position fusion with the averaged period the prediction leaves -/
noncomputable def exVpos (L : AxisAngleLib) : VPIn :=
  ⟨⟨fun _ => false, true, true, (run powerOn [.predict (exPred L)]).dtEkfAvg, 0, false⟩, false, false⟩

/-- prediction, vertical position observed, gyro bias and horizontal position reset -/
noncomputable def exReg (L : AxisAngleLib) (a : Est ℝ) : List Op :=
  [.predict (exPred L), .vpos (exVpos L) 1 3 1 (exVP exFilt), .gyroBias (1 / 10), .positionReset Meas.exRIn a]

theorem exPred_inhibit (L : AxisAngleLib) (a : Fin 3) : (run powerOn [.predict (exPred L)]).inhibit a = false := by
  have st : ∀ (x : InhibitIn ℝ) (g c : ℝ) (s : InhibitState ℝ) (a : Fin 3), inhibitAxis x g c a = false → (∀ b, s.inhibit b = false) → inhibitStep x g c s a = s := by
    intro x g c s a h hs
    unfold inhibitStep
    rw [h, hs a]; rfl
  have key : ∀ (x : InhibitIn ℝ) (s : InhibitState ℝ), (∀ a, inhibitAxis x (envelope x s).1 (envelope x s).2 a = false) → (∀ b, s.inhibit b = false) →
      ∀ a, (inhibitUpdate x s).inhibit a = false := by
    intro x s h hs a
    unfold inhibitUpdate
    simp only [List.foldl]
    have e : ∀ (g c : ℝ) (t : InhibitState ℝ), (∀ a, inhibitAxis x g c a = false) → (∀ b, t.inhibit b = false) →
        inhibitStep x g c (inhibitStep x g c (inhibitStep x g c t 0) 1) 2 = t := fun g c t h h' => by
      rw [st _ _ _ _ 0 (h 0) h', st _ _ _ _ 1 (h 1) h', st _ _ _ _ 2 (h 2) h']
    rw [e _ _ _ h (by exact hs)]
    exact hs a
  refine key _ _ (fun b => ?_) (fun _ => rfl) a
  simp [inhibitAxis, inhibitAll, envelope, exPred, norm3, powerOn]

/-- no noise, no uncertainty: the prediction stays below the limits and keeps the attitude certain -/
theorem below_zero {x : CovIn ℝ} {s : CovSt ℝ} (hdt : 1 / 200 ≤ x.dtEkfAvg) (hP : s.ist.P = fun _ _ => 0) (hacc : ∀ a, s.acc.ang a = 0 ∧ s.acc.vel a = 0)
    (hi : ∀ a, s.ist.inhibit a = false) (hi' : ∀ a, (predictCovariance x s).ist.inhibit a = false) (hg : ∀ k, imuVar x.predIn k = 0)
    (hn : ∀ h P j, processNoise x.nz h P j = 0) :
    Spec.BelowLimits x.dtEkfAvg (predictCovariance x s).ist.P ∧ ∀ i : Fin N, i.val < 4 → (predictCovariance x s).ist.P i i = 0 := by
  have hi2 : ∀ a, (inhibitUpdate x.inh s.ist).inhibit a = false := hi'
  have eP : (inhibitUpdate x.inh s.ist).P = fun _ _ => 0 := (inhibitUpdate_none hi hi2).trans hP
  have raw : ∀ c : PredCfg ℝ, c.inhibit = (inhibitUpdate x.inh s.ist).inhibit → c.x = x.predIn → (∀ j, c.noise j = 0) → ∀ i, ¬Off c.mag3D c.wind i →
      predictRaw c s.acc (fun _ _ => 0) i i = 0 := by
    intro c e1 e2 e3 i ho
    have act : Cov.Spec.Active c i := by
      refine ⟨fun a _ => by rw [e1]; exact hi2 a, fun a b => ?_, fun a => ?_⟩
      · by_contra hc; exact ho (Or.inl ⟨a, b, by simpa using hc⟩)
      · by_contra hc; exact ho (Or.inr ⟨a, by simpa using hc⟩)
    rw [((predictRaw_entry _ _ _ (fun _ _ => rfl) i i le_rfl).2 (fun hh => absurd hh.1 (by norm_num))).1 act]
    unfold Cov.Spec.predicted Cov.Spec.noise Spec.sandwich
    simp [e2, hg, e3, hacc]
  unfold predictCovariance
  simp only
  unfold predictCov
  rw [eP]
  constructor
  · refine fix_keeps_below ⟨hi2, rfl, by linarith⟩ _ _ _ fun i => ?_
    have hp : 0 < Spec.varLimit x.dtEkfAvg i := varLimit_pos (by linarith) i
    refine lt_of_eq_of_lt ?_ hp
    simp only [cut]
    by_cases ho : Off x.nz.mag3D x.nz.wind i
    · exact if_pos (Or.inl ho)
    · rw [if_neg (fun h => ho (h.elim id id))]
      exact raw _ rfl rfl (hn (heightRateLpf s.heightRate x.nz.velD) fun _ _ => 0) i ho
  · intro i h4
    rw [(fix_variance_limits _ _ _ _ _ i).1 h4, raw _ rfl rfl (hn (heightRateLpf s.heightRate x.nz.velD) fun _ _ => 0) i (by unfold Off; omega)]
    norm_num

theorem exPred_zero (L : AxisAngleLib) : Spec.BelowLimits (run powerOn [.predict (exPred L)]).dtEkfAvg (run powerOn [.predict (exPred L)]).f.P ∧
    ∀ i : Fin N, i.val < 4 → (run powerOn [.predict (exPred L)]).f.P i i = 0 := by
  refine below_zero (dt_run [.predict (exPred L)]).1 rfl (fun _ => ⟨rfl, rfl⟩) (fun _ => rfl) (exPred_inhibit L) (fun k => ?_) fun h P j => ?_
  · rw [imuVar_spec]
    unfold Spec.imuVariance
    fin_cases k <;> simp [exPred]
  · have h1 : ¬(1 : ℝ) < 0 := by norm_num
    simp [processNoise, exPred, constrain, sq, h1]

theorem exPred_below (L : AxisAngleLib) : Spec.BelowLimits (run powerOn [.predict (exPred L)]).dtEkfAvg (run powerOn [.predict (exPred L)]).f.P :=
  (exPred_zero L).1

/-- a vertical position update without correlation to the attitude keeps the attitude -/
theorem vpos_attitude (x : VPIn) (i g r : ℝ) (st : VPSt) (hq : (attQuat st.f.s).normSq = 1) (h : ∀ j : Fin N, j.val < 4 → st.f.P j 9 = 0) :
    (attQuat (fuseVerticalPosition x i g r st).st.f.s).normSq = 1 := by
  have key : ∀ (v S : ℝ) (s : VPSt), s.f = st.f → (attQuat (fuseVelPosHeight x v S 5 s).f.s).normSq = 1 := by
    intro v S s e
    unfold fuseVelPosHeight
    simp only
    split
    · refine fuseState_unit _ _ _ ?_
      rw [e]
      have e9 : obsState 5 = 9 := rfl
      by_contra hc
      push Not at hc
      have h4 : ∀ j : Fin N, j.val < 4 → st.f.s j = 0 := fun j hj => by
        have := hc j hj
        rw [e9, h j hj] at this
        simpa using this
      unfold attQuat Quat.normSq at hq
      simp only [h4 0 (by decide), h4 1 (by decide), h4 2 (by decide), h4 3 (by decide)] at hq
      norm_num at hq
    · rw [e]; exact hq
  unfold fuseVerticalPosition
  extract_lets v ratio s1 pass lim innovation pass'
  clear_value pass' innovation v
  split
  · exact key _ _ _ rfl
  · exact hq

theorem exPred_valid (L : AxisAngleLib) : ValidMag (step powerOn (.predict (exPred L))).f.M := by
  have h0 : Spec.PSD (fun _ _ : Fin N => (0 : ℝ)) := psd_congr (fun _ _ => by simp) (psd_diag (d := fun _ => (0 : ℝ)) fun _ => le_rfl)
  refine valid_step powerOn (.predict (exPred L)) trivial trivial ?_ ?_ (dt_run []) ?_ (fun _ => rfl) (fun _ => ⟨rfl, rfl⟩) ⟨h0, _, h0, rfl⟩ (exPred_below L) (exPred_inhibit L)
  · show powerOn.f.P 7 7 + powerOn.f.P 8 8 ≤ 10000
    norm_num [powerOn, Filt.P]
  · simp [powerOn, attQuat, Quat.normSq]
  · exact fun i => varLimit_pos (by norm_num [powerOn, filterPeriod]) i

/-- variances of the attitude are zero after the prediction -/
theorem exPred_att (L : AxisAngleLib) (i : Fin N) (hi : i.val < 4) : (step powerOn (.predict (exPred L))).f.P i i = 0 := (exPred_zero L).2 i hi

/-- the history is regular and its covariance is not trivial; the vertical position update is one of a covariance that is not zero -/
theorem exReg_ok (L : AxisAngleLib) (a : Est ℝ) : (∀ op ∈ exReg L a, op.Ok ∧ op.LibOk) ∧ (∀ p, p <+: exReg L a → (attQuat (run powerOn p).f.s).normSq ≠ 0) ∧
    (∀ p, p <+: exReg L a → Spec.BelowLimits (run powerOn p).dtEkfAvg (run powerOn p).f.P ∧ ∀ b, (run powerOn p).inhibit b = false) ∧
    (∀ p op, p ++ [op] <+: exReg L a → Spec.Regular (run powerOn p) op) ∧ (run powerOn (exReg L a)).f.P 7 7 = 9 := by
  have hP1 := exPred_valid L
  have b1 : Spec.BelowLimits (step powerOn (.predict (exPred L))).dtEkfAvg (step powerOn (.predict (exPred L))).f.P := exPred_below L
  have i1 : ∀ b, (step powerOn (.predict (exPred L))).inhibit b = false := exPred_inhibit L
  have hdt : (step powerOn (.predict (exPred L))).dtEkfAvg ∈ Set.Icc (1 / 200 : ℝ) (1 / 50) := dt_run [.predict (exPred L)]
  have ha := exPred_att L
  have q0 : (attQuat powerOn.f.s).normSq = 1 := by simp [powerOn, attQuat, Quat.normSq]
  have q1 : (attQuat (step powerOn (.predict (exPred L))).f.s).normSq = 1 :=
    (att_strap L (4 / 10) 0 (exPred L).imu ⟨toState powerOn.f.s, powerOn.R, powerOn.accelLpf, powerOn.dtEkfAvg, powerOn.angRateRaw⟩ q0).1
  have b0 : Spec.BelowLimits powerOn.dtEkfAvg powerOn.f.P := fun i => varLimit_pos (by norm_num [powerOn, filterPeriod]) i
  have hx : (exVpos L).fx.dtEkfAvg = (step powerOn (.predict (exPred L))).dtEkfAvg := rfl
  have r0 : Spec.Regular powerOn (.predict (exPred L)) := by
    show powerOn.f.P 7 7 + powerOn.f.P 8 8 ≤ 10000
    norm_num [powerOn, Filt.P]
  generalize hw1 : step powerOn (.predict (exPred L)) = w1 at *
  have P1 : Spec.PSD w1.f.P := hP1.1
  have z1 : ∀ j : Fin N, j.val < 4 → w1.f.P j 9 = 0 := fun j hj => by
    have m := fun c => psd_minor P1 j 9 (by rintro rfl; exact absurd hj (by decide)) c 1
    simp only [ha j hj] at m
    by_contra hc
    have := m (-(w1.f.P 9 9 + 1) / (2 * w1.f.P j 9))
    have e : 2 * (-(w1.f.P 9 9 + 1) / (2 * w1.f.P j 9)) * 1 * w1.f.P j 9 = -(w1.f.P 9 9 + 1) := by field_simp
    rw [e] at this
    linarith
  have r1 : Spec.Regular w1 (.vpos (exVpos L) 1 3 1 (exVP exFilt)) := ⟨⟨funext fun b => (i1 b).symm, hx⟩, one_pos⟩
  have g2 := (good_velpos (x := exVpos L) (dt := w1.dtEkfAvg) ⟨fun _ => rfl, hx, by have := hdt.1; linarith⟩ { exVP exFilt with f := w1.f } ⟨P1, b1⟩
    (fun i _ _ => diag_nonneg P1 i)).2.2.2 1 3 1 one_pos
  have q2 := vpos_attitude (exVpos L) 1 3 1 { exVP exFilt with f := w1.f } q1 z1
  generalize hw2 : step w1 (.vpos (exVpos L) 1 3 1 (exVP exFilt)) = w2
  have b2 : Spec.BelowLimits w2.dtEkfAvg w2.f.P := by rw [← hw2]; exact g2.2
  have i2 : ∀ b, w2.inhibit b = false := by rw [← hw2]; exact i1
  have q2 : (attQuat w2.f.s).normSq = 1 := by rw [← hw2]; exact q2
  have d2 : w2.dtEkfAvg ∈ Set.Icc (1 / 200 : ℝ) (1 / 50) := by rw [← hw2]; exact hdt
  have b3 : Spec.BelowLimits (step w2 (.gyroBias (1 / 10))).dtEkfAvg (step w2 (.gyroBias (1 / 10))).f.P := by
    intro i
    show uncorrSet 10 3 (fun _ => sq (1 / 10 * filterPeriod)) w2.f.P i i < Spec.varLimit w2.dtEkfAvg i
    unfold uncorrSet
    split
    · next h =>
      rw [if_pos rfl]
      have h' : inBlk 10 3 i := h.elim id id
      unfold inBlk at h'
      unfold Spec.varLimit
      rw [if_neg (by omega), if_neg (by omega), if_pos (by omega)]
      norm_num [sq, filterPeriod]
    · exact b2 i
  have i3 : ∀ b, (step w2 (.gyroBias (1 / 10))).inhibit b = false := i2
  have q3 : (attQuat (step w2 (.gyroBias (1 / 10))).f.s).normSq = 1 := q2
  have e0 : run powerOn [] = powerOn := rfl
  have e1 : run powerOn [.predict (exPred L)] = w1 := hw1
  have e2 : run powerOn [.predict (exPred L), .vpos (exVpos L) 1 3 1 (exVP exFilt)] = w2 := by rw [← hw2, ← hw1]; rfl
  have e3 : run powerOn [.predict (exPred L), .vpos (exVpos L) 1 3 1 (exVP exFilt), .gyroBias (1 / 10)] = step w2 (.gyroBias (1 / 10)) := by rw [← hw2, ← hw1]; rfl
  have e4 : run powerOn (exReg L a) = step (step w2 (.gyroBias (1 / 10))) (.positionReset Meas.exRIn a) := by rw [← hw2, ← hw1]; rfl
  generalize step w2 (.gyroBias (1 / 10)) = w3 at *
  have hp : (step w3 (.positionReset Meas.exRIn a)).f.P = uncorrSet 7 2 (fun _ => sq 3) w3.f.P := by
    simp only [step, onEst]
    unfold Meas.resetHorizontalPosition
    simp [Filt.P, Meas.posToGps, Meas.exRIn]
  have i4 : ∀ b, (step w3 (.positionReset Meas.exRIn a)).inhibit b = false := i3
  have q4 : (attQuat (step w3 (.positionReset Meas.exRIn a)).f.s).normSq = 1 := by
    rw [← q3]
    simp only [step, onEst]
    unfold Meas.resetHorizontalPosition
    simp [Meas.posToGps, Meas.exRIn, att_ofState, Est.resetHorizontalPositionTo, toState]
  have b4 : Spec.BelowLimits (step w3 (.positionReset Meas.exRIn a)).dtEkfAvg (step w3 (.positionReset Meas.exRIn a)).f.P := by
    intro i
    rw [hp]
    show _ < Spec.varLimit w3.dtEkfAvg i
    unfold uncorrSet
    split
    · next h =>
      rw [if_pos rfl]
      have h' : inBlk 7 2 i := h.elim id id
      unfold inBlk at h'
      unfold Spec.varLimit
      rw [if_neg (by omega), if_pos (by omega)]
      norm_num [sq]
    · exact b3 i
  have pre : ∀ p, p <+: exReg L a → p = [] ∨ p = [.predict (exPred L)] ∨ p = [.predict (exPred L), .vpos (exVpos L) 1 3 1 (exVP exFilt)] ∨
      p = [.predict (exPred L), .vpos (exVpos L) 1 3 1 (exVP exFilt), .gyroBias (1 / 10)] ∨ p = exReg L a := by
    intro p hp
    rw [← List.mem_inits] at hp
    simpa [exReg, List.inits] using hp
  refine ⟨?_, ?_, ?_, ?_, ?_⟩
  · intro op h
    simp only [exReg, List.mem_cons, List.mem_nil_iff, or_false] at h
    rcases h with rfl | rfl | rfl | rfl
    · exact ⟨trivial, trivial⟩
    · exact ⟨trivial, trivial⟩
    · exact ⟨trivial, trivial⟩
    · refine ⟨?_, trivial⟩
      intro i; fin_cases i <;> simp [Meas.exRIn]
  · intro p hp
    have : (attQuat (run powerOn p).f.s).normSq = 1 := by
      rcases pre p hp with rfl | rfl | rfl | rfl | rfl
      · exact q0
      · rw [e1]; exact q1
      · rw [e2]; exact q2
      · rw [e3]; exact q3
      · rw [e4]; exact q4
    rw [this]; norm_num
  · intro p hp
    rcases pre p hp with rfl | rfl | rfl | rfl | rfl
    · exact ⟨b0, fun _ => rfl⟩
    · rw [e1]; exact ⟨b1, i1⟩
    · rw [e2]; exact ⟨b2, i2⟩
    · rw [e3]; exact ⟨b3, i3⟩
    · rw [e4]; exact ⟨b4, i4⟩
  · intro p op hp
    have c : ∀ {p q : List Op} {a b : Op}, p ++ [a] = q ++ [b] → p = q ∧ a = b := fun h => by simpa using List.append_inj' h rfl
    rcases pre _ hp with h | h | h | h | h
    · simp at h
    · obtain ⟨rfl, rfl⟩ := c (q := []) h; exact r0
    · obtain ⟨rfl, rfl⟩ := c (q := [.predict (exPred L)]) h; rw [e1]; exact r1
    · obtain ⟨rfl, rfl⟩ := c (q := [.predict (exPred L), .vpos (exVpos L) 1 3 1 (exVP exFilt)]) h; exact trivial
    · obtain ⟨rfl, rfl⟩ := c (q := [.predict (exPred L), .vpos (exVpos L) 1 3 1 (exVP exFilt), .gyroBias (1 / 10)]) h; exact trivial
  · rw [e4, hp]
    unfold uncorrSet
    rw [if_pos (Or.inl (by unfold inBlk; decide)), if_pos rfl]
    norm_num [sq]

/-- the conclusion for the example -/
example (L : AxisAngleLib) (a : Est ℝ) (v : Fin N → ℝ) : 0 ≤ ∑ i, ∑ j, v i * (run powerOn (exReg L a)).f.P i j * v j :=
  (covariance_valid _ (exReg_ok L a).1 (exReg_ok L a).2.1 (exReg_ok L a).2.2.1 (exReg_ok L a).2.2.2.1).2 v

end Ecl.Whole
