import Verif.Gsf.Run
import Verif.Basic.Time

/-!
# Yaw estimator: attitude propagation, heading, velocity input; and how the main filter calls it
-/

namespace Ecl.Gsf
open Ecl Utils

/-- **C104 (propagation).** A call turns each row of the attitude by the vector θ = measured delta angle − (bias · interval) + (tilt correction rate · interval), to
first order, and rescales it towards unit length. -/
theorem attitude_increment (x : In) (acc : V3 ℝ) (m : Mdl) (i : Fin 3) :
    let θ : V3 ℝ := fun j => x.dAng j - (ahrsPredict x acc m).bias j * x.dAngDt + tiltCorr x acc m j * x.dAngDt
    let r : V3 ℝ := fun j => m.R i j + cross (m.R i) θ j
    0.00000011920929 < nsq r → ∀ j, (ahrsPredict x acc m).R i j = r j * (1 + (1 - nsq r) / 2) := by
  intro θ r hr j
  have hθ : (fun k => x.dAng k + (tiltCorr x acc m k - newBias x acc m k) * x.dAngDt) = θ := by
    funext k
    show _ = x.dAng k - newBias x acc m k * x.dAngDt + tiltCorr x acc m k * x.dAngDt
    ring
  have h1 : rotRow (m.R i) θ = r := by
    funext k; exact rotRow_spec _ _ _
  show renorm (rotRow (m.R i) fun k => x.dAng k + (tiltCorr x acc m k - newBias x acc m k) * x.dAngDt) j = _
  rw [hθ, h1]
  unfold renorm
  rw [if_pos hr]
  ring

/-- **C104 (bias compensation).** A model at rest stays at rest: if the gyro reads exactly the model's bias (within its limit) and the specific force is exactly
opposite to the model's down axis, without airspeed, neither the attitude nor the bias changes. -/
theorem rest_keeps_attitude (x : In) (acc : V3 ℝ) (m : Mdl) (hR : ∀ i, nsq (m.R i) = 1) (hb : ∀ i, |m.bias i| ≤ 0.05)
    (hx : ∀ i, x.dAng i = m.bias i * x.dAngDt) (ht : x.tas ≤ 0) (k : ℝ) (ha : ∀ i, acc i = -(k * m.R 2 i)) :
    (ahrsPredict x acc m).R = m.R ∧ (ahrsPredict x acc m).bias = m.bias := by
  have hc : cross (m.R 2) acc = fun _ => 0 := by
    funext i
    fin_cases i <;> simp [cross, ha] <;> ring
  have ht' : ¬ x.tas > 0.00000011920929 := by intro h; norm_num at h; linarith
  have hT : tiltCorr x acc m = fun _ => 0 := by
    funext i
    rw [tiltCorr_spec]
    have : (fun j => acc j - if x.tas > 0.00000011920929 then cross (fun k => x.dAng k / max x.dAngDt 0.001 - m.bias k) ![x.tas, 0, 0] j else 0) = acc := by
      funext j; rw [if_neg ht', sub_zero]
    rw [this, hc]; split <;> simp
  have hB : newBias x acc m = m.bias := by
    unfold newBias
    split
    · funext i
      rw [hT]
      have := abs_le.mp (hb i)
      show constrain (m.bias i - 0 * (0.04 * x.dAngDt)) (-0.05) 0.05 = _
      rw [zero_mul, sub_zero, constrain_eq (by norm_num), min_eq_left this.2, max_eq_right (by linarith [this.1])]
    · rfl
  refine ⟨?_, hB⟩
  show predictRotMat m.R (fun i => x.dAng i + (tiltCorr x acc m i - newBias x acc m i) * x.dAngDt) = m.R
  have : (fun i => x.dAng i + (tiltCorr x acc m i - newBias x acc m i) * x.dAngDt) = fun _ => 0 := by
    funext i; rw [hT, hB, hx]; ring
  rw [this]
  exact predict_still m.R hR

/-- **C104 (heading).** The heading read from a model's attitude is the heading that was written into it, at every tilt. -/
theorem heading_read (psi : ℝ) (h1 : -Real.pi < psi) (h2 : psi ≤ Real.pi) (R : M3 ℝ) (h : IsRotation R) :
    yawOf (updateYawInRotMat psi R) = psi := by
  obtain ⟨-, b, c, d⟩ := updateYaw_spec psi ⟨h1, h2⟩ R h
  have hs : shouldUse321 (updateYawInRotMat psi R) ↔ shouldUse321 R := by
    have e0 : updateYawInRotMat psi R 2 0 = R 2 0 := congrFun b 0
    have e1 : updateYawInRotMat psi R 2 1 = R 2 1 := congrFun b 1
    unfold shouldUse321
    rw [e0, e1]
  unfold yawOf
  by_cases hc : shouldUse321 R
  · rw [if_pos (hs.mpr hc)]; exact c hc
  · rw [if_neg (fun h => hc (hs.mp h))]; exact d hc

/-- **C53/C104 (which velocity).** The velocity and accuracy used by a call are those given last: when fusion starts with it every model has exactly this velocity
with this accuracy, and when fusion is running (and the bank does not collapse, C52) every predicted model is updated with exactly this measurement. -/
theorem velocity_used (x : In) (l : List Call) (v : Fin 2 → ℝ) (a : ℝ) (hr : x.run = true) (ht : (run l).tilt = true) (i : Fin 5) :
    let m := ((run (l ++ [.setVelocity v a, .update x])).m i)
    ((run l).started = false → m.X 0 = v 0 ∧ m.X 1 = v 1 ∧ m.P 0 0 = a ^ 2 ∧ m.P 1 1 = a ^ 2 ∧ m.P 0 1 = 0) ∧
    ((run l).started = true → (run (l ++ [.setVelocity v a, .update x])).started = true → m = (updateEKF v a (predictEKF x (filtAcc x (run l).acc) true ((run l).m i))).1) := by
  intro m
  have hrun : run (l ++ [.setVelocity v a, .update x]) = update x (setVelocity v a (run l)) := by
    unfold run
    rw [List.foldl_append]
    rfl
  have hm : m = (update x (setVelocity v a (run l))).m i := by
    show (run (l ++ [.setVelocity v a, .update x])).m i = _
    rw [hrun]
  constructor
  · intro hs
    rw [hm, update_start x (setVelocity v a (run l)) ht hr rfl hs]
    refine ⟨rfl, rfl, ?_, ?_, rfl⟩ <;> exact (pow_two a).symm
  · intro hs hfin
    have h2 : setVelocity v a (run l) = run (l ++ [.setVelocity v a]) := by
      unfold run; rw [List.foldl_append]; rfl
    have h3 := update_fuse x (l ++ [.setVelocity v a]) (by rw [← h2]; exact hs) hr (by rw [← h2]; rfl)
    rw [← h2] at h3
    rw [hm]
    refine (congrArg (fun s : St => s.m i) h3).trans ?_
    have hc : ∀ s : St, (composite (reweigh s)).started = true → (composite (reweigh s)).m = s.m := by
      intro s hst
      have e1 : (composite (reweigh s)).started = (reweigh s).started := rfl
      have e2 : (composite (reweigh s)).m = (reweigh s).m := rfl
      rw [e1] at hst
      rw [e2]
      unfold reweigh at hst ⊢
      split
      · rfl
      · rename_i hne
        rw [if_neg hne] at hst
        exact absurd hst (by show ¬ (false = true); decide)
    rw [hrun, h3] at hfin
    refine (congrFun (hc _ hfin) i).trans ?_
    show (updateEKF v a (predictEKF x (filtAcc x (run l).acc) (run l).started ((run l).m i))).1 = _
    rw [hs]

/-! ## The call from the main filter -/

/-- inputs of `runYawEKFGSF`, EKF/ekf_helper.cpp:1637-1660: newest IMU time, airspeed sample at the delayed horizon, vehicle type, delayed IMU sample with the main
filter's flag and bias (`x.run` is the in-air flag), GPS sample at the delayed horizon. `none` in `gpsVel` stands for a component that is not finite. -/
structure MainIn where
  now : UInt64
  tasTime : UInt64
  tas : ℝ
  fixedWing : Bool
  tasDefault : ℝ
  imu : In
  gpsReady : Bool
  gpsVel : Fin 2 → Option ℝ
  gpsSacc : ℝ
  gpsVacc : ℝ

/-- `runYawEKFGSF`, EKF/ekf_helper.cpp:1637-1660: the calls made on the yaw estimator, in order. -/
noncomputable def mainCalls (x : MainIn) : List Call :=
  let tas := if isTimedOut x.now x.tasTime 1000000 && x.fixedWing then x.tasDefault else x.tas
  let u := Call.update { x.imu with tas := tas }
  if x.gpsReady = true ∧ x.gpsVacc > 0.00000011920929 then
    match x.gpsVel 0, x.gpsVel 1 with
    | some n, some e => [u, .setVelocity ![n, e] x.gpsVacc]
    | _, _ => [u]
  else [u]

/-- **C129.** Every step of the main filter makes exactly one update of the yaw estimator, with the delayed IMU sample; a GPS velocity is passed on after it (so it is
used by the next update) iff a sample is ready, its stated accuracy is positive and both components are finite. -/
theorem main_calls (x : MainIn) :
    ∃ tas, mainCalls x = Call.update { x.imu with tas := tas } :: (mainCalls x).tail ∧
    (tas = x.tasDefault ∨ tas = x.tas) ∧
    (x.fixedWing = true → isTimedOut x.now x.tasTime 1000000 = true → tas = x.tasDefault) ∧
    (x.fixedWing = false ∨ isTimedOut x.now x.tasTime 1000000 = false → tas = x.tas) ∧
    (∀ n e, x.gpsReady = true → 0.00000011920929 < x.gpsVacc → x.gpsVel 0 = some n → x.gpsVel 1 = some e →
      ∃ a, (mainCalls x).tail = [.setVelocity ![n, e] a]) ∧
    (x.gpsReady = false ∨ x.gpsVacc ≤ 0 ∨ x.gpsVel 0 = none ∨ x.gpsVel 1 = none → (mainCalls x).tail = []) := by
  refine ⟨if isTimedOut x.now x.tasTime 1000000 && x.fixedWing then x.tasDefault else x.tas, ?_, ?_, ?_, ?_, ?_, ?_⟩
  · unfold mainCalls
    simp only []
    split
    · split <;> rfl
    · rfl
  · split <;> simp
  · intro h1 h2; rw [h1, h2]; rfl
  · rintro (h | h) <;> rw [h] <;> simp
  · intro n e h1 h2 h3 h4
    refine ⟨x.gpsVacc, ?_⟩
    unfold mainCalls
    rw [if_pos ⟨h1, h2⟩, h3, h4]
    rfl
  · intro h
    unfold mainCalls
    simp only []
    split
    · rename_i hc
      rcases h with h | h | h | h
      · rw [h] at hc; exact absurd hc.1 (by decide)
      · exact absurd hc.2 (by norm_num; linarith)
      · rw [h]; rfl
      · rw [h]; cases x.gpsVel 0 <;> rfl
    · rfl

/-- **C129 (finding, accuracy).** The accuracy given to the yaw estimator with the horizontal velocity is the accuracy of the vertical position; the speed accuracy
of the sample has no influence. -/
theorem accuracy_is_vertical (x : MainIn) (n e : ℝ) (h1 : x.gpsReady = true) (h2 : 0.00000011920929 < x.gpsVacc) (h3 : x.gpsVel 0 = some n) (h4 : x.gpsVel 1 = some e) :
    (mainCalls x).tail = [.setVelocity ![n, e] x.gpsVacc] ∧ ∀ s, mainCalls { x with gpsSacc := s } = mainCalls x := by
  constructor
  · unfold mainCalls
    rw [if_pos ⟨h1, h2⟩, h3, h4]
    rfl
  · intro s; rfl

/-- **C129 (finding, old airspeed).** A vehicle that is not (or no longer) flown as a fixed wing keeps using its last airspeed sample, however old. -/
theorem old_airspeed_used (x : MainIn) (h : x.fixedWing = false) (now : UInt64) :
    ∃ l, mainCalls { x with now := now } = Call.update { x.imu with tas := x.tas } :: l := by
  obtain ⟨tas, h1, -, -, h4, -⟩ := main_calls { x with now := now }
  have h5 : tas = x.tas := h4 (Or.inl h)
  rw [h5] at h1
  exact ⟨_, h1⟩

/-- The IMU sample of the examples -/
noncomputable def exMain : MainIn where
  now := 10000000
  tasTime := 1000000
  tas := 25
  fixedWing := false
  tasDefault := 15
  imu := ⟨![0.001, 0, 0], ![0, 0, -0.098], 0.01, 0.01, true, 0, fun _ => 0⟩
  gpsReady := true
  gpsVel := ![some 3, some 4]
  gpsSacc := 0.3
  gpsVacc := 7

/-- hypotheses of C129: a 9 s old airspeed of 25 m/s is used, and the velocity (3, 4) with accuracy 7 (the vertical one) -/
example : (mainCalls exMain).tail = [.setVelocity ![3, 4] 7] ∧ ∃ l, mainCalls exMain = Call.update { exMain.imu with tas := 25 } :: l :=
  ⟨(accuracy_is_vertical exMain 3 4 rfl (show (0.00000011920929 : ℝ) < 7 by norm_num) rfl rfl).1, old_airspeed_used exMain rfl 10000000⟩

/-- hypotheses of the rest theorem: level model with a bias of 0.01 rad/s around X -/
example : let m : Mdl := ⟨(1 : M3 ℝ), ![0.01, 0, 0], fun _ => 0, fun _ _ => 0, fun _ _ => 0, 0, fun _ => 0⟩
    let x : In := ⟨![0.0001, 0, 0], fun _ => 0, 0.01, 0.01, true, 0, fun _ => 0⟩
    (ahrsPredict x ![0, 0, -9.8] m).R = (1 : M3 ℝ) := by
  intro m x
  refine (rest_keeps_attitude x ![0, 0, -9.8] m ?_ ?_ ?_ (le_refl (0 : ℝ)) 9.8 ?_).1
  · intro i
    show nsq ((1 : M3 ℝ) i) = 1
    fin_cases i <;> simp [nsq, Matrix.one_apply]
  · intro i
    show |(![0.01, 0, 0] : V3 ℝ) i| ≤ 0.05
    fin_cases i <;> norm_num [abs_le]
  · intro i
    show (![0.0001, 0, 0] : V3 ℝ) i = (![0.01, 0, 0] : V3 ℝ) i * 0.01
    fin_cases i <;> norm_num
  · intro i
    show (![0, 0, -9.8] : V3 ℝ) i = -(9.8 * (1 : M3 ℝ) 2 i)
    fin_cases i <;> simp [Matrix.one_apply]

/-- hypotheses of `velocity_used`: after one level sample the estimator is aligned; the first velocity starts the bank -/
example : ((run ([.update (sample 0 false)] ++ [.setVelocity ![3, 4] 0.5, .update (sample 0 true)])).m 0).X 0 = 3 :=
  ((velocity_used (sample 0 true) [.update (sample 0 false)] ![3, 4] 0.5 rfl (aligns 0).1 0).1 (aligns 0).2).1

/-- hypotheses of `attitude_increment`: a rotation of 0.001 rad of a level model -/
example : 0.00000011920929 < nsq (fun j => (1 : M3 ℝ) 0 j + cross ((1 : M3 ℝ) 0) ![0, 0, 0.001] j) := by
  simp [nsq, cross, Matrix.one_apply]
  norm_num

example : yawOf (updateYawInRotMat 1 (1 : M3 ℝ)) = 1 :=
  heading_read 1 (by linarith [Real.pi_gt_three]) (by linarith [Real.pi_gt_three]) 1 ⟨by simp, by simp, by simp⟩

end Ecl.Gsf
