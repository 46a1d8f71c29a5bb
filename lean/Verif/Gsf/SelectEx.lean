import Verif.Gsf.Select
import Verif.Gsf.More

/-!
# C150: a history that meets the hypotheses

A vehicle at rest, level; the yaw estimator aligns and starts; then the vehicle accelerates along its body x axis and GPS reports a velocity to the north.
The third model (heading 0) predicts exactly this velocity.
-/

namespace Ecl.Gsf

open Utils

/-- heading of model `i` on the grid -/
noncomputable def gridYaw (i : Fin 5) : ℝ := -3.14159265 + (2 * i.val + 1) * (3.14159265 / 5)

theorem gridYaw_range (i : Fin 5) : -Real.pi < gridYaw i ∧ gridYaw i < Real.pi := by
  have hi : (i.val : ℝ) ≤ 4 := by
    have : i.val ≤ 4 := by omega
    exact_mod_cast this
  have hi0 : (0 : ℝ) ≤ i.val := Nat.cast_nonneg _
  have hp := Real.pi_gt_d6
  unfold gridYaw
  constructor <;> nlinarith

/-- level attitude with heading `psi` -/
noncomputable def levelR (psi : ℝ) : M3 ℝ := !![Real.cos psi, -Real.sin psi, 0; Real.sin psi, Real.cos psi, 0; 0, 0, 1]

@[local simp] theorem vec2 (a b c : ℝ) : (![a, b, c] : V3 ℝ) 2 = c := rfl

theorem tiltMat_level : tiltMat ![0, 0, -0.0980665] = (levelR 0 : M3 ℝ) := by
  have h1 : norm3 ![0, 0, -0.0980665] = 0.0980665 := by
    unfold norm3 nsq
    rw [Real.sqrt_eq_iff_mul_self_eq_of_pos (by norm_num)]
    norm_num [Matrix.cons_val]
  funext i j
  unfold tiltMat levelR
  rw [h1]
  fin_cases i <;> fin_cases j <;> norm_num [norm3, nsq, cross, Matrix.cons_val]

theorem updateYaw_level (psi : ℝ) : updateYawInRotMat psi (levelR 0) = levelR psi := by
  unfold updateYawInRotMat
  rw [if_neg (by unfold shouldUse321 levelR; simp)]
  unfold updateEuler312YawInRotMat taitBryan312ToRotMat levelR
  have : atan2 0 1 = 0 := by unfold atan2; simp [Complex.arg_eq_zero_iff]
  funext i j
  fin_cases i <;> fin_cases j <;> simp [this]

theorem yawOf_level (psi : ℝ) (h : -Real.pi < psi ∧ psi < Real.pi) : yawOf (levelR psi) = psi := by
  unfold yawOf
  rw [if_neg (by unfold shouldUse321 levelR; simp)]
  unfold getEuler312Yaw levelR
  have := atan2_polar (r := 1) one_pos ⟨h.1, h.2.le⟩
  simpa using this

theorem levelR_rows (psi : ℝ) (i : Fin 3) : nsq (levelR psi i) = 1 := by
  have := Real.sin_sq_add_cos_sq psi
  unfold nsq levelR
  fin_cases i <;> simp <;> nlinarith

/-- alignment, first velocity, start -/
noncomputable def exStart : List Call := [.update (sample 0 true), .setVelocity (fun _ => 0) 0, .update (sample 0 true)]

/-- one sample with a specific force of 10 m/s² forward -/
noncomputable def exPush : In := ⟨fun _ => 0, ![0.1, 0, -0.0980665], 0.01, 0.01, true, 0, fun _ => 0⟩

theorem exStart_state :
    (run exStart).started = true ∧ (run exStart).tilt = true ∧ (∀ i, (run exStart).w i = 1 / 5) ∧ (∀ i, ((run exStart).m i).R = levelR (gridYaw i)) ∧
    (∀ i j, ((run exStart).m i).bias j = 0) ∧ (∀ i, ((run exStart).m i).X = ![0, 0, gridYaw i]) ∧
    (∀ i, ((run exStart).m i).P = ![![0, 0, 0], ![0, 0, 0], ![0, 0, (3.14159265 / 5) ^ 2]]) ∧
    (run exStart).acc = ![0, 0, -0.38834334] := by
  have h0 : filtAcc (sample 0 true) fresh.acc = ![0, 0, -0.196133] := by
    funext i
    unfold filtAcc accel sample fresh
    fin_cases i <;> norm_num [Matrix.cons_val]
  have h1 : run [.update (sample 0 true)] = { alignTilt (sample 0 true) (initBank { fresh with acc := ![0, 0, -0.196133] }) with tilt := true } := by
    show update (sample 0 true) fresh = _
    have e : update (sample 0 true) fresh = tryAlign (sample 0 true) { fresh with acc := filtAcc (sample 0 true) fresh.acc } := by
      unfold update
      exact if_pos rfl
    rw [e, h0]
    unfold tryAlign
    rw [if_pos]
    have hn : nsq (accel (sample 0 true)) = 9.80665 * 9.80665 := by
      unfold nsq accel sample
      norm_num [Matrix.cons_val]
    rw [hn]
    unfold sq
    constructor <;> norm_num
  have h2 : run [.update (sample 0 true), .setVelocity (fun _ => 0) 0] = setVelocity (fun _ => 0) 0 (run [.update (sample 0 true)]) := rfl
  have hfil : filtAcc (sample 0 true) ![0, 0, -0.196133] = ![0, 0, -0.38834334] := by
    funext i
    unfold filtAcc accel sample
    fin_cases i <;> norm_num [Matrix.cons_val]
  have h3 : run exStart = update (sample 0 true) (run [.update (sample 0 true), .setVelocity (fun _ => 0) 0]) := rfl
  have hR : ∀ i, ((run [.update (sample 0 true)]).m i).R = levelR 0 := by
    intro i
    rw [h1]
    exact tiltMat_level
  have hb : ∀ i j, ((run [.update (sample 0 true)]).m i).bias j = 0 := by
    intro i j
    rw [h1]
    rfl
  have hkeep : ∀ i, ((predictEKF (sample 0 true) ![0, 0, -0.38834334] false ((run [.update (sample 0 true)]).m i))).R = levelR 0 := by
    intro i
    have := (rest_keeps_attitude (sample 0 true) ![0, 0, -0.38834334] ((run [.update (sample 0 true)]).m i) (fun k => by rw [hR]; exact levelR_rows 0 k)
      (fun k => by rw [hb]; norm_num) (fun k => by rw [hb]; simp [sample]) le_rfl 0.38834334 (fun k => by
        rw [hR]; unfold levelR; fin_cases k <;> simp)).1
    rw [hR] at this
    exact this
  have hst : (run [.update (sample 0 true)]).started = false ∧ (run [.update (sample 0 true)]).tilt = true ∧
      (run [.update (sample 0 true)]).acc = ![0, 0, -0.196133] := by rw [h1]; exact ⟨rfl, rfl, rfl⟩
  have h4 : run exStart = { composite (start (sample 0 true) { run [.update (sample 0 true), .setVelocity (fun _ => 0) 0] with
      acc := ![0, 0, -0.38834334]
      m := fun i => predictEKF (sample 0 true) ![0, 0, -0.38834334] false ((run [.update (sample 0 true)]).m i) }) with velUpd := false } := by
    rw [h3, h2, update_start _ (setVelocity (fun _ => 0) 0 (run [.update (sample 0 true)])) hst.2.1 rfl rfl hst.1]
    unfold predictedBank
    have e1 : (setVelocity (fun _ => 0) 0 (run [.update (sample 0 true)])).acc = ![0, 0, -0.196133] := hst.2.2
    have e2 : (setVelocity (fun _ => 0) 0 (run [.update (sample 0 true)])).started = false := hst.1
    rw [e1, e2, hfil]
    rfl
  rw [h4]
  refine ⟨rfl, hst.2.1, fun i => rfl, fun i => ?_, fun i j => rfl, fun i => ?_, fun i => ?_, rfl⟩
  · show updateYawInRotMat (wrapPi _) (predictEKF (sample 0 true) ![0, 0, -0.38834334] false ((run [.update (sample 0 true)]).m i)).R = _
    rw [hkeep, updateYaw_level]
    have e : ∀ v : ℝ, v = gridYaw i → wrapPi v = gridYaw i := fun v hv => by
      rw [hv, wrapPi_of_mem ⟨(gridYaw_range i).1.le, (gridYaw_range i).2⟩]
    congr 1
    apply e
    show -3.14159265 + 0.5 * (2 * 3.14159265 / 5) + (i.val : ℝ) * (2 * 3.14159265 / 5) = _
    unfold gridYaw; ring
  · show ![0, 0, -3.14159265 + 0.5 * (2 * 3.14159265 / 5) + (i.val : ℝ) * (2 * 3.14159265 / 5)] = _
    congr 3
    unfold gridYaw; ring
  · show ![![sq 0, 0, 0], ![0, sq 0, 0], ![0, 0, sq (0.5 * (2 * 3.14159265 / 5))]] = _
    have e1 : sq (0 : ℝ) = 0 := by unfold sq; norm_num
    have e2 : sq (0.5 * (2 * 3.14159265 / 5) : ℝ) = (3.14159265 / 5) ^ 2 := by unfold sq; ring
    rw [e1, e2]

theorem accelGain_small {n : ℝ} (h : n ≤ 1) : accelGain 0 n = 0 := by
  unfold accelGain
  rw [if_neg (by rintro ⟨h, -⟩; norm_num at h)]
  have hd : |(n - 9.80665) / 9.80665| = (9.80665 - n) / 9.80665 := by
    rw [abs_of_nonpos (div_nonpos_of_nonpos_of_nonneg (by linarith) (by norm_num))]
    ring
  dsimp only
  rw [hd]
  have h1 : (1 : ℝ) ≤ 2 * ((9.80665 - n) / 9.80665) := by
    rw [mul_div_assoc', le_div_iff₀ (by norm_num)]
    linarith
  have h2 : mmin (2 * ((9.80665 - n) / 9.80665)) 1 = (1 : ℝ) := by
    unfold mmin
    split_ifs with h
    · exact absurd h1 (not_le.2 h)
    · rfl
  rw [h2]
  unfold sq
  norm_num

/-- the measured velocity: north, as predicted by the model with heading 0 -/
noncomputable def exVel : Fin 2 → ℝ := ![0.1, 0]

noncomputable def exK : ℝ := (3.14159265 / 5) ^ 2 * 0.01

/-- predicted models: velocity along the heading, uncertainty across it -/
theorem ex_predicted (i : Fin 5) :
    let m := predictedBank exPush (run (exStart ++ [.setVelocity exVel 0])) i
    m.X = ![0.1 * Real.cos (gridYaw i), 0.1 * Real.sin (gridYaw i), gridYaw i] ∧
    m.P 0 0 = 0.0004 + exK * Real.sin (gridYaw i) ^ 2 ∧ m.P 1 1 = 0.0004 + exK * Real.cos (gridYaw i) ^ 2 ∧
    m.P 0 1 = -(exK * Real.sin (gridYaw i) * Real.cos (gridYaw i)) := by
  obtain ⟨hs, ht, hw, hR, hb, hX, hP, hacc⟩ := exStart_state
  have hrun : run (exStart ++ [.setVelocity exVel 0]) = setVelocity exVel 0 (run exStart) := run_snoc _ _
  intro m
  have hm : m = predictEKF exPush (filtAcc exPush (run exStart).acc) true ((run exStart).m i) := by
    show predictedBank exPush (run (exStart ++ [.setVelocity exVel 0])) i = _
    rw [hrun]
    unfold predictedBank
    rw [show (setVelocity exVel 0 (run exStart)).started = true from hs]
    rfl
  have hfa : filtAcc exPush (run exStart).acc = ![0.2, 0, -0.5767094732] := by
    rw [hacc]
    funext j
    unfold filtAcc accel exPush
    fin_cases j <;> norm_num [Matrix.cons_val]
  have hn : norm3 ![0.2, 0, -0.5767094732] ≤ 1 := by
    unfold norm3 nsq
    rw [← Real.sqrt_one]
    refine Real.sqrt_le_sqrt ?_
    norm_num
  have hT : ∀ q : Mdl, tiltCorr exPush ![0.2, 0, -0.5767094732] q = fun _ => 0 := by
    intro q
    unfold tiltCorr
    have : accelGain exPush.tas (norm3 ![0.2, 0, -0.5767094732]) = 0 := accelGain_small hn
    rw [this]
    simp
  have hB : newBias exPush ![0.2, 0, -0.5767094732] ((run exStart).m i) = fun _ => 0 := by
    unfold newBias
    rw [hT]
    split
    · funext j
      rw [hb]
      show constrain (0 - 0 * (0.04 * exPush.dAngDt)) (-0.05) 0.05 = 0
      rw [zero_mul, sub_zero, constrain_eq (by norm_num), min_eq_left (by norm_num), max_eq_right (by norm_num)]
    · funext j; exact hb i j
  have hA : ahrsPredict exPush ![0.2, 0, -0.5767094732] ((run exStart).m i) = { (run exStart).m i with
      bias := fun _ => 0
      R := levelR (gridYaw i) } := by
    unfold ahrsPredict
    rw [hB, hT]
    have : (fun j => exPush.dAng j + ((0 : ℝ) - 0) * exPush.dAngDt) = fun _ => 0 := by
      funext j; unfold exPush; simp
    simp only [this]
    rw [predict_still _ (fun k => by rw [hR]; exact levelR_rows _ k), hR]
  have hm2 : m = predictX exPush { (run exStart).m i with
      bias := fun _ => 0
      R := levelR (gridYaw i) } := by
    rw [hm, hfa]
    unfold predictEKF
    rw [hA, if_neg (by decide)]
  have hsc := Real.sin_sq_add_cos_sq (gridYaw i)
  have hdv0 : dvNed exPush (levelR (gridYaw i)) 0 = 0.1 * Real.cos (gridYaw i) := by
    unfold dvNed levelR exPush
    simp
    ring
  have hdv1 : dvNed exPush (levelR (gridYaw i)) 1 = 0.1 * Real.sin (gridYaw i) := by
    unfold dvNed levelR exPush
    simp
    ring
  have hx : 0.1 * Real.cos (gridYaw i) * Real.cos (gridYaw i) + 0.1 * Real.sin (gridYaw i) * Real.sin (gridYaw i) = 0.1 := by nlinarith
  have hy : -(0.1 * Real.cos (gridYaw i)) * Real.sin (gridYaw i) + 0.1 * Real.sin (gridYaw i) * Real.cos (gridYaw i) = 0 := by ring
  have hPm : m.P = floorP (predictP ![![0, 0, 0], ![0, 0, 0], ![0, 0, (3.14159265 / 5) ^ 2]] (gridYaw i) 0.1 0 (sq (2 * 0.01)) (sq (0.1 * 0.01))) := by
    rw [hm2]
    unfold predictX
    simp only
    rw [yawOf_level _ (gridYaw_range i), hdv0, hdv1, hx, hy, hP]
    rfl
  have hk0 : 0 ≤ exK := by unfold exK; positivity
  refine ⟨?_, ?_, ?_, ?_⟩
  · rw [hm2]
    unfold predictX
    simp only
    rw [yawOf_level _ (gridYaw_range i), hdv0, hdv1, hX]
    simp
  · rw [hPm]
    unfold floorP
    rw [if_pos rfl]
    have : predictP ![![0, 0, 0], ![0, 0, 0], ![0, 0, (3.14159265 / 5) ^ 2]] (gridYaw i) 0.1 0 (sq (2 * 0.01)) (sq (0.1 * 0.01)) 0 0 =
        0.0004 + exK * Real.sin (gridYaw i) ^ 2 := by
      unfold predictP exK
      simp [powf, powLoop, sq]
      nlinarith
    rw [this, max_eq_left]
    have := mul_nonneg hk0 (sq_nonneg (Real.sin (gridYaw i)))
    norm_num
    linarith
  · rw [hPm]
    unfold floorP
    rw [if_pos rfl]
    have : predictP ![![0, 0, 0], ![0, 0, 0], ![0, 0, (3.14159265 / 5) ^ 2]] (gridYaw i) 0.1 0 (sq (2 * 0.01)) (sq (0.1 * 0.01)) 1 1 =
        0.0004 + exK * Real.cos (gridYaw i) ^ 2 := by
      unfold predictP exK
      simp [powf, powLoop, sq]
      nlinarith
    rw [this, max_eq_left]
    have := mul_nonneg hk0 (sq_nonneg (Real.cos (gridYaw i)))
    norm_num
    linarith
  · rw [hPm]
    unfold floorP
    rw [if_neg (by decide)]
    unfold predictP exK
    simp [powf, powLoop, sq]
    ring

theorem ex_det (i : Fin 5) : detS (predictedBank exPush (run (exStart ++ [.setVelocity exVel 0])) i).P (obsVar 0) = 0.2504 * (0.2504 + exK) := by
  obtain ⟨-, h0, h1, h2⟩ := ex_predicted i
  have hr : obsVar 0 = 0.25 := by
    unfold obsVar sq
    norm_num
  rw [detS_eq, h0, h1, h2, hr]
  have hsc := Real.sin_sq_add_cos_sq (gridYaw i)
  have : Real.sin (gridYaw i) ^ 2 = 1 - Real.cos (gridYaw i) ^ 2 := by linarith
  rw [neg_sq, mul_pow, mul_pow, this]
  ring

/-- mismatch of model `i` -/
noncomputable def exChi (i : Fin 5) : ℝ :=
  (0.2504 * ((0.1 * Real.cos (gridYaw i) - 0.1) ^ 2 + (0.1 * Real.sin (gridYaw i)) ^ 2) +
    exK * (Real.cos (gridYaw i) * (0.1 * Real.cos (gridYaw i) - 0.1) + Real.sin (gridYaw i) * (0.1 * Real.sin (gridYaw i))) ^ 2) /
      (0.2504 * (0.2504 + exK))

theorem ex_likelihood (i : Fin 5) : Spec.likelihood exPush (run (exStart ++ [.setVelocity exVel 0])) i =
    0.159154943 * √(1 / (0.2504 * (0.2504 + exK))) * Real.exp (-0.5 * exChi i) := by
  have hs : (run (exStart ++ [.setVelocity exVel 0])).started = true := by rw [run_snoc]; exact exStart_state.1
  have hinv := run_inv (exStart ++ [.setVelocity exVel 0])
  have hok := predictEKF_ok exPush (filtAcc exPush (run (exStart ++ [.setVelocity exVel 0])).acc) (run (exStart ++ [.setVelocity exVel 0])).started
    ((run (exStart ++ [.setVelocity exVel 0])).m i) (hinv.ok (hinv.started hs) i)
  have hpsd : Cov.Spec.PSD (predictedBank exPush (run (exStart ++ [.setVelocity exVel 0])) i).P := hok.psd
  have hv : (run (exStart ++ [.setVelocity exVel 0])).vel = exVel ∧ (run (exStart ++ [.setVelocity exVel 0])).velAcc = 0 := by
    rw [run_snoc]; exact ⟨rfl, rfl⟩
  obtain ⟨hX, h0, h1, h2⟩ := ex_predicted i
  have hdet := ex_det i
  unfold Spec.likelihood fusedBank
  rw [hv.1, hv.2, updateEKF_good exVel 0 _ hpsd]
  generalize predictedBank exPush (run (exStart ++ [.setVelocity exVel 0])) i = m at *
  have hr : obsVar 0 = 0.25 := by
    unfold obsVar sq
    norm_num
  show 0.159154943 * √((updGen m.P (obsVar 0)).2.2.2) * Real.exp (-0.5 * testRatio (mid exVel 0 m)) = _
  rw [updGen_sdet, hdet]
  congr 2
  congr 1
  show (m.X 0 - exVel 0) * ((updGen m.P (obsVar 0)).1 0 0 * (m.X 0 - exVel 0) + (updGen m.P (obsVar 0)).1 0 1 * (m.X 1 - exVel 1)) +
    (m.X 1 - exVel 1) * ((updGen m.P (obsVar 0)).1 1 0 * (m.X 0 - exVel 0) + (updGen m.P (obsVar 0)).1 1 1 * (m.X 1 - exVel 1)) = _
  have hS : (updGen m.P (obsVar 0)).1 0 0 = 1 / detS m.P (obsVar 0) * (m.P 1 1 + obsVar 0) ∧ (updGen m.P (obsVar 0)).1 0 1 = -(m.P 0 1 * (1 / detS m.P (obsVar 0))) ∧
      (updGen m.P (obsVar 0)).1 1 0 = -(m.P 0 1 * (1 / detS m.P (obsVar 0))) ∧ (updGen m.P (obsVar 0)).1 1 1 = 1 / detS m.P (obsVar 0) * (m.P 0 0 + obsVar 0) :=
    ⟨rfl, rfl, rfl, rfl⟩
  have hx0 : m.X 0 - exVel 0 = 0.1 * Real.cos (gridYaw i) - 0.1 := by rw [hX]; rfl
  have hx1 : m.X 1 - exVel 1 = 0.1 * Real.sin (gridYaw i) := by rw [hX]; exact sub_zero _
  rw [hS.1, hS.2.1, hS.2.2.1, hS.2.2.2, hdet, hx0, hx1, h0, h1, h2, hr]
  unfold exChi
  ring

theorem gridYaw_two : gridYaw 2 = 0 := by
  unfold gridYaw
  norm_num

/-- **C150 (the hypotheses can be met).** The estimator has started with equal weights, and the next fusion favours the model with heading 0. -/
theorem selection_example : ∃ ρ : ℝ, 0 ≤ ρ ∧ ρ < 1 ∧ (run exStart).started = true ∧ (∀ j, j ≠ 2 → (run exStart).w j ≤ 1 * (run exStart).w 2) ∧
    Spec.Favours 2 ρ 0.5 exStart [.setVelocity exVel 0, .update exPush] ∧ Spec.fusions exStart [.setVelocity exVel 0, .update exPush] = 1 ∧
    (0.00001 * (1 + 4 * 1) : ℝ) ≤ 0.5 := by
  have hk0 : 0 < exK := by unfold exK; positivity
  have hk1 : exK ≤ 0.004 := by unfold exK; norm_num
  have hchi2 : exChi 2 = 0 := by
    unfold exChi
    rw [gridYaw_two, Real.cos_zero, Real.sin_zero]
    norm_num
  have hchi : ∀ j : Fin 5, j ≠ 2 → 0 < exChi j := by
    intro j hj
    unfold exChi
    refine div_pos ?_ (by positivity)
    have hc : Real.cos (gridYaw j) ≠ 1 := by
      intro h
      rw [Real.cos_eq_one_iff_of_lt_of_lt (by linarith [(gridYaw_range j).1, Real.pi_pos]) (by linarith [(gridYaw_range j).2, Real.pi_pos])] at h
      apply hj
      have hz : gridYaw j = gridYaw 2 := by rw [h, gridYaw_two]
      unfold gridYaw at hz
      have : (j.val : ℝ) = ((2 : Fin 5).val : ℝ) := by linarith
      exact Fin.ext (by exact_mod_cast this)
    have h1 : 0 < (0.1 * Real.cos (gridYaw j) - 0.1) ^ 2 := by
      have : 0.1 * Real.cos (gridYaw j) - 0.1 ≠ 0 := by
        intro h; apply hc; linarith
      positivity
    have h2 := sq_nonneg (0.1 * Real.sin (gridYaw j))
    have h3 := mul_nonneg hk0.le (sq_nonneg (Real.cos (gridYaw j) * (0.1 * Real.cos (gridYaw j) - 0.1) + Real.sin (gridYaw j) * (0.1 * Real.sin (gridYaw j))))
    linarith
  obtain ⟨b, hb, hmax⟩ := Finset.exists_max_image (Finset.univ.erase (2 : Fin 5)) (fun j => Real.exp (-0.5 * exChi j)) ⟨0, by decide⟩
  refine ⟨Real.exp (-0.5 * exChi b), (Real.exp_pos _).le, ?_, exStart_state.1, ?_, ?_, ?_, by norm_num⟩
  · rw [Real.exp_lt_one_iff]
    have := hchi b (Finset.ne_of_mem_erase hb)
    linarith
  · intro j _
    rw [exStart_state.2.2.1, exStart_state.2.2.1]
    norm_num
  · intro pre x post e
    have hpre : pre = [.setVelocity exVel 0] ∧ x = exPush := by
      match pre, e with
      | [], e => cases e
      | [c], e =>
        simp only [List.cons_append, List.nil_append, List.cons.injEq, Call.update.injEq] at e
        exact ⟨by rw [← e.1], e.2.1.symm⟩
      | c :: c' :: t, e =>
        exfalso
        have := congrArg List.length e
        simp at this
    rw [hpre.1, hpre.2]
    refine ⟨rfl, fun _ => ⟨?_, fun j hj => ?_⟩⟩
    · rw [ex_likelihood, hchi2, mul_zero, Real.exp_zero, mul_one]
      have h1 : (3.9 : ℝ) ≤ √(1 / (0.2504 * (0.2504 + exK))) := by
        refine Real.le_sqrt_of_sq_le ?_
        rw [le_div_iff₀ (by positivity)]
        nlinarith
      nlinarith
    · rw [ex_likelihood, ex_likelihood, hchi2, mul_zero, Real.exp_zero, mul_one, mul_comm]
      exact mul_le_mul_of_nonneg_right (hmax j (Finset.mem_erase.2 ⟨hj, Finset.mem_univ _⟩)) (by positivity)
  · unfold Spec.fusions Spec.fusions Spec.fusions
    rw [if_neg (by rintro ⟨⟨x, hx⟩, -⟩; cases hx), if_pos ⟨⟨exPush, rfl⟩, by rw [run_snoc]; rfl⟩]

end Ecl.Gsf
