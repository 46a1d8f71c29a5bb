import Verif.Fusion.GenFlowX
import Verif.Fusion.GenFlowY
import Verif.Fusion.Airspeed

/-!
# Optical flow fusion (C31, C83, C84) — EKF/optflow_fusion.cpp
-/

set_option linter.unusedVariables false

namespace Ecl.Fusion

open Ecl.Cov
open scoped Matrix

noncomputable section

/-- cross product (`operator%` of the matrix library) -/
def cross3 (a b : V3 ℝ) : V3 ℝ := ![a 1 * b 2 - a 2 * b 1, a 2 * b 0 - a 0 * b 2, a 0 * b 1 - a 1 * b 0]

/-- inputs of `fuseOptFlow` -/
structure FlowIn where
  /-- `_params.rng_gnd_clearance` -/
  gndClearance : ℝ
  flowPosBody : V3 ℝ
  imuPosBody : V3 ℝ
  /-- `_flow_sample_delayed.gyro_xyz`, `dt`, `quality` -/
  gyro : V3 ℝ
  dt : ℝ
  quality : ℕ
  /-- `_flow_compensated_XY_rad` -/
  comp : Fin 2 → ℝ
  /-- `_flow_gyro_bias` -/
  gyroBias : V3 ℝ
  /-- `_R_to_earth` -/
  rToEarth : M3 ℝ
  /-- `_terrain_vpos` -/
  terrain : ℝ
  gate : ℝ
  noise : ℝ
  noiseQualMin : ℝ
  /-- `_params.flow_qual_min` -/
  qualMin : ℤ
  /-- `_time_last_imu` -/
  now : UInt64
  fx : FixIn ℝ
  ini : InitIn

/-- state of `fuseOptFlow` -/
structure FlowSt where
  f : Filt
  /-- `_fault_status.flags.bad_optflow_X/Y` -/
  bad : Fin 2 → Bool
  /-- `_innov_check_fail_status` bits 10 and 11 -/
  reject : Fin 2 → Bool
  innov : Fin 2 → ℝ
  innovVar : Fin 2 → ℝ
  /-- `_optflow_test_ratio` -/
  testRatio : ℝ
  /-- `_time_last_of_fuse` -/
  lastFuse : UInt64
  /-- `_flow_vel_body`, `_flow_vel_ne` (logging) -/
  velBody : Fin 2 → ℝ
  velNE : Fin 2 → ℝ

/-- `calcOptFlowMeasVar`, EKF/optflow_fusion.cpp:374-395 -/
def flowMeasVar (x : FlowIn) : ℝ :=
  let best := max x.noise (5 / 100)
  let worst := max x.noiseQualMin (5 / 100)
  let w : ℝ := 255 - (x.qualMin : ℝ)
  let w := if w ≥ 1 then constrain (((x.quality : ℝ) - (x.qualMin : ℝ)) / w) 0 1 else 0
  sq (best * w + worst * (1 - w))

/-- one element of a pair replaced -/
def set2 {α : Type*} (v : Fin 2 → α) (a : Fin 2) (y : α) : Fin 2 → α := fun b => if b = a then y else v b

/-- fusion of one axis, EKF/optflow_fusion.cpp:313-327 -/
def flowAxis (x : FlowIn) (a : Fin 2) (k h : Vec ℝ) (st : FlowSt) : FlowSt :=
  let r := update x.fx k h (st.innov a) st.f
  let st := { st with f := r.1, bad := set2 st.bad a (!r.2) }
  if r.2 then { st with lastFuse := x.now } else st

/-- `range`, EKF/optflow_fusion.cpp:52,71-98 -/
def flowRange (x : FlowIn) (s : Vec ℝ) : ℝ :=
  let gnd := max x.gndClearance (1 / 10)
  let off : V3 ℝ := fun i => x.flowPosBody i - x.imuPosBody i
  let h := x.terrain - s 9
  let h := h - (x.rToEarth *ᵥ off) 2
  let h := max h gnd
  h / Utils.quatToInverseRotMat (attQuat s) 2 2

/-- `vel_body`, EKF/optflow_fusion.cpp:71-81 -/
def flowVelBody (x : FlowIn) (s : Vec ℝ) : V3 ℝ :=
  let off : V3 ℝ := fun i => x.flowPosBody i - x.imuPosBody i
  let rel := cross3 (fun i => -x.gyro i / x.dt) off
  Utils.quatToInverseRotMat (attQuat s) *ᵥ (fun i => ![s 4, s 5, s 6] i + (x.rToEarth *ᵥ rel) i)

/-- `opt_flow_rate`, EKF/optflow_fusion.cpp:103 -/
def flowRate (x : FlowIn) : Fin 2 → ℝ := fun a => x.comp a / x.dt + x.gyroBias a.castSucc

/-- `fuseOptFlow`, EKF/optflow_fusion.cpp:50-329 -/
def fuseOptFlow (x : FlowIn) (st : FlowSt) : FlowSt :=
  let s := st.f.s
  let P := st.f.P
  let R := flowMeasVar x
  let range := flowRange x s
  let rate := flowRate x
  let vb := flowVelBody x s
  let velBody : Fin 2 → ℝ := ![-rate 1 * range, rate 0 * range]
  let ne := x.rToEarth *ᵥ ![velBody 0, velBody 1, 0]
  let st := { st with velBody := velBody, velNE := ![ne 0, ne 1], innov := ![vb 1 / range - rate 0, -vb 0 / range - rate 1] }
  let S0 := FlowX.S P s R range 0
  let st := { st with innovVar := set2 st.innovVar 0 S0 }
  if S0 < R then { st with f := initCov x.ini st.f }
  else
    let S1 := FlowY.S P s R range 0
    let st := { st with innovVar := set2 st.innovVar 1 S1 }
    if S1 < R then { st with f := initCov x.ini st.f }
    else
      let t0 := sq (st.innov 0) / (sq (max x.gate 1) * S0)
      let t1 := sq (st.innov 1) / (sq (max x.gate 1) * S1)
      let st := { st with testRatio := max t0 t1, reject := ![decide (t0 > 1), decide (t1 > 1)] }
      if t0 > 1 ∨ t1 > 1 then st
      else
        let st := flowAxis x 0 (FlowX.gain P s R range 0) (sparse (FlowX.hList P s R range 0)) st
        flowAxis x 1 (FlowY.gain st.f.P P s R range 0) (sparse (FlowY.hList P s R range 0)) st

/-! ### specification -/

/-- body-frame velocity of the vehicle -/
def Spec.bodyVel (s : Vec ℝ) : V3 ℝ := (attQuat s).dcmᵀ *ᵥ ![s 4, s 5, s 6]

/-- line-of-sight rates at range `r`: lateral velocity over range about X, minus forward velocity over range about Y -/
def Spec.flowPred (r : ℝ) (a : Fin 2) (s : Vec ℝ) : ℝ := if a = 0 then Spec.bodyVel s 1 / r else -Spec.bodyVel s 0 / r

/-- weight of the best-quality noise: 0 at (or below) the minimum quality, 1 at 255, linear between -/
def Spec.flowWeight (x : FlowIn) : ℝ :=
  if x.qualMin ≤ 254 then max 0 (min (((x.quality : ℝ) - x.qualMin) / (255 - x.qualMin)) 1) else 0

/-- height of the camera above the terrain, at least the ground clearance, over the cosine of the tilt -/
def Spec.flowRange (x : FlowIn) (s : Vec ℝ) : ℝ :=
  max (x.terrain - (s 9 + (x.rToEarth *ᵥ (x.flowPosBody - x.imuPosBody)) 2)) (max x.gndClearance (1 / 10)) / (attQuat s).dcm 2 2

/-- innovation: line-of-sight rate of the camera (vehicle velocity plus lever-arm velocity) minus the measured, bias-corrected rate;
the flow gyro has the opposite sign of the body rate -/
def Spec.flowInnov (x : FlowIn) (s : Vec ℝ) (a : Fin 2) : ℝ :=
  let lever := x.rToEarth *ᵥ cross3 (-(1 / x.dt) • x.gyro) (x.flowPosBody - x.imuPosBody)
  let v := (attQuat s).dcmᵀ *ᵥ (![s 4, s 5, s 6] + lever)
  (if a = 0 then v 1 else -v 0) / Spec.flowRange x s - (x.comp a / x.dt + x.gyroBias a.castSucc)

end

theorem fin2_cases (a : Fin 2) : a = 0 ∨ a = 1 := by revert a; decide

/-- **C83.** The flow measurement variance is the square of the linear interpolation between the noise at minimum quality and
the noise at full quality, both at least 0.05 rad/s. -/
theorem flow_variance (x : FlowIn) :
    flowMeasVar x = (Spec.flowWeight x * max x.noise (1 / 20) + (1 - Spec.flowWeight x) * max x.noiseQualMin (1 / 20)) ^ 2 ∧
    (1 / 20) ^ 2 ≤ flowMeasVar x ∧
    (x.quality = 255 → x.qualMin ≤ 254 → flowMeasVar x = (max x.noise (1 / 20)) ^ 2) ∧
    ((x.quality : ℤ) ≤ x.qualMin → flowMeasVar x = (max x.noiseQualMin (1 / 20)) ^ 2) := by
  have hc : (255 - (x.qualMin : ℝ) ≥ 1) ↔ x.qualMin ≤ 254 := by
    constructor
    · intro h
      have : (x.qualMin : ℝ) ≤ 254 := by linarith
      exact_mod_cast this
    · intro h
      have : (x.qualMin : ℝ) ≤ 254 := by exact_mod_cast h
      linarith
  have hw : (if 255 - (x.qualMin : ℝ) ≥ 1 then constrain (((x.quality : ℝ) - (x.qualMin : ℝ)) / (255 - (x.qualMin : ℝ))) 0 1 else 0)
      = Spec.flowWeight x := by
    unfold Spec.flowWeight
    rw [constrain_eq (by norm_num)]
    by_cases h : x.qualMin ≤ 254
    · rw [if_pos h, if_pos (hc.mpr h)]
    · rw [if_neg h, if_neg (fun hh => h (hc.mp hh))]
  have h1 : flowMeasVar x = (Spec.flowWeight x * max x.noise (1 / 20) + (1 - Spec.flowWeight x) * max x.noiseQualMin (1 / 20)) ^ 2 := by
    unfold flowMeasVar
    simp only [hw]
    unfold sq
    rw [show (5 / 100 : ℝ) = 1 / 20 by norm_num]
    ring
  have hw0 : 0 ≤ Spec.flowWeight x := by unfold Spec.flowWeight; split <;> simp
  have hw1 : Spec.flowWeight x ≤ 1 := by unfold Spec.flowWeight; split <;> simp
  have b1 : (1 / 20 : ℝ) ≤ max x.noise (1 / 20) := le_max_right _ _
  have b2 : (1 / 20 : ℝ) ≤ max x.noiseQualMin (1 / 20) := le_max_right _ _
  refine ⟨h1, ?_, ?_, ?_⟩
  · rw [h1]
    refine pow_le_pow_left₀ (by norm_num) ?_ 2
    nlinarith
  · intro hq hm
    have : Spec.flowWeight x = 1 := by
      unfold Spec.flowWeight
      rw [if_pos hm, hq]
      have : (255 : ℝ) - x.qualMin ≠ 0 := by have := hc.mpr hm; linarith
      push_cast
      rw [div_self this]; norm_num
    rw [h1, this]; ring
  · intro hq
    have : Spec.flowWeight x = 0 := by
      unfold Spec.flowWeight
      split
      · rename_i hm
        have hd : 0 < (255 : ℝ) - x.qualMin := by have := hc.mpr hm; linarith
        have hq' : ((x.quality : ℤ) : ℝ) ≤ x.qualMin := by exact_mod_cast hq
        rw [Int.cast_natCast] at hq'
        have : ((x.quality : ℝ) - x.qualMin) / (255 - x.qualMin) ≤ 0 := div_nonpos_of_nonpos_of_nonneg (by linarith) hd.le
        rw [max_eq_left]
        exact le_trans (min_le_left _ _) this
      · rfl
    rw [h1, this]; ring

theorem bodyVel_0 (s : Vec ℝ) : Spec.bodyVel s 0 = (s 0 * s 0 + s 1 * s 1 - s 2 * s 2 - s 3 * s 3) * s 4
    + 2 * (s 1 * s 2 + s 0 * s 3) * s 5 + 2 * (s 1 * s 3 - s 0 * s 2) * s 6 := by
  simp [Spec.bodyVel, attQuat, Quat.dcm, Matrix.mulVec, dotProduct, Fin.sum_univ_three]

theorem bodyVel_1 (s : Vec ℝ) : Spec.bodyVel s 1 = 2 * (s 1 * s 2 - s 0 * s 3) * s 4
    + (s 0 * s 0 - s 1 * s 1 + s 2 * s 2 - s 3 * s 3) * s 5 + 2 * (s 0 * s 1 + s 2 * s 3) * s 6 := by
  simp [Spec.bodyVel, attQuat, Quat.dcm, Matrix.mulVec, dotProduct, Fin.sum_univ_three]

theorem flowX_gradient (s : Vec ℝ) (P : Mat ℝ) (R r : ℝ) : Spec.IsGradient (Spec.flowPred r 0) s (sparse (FlowX.hList P s R r 0)) := by
  intro d
  rw [sum_sparse_mul]
  simp only [Spec.flowPred, if_true, bodyVel_1]
  refine (hasDerivAt_of_cubic (b := (List.map (fun p => d p.1 * p.2) (FlowX.hList P s R r 0)).sum) fun t => ?_)
  simp only [FlowX.hList, List.map_cons, List.map_nil, List.sum_cons, List.sum_nil, FlowX.HK0, FlowX.HK1, FlowX.HK2, FlowX.HK3,
    FlowX.HK4, FlowX.HK5, FlowX.HK6, FlowX.HK7, FlowX.HK8, FlowX.HK9, FlowX.HK10, FlowX.HK11, FlowX.HK12, FlowX.HK13, FlowX.HK14,
    FlowX.HK15, FlowX.HK16, FlowX.HK17, FlowX.HK18, FlowX.HK19, FlowX.HK20, FlowX.HK21, FlowX.HK22, FlowX.HK23, FlowX.HK24,
    FlowX.HK25, FlowX.HK26, FlowX.HK27, FlowX.HK28, FlowX.HK29, FlowX.HK30, FlowX.HK31, FlowX.HK32, FlowX.HK33, FlowX.HK34,
    FlowX.HK35, FlowX.HK36, FlowX.HK37]
  ring

theorem flowY_gradient (s : Vec ℝ) (P : Mat ℝ) (R r : ℝ) : Spec.IsGradient (Spec.flowPred r 1) s (sparse (FlowY.hList P s R r 0)) := by
  intro d
  rw [sum_sparse_mul]
  simp only [Spec.flowPred, one_ne_zero, if_false, bodyVel_0]
  refine (hasDerivAt_of_cubic (b := (List.map (fun p => d p.1 * p.2) (FlowY.hList P s R r 0)).sum) fun t => ?_)
  simp only [FlowY.hList, List.map_cons, List.map_nil, List.sum_cons, List.sum_nil, FlowY.HK4, FlowY.HK5]
  simp only [FlowY.HK0, FlowY.HK1, FlowY.HK2, FlowY.HK3, FlowY.HK6, FlowY.HK7, FlowY.HK8, FlowY.HK9, FlowY.HK10, FlowY.HK11, FlowY.HK12, FlowY.HK13, FlowY.HK14, FlowY.HK15, FlowY.HK16, FlowY.HK17, FlowY.HK18, FlowY.HK19, FlowY.HK20, FlowY.HK21, FlowY.HK22, FlowY.HK23, FlowY.HK24, FlowY.HK25, FlowY.HK26, FlowY.HK27, FlowY.HK28, FlowY.HK29, FlowY.HK30, FlowY.HK31, FlowY.HK32, FlowY.HK33, FlowY.HK34, FlowY.HK35, FlowY.HK36, FlowY.HK37, FlowY.HK38, FlowY.HK39, FlowY.HK40, FlowY.HK41, FlowY.HK42, FlowY.HK43, FlowY.HK44, FlowY.HK45, FlowY.HK46, FlowY.HK47, FlowY.HK48, FlowY.HK49, FlowY.HK51, FlowY.HK52, FlowY.HK53, FlowY.HK54, FlowY.HK55, FlowY.HK56, FlowY.HK57, FlowY.HK58, FlowY.HK59, FlowY.HK60, FlowY.HK61, FlowY.HK62, FlowY.HK63, FlowY.HK64, FlowY.HK65, FlowY.HK66, FlowY.HK67, FlowY.HK68, FlowY.HK69, FlowY.HK70, FlowY.HK71, FlowY.HK72, FlowY.HK73, FlowY.HK74, FlowY.HK75, FlowY.HK76, FlowY.HK77, FlowY.HK78, FlowY.HK79]
  ring

theorem flowRange_eq (x : FlowIn) (s : Vec ℝ) : flowRange x s = Spec.flowRange x s := by
  have h22 : Utils.quatToInverseRotMat (attQuat s) 2 2 = (attQuat s).dcm 2 2 := by
    simp [Utils.quatToInverseRotMat, attQuat, Quat.dcm]
  unfold flowRange Spec.flowRange
  simp only [h22]
  congr 2
  rw [sub_sub]
  rfl

theorem invRot_eq (q : Quat ℝ) : Utils.quatToInverseRotMat q = q.dcmᵀ := by
  ext i j
  fin_cases i <;> fin_cases j <;> simp [Utils.quatToInverseRotMat, Quat.dcm] <;> ring

theorem flowInnov_eq (x : FlowIn) (s : Vec ℝ) :
    (![flowVelBody x s 1 / flowRange x s - flowRate x 0, -flowVelBody x s 0 / flowRange x s - flowRate x 1] : Fin 2 → ℝ) = Spec.flowInnov x s := by
  have hv : flowVelBody x s = (attQuat s).dcmᵀ *ᵥ (![s 4, s 5, s 6]
      + x.rToEarth *ᵥ cross3 (-(1 / x.dt) • x.gyro) (x.flowPosBody - x.imuPosBody)) := by
    unfold flowVelBody
    simp only [invRot_eq]
    congr 1
    funext i
    simp only [Pi.add_apply]
    congr 3
    congr 1
    funext j
    simp only [Pi.smul_apply, smul_eq_mul]
    ring
  funext a
  have ha : a = 0 ∨ a = 1 := fin2_cases a
  unfold Spec.flowInnov
  simp only [hv, flowRange_eq]
  rcases ha with rfl | rfl <;> rfl

/-- **C31.** Optical flow fusion.  There are rows `H 0`, `H 1`, the gradients of the line-of-sight rates at the current range, with
`S a = H a P (H a)ᵀ + R`; if a variance is below `R` the whole covariance is re-initialised and nothing is fused; if an
innovation is outside its gate the axis is flagged and nothing is fused; otherwise X is fused with gain `P Hᵀ / S`, then Y with
row and variance of the state before X, and a gain that takes the covariance before X for attitude and velocity but the one
after X for the other states. -/
theorem flow_fusion (x : FlowIn) (st : FlowSt) (hs : ∀ i j, st.f.P i j = st.f.P j i) :
    let R := flowMeasVar x
    let r := Spec.flowRange x st.f.s
    let e := Spec.flowInnov x st.f.s
    let vb : Fin 2 → ℝ := ![-(x.comp 1 / x.dt + x.gyroBias 1) * r, (x.comp 0 / x.dt + x.gyroBias 0) * r]
    let ne := x.rToEarth *ᵥ ![vb 0, vb 1, 0]
    ∃ H : Fin 2 → Vec ℝ, (∀ a, Spec.IsGradient (Spec.flowPred r a) st.f.s (H a)) ∧
      let S : Fin 2 → ℝ := fun a => Spec.innovVar st.f.P (H a) R
      let fail : Fin 2 → Prop := fun a => (max x.gate 1) ^ 2 * S a < e a ^ 2
      let st0 : FlowSt := { st with velBody := vb, velNE := ![ne 0, ne 1], innov := e }
      (S 0 < R → fuseOptFlow x st = { st0 with innovVar := ![S 0, st.innovVar 1], f := initCov x.ini st.f }) ∧
      (R ≤ S 0 → S 1 < R → fuseOptFlow x st = { st0 with innovVar := S, f := initCov x.ini st.f }) ∧
      (R ≤ S 0 → R ≤ S 1 → ∃ rej : Fin 2 → Bool, (∀ a, rej a = true ↔ fail a) ∧
        let st1 : FlowSt :=
          { st0 with innovVar := S, reject := rej,
                     testRatio := max (e 0 ^ 2 / ((max x.gate 1) ^ 2 * S 0)) (e 1 ^ 2 / ((max x.gate 1) ^ 2 * S 1)) }
        ((∃ a, fail a) → fuseOptFlow x st = st1) ∧
        ((∀ a, ¬ fail a) →
          let u0 := update x.fx (Spec.gain st.f.P (H 0) R (fun _ => True)) (H 0) (e 0) st.f
          let k1 : Vec ℝ := fun i => Spec.mulVec (if i.val ≤ 6 then st.f.P else u0.1.P) (H 1) i / S 1
          let u1 := update x.fx k1 (H 1) (e 1) u0.1
          fuseOptFlow x st =
            { st1 with f := u1.1, bad := ![!u0.2, !u1.2],
                       lastFuse := if u0.2 = true ∨ u1.2 = true then x.now else st.lastFuse })) := by
  intro R r e vb ne
  refine ⟨fun a => if a = 0 then sparse (FlowX.hList st.f.P st.f.s R r 0) else sparse (FlowY.hList st.f.P st.f.s R r 0), ?_, ?_⟩
  · intro a
    have ha : a = 0 ∨ a = 1 := fin2_cases a
    rcases ha with rfl | rfl
    · exact flowX_gradient _ _ _ _
    · exact flowY_gradient _ _ _ _
  intro S fail st0
  have e0 : FlowX.S st.f.P st.f.s R r 0 = S 0 := FlowX.S_eq _ _ _ _ _ hs
  have e1 : FlowY.S st.f.P st.f.s R r 0 = S 1 := FlowY.S_eq _ _ _ _ _ hs
  have hR0 : 0 < R := lt_of_lt_of_le (by norm_num) (flow_variance x).2.1
  have hg : ∀ y : ℝ, sq y = y ^ 2 := fun y => (pow_two y).symm
  have hs0 : ∀ v : Fin 2 → ℝ, set2 v 0 (S 0) = ![S 0, v 1] := by
    intro v; funext a
    have ha : a = 0 ∨ a = 1 := fin2_cases a
    rcases ha with rfl | rfl <;> rfl
  have hs1 : ∀ v : Fin 2 → ℝ, set2 ![S 0, v 1] 1 (S 1) = S := by
    intro v; funext a
    have ha : a = 0 ∨ a = 1 := fin2_cases a
    rcases ha with rfl | rfl <;> rfl
  have hin := flowInnov_eq x st.f.s
  have hvb : (![-flowRate x 1 * r, flowRate x 0 * r] : Fin 2 → ℝ) = vb := rfl
  rw [flowRange_eq] at hin
  unfold fuseOptFlow
  simp only [flowRange_eq]
  rw [show Spec.flowRange x st.f.s = r from rfl, show flowMeasVar x = R from rfl] at *
  simp only [hin, e0, e1, hs0, hs1, hvb]
  refine ⟨?_, ?_, ?_⟩
  · intro h; rw [if_pos h]
  · intro h h1
    rw [if_neg (not_lt.mpr h), if_pos h1]
  · intro h h1
    rw [if_neg (not_lt.mpr h), if_neg (not_lt.mpr h1)]
    have hp : ∀ a : Fin 2, 0 < (max x.gate 1) ^ 2 * S a := by
      intro a
      have : (1 : ℝ) ≤ max x.gate 1 := le_max_right _ _
      have h2 : 0 < (max x.gate 1) ^ 2 := by positivity
      have ha : a = 0 ∨ a = 1 := fin2_cases a
      rcases ha with rfl | rfl
      · exact mul_pos h2 (by linarith)
      · exact mul_pos h2 (by linarith)
    have hf : ∀ a, (e a ^ 2 / ((max x.gate 1) ^ 2 * S a) > 1 ↔ fail a) := by
      intro a; rw [gt_iff_lt, one_lt_div (hp a)]
    refine ⟨![decide (e 0 ^ 2 / ((max x.gate 1) ^ 2 * S 0) > 1), decide (e 1 ^ 2 / ((max x.gate 1) ^ 2 * S 1) > 1)], ?_, ?_, ?_⟩
    · intro a
      have ha : a = 0 ∨ a = 1 := fin2_cases a
      rcases ha with rfl | rfl
      · show decide _ = true ↔ _; rw [decide_eq_true_eq]; exact hf 0
      · show decide _ = true ↔ _; rw [decide_eq_true_eq]; exact hf 1
    · rintro ⟨a, ha⟩
      simp only [hg]
      rw [if_pos]
      have := (hf a).mpr ha
      have hc : a = 0 ∨ a = 1 := fin2_cases a
      rcases hc with rfl | rfl
      · exact Or.inl this
      · exact Or.inr this
    · intro hno
      simp only [hg]
      rw [if_neg]
      swap
      · rintro (h | h)
        · exact hno _ ((hf _).mp h)
        · exact hno _ ((hf _).mp h)
      have hk0 : FlowX.gain st.f.P st.f.s R r 0 = Spec.gain st.f.P (sparse (FlowX.hList st.f.P st.f.s R r 0)) R (fun _ => True) := by
        funext i; rw [FlowX.gain_eq _ _ _ _ _ hs]; rfl
      rw [hk0]
      have hk1 : ∀ Pr : Mat ℝ, (∀ i j, Pr i j = Pr j i) → FlowY.gain Pr st.f.P st.f.s R r 0 =
          fun i => Spec.mulVec (if i.val ≤ 6 then st.f.P else Pr) (sparse (FlowY.hList st.f.P st.f.s R r 0)) i / S 1 := by
        intro Pr hr; funext i; rw [FlowY.gain_eq _ _ _ _ _ _ hs hr, if_pos trivial]; rfl
      have hsym := update_sym x.fx (Spec.gain st.f.P (sparse (FlowX.hList st.f.P st.f.s R r 0)) R (fun _ => True))
        (sparse (FlowX.hList st.f.P st.f.s R r 0)) (e 0) st.f hs
      have hfl : ∀ (a : Fin 2) (k h : Vec ℝ) (t : FlowSt), flowAxis x a k h t =
          { t with f := (update x.fx k h (t.innov a) t.f).1, bad := set2 t.bad a (!(update x.fx k h (t.innov a) t.f).2),
                   lastFuse := if (update x.fx k h (t.innov a) t.f).2 then x.now else t.lastFuse } := by
        intro a k h t
        unfold flowAxis
        simp only
        split <;> rfl
      simp only [hfl]
      rw [hk1 _ hsym]
      simp only [if_true, one_ne_zero, if_false]
      generalize update x.fx _ (sparse (FlowX.hList st.f.P st.f.s R r 0)) (e 0) st.f = u0
      generalize update x.fx _ (sparse (FlowY.hList st.f.P st.f.s R r 0)) (e 1) u0.1 = u1
      have hb : set2 (set2 st.bad 0 (!u0.2)) 1 (!u1.2) = ![!u0.2, !u1.2] := by
        funext a
        have ha : a = 0 ∨ a = 1 := fin2_cases a
        rcases ha with rfl | rfl <;> rfl
      rw [hb]
      congr 1
      cases u0.2 <;> cases u1.2 <;> rfl

/-- hypotheses met: identity covariance -/
example : ∃ st : FlowSt, (∀ i j, st.f.P i j = st.f.P j i) ∧ Spec.PSD st.f.P ∧ (attQuat st.f.s).normSq = 1 :=
  ⟨⟨exFilt, fun _ => false, fun _ => false, 0, 0, 0, 0, 0, 0⟩, idCov_psd.symm, idCov_psd, exState_unit⟩

end Ecl.Fusion
