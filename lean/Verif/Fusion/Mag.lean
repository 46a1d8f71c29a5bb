import Verif.Fusion.GenMagX
import Verif.Fusion.GenMagY
import Verif.Fusion.GenMagZ
import Verif.Fusion.GenMagIV
import Verif.Fusion.Declination

/-!
# Magnetometer fusion (C28) — EKF/mag_fusion.cpp:48-418
-/

set_option linter.unusedVariables false

namespace Ecl.Fusion

open Ecl.Cov
open scoped Matrix

noncomputable section

/-- inputs of `fuseMag` -/
structure MagIn where
  /-- `_params.mag_noise` -/
  noise : ℝ
  gate : ℝ
  /-- `_mag_sample_delayed.mag` -/
  mag : V3 ℝ
  /-- `_control_status.flags.synthetic_mag_z` -/
  synthZ : Bool
  /-- `_imu_sample_delayed.time_us` -/
  imuTime : UInt64
  /-- `_flt_mag_align_start_time` -/
  alignStart : UInt64
  /-- `_params.initial_tilt_err` -/
  tiltErr : ℝ
  decl : DeclIn
  fx : FixIn ℝ

/-- state of `fuseMag` -/
structure MagSt where
  f : Filt
  /-- `_fault_status.flags.bad_mag_x/y/z` -/
  bad : Fin 3 → Bool
  /-- `_innov_check_fail_status` bits 3, 4, 5 -/
  reject : Fin 3 → Bool
  innov : V3 ℝ
  innovVar : V3 ℝ
  testRatio : V3 ℝ
  /-- `_yaw_test_ratio` -/
  yawRatio : ℝ

/-- element update -/
def set3 {α : Type*} (v : Fin 3 → α) (a : Fin 3) (y : α) : Fin 3 → α := fun b => if b = a then y else v b

/-- `resetMagRelatedCovariances`, EKF/covariance.cpp:1036-1040 -/
def resetMagRelated (x : MagIn) (f : Filt) : Filt :=
  { f with M := resetMagCov x.noise { f.M with P := resetQuatCov (attQuat f.s) x.tiltErr f.M.P } }

/-- innovation variance of an axis from the current state and covariance: EKF/mag_fusion.cpp:88, 270, 349 -/
def magS (a : Fin 3) (P : Mat ℝ) (s : Vec ℝ) (R : ℝ) : ℝ :=
  if a = 0 then MagX.S P s R 0 0 else if a = 1 then MagY.S P s R 0 0 else MagZ.S P s R 0 0

/-- observation row of an axis: EKF/mag_fusion.cpp:208-215, 283-291, 363-371 -/
def magRow (a : Fin 3) (P : Mat ℝ) (s : Vec ℝ) (R : ℝ) : List (Fin N × ℝ) :=
  if a = 0 then MagX.hList P s R 0 0 else if a = 1 then MagY.hList P s R 0 0 else MagZ.hList P s R 0 0

/-- Kalman gains of an axis: EKF/mag_fusion.cpp:218-240, 294-313, 374-398 -/
def magGain (all : Bool) (a : Fin 3) (P : Mat ℝ) (s : Vec ℝ) (R : ℝ) : Vec ℝ :=
  if a = 0 then MagX.gain all P s R 0 0 else if a = 1 then MagY.gain all P s R 0 0 else MagZ.gain all P s R 0 0

/-- `R_MAG`, EKF/mag_fusion.cpp:61 -/
def magR (x : MagIn) : ℝ := sq (max x.noise 0)

/-- `update_all_states`, EKF/mag_fusion.cpp:197 (unsigned difference) -/
def magAll (x : MagIn) : Bool := decide (x.imuTime - x.alignStart > 5000000)

/-- one pass of the fusion loop with a freshly computed innovation variance, EKF/mag_fusion.cpp:204-417; second component: the
loop goes on.  For the X axis the code uses the variance computed before the loop from the same state and covariance. -/
def magAxis (x : MagIn) (a : Fin 3) (st : MagSt) : MagSt × Bool :=
  let R := magR x
  let S := magS a st.f.P st.f.s R
  let st := { st with innovVar := set3 st.innovVar a S }
  if S < R then ({ st with bad := set3 st.bad a true, f := resetMagRelated x st.f }, false)
  else
    let H := sparse (magRow a st.f.P st.f.s R)
    let k := magGain (magAll x) a st.f.P st.f.s R
    let r := update x.fx k H (st.innov a) st.f
    let st := { st with f := r.1, bad := set3 st.bad a (!r.2) }
    if r.2 then ({ st with f := { st.f with s := limitDeclination x.decl st.f.s } }, true) else (st, true)

/-- the fusion loop, EKF/mag_fusion.cpp:203-417 -/
def magLoop (x : MagIn) (st : MagSt) : MagSt :=
  let r := magAxis x 0 st
  if r.2 then
    let r := magAxis x 1 r.1
    if r.2 then
      if x.synthZ then r.1 else (magAxis x 2 r.1).1
    else r.1
  else r.1

/-- `fuseMag`, EKF/mag_fusion.cpp:48-418 -/
def fuseMag (x : MagIn) (st : MagSt) : MagSt :=
  let R := magR x
  let P := st.f.P
  let s := st.f.s
  let S0 := MagX.S P s R 0 0
  let st := { st with innovVar := set3 st.innovVar 0 S0 }
  if S0 < R then { st with bad := set3 st.bad 0 true, f := resetMagRelated x st.f }
  else
    let st := { st with bad := set3 st.bad 0 false }
    let S1 := MagIV.S1 P s R 0 0
    let S2 := MagIV.S2 P s R 0 0
    let st := { st with innovVar := set3 (set3 st.innovVar 1 S1) 2 S2 }
    if S1 < R then { st with bad := set3 st.bad 1 true, f := resetMagRelated x st.f }
    else
      let st := { st with bad := set3 st.bad 1 false }
      if S2 < R then { st with bad := set3 st.bad 2 true, f := resetMagRelated x st.f }
      else
        let st := { st with bad := set3 st.bad 2 false }
        let rot := Utils.quatToInverseRotMat (attQuat s) *ᵥ ![s 16, s 17, s 18]
        let innov : V3 ℝ := ![rot 0 + s 19 - x.mag 0, rot 1 + s 20 - x.mag 1, rot 2 + s 21 - x.mag 2]
        let innov := if x.synthZ then set3 innov 2 0 else innov
        let ratio : V3 ℝ := fun i => sq (innov i) / (sq (max x.gate 1) * st.innovVar i)
        let st := { st with innov := innov, testRatio := ratio, reject := fun i => decide (ratio i > 1), yawRatio := 0 }
        if ratio 0 > 1 ∨ ratio 1 > 1 ∨ ratio 2 > 1 then st
        else magLoop x st

/-! ### specification -/

/-- predicted field measurement along a body axis: earth field rotated into the body frame plus the body field -/
def Spec.magPred (a : Fin 3) (s : Vec ℝ) : ℝ := ((attQuat s).dcmᵀ *ᵥ ![s 16, s 17, s 18]) a + ![s 19, s 20, s 21] a

/-- innovation of an axis, taken as zero for a synthesised Z -/
def Spec.magInnov (x : MagIn) (s : Vec ℝ) (a : Fin 3) : ℝ :=
  if a = 2 ∧ x.synthZ = true then 0 else Spec.magPred a s - x.mag a

/-- states corrected by magnetometer fusion: all, or only the field states during the first 5 s after in-flight alignment -/
def Spec.magSel (x : MagIn) (i : Fin N) : Prop := 5000000 < (x.imuTime - x.alignStart).toNat ∨ (16 ≤ i.val ∧ i.val ≤ 21)

instance (x : MagIn) : DecidablePred (Spec.magSel x) := fun i => by unfold Spec.magSel; infer_instance

/-- What fusing one axis with the given innovation does: `H` is the gradient of the predicted measurement and `S = H P Hᵀ + R` for
the state and covariance before this axis; with `S < R` the axis is flagged, attitude and field covariances are reset and the
fusion ends; otherwise the update with gain `P Hᵀ / S` is run, flagged if it fails, and the field limited if it is applied. -/
def Spec.MagAxis (x : MagIn) (innov : ℝ) (a : Fin 3) (st st' : MagSt) (go : Bool) : Prop :=
  let R := (max x.noise 0) ^ 2
  ∃ H : Vec ℝ, Spec.IsGradient (Spec.magPred a) st.f.s H ∧
    let S := Spec.innovVar st.f.P H R
    let r := update x.fx (Spec.gain st.f.P H R (Spec.magSel x)) H innov st.f
    (S < R → go = false ∧
      st' = { st with innovVar := set3 st.innovVar a S, bad := set3 st.bad a true, f := resetMagRelated x st.f }) ∧
    (R ≤ S → go = true ∧
      st' = { st with innovVar := set3 st.innovVar a S, bad := set3 st.bad a (!r.2),
                      f := { r.1 with s := if r.2 then limitDeclination x.decl r.1.s else r.1.s } })

end

theorem magPred_0 (s : Vec ℝ) : Spec.magPred 0 s = (s 0 * s 0 + s 1 * s 1 - s 2 * s 2 - s 3 * s 3) * s 16
    + 2 * (s 1 * s 2 + s 0 * s 3) * s 17 + 2 * (s 1 * s 3 - s 0 * s 2) * s 18 + s 19 := by
  simp [Spec.magPred, attQuat, Quat.dcm, Matrix.mulVec, dotProduct, Fin.sum_univ_three]

theorem magPred_1 (s : Vec ℝ) : Spec.magPred 1 s = 2 * (s 1 * s 2 - s 0 * s 3) * s 16
    + (s 0 * s 0 - s 1 * s 1 + s 2 * s 2 - s 3 * s 3) * s 17 + 2 * (s 0 * s 1 + s 2 * s 3) * s 18 + s 20 := by
  simp [Spec.magPred, attQuat, Quat.dcm, Matrix.mulVec, dotProduct, Fin.sum_univ_three]

theorem magPred_2 (s : Vec ℝ) : Spec.magPred 2 s = 2 * (s 0 * s 2 + s 1 * s 3) * s 16
    + 2 * (s 2 * s 3 - s 0 * s 1) * s 17 + (s 0 * s 0 - s 1 * s 1 - s 2 * s 2 + s 3 * s 3) * s 18 + s 21 := by
  simp [Spec.magPred, attQuat, Quat.dcm, Matrix.mulVec, dotProduct, Fin.sum_univ_three]

/-- the observation rows are the gradients of the predicted measurement -/
theorem mag_gradient (a : Fin 3) (s : Vec ℝ) (P : Mat ℝ) (R : ℝ) : Spec.IsGradient (Spec.magPred a) s (sparse (magRow a P s R)) := by
  intro d
  rw [sum_sparse_mul]
  have ha : a = 0 ∨ a = 1 ∨ a = 2 := by omega
  rcases ha with rfl | rfl | rfl
  · simp only [magPred_0]
    refine (hasDerivAt_of_cubic (b := (List.map (fun p => d p.1 * p.2) (MagX.hList P s R 0 0)).sum) fun t => ?_)
    simp only [MagX.hList, List.map_cons, List.map_nil, List.sum_cons, List.sum_nil, MagX.HKX0, MagX.HKX1, MagX.HKX2, MagX.HKX3,
      MagX.HKX4, MagX.HKX5, MagX.HKX6, MagX.HKX7, MagX.HKX8, MagX.HKX9]
    ring
  · simp only [magPred_1]
    refine (hasDerivAt_of_cubic (b := (List.map (fun p => d p.1 * p.2) (MagY.hList P s R 0 0)).sum) fun t => ?_)
    simp only [MagY.hList, List.map_cons, List.map_nil, List.sum_cons, List.sum_nil, MagY.HKY0, MagY.HKY1, MagY.HKY2, MagY.HKY3,
      MagY.HKY4, MagY.HKY5, MagY.HKY6, MagY.HKY7, MagY.HKY8, MagY.HKY9]
    ring
  · simp only [magPred_2]
    refine (hasDerivAt_of_cubic (b := (List.map (fun p => d p.1 * p.2) (MagZ.hList P s R 0 0)).sum) fun t => ?_)
    simp only [MagZ.hList, List.map_cons, List.map_nil, List.sum_cons, List.sum_nil, MagZ.HKZ0, MagZ.HKZ1, MagZ.HKZ2, MagZ.HKZ3,
      MagZ.HKZ4, MagZ.HKZ5, MagZ.HKZ6, MagZ.HKZ7, MagZ.HKZ8, MagZ.HKZ9]
    ring

theorem magS_eq (a : Fin 3) (P : Mat ℝ) (s : Vec ℝ) (R : ℝ) (hs : ∀ i j, P i j = P j i) :
    magS a P s R = Spec.innovVar P (sparse (magRow a P s R)) R := by
  have ha : a = 0 ∨ a = 1 ∨ a = 2 := by omega
  rcases ha with rfl | rfl | rfl
  · exact MagX.S_eq P s R 0 0 hs
  · exact MagY.S_eq P s R 0 0 hs
  · exact MagZ.S_eq P s R 0 0 hs

theorem magAll_eq (x : MagIn) (i : Fin N) : (magAll x = true ∨ (16 ≤ i.val ∧ i.val ≤ 21)) ↔ Spec.magSel x i := by
  unfold magAll Spec.magSel
  rw [decide_eq_true_eq, gt_iff_lt, u64_lt_iff]
  rfl

theorem magGain_eq (x : MagIn) (a : Fin 3) (P : Mat ℝ) (s : Vec ℝ) (R : ℝ) (hs : ∀ i j, P i j = P j i) :
    magGain (magAll x) a P s R = Spec.gain P (sparse (magRow a P s R)) R (Spec.magSel x) := by
  have ha : a = 0 ∨ a = 1 ∨ a = 2 := by omega
  funext i
  unfold Spec.gain
  simp only [← magAll_eq]
  rcases ha with rfl | rfl | rfl
  · exact MagX.gain_eq _ P s R 0 0 hs i
  · exact MagY.gain_eq _ P s R 0 0 hs i
  · exact MagZ.gain_eq _ P s R 0 0 hs i

theorem magR_eq (x : MagIn) : magR x = (max x.noise 0) ^ 2 := (pow_two _).symm

theorem magAxis_spec (x : MagIn) (a : Fin 3) (st : MagSt) (hs : ∀ i j, st.f.P i j = st.f.P j i) :
    Spec.MagAxis x (st.innov a) a st (magAxis x a st).1 (magAxis x a st).2 := by
  refine ⟨sparse (magRow a st.f.P st.f.s ((max x.noise 0) ^ 2)), mag_gradient _ _ _ _, ?_⟩
  unfold magAxis
  simp only [magR_eq, magS_eq a _ _ _ hs, magGain_eq x a _ _ _ hs]
  constructor
  · intro h; rw [if_pos h]; exact ⟨rfl, rfl⟩
  · intro h
    rw [if_neg (not_lt.mpr h)]
    generalize update x.fx _ _ _ st.f = r
    obtain ⟨r1, r2⟩ := r
    cases r2 <;> exact ⟨rfl, rfl⟩

theorem magAxis_sym {x : MagIn} {v : ℝ} {a : Fin 3} {st st' : MagSt} (h : Spec.MagAxis x v a st st' true)
    (hs : ∀ i j, st.f.P i j = st.f.P j i) (i j : Fin N) : st'.f.P i j = st'.f.P j i := by
  obtain ⟨H, -, h1, h2⟩ := h
  rcases lt_or_ge (Spec.innovVar st.f.P H ((max x.noise 0) ^ 2)) ((max x.noise 0) ^ 2) with hS | hS
  · exact absurd (h1 hS).1 (by simp)
  · rw [(h2 hS).2]
    exact update_sym _ _ _ _ _ hs i j

theorem magAxis_innov {x : MagIn} {v : ℝ} {a : Fin 3} {st st' : MagSt} {go : Bool} (h : Spec.MagAxis x v a st st' go) :
    st'.innov = st.innov := by
  obtain ⟨H, -, h1, h2⟩ := h
  rcases lt_or_ge (Spec.innovVar st.f.P H ((max x.noise 0) ^ 2)) ((max x.noise 0) ^ 2) with hS | hS
  · rw [(h1 hS).2]
  · rw [(h2 hS).2]

/-- **C28.** 3-axis magnetometer fusion, for a positive noise parameter.  There are rows `H i`, the gradients of the predicted
measurements; with `S i = H i P (H i)ᵀ + R`: the first axis with `S i < R` is flagged and the attitude and field covariances are
reset; otherwise the innovations are compared with the gate and every rejecting axis is flagged; if one rejects nothing else
changes; if all pass, the axes are fused one after the other (Z only if not synthesised), each with row, variance and gain of
the state left by the previous one, but with the innovation computed before the first. -/
theorem mag_fusion (x : MagIn) (st : MagSt) (hs : ∀ i j, st.f.P i j = st.f.P j i) (hn : 0 < x.noise) :
    let R := (max x.noise 0) ^ 2
    ∃ H : Fin 3 → Vec ℝ, (∀ a, Spec.IsGradient (Spec.magPred a) st.f.s (H a)) ∧
      let S : V3 ℝ := fun a => Spec.innovVar st.f.P (H a) R
      let fail : Fin 3 → Prop := fun a => (max x.gate 1) ^ 2 * S a < (Spec.magInnov x st.f.s a) ^ 2
      (S 0 < R → fuseMag x st =
        { st with innovVar := set3 st.innovVar 0 (S 0), bad := set3 st.bad 0 true, f := resetMagRelated x st.f }) ∧
      (R ≤ S 0 → S 1 < R → fuseMag x st =
        { st with innovVar := S, bad := ![false, true, st.bad 2], f := resetMagRelated x st.f }) ∧
      (R ≤ S 0 → R ≤ S 1 → S 2 < R → fuseMag x st =
        { st with innovVar := S, bad := ![false, false, true], f := resetMagRelated x st.f }) ∧
      ((∀ a, R ≤ S a) → ∃ rej : Fin 3 → Bool, (∀ a, rej a = true ↔ fail a) ∧
        let st1 : MagSt :=
          { st with innovVar := S, bad := fun _ => false, innov := Spec.magInnov x st.f.s, yawRatio := 0,
                    testRatio := fun a => (Spec.magInnov x st.f.s a) ^ 2 / ((max x.gate 1) ^ 2 * S a),
                    reject := rej }
        ((∃ a, fail a) → fuseMag x st = st1) ∧
        ((∀ a, ¬ fail a) → ∃ st2 go2, Spec.MagAxis x (Spec.magInnov x st.f.s 0) 0 st1 st2 go2 ∧
          (go2 = false → fuseMag x st = st2) ∧
          (go2 = true → ∃ st3 go3, Spec.MagAxis x (Spec.magInnov x st.f.s 1) 1 st2 st3 go3 ∧
            (go3 = false ∨ x.synthZ = true → fuseMag x st = st3) ∧
            (go3 = true → x.synthZ = false →
              ∃ go4, Spec.MagAxis x (Spec.magInnov x st.f.s 2) 2 st3 (fuseMag x st) go4)))) := by
  intro R
  refine ⟨fun a => sparse (magRow a st.f.P st.f.s R), fun a => mag_gradient a _ _ _, ?_⟩
  intro S fail
  have hR0 : 0 < R := by
    show 0 < (max x.noise 0) ^ 2
    rw [max_eq_left hn.le]; positivity
  have e0 : MagX.S st.f.P st.f.s R 0 0 = S 0 := MagX.S_eq _ _ _ _ _ hs
  have e1 : MagIV.S1 st.f.P st.f.s R 0 0 = S 1 := MagIV.S1_eq _ _ _ _ _ hs
  have e2 : MagIV.S2 st.f.P st.f.s R 0 0 = S 2 := MagIV.S2_eq _ _ _ _ _ hs
  have h3 : ∀ (v : V3 ℝ), set3 (set3 (set3 v 0 (S 0)) 1 (S 1)) 2 (S 2) = S := by
    intro v; funext a
    have ha : a = 0 ∨ a = 1 ∨ a = 2 := by omega
    rcases ha with rfl | rfl | rfl <;> rfl
  have hrot : ∀ a : Fin 3, (Utils.quatToInverseRotMat (attQuat st.f.s) *ᵥ ![st.f.s 16, st.f.s 17, st.f.s 18]) a
      + ![st.f.s 19, st.f.s 20, st.f.s 21] a = Spec.magPred a st.f.s := by
    intro a
    have ha : a = 0 ∨ a = 1 ∨ a = 2 := by omega
    rcases ha with rfl | rfl | rfl
    · rw [magPred_0]
      simp [attQuat, Utils.quatToInverseRotMat, Matrix.mulVec, dotProduct, Fin.sum_univ_three]
    · rw [magPred_1]
      simp [attQuat, Utils.quatToInverseRotMat, Matrix.mulVec, dotProduct, Fin.sum_univ_three]
      left; ring
    · rw [magPred_2]
      simp [attQuat, Utils.quatToInverseRotMat, Matrix.mulVec, dotProduct, Fin.sum_univ_three]
      left; ring
  have hinn : (if x.synthZ = true then
      set3 (![(Utils.quatToInverseRotMat (attQuat st.f.s) *ᵥ ![st.f.s 16, st.f.s 17, st.f.s 18]) 0 + st.f.s 19 - x.mag 0,
        (Utils.quatToInverseRotMat (attQuat st.f.s) *ᵥ ![st.f.s 16, st.f.s 17, st.f.s 18]) 1 + st.f.s 20 - x.mag 1,
        (Utils.quatToInverseRotMat (attQuat st.f.s) *ᵥ ![st.f.s 16, st.f.s 17, st.f.s 18]) 2 + st.f.s 21 - x.mag 2]) 2 0
      else ![(Utils.quatToInverseRotMat (attQuat st.f.s) *ᵥ ![st.f.s 16, st.f.s 17, st.f.s 18]) 0 + st.f.s 19 - x.mag 0,
        (Utils.quatToInverseRotMat (attQuat st.f.s) *ᵥ ![st.f.s 16, st.f.s 17, st.f.s 18]) 1 + st.f.s 20 - x.mag 1,
        (Utils.quatToInverseRotMat (attQuat st.f.s) *ᵥ ![st.f.s 16, st.f.s 17, st.f.s 18]) 2 + st.f.s 21 - x.mag 2])
      = Spec.magInnov x st.f.s := by
    have r0 := hrot 0
    have r1 := hrot 1
    have r2 := hrot 2
    funext a
    unfold Spec.magInnov
    have ha : a = 0 ∨ a = 1 ∨ a = 2 := by omega
    rcases ha with rfl | rfl | rfl
    · rw [← r0]; cases x.synthZ <;> rfl
    · rw [← r1]; cases x.synthZ <;> rfl
    · rw [← r2]; cases x.synthZ <;> rfl
  have hg : ∀ y : ℝ, sq y = y ^ 2 := fun y => (pow_two y).symm
  unfold fuseMag
  simp only [magR_eq]
  rw [show (max x.noise 0) ^ 2 = R from rfl, e0, e1, e2, hinn]
  simp only [h3]
  refine ⟨?_, ?_, ?_, ?_⟩
  · intro h; rw [if_pos h]
  · intro h0 h1
    rw [if_neg (not_lt.mpr h0), if_pos h1]
    congr 1
    funext a
    have ha : a = 0 ∨ a = 1 ∨ a = 2 := by omega
    rcases ha with rfl | rfl | rfl <;> rfl
  · intro h0 h1 h2
    rw [if_neg (not_lt.mpr h0), if_neg (not_lt.mpr h1), if_pos h2]
    congr 1
    funext a
    have ha : a = 0 ∨ a = 1 ∨ a = 2 := by omega
    rcases ha with rfl | rfl | rfl <;> rfl
  · intro hall
    have hb : set3 (set3 (set3 st.bad 0 false) 1 false) 2 false = fun _ => false := by
      funext a
      have ha : a = 0 ∨ a = 1 ∨ a = 2 := by omega
      rcases ha with rfl | rfl | rfl <;> rfl
    rw [if_neg (not_lt.mpr (hall 0)), if_neg (not_lt.mpr (hall 1)), if_neg (not_lt.mpr (hall 2))]
    simp only [hb, hg]
    have hf : ∀ a, ((Spec.magInnov x st.f.s a) ^ 2 / ((max x.gate 1) ^ 2 * S a) > 1 ↔ fail a) := by
      intro a
      have hp : 0 < (max x.gate 1) ^ 2 * S a := by
        have : (1 : ℝ) ≤ max x.gate 1 := le_max_right _ _
        have h1 : 0 < (max x.gate 1) ^ 2 := by positivity
        exact mul_pos h1 (lt_of_lt_of_le hR0 (hall a))
      rw [gt_iff_lt, one_lt_div hp]
    refine ⟨fun i => decide ((Spec.magInnov x st.f.s i) ^ 2 / ((max x.gate 1) ^ 2 * S i) > 1), ?_, ?_, ?_⟩
    · intro a; simp only [decide_eq_true_eq]; exact hf a
    · rintro ⟨a, ha⟩
      rw [if_pos]
      have := (hf a).mpr ha
      have hc : a = 0 ∨ a = 1 ∨ a = 2 := by omega
      rcases hc with rfl | rfl | rfl
      · exact Or.inl this
      · exact Or.inr (Or.inl this)
      · exact Or.inr (Or.inr this)
    · intro hno
      rw [if_neg]
      swap
      · rintro (h | h | h)
        · exact hno _ ((hf _).mp h)
        · exact hno _ ((hf _).mp h)
        · exact hno _ ((hf _).mp h)
      generalize hst1 : ({ f := st.f, bad := fun x => false, reject := _, innov := _, innovVar := S, testRatio := _, yawRatio := 0 } : MagSt) = st1
      have hs1 : ∀ i j, st1.f.P i j = st1.f.P j i := by rw [← hst1]; exact hs
      have hi1 : st1.innov = Spec.magInnov x st.f.s := by rw [← hst1]
      have A0 := magAxis_spec x 0 st1 hs1
      rw [hi1] at A0
      refine ⟨_, _, A0, ?_, ?_⟩
      · intro h; unfold magLoop; simp only [h, Bool.false_eq_true, if_false]
      · intro h
        rw [h] at A0
        have hs2 := magAxis_sym A0 hs1
        have A1 := magAxis_spec x 1 (magAxis x 0 st1).1 hs2
        rw [magAxis_innov A0, hi1] at A1
        refine ⟨_, _, A1, ?_, ?_⟩
        · intro h'
          unfold magLoop; simp only [h, if_true]
          rcases h' with h' | h'
          · simp only [h', Bool.false_eq_true, if_false]
          · simp only [h', if_true, ite_self]
        · intro h1 h2
          rw [h1] at A1
          have hs3 := magAxis_sym A1 hs2
          have A2 := magAxis_spec x 2 _ hs3
          rw [magAxis_innov A1, magAxis_innov A0, hi1] at A2
          have e : magLoop x st1 = (magAxis x 2 (magAxis x 1 (magAxis x 0 st1).1).1).1 := by
            unfold magLoop; simp only [h, h1, h2, if_true, Bool.false_eq_true, if_false]
          rw [e]
          exact ⟨_, A2⟩

theorem magAxis_field_only {x : MagIn} {v : ℝ} {a : Fin 3} {st st' : MagSt} {go : Bool} (h : Spec.MagAxis x v a st st' go)
    (ht : (x.imuTime - x.alignStart).toNat ≤ 5000000) (hq : (attQuat st.f.s).normSq = 1) (i : Fin N)
    (hi : i.val < 16 ∨ 21 < i.val) : st'.f.s i = st.f.s i := by
  obtain ⟨H, -, h1, h2⟩ := h
  rcases lt_or_ge (Spec.innovVar st.f.P H ((max x.noise 0) ^ 2)) ((max x.noise 0) ^ 2) with hS | hS
  · rw [(h1 hS).2]; rfl
  · rw [(h2 hS).2]
    have hz : ∀ j : Fin N, (j.val < 16 ∨ 21 < j.val) → Spec.gain st.f.P H ((max x.noise 0) ^ 2) (Spec.magSel x) j = 0 := by
      intro j hj; unfold Spec.gain; rw [if_neg]; unfold Spec.magSel; omega
    have hu := update_zero_gain x.fx (Spec.gain st.f.P H ((max x.noise 0) ^ 2) (Spec.magSel x)) H v st.f hq
      (fun j hj => hz j (by omega)) i (hz i hi)
    simp only
    split
    · rw [(limitDeclination_spec x.decl _).1 i (by omega)]; exact hu
    · exact hu

/-- **C28 (stabilisation period).** During the first 5 s after in-flight alignment the magnetometer changes only the six
magnetic field states. -/
theorem mag_field_only (x : MagIn) (st : MagSt) (hs : ∀ i j, st.f.P i j = st.f.P j i) (hn : 0 < x.noise)
    (ht : (x.imuTime - x.alignStart).toNat ≤ 5000000) (hq : (attQuat st.f.s).normSq = 1) (i : Fin N)
    (hi : i.val < 16 ∨ 21 < i.val) : (fuseMag x st).f.s i = st.f.s i := by
  obtain ⟨H, -, a0, a1, a2, a3⟩ := mag_fusion x st hs hn
  simp only at a0 a1 a2 a3
  rcases lt_or_ge (Spec.innovVar st.f.P (H 0) ((max x.noise 0) ^ 2)) ((max x.noise 0) ^ 2) with h0 | h0
  · rw [a0 h0]; rfl
  rcases lt_or_ge (Spec.innovVar st.f.P (H 1) ((max x.noise 0) ^ 2)) ((max x.noise 0) ^ 2) with h1 | h1
  · rw [a1 h0 h1]; rfl
  rcases lt_or_ge (Spec.innovVar st.f.P (H 2) ((max x.noise 0) ^ 2)) ((max x.noise 0) ^ 2) with h2 | h2
  · rw [a2 h0 h1 h2]; rfl
  have hall : ∀ a : Fin 3, (max x.noise 0) ^ 2 ≤ Spec.innovVar st.f.P (H a) ((max x.noise 0) ^ 2) := by
    intro a
    have ha : a = 0 ∨ a = 1 ∨ a = 2 := by omega
    rcases ha with rfl | rfl | rfl <;> assumption
  obtain ⟨rej, -, hf, hp⟩ := a3 hall
  by_cases hc : ∃ a, (max x.gate 1) ^ 2 * Spec.innovVar st.f.P (H a) ((max x.noise 0) ^ 2) < (Spec.magInnov x st.f.s a) ^ 2
  · rw [hf hc]
  · push Not at hc
    have qq : ∀ {st1 st2 : MagSt}, (attQuat st1.f.s).normSq = 1 → (∀ i : Fin N, (i.val < 16 ∨ 21 < i.val) → st2.f.s i = st1.f.s i) →
        (attQuat st2.f.s).normSq = 1 := by
      intro st1 st2 h1 h2
      rw [← h1]; unfold attQuat
      rw [h2 0 (by decide), h2 1 (by decide), h2 2 (by decide), h2 3 (by decide)]
    obtain ⟨st2, go2, m2, f2, t2⟩ := hp (fun a => not_lt.mpr (hc a))
    have k2 := magAxis_field_only m2 ht hq
    cases go2
    · rw [f2 rfl]; exact k2 i hi
    obtain ⟨st3, go3, m3, f3, t3⟩ := t2 rfl
    have hq2 := qq hq k2
    have k3 := magAxis_field_only m3 ht hq2
    by_cases hz : go3 = false ∨ x.synthZ = true
    · rw [f3 hz, k3 i hi]; exact k2 i hi
    · push Not at hz
      obtain ⟨go4, m4⟩ := t3 (by simpa using hz.1) (by simpa using hz.2)
      have k4 := magAxis_field_only m4 ht (qq hq2 k3)
      rw [k4 i hi, k3 i hi]; exact k2 i hi

/-- the hypotheses are met by a level vehicle with an identity covariance; nothing is badly conditioned then -/
example : ∃ (x : MagIn) (st : MagSt), (∀ i j, st.f.P i j = st.f.P j i) ∧ 0 < x.noise ∧ Spec.PSD st.f.P := by
  refine ⟨⟨1 / 20, 3, 0, false, 0, 0, 1, ⟨false, false, none, 0⟩, ⟨fun _ => false, true, true, 1 / 100, 0, false⟩⟩,
    ⟨exFilt, fun _ => false, fun _ => false, 0, 0, 0, 0⟩, idCov_psd.symm, by norm_num, idCov_psd⟩

end Ecl.Fusion
