import Verif.Fusion.GpsYaw
import Verif.Fusion.Declination
import Verif.Utils.Props

/-!
# Euler yaw fusion (C33) — EKF/mag_fusion.cpp:420-828
-/

set_option linter.unusedVariables false

namespace Ecl.Fusion

open Ecl.Cov
open scoped Matrix

noncomputable section

/-- data read by the yaw fusions -/
structure HdgIn where
  /-- `_params.heading_innov_gate` -/
  gate : ℝ
  inAir : Bool
  /-- `_time_last_in_air` -/
  lastInAir : UInt64
  /-- `_time_last_imu` -/
  now : UInt64
  fx : FixIn ℝ
  ini : InitIn

/-- quaternion index as state index -/
def qi (c : Fin 4) : Fin N := ⟨c.val, by have := c.isLt; show c.val < 24; omega⟩

/-- yaw Jacobian of `fuseYaw321`, EKF/mag_fusion.cpp:431-483; `none`: neither path usable -/
def yawRow321 (s : Vec ℝ) : Option (Fin 4 → ℝ) :=
  let q0 := s 0; let q1 := s 1; let q2 := s 2; let q3 := s 3
  let SA0 := 2 * q3
  let SA1 := 2 * q2
  let SA2 := SA0 * q0 + SA1 * q1
  let SA3 := sq q0 + sq q1 - sq q2 - sq q3
  let SA4 := 1 / sq SA3
  let SA5i := sq SA2 * SA4 + 1
  let canA : Prop := sq SA3 > 1 / 1000000 ∧ |SA5i| > 1 / 1000000
  let SB0 := 2 * q0
  let SB1 := 2 * q1
  let SB2 := SB0 * q3 + SB1 * q2
  let SB4 := sq q0 + sq q1 - sq q2 - sq q3
  let SB3 := 1 / sq SB2
  let SB5i := SB3 * sq SB4 + 1
  let canB : Prop := sq SB2 > 1 / 1000000 ∧ |SB5i| > 1 / 1000000
  open Classical in
  if canA ∧ (¬ canB ∨ |SA5i| ≥ |SB5i|) then
    let SA5 := 1 / SA5i
    let SA6 := 1 / SA3
    let SA7 := SA2 * SA4
    let SA8 := 2 * SA7
    let SA9 := 2 * SA6
    some ![SA5 * (SA0 * SA6 - SA8 * q0), SA5 * (SA1 * SA6 - SA8 * q1), SA5 * (SA1 * SA7 + SA9 * q1), SA5 * (SA0 * SA7 + SA9 * q0)]
  else if canB ∧ (¬ canA ∨ |SB5i| > |SA5i|) then
    let SB5 := 1 / SB5i
    let SB6 := 1 / SB2
    let SB7 := SB3 * SB4
    let SB8 := 2 * SB7
    let SB9 := 2 * SB6
    some ![-SB5 * (SB0 * SB6 - SB8 * q3), -SB5 * (SB1 * SB6 - SB8 * q2), -SB5 * (-SB1 * SB7 - SB9 * q2),
      -SB5 * (-SB0 * SB7 - SB9 * q3)]
  else none

/-- yaw Jacobian of `fuseYaw312`, EKF/mag_fusion.cpp:511-563 -/
def yawRow312 (s : Vec ℝ) : Option (Fin 4 → ℝ) :=
  let q0 := s 0; let q1 := s 1; let q2 := s 2; let q3 := s 3
  let SA0 := 2 * q3
  let SA1 := 2 * q2
  let SA2 := SA0 * q0 - SA1 * q1
  let SA3 := sq q0 - sq q1 + sq q2 - sq q3
  let SA4 := 1 / sq SA3
  let SA5i := sq SA2 * SA4 + 1
  let canA : Prop := sq SA3 > 1 / 1000000 ∧ |SA5i| > 1 / 1000000
  let SB0 := 2 * q0
  let SB1 := 2 * q1
  let SB2 := -SB0 * q3 + SB1 * q2
  let SB4 := -sq q0 + sq q1 - sq q2 + sq q3
  let SB3 := 1 / sq SB2
  let SB5i := SB3 * sq SB4 + 1
  let canB : Prop := sq SB2 > 1 / 1000000 ∧ |SB5i| > 1 / 1000000
  open Classical in
  if canA ∧ (¬ canB ∨ |SA5i| ≥ |SB5i|) then
    let SA5 := 1 / SA5i
    let SA6 := 1 / SA3
    let SA7 := SA2 * SA4
    let SA8 := 2 * SA7
    let SA9 := 2 * SA6
    some ![SA5 * (SA0 * SA6 - SA8 * q0), SA5 * (-SA1 * SA6 + SA8 * q1), SA5 * (-SA1 * SA7 - SA9 * q1), SA5 * (SA0 * SA7 + SA9 * q0)]
  else if canB ∧ (¬ canA ∨ |SB5i| > |SA5i|) then
    let SB5 := 1 / SB5i
    let SB6 := 1 / SB2
    let SB7 := SB3 * SB4
    let SB8 := 2 * SB7
    let SB9 := 2 * SB6
    some ![-SB5 * (-SB0 * SB6 + SB8 * q3), -SB5 * (SB1 * SB6 - SB8 * q2), -SB5 * (-SB1 * SB7 - SB9 * q2),
      -SB5 * (SB0 * SB7 + SB9 * q3)]
  else none

/-- covariance and state correction at the end of `updateQuaternion`, EKF/mag_fusion.cpp:662-700: like `measurementUpdate` but
without zeroing the gains of inhibited accelerometer bias axes -/
def applyYaw (x : FixIn ℝ) (k : Vec ℝ) (j : Fin 4 → ℝ) (innov : ℝ) (f : Filt) : Filt × Bool :=
  let khp : Mat ℝ := fun r c => k r * j 0 * f.P 0 c + k r * j 1 * f.P 1 c + k r * j 2 * f.P 2 c + k r * j 3 * f.P 3 c
  let r := checkAndFix khp f.P
  if r.2 then
    let g := fixCovarianceErrors x true f.timeCheck f.badAccBias (fun a b => r.1 a b - khp a b)
    ({ f with s := fuseState f.s k innov, M := { f.M with P := g.1 }, timeCheck := g.2.1, badAccBias := g.2.2 }, true)
  else ({ f with M := { f.M with P := r.1 } }, false)

/-- `updateQuaternion`, EKF/mag_fusion.cpp:581-701 -/
def updateQuaternion (x : HdgIn) (innov variance gate : ℝ) (j : Fin 4 → ℝ) (st : YawSt) : YawSt :=
  let P := st.f.P
  let S := (List.finRange 4).foldl (fun acc r => acc + j r * (List.finRange 4).foldl (fun t c => t + P (qi r) (qi c) * j c) 0) variance
  let st := { st with innovVar := S }
  if ¬ S ≥ variance then { st with bad := true, f := initCov x.ini st.f } else
  let st := { st with bad := false }
  let inv := 1 / S
  let k : Vec ℝ := fun i =>
    if i.val ≤ 15 ∨ (x.fx.wind = true ∧ 22 ≤ i.val ∧ i.val ≤ 23) then
      (List.finRange 4).foldl (fun t c => t + P i (qi c) * j c) 0 * inv
    else 0
  let st := { st with testRatio := sq innov / (sq gate * S), magTest := fun _ => 0 }
  let go (st : YawSt) : YawSt :=
    let r := applyYaw x.fx k j st.innov st.f
    { st with f := r.1, bad := !r.2 }
  if st.testRatio > 1 then
    let st := { st with reject := true }
    if x.inAir = false ∧ isTimedOut x.now x.lastInAir 5000000 = true then
      let lim := Real.sqrt (sq gate * S)
      go { st with innov := constrain innov (-lim) lim }
    else st
  else go { st with reject := false, innov := innov }

/-- `fuseYaw321`, EKF/mag_fusion.cpp:420-498 -/
def fuseYaw321 (x : HdgIn) (Rte : M3 ℝ) (yaw variance : ℝ) (zero : Bool) (st : YawSt) : YawSt :=
  match yawRow321 st.f.s with
  | none => st
  | some j =>
    let innov := if zero then 0 else wrapPi (atan2 (Rte 1 0) (Rte 0 0) - wrapPi yaw)
    updateQuaternion x innov (max variance (1 / 10000)) (mmax x.gate 1) j st

/-- `fuseYaw312`, EKF/mag_fusion.cpp:500-578 -/
def fuseYaw312 (x : HdgIn) (Rte : M3 ℝ) (yaw variance : ℝ) (zero : Bool) (st : YawSt) : YawSt :=
  match yawRow312 st.f.s with
  | none => st
  | some j =>
    let innov := if zero then 0 else wrapPi (atan2 (-Rte 0 1) (Rte 1 1) - wrapPi yaw)
    updateQuaternion x innov (max variance (1 / 10000)) (mmax x.gate 1) j st

/-- inputs of `fuseHeading` -/
structure HeadIn where
  h : HdgIn
  /-- `_control_status.flags.mag_hdg`, `ev_yaw`, `vehicle_at_rest` -/
  magHdg : Bool
  evYaw : Bool
  atRest : Bool
  /-- `_is_yaw_fusion_inhibited` -/
  inhibited : Bool
  /-- `_params.mag_heading_noise` -/
  noise : ℝ
  /-- `_ev_sample_delayed.angVar`, `.quat` -/
  evVar : ℝ
  evQuat : Quat ℝ
  /-- `_mag_sample_delayed.mag` -/
  mag : V3 ℝ
  decl : DeclIn
  /-- `_params.quat_max_variance` -/
  quatMaxVar : ℝ

/-- state of `fuseHeading` -/
structure HeadSt where
  y : YawSt
  /-- `_last_static_yaw` -/
  lastStatic : ℝ
  /-- `_R_to_earth` -/
  Rte : M3 ℝ

/-- magnetometer measurement with bias removed -/
def magCorr (x : HeadIn) (s : Vec ℝ) : V3 ℝ := fun i => x.mag i - s ⟨19 + i.val, by have := i.isLt; show _ < 24; omega⟩

/-- `fuseHeading`, EKF/mag_fusion.cpp:703-828; the two branches of the source differ only in the Euler sequence -/
def fuseHeading (x : HeadIn) (st : HeadSt) : HeadSt :=
  let s := st.y.f.s
  let P := st.y.f.P
  let R0 := if x.magHdg then sq x.noise else if x.evYaw then x.evVar else 1 / 100
  let Rte := (attQuat s).dcm
  let st := { st with Rte := Rte }
  open Classical in
  if Utils.shouldUse321 Rte then
    let pred := Utils.getEuler321Yaw Rte
    let m := Utils.updateEuler321YawInRotMat 0 Rte *ᵥ magCorr x s
    let meas := if x.magHdg then -atan2 (m 1) (m 0) + getMagDeclination x.decl s
      else if x.evYaw then Utils.getEuler321YawQ x.evQuat else pred
    let c : ℝ × ℝ × Bool × ℝ :=
      if x.inhibited then
        if !x.atRest then
          if P 0 0 + P 1 1 + P 2 2 + P 3 3 > x.quatMaxVar then (meas, 1 / 4, true, pred) else (meas, R0, false, pred)
        else (st.lastStatic, R0, false, st.lastStatic)
      else (meas, R0, false, pred)
    { st with y := fuseYaw321 x.h Rte c.1 c.2.1 c.2.2.1 st.y, lastStatic := c.2.2.2 }
  else
    let pred := Utils.getEuler312Yaw Rte
    let m := Utils.updateEuler312YawInRotMat 0 Rte *ᵥ magCorr x s
    let meas := if x.magHdg then -atan2 (m 1) (m 0) + getMagDeclination x.decl s
      else if x.evYaw then Utils.getEuler312YawQ x.evQuat else pred
    let c : ℝ × ℝ × Bool × ℝ :=
      if x.inhibited then
        if !x.atRest then
          if P 0 0 + P 1 1 + P 2 2 + P 3 3 > x.quatMaxVar then (meas, 1 / 4, true, pred) else (meas, R0, false, pred)
        else (st.lastStatic, R0, false, st.lastStatic)
      else (meas, R0, false, pred)
    { st with y := fuseYaw312 x.h Rte c.1 c.2.1 c.2.2.1 st.y, lastStatic := c.2.2.2 }

/-- `calculate_synthetic_mag_z_measurement`, EKF/mag_fusion.cpp:948-958 -/
def syntheticMagZ (Rte : M3 ℝ) (mag earth : V3 ℝ) : ℝ :=
  let len := Real.sqrt (earth 0 * earth 0 + earth 1 * earth 1 + earth 2 * earth 2)
  let za := Real.sqrt (mmax (sq len - sq (mag 0) - sq (mag 1)) 0)
  let zb := earth 0 * Rte 0 2 + earth 1 * Rte 1 2 + earth 2 * Rte 2 2
  if zb < 0 then -za else za

/-! ## Specification -/

/-- yaw of the attitude quaternion of the state, in the 3-2-1 (`true`) or 3-1-2 sequence -/
def Spec.yawOf (use321 : Bool) (s : Vec ℝ) : ℝ :=
  if use321 then atan2 ((attQuat s).dcm 1 0) ((attQuat s).dcm 0 0) else atan2 (-(attQuat s).dcm 0 1) ((attQuat s).dcm 1 1)

/-- an observation row on the quaternion states -/
def Spec.quatRow (j : Fin 4 → ℝ) : Vec ℝ := sparse [(0, j 0), (1, j 1), (2, j 2), (3, j 3)]

/-- covariance and state correction with gain `k` and row `h`: applied iff no variance is below its correction, otherwise the
offending rows and columns are zeroed -/
def Spec.applyGain (x : FixIn ℝ) (k h : Vec ℝ) (f : Filt) (v : ℝ) : Filt × Bool :=
  let c : Mat ℝ := fun i j => k i * ∑ l, h l * f.P l j
  open Classical in
  if ∀ i, c i i ≤ f.P i i then
    let g := fixCovarianceErrors x true f.timeCheck f.badAccBias (fun i j => f.P i j - c i j)
    ({ f with s := fuseState f.s k v, M := { f.M with P := g.1 }, timeCheck := g.2.1, badAccBias := g.2.2 }, true)
  else ({ f with M := { f.M with P := fun i j => if f.P i i < c i i ∨ f.P j j < c j j then 0 else f.P i j } }, false)

end

/-- both paths of both sequences compute this -/
theorem path_alg {N E : ℝ} (h : N ≠ 0) (a b c : ℝ) :
    1 / (E ^ 2 / N ^ 2 + 1) * (a / N - b * (E / N ^ 2)) = (N * a - E * b) / (N ^ 2 + E ^ 2) := by
  have h1 : E ^ 2 / N ^ 2 + 1 ≠ 0 := by positivity
  have h2 : N ^ 2 + E ^ 2 ≠ 0 := by positivity
  field_simp
  ring

/-- east and north components of the direction whose heading is the yaw -/
def yE (use321 : Bool) (s : Vec ℝ) : ℝ := if use321 then 2 * (s 0 * s 3 + s 1 * s 2) else 2 * (s 0 * s 3 - s 1 * s 2)
def yN (use321 : Bool) (s : Vec ℝ) : ℝ :=
  if use321 then s 0 ^ 2 + s 1 ^ 2 - s 2 ^ 2 - s 3 ^ 2 else s 0 ^ 2 - s 1 ^ 2 + s 2 ^ 2 - s 3 ^ 2

theorem yawOf_eq (b : Bool) (s : Vec ℝ) : Spec.yawOf b s = atan2 (yE b s) (yN b s) := by
  cases b <;> simp [Spec.yawOf, yE, yN, attQuat, Quat.dcm] <;> congr 1 <;> ring

/-- derivative row of the yaw -/
noncomputable def yawGrad (b : Bool) (s : Vec ℝ) : Fin 4 → ℝ :=
  let N := yN b s; let E := yE b s
  if b then
    ![(N * (2 * s 3) - E * (2 * s 0)) / (N ^ 2 + E ^ 2), (N * (2 * s 2) - E * (2 * s 1)) / (N ^ 2 + E ^ 2),
      (N * (2 * s 1) + E * (2 * s 2)) / (N ^ 2 + E ^ 2), (N * (2 * s 0) + E * (2 * s 3)) / (N ^ 2 + E ^ 2)]
  else
    ![(N * (2 * s 3) - E * (2 * s 0)) / (N ^ 2 + E ^ 2), (-N * (2 * s 2) + E * (2 * s 1)) / (N ^ 2 + E ^ 2),
      (-N * (2 * s 1) - E * (2 * s 2)) / (N ^ 2 + E ^ 2), (N * (2 * s 0) + E * (2 * s 3)) / (N ^ 2 + E ^ 2)]

theorem yawGrad_gradient (b : Bool) (s : Vec ℝ) (h : 0 < yN b s ∨ yE b s ≠ 0) :
    Spec.IsGradient (Spec.yawOf b) s (Spec.quatRow (yawGrad b s)) := by
  intro d
  unfold Spec.quatRow
  rw [sum_sparse_mul]
  simp only [yawOf_eq]
  have hs0 : (fun j => s j + (0 : ℝ) * d j) = s := by funext j; ring
  cases b
  · have hf : HasDerivAt (fun t : ℝ => yN false fun j => s j + t * d j)
        (2 * s 0 * d 0 - 2 * s 1 * d 1 + 2 * s 2 * d 2 - 2 * s 3 * d 3) 0 := by
      simp only [yN, Bool.false_eq_true, if_false]; exact hasDerivAt_of_cubic fun t => by ring
    have hg : HasDerivAt (fun t : ℝ => yE false fun j => s j + t * d j)
        (2 * (s 0 * d 3 + s 3 * d 0 - s 1 * d 2 - s 2 * d 1)) 0 := by
      simp only [yE, Bool.false_eq_true, if_false]; exact hasDerivAt_of_cubic fun t => by ring
    refine (hasDerivAt_atan2 hf hg (by rw [hs0]; exact h)).congr_deriv ?_
    rw [hs0]
    simp only [yawGrad, Bool.false_eq_true, if_false, List.map_cons, List.map_nil, List.sum_cons, List.sum_nil, Matrix.cons_val]
    ring
  · have hf : HasDerivAt (fun t : ℝ => yN true fun j => s j + t * d j)
        (2 * s 0 * d 0 + 2 * s 1 * d 1 - 2 * s 2 * d 2 - 2 * s 3 * d 3) 0 := by
      simp only [yN, if_true]; exact hasDerivAt_of_cubic fun t => by ring
    have hg : HasDerivAt (fun t : ℝ => yE true fun j => s j + t * d j)
        (2 * (s 0 * d 3 + s 3 * d 0 + s 1 * d 2 + s 2 * d 1)) 0 := by
      simp only [yE, if_true]; exact hasDerivAt_of_cubic fun t => by ring
    refine (hasDerivAt_atan2 hf hg (by rw [hs0]; exact h)).congr_deriv ?_
    rw [hs0]
    simp only [yawGrad, if_true, List.map_cons, List.map_nil, List.sum_cons, List.sum_nil, Matrix.cons_val]
    ring

end Ecl.Fusion
