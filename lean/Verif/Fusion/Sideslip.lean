import Verif.Fusion.GenBeta
import Verif.Fusion.Airspeed

/-!
# Sideslip fusion (C30) — EKF/sideslip_fusion.cpp
-/

set_option linter.unusedVariables false

namespace Ecl.Fusion

open Ecl.Cov
open scoped Matrix

/-- velocity relative to the air in body axes: `R(q)ᵀ (v - w)` -/
def Spec.bodyAir {K : Type*} [Field K] (s : Vec K) : V3 K := (attQuat s).dcmᵀ *ᵥ ![s 4 - s 22, s 5 - s 23, s 6]

section
variable {K : Type*} [Field K]

theorem bodyAir_0 (s : Vec K) : Spec.bodyAir s 0 = (s 0 * s 0 + s 1 * s 1 - s 2 * s 2 - s 3 * s 3) * (s 4 - s 22)
    + 2 * (s 1 * s 2 + s 0 * s 3) * (s 5 - s 23) + 2 * (s 1 * s 3 - s 0 * s 2) * s 6 := by
  simp [Spec.bodyAir, attQuat, Quat.dcm, Matrix.mulVec, dotProduct, Fin.sum_univ_three]

theorem bodyAir_1 (s : Vec K) : Spec.bodyAir s 1 = 2 * (s 1 * s 2 - s 0 * s 3) * (s 4 - s 22)
    + (s 0 * s 0 - s 1 * s 1 + s 2 * s 2 - s 3 * s 3) * (s 5 - s 23) + 2 * (s 0 * s 1 + s 2 * s 3) * s 6 := by
  simp [Spec.bodyAir, attQuat, Quat.dcm, Matrix.mulVec, dotProduct, Fin.sum_univ_three]

theorem bodyAir_2 (s : Vec K) : Spec.bodyAir s 2 = 2 * (s 0 * s 2 + s 1 * s 3) * (s 4 - s 22)
    + 2 * (s 2 * s 3 - s 0 * s 1) * (s 5 - s 23) + (s 0 * s 0 - s 1 * s 1 - s 2 * s 2 + s 3 * s 3) * s 6 := by
  simp [Spec.bodyAir, attQuat, Quat.dcm, Matrix.mulVec, dotProduct, Fin.sum_univ_three]

/-- `rel_wind_body`, EKF/sideslip_fusion.cpp:66-69, EKF/drag_fusion.cpp:78-80 -/
def relWindBody (s : Vec K) : V3 K := Utils.quatToInverseRotMat (attQuat s) *ᵥ ![s 4 - s 22, s 5 - s 23, s 6]

theorem relWindBody_eq (s : Vec K) : relWindBody s = Spec.bodyAir s := by
  funext i
  fin_cases i
  · show relWindBody s 0 = Spec.bodyAir s 0
    rw [bodyAir_0]
    simp [relWindBody, attQuat, Utils.quatToInverseRotMat, Matrix.mulVec, dotProduct, Fin.sum_univ_three]
  · show relWindBody s 1 = Spec.bodyAir s 1
    rw [bodyAir_1]
    simp [relWindBody, attQuat, Utils.quatToInverseRotMat, Matrix.mulVec, dotProduct, Fin.sum_univ_three]
    left; left; ring
  · show relWindBody s 2 = Spec.bodyAir s 2
    rw [bodyAir_2]
    simp [relWindBody, attQuat, Utils.quatToInverseRotMat, Matrix.mulVec, dotProduct, Fin.sum_univ_three]
    left; left; ring

end

noncomputable section

/-- inputs of `fuseSideslip` -/
structure BetaIn where
  betaNoise : ℝ
  gate : ℝ
  now : UInt64
  /-- `_is_wind_dead_reckoning` -/
  windDR : Bool
  fx : FixIn ℝ
  ini : InitIn
  wr : WindResetIn

/-- state of `fuseSideslip` -/
structure BetaSt where
  f : Filt
  /-- `_fault_status.flags.bad_sideslip` -/
  bad : Bool
  /-- `_innov_check_fail_status.flags.reject_sideslip` -/
  reject : Bool
  /-- `_time_last_beta_fuse` -/
  lastFuse : UInt64
  innov : ℝ
  innovVar : ℝ
  testRatio : ℝ

/-- `fuseSideslip`, EKF/sideslip_fusion.cpp:48-214.  Division by a zero forward speed is 0 here (infinite in the code). -/
def fuseSideslip (x : BetaIn) (st : BetaSt) : BetaSt :=
  let P := st.f.P
  let s := st.f.s
  let w := relWindBody s
  if Real.sqrt (w 0 ^ 2 + w 1 ^ 2 + w 2 ^ 2) > 7 then
    let R := sq x.betaNoise
    let windOnly := !x.windDR
    let S := Beta.S P s R 0 0
    let st := { st with innovVar := S }
    if S < R then { st with bad := true, f := windFault x.wr x.ini windOnly st.f }
    else
      let st := { st with bad := false }
      let innov := w 1 / w 0
      let st := { st with innov := innov, testRatio := sq innov / (sq (max x.gate 1) * S) }
      if st.testRatio > 1 then { st with reject := true }
      else
        let st := { st with reject := false }
        let H := sparse (Beta.hList P s R 0 0)
        let k := Beta.gain (!windOnly) P s R 0 0
        let r := update x.fx k H innov st.f
        let st := { st with f := r.1, bad := !r.2 }
        if r.2 then { st with lastFuse := x.now } else st
  else st

/-- small-angle sideslip: lateral over forward air velocity in body axes -/
def Spec.sideslip (s : Vec ℝ) : ℝ := Spec.bodyAir s 1 / Spec.bodyAir s 0

end

theorem sideslip_gradient (s : Vec ℝ) (P : Mat ℝ) (R : ℝ) (hv : Spec.bodyAir s 0 ≠ 0) :
    Spec.IsGradient Spec.sideslip s (sparse (Beta.hList P s R 0 0)) := by
  intro d
  rw [sum_sparse_mul]
  have h15 : Beta.HK15 P s R 0 0 = Spec.bodyAir s 0 := by
    rw [bodyAir_0]
    simp only [Beta.HK15, Beta.HK0, Beta.HK14, Beta.HK1, Beta.HK7, Beta.HK3, Beta.HK4, Beta.HK5, Beta.HK6, Beta.HK10, Beta.HK13,
      Beta.HK8, Beta.HK9, Beta.HK11, Beta.HK12]
    ring
  have h19 : Beta.HK19 P s R 0 0 = Spec.bodyAir s 1 / Spec.bodyAir s 0 := by
    simp only [Beta.HK19, Beta.HK16, h15]
    rw [bodyAir_1]
    simp only [Beta.HK0, Beta.HK1, Beta.HK4, Beta.HK5, Beta.HK6, Beta.HK17, Beta.HK18, Beta.HK10,
      Beta.HK8, Beta.HK9, Beta.HK11, Beta.HK12]
    ring
  have hd0 : HasDerivAt (fun t : ℝ => Spec.bodyAir (fun j => s j + t * d j) 0)
      (2 * (s 0 * (s 4 - s 22) + s 3 * (s 5 - s 23) - s 2 * s 6) * d 0 + 2 * (s 1 * (s 4 - s 22) + s 2 * (s 5 - s 23) + s 3 * s 6) * d 1
       + 2 * (-s 2 * (s 4 - s 22) + s 1 * (s 5 - s 23) - s 0 * s 6) * d 2 + 2 * (-s 3 * (s 4 - s 22) + s 0 * (s 5 - s 23) + s 1 * s 6) * d 3
       + (s 0 * s 0 + s 1 * s 1 - s 2 * s 2 - s 3 * s 3) * (d 4 - d 22) + 2 * (s 1 * s 2 + s 0 * s 3) * (d 5 - d 23)
       + 2 * (s 1 * s 3 - s 0 * s 2) * d 6) 0 := by
    refine hasDerivAt_of_cubic fun t => ?_
    simp only [bodyAir_0]; ring
  have hd1 : HasDerivAt (fun t : ℝ => Spec.bodyAir (fun j => s j + t * d j) 1)
      (2 * (-s 3 * (s 4 - s 22) + s 0 * (s 5 - s 23) + s 1 * s 6) * d 0 + 2 * (s 2 * (s 4 - s 22) - s 1 * (s 5 - s 23) + s 0 * s 6) * d 1
       + 2 * (s 1 * (s 4 - s 22) + s 2 * (s 5 - s 23) + s 3 * s 6) * d 2 + 2 * (-s 0 * (s 4 - s 22) - s 3 * (s 5 - s 23) + s 2 * s 6) * d 3
       + 2 * (s 1 * s 2 - s 0 * s 3) * (d 4 - d 22) + (s 0 * s 0 - s 1 * s 1 + s 2 * s 2 - s 3 * s 3) * (d 5 - d 23)
       + 2 * (s 0 * s 1 + s 2 * s 3) * d 6) 0 := by
    refine hasDerivAt_of_cubic fun t => ?_
    simp only [bodyAir_1]; ring
  have hz : (fun j : Fin N => s j + (0 : ℝ) * d j) = s := by funext j; ring
  have h := hd1.div hd0 (by rw [hz]; exact hv)
  refine h.congr_deriv ?_
  simp only [hz]
  simp only [Beta.hList, List.map_cons, List.map_nil, List.sum_cons, List.sum_nil]
  simp only [Beta.HK21, Beta.HK22, Beta.HK25, Beta.HK26, Beta.HK27, Beta.HK28, Beta.HK29, Beta.HK30, Beta.HK31, Beta.HK32, Beta.HK16,
    h15, h19]
  simp only [Beta.HK0, Beta.HK1, Beta.HK2, Beta.HK20, Beta.HK23, Beta.HK24, Beta.HK14, Beta.HK7, Beta.HK3, Beta.HK5, Beta.HK6,
    Beta.HK10, Beta.HK13, Beta.HK17, Beta.HK18, Beta.HK8, Beta.HK9, Beta.HK11, Beta.HK12]
  generalize Spec.bodyAir s 0 = u at hv ⊢
  generalize Spec.bodyAir s 1 = w
  field_simp
  ring

/-- **C30.** Sideslip fusion.  With an airspeed of at most 7 m/s nothing happens; otherwise, unless the air comes exactly
from the side, there is a row `H`, the gradient of the sideslip, such that the update is a Kalman update of a zero
measurement, analogously to airspeed. -/
theorem sideslip_fusion (x : BetaIn) (st : BetaSt) (hs : ∀ i j, st.f.P i j = st.f.P j i) :
    let speed := Real.sqrt (∑ i, Spec.bodyAir st.f.s i ^ 2)
    let b := Spec.sideslip st.f.s
    let R := x.betaNoise ^ 2
    (speed ≤ 7 → fuseSideslip x st = st) ∧
    (7 < speed → Spec.bodyAir st.f.s 0 ≠ 0 → 0 < R → ∃ H : Vec ℝ, Spec.IsGradient Spec.sideslip st.f.s H ∧
      let S := Spec.innovVar st.f.P H R
      let r := update x.fx (Spec.gain st.f.P H R (fun i => x.windDR = true ∨ 22 ≤ i.val)) H b st.f
      (S < R → fuseSideslip x st =
        { st with innovVar := S, f := windFault x.wr x.ini (!x.windDR) st.f, bad := true }) ∧
      (R ≤ S → (max x.gate 1) ^ 2 * S < b ^ 2 → fuseSideslip x st =
        { st with innovVar := S, bad := false, innov := b, testRatio := b ^ 2 / ((max x.gate 1) ^ 2 * S), reject := true }) ∧
      (R ≤ S → b ^ 2 ≤ (max x.gate 1) ^ 2 * S → fuseSideslip x st =
        { f := r.1, bad := !r.2, reject := false, innov := b, innovVar := S,
          testRatio := b ^ 2 / ((max x.gate 1) ^ 2 * S),
          lastFuse := if r.2 then x.now else st.lastFuse })) := by
  intro speed b R
  have hR : sq x.betaNoise = R := (pow_two _).symm
  have hw : Real.sqrt (relWindBody st.f.s 0 ^ 2 + relWindBody st.f.s 1 ^ 2 + relWindBody st.f.s 2 ^ 2) = speed := by
    show _ = Real.sqrt _
    rw [Fin.sum_univ_three, relWindBody_eq]
  have hb : relWindBody st.f.s 1 / relWindBody st.f.s 0 = b := by rw [relWindBody_eq]; rfl
  unfold fuseSideslip
  simp only [hR, hw, hb]
  constructor
  · intro h; rw [if_neg (not_lt.mpr h)]
  · intro h hne hR0
    refine ⟨sparse (Beta.hList st.f.P st.f.s R 0 0), sideslip_gradient _ _ _ hne, ?_⟩
    have hS := Beta.S_eq st.f.P st.f.s R 0 0 hs
    have hk : Beta.gain (!!x.windDR) st.f.P st.f.s R 0 0 =
        Spec.gain st.f.P (sparse (Beta.hList st.f.P st.f.s R 0 0)) R (fun i => x.windDR = true ∨ 22 ≤ i.val) := by
      funext i
      rw [Beta.gain_eq _ _ _ _ _ _ hs]
      unfold Spec.gain
      rw [Bool.not_not]
    rw [if_pos h]
    simp only [hS, hk]
    generalize Spec.innovVar st.f.P (sparse (Beta.hList st.f.P st.f.s R 0 0)) R = S
    have hg : ∀ y : ℝ, sq y = y ^ 2 := fun y => (pow_two y).symm
    have hpos : R ≤ S → 0 < (max x.gate 1) ^ 2 * S := fun h => by
      have : (1 : ℝ) ≤ max x.gate 1 := le_max_right _ _
      have : 0 < (max x.gate 1) ^ 2 := by positivity
      exact mul_pos this (by linarith)
    refine ⟨?_, ?_, ?_⟩
    · intro h1; rw [if_pos h1]
    · intro h1 h2
      rw [if_neg (not_lt.mpr h1)]
      rw [if_pos]
      · simp only [hg]
      · show sq _ / _ > 1
        rw [gt_iff_lt, hg, hg, one_lt_div (hpos h1)]; exact h2
    · intro h1 h2
      rw [if_neg (not_lt.mpr h1)]
      rw [if_neg]
      · simp only [hg]
        split <;> simp_all
      · show ¬ sq _ / _ > 1
        rw [gt_iff_lt, hg, hg, one_lt_div (hpos h1), not_lt]; exact h2

/-- **C30 (valid covariance).** With a valid covariance the conditioning fault cannot occur, and every sample inside the
gate is fused. -/
theorem sideslip_always_fused (x : BetaIn) (st : BetaSt) (hP : Spec.PSD st.f.P) (hn : x.betaNoise ≠ 0)
    (hv : 7 < Real.sqrt (∑ i, Spec.bodyAir st.f.s i ^ 2)) (hx : Spec.bodyAir st.f.s 0 ≠ 0) :
    (fuseSideslip x st).bad = false ∧
    ((fuseSideslip x st).reject = false → (fuseSideslip x st).lastFuse = x.now) ∧
    ((fuseSideslip x st).reject = true → (fuseSideslip x st).f = st.f ∧ (fuseSideslip x st).lastFuse = st.lastFuse) := by
  have hR0 : 0 < x.betaNoise ^ 2 := by positivity
  obtain ⟨H, -, h1, h2, h3⟩ := (sideslip_fusion x st hP.symm).2 hv hx hR0
  have hS := innovVar_ge hP H (x.betaNoise ^ 2)
  rcases lt_or_ge ((max x.gate 1) ^ 2 * Spec.innovVar st.f.P H (x.betaNoise ^ 2)) (Spec.sideslip st.f.s ^ 2) with hg | hg
  · rw [h2 hS hg]; simp
  · rw [h3 hS hg]
    have := (update_applied x.fx H _ hR0 (fun i => x.windDR = true ∨ 22 ≤ i.val) (Spec.sideslip st.f.s) st.f hP).1
    simp [this]

/-- the speed gate does not exclude a zero forward component, where the sideslip and its gradient do not exist: unit
attitude, 10 m/s to the east -/
theorem sideslip_gate_admits_zero_forward : ∃ s : Vec ℝ, (attQuat s).normSq = 1 ∧
    7 < Real.sqrt (∑ i, Spec.bodyAir s i ^ 2) ∧ Spec.bodyAir s 0 = 0 := by
  refine ⟨fun i => if i = 0 then 1 else if i = 5 then 10 else 0, ?_, ?_, ?_⟩
  · simp [attQuat, Quat.normSq]
  · rw [Fin.sum_univ_three, bodyAir_0, bodyAir_1, bodyAir_2, Real.lt_sqrt (by norm_num)]
    simp
    norm_num
  · rw [bodyAir_0]; simp

example : 7 < Real.sqrt (∑ i, Spec.bodyAir exState i ^ 2) ∧ Spec.bodyAir exState 0 ≠ 0 := by
  constructor
  · rw [Fin.sum_univ_three, bodyAir_0, bodyAir_1, bodyAir_2]
    simp [exState]
    norm_num
  · rw [bodyAir_0]; simp [exState]

end Ecl.Fusion
