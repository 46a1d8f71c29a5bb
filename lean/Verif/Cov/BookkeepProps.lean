import Verif.Cov.Props2
import Verif.Cov.Bookkeep
import Mathlib.Analysis.SpecialFunctions.Trigonometric.Deriv
import Mathlib.Tactic.IntervalCases

/-!
# Yaw variance increase, wind covariance reset, magnetometer covariance bookkeeping, bias-learning inhibition, process
noise (C60, C75, C76, C77, C78)
-/

namespace Ecl.Cov

open Finset

set_option linter.unusedSectionVars false

section
variable {K : Type*} [Field K] [LinearOrder K] [IsStrictOrderedRing K]

/-! ### C60 -/

/-- sensitivity of the attitude quaternion to a rotation about the earth vertical: `½ k ⊗ q` -/
def Spec.yawDir (q : Quat K) (i : Fin N) : K :=
  if i.val = 0 then -q.z / 2 else if i.val = 1 then -q.y / 2 else if i.val = 2 then q.x / 2 else if i.val = 3 then q.w / 2 else 0

/-- **C60.** For a unit quaternion the covariance grows by `min v 0.01` times the outer product of the yaw sensitivity;
nothing else changes. -/
theorem yaw_variance_increase (q : Quat K) (hq : q.w ^ 2 + q.x ^ 2 + q.y ^ 2 + q.z ^ 2 = 1) (v : K) (P : Mat K) (i j : Fin N) :
    increaseQuatYawErrVariance q v P i j = P i j + min v (1 / 100) * (Spec.yawDir q i * Spec.yawDir q j) := by
  have e0 : 1 / 2 * ((q.x * (sq q.w - sq q.x - sq q.y + sq q.z)) - (q.w * (2 * q.w * q.x + 2 * q.y * q.z)) +
      (q.z * (2 * q.w * q.y - 2 * q.x * q.z))) = -(q.x / 2) := by
    unfold sq; linear_combination (-(q.x) / 2) * hq
  have e1 : 1 / 2 * ((q.w * (2 * q.w * q.y - 2 * q.x * q.z)) - (q.y * (sq q.w - sq q.x - sq q.y + sq q.z)) +
      (q.z * (2 * q.w * q.x + 2 * q.y * q.z))) = q.y / 2 := by
    unfold sq; linear_combination (q.y / 2) * hq
  have e2 : 1 / 2 * ((q.z * (sq q.w - sq q.x - sq q.y + sq q.z)) - (q.x * (2 * q.w * q.y - 2 * q.x * q.z)) +
      (q.y * (2 * q.w * q.x + 2 * q.y * q.z))) = q.z / 2 := by
    unfold sq; linear_combination (q.z / 2) * hq
  have e3 : 1 / 2 * ((q.w * (sq q.w - sq q.x - sq q.y + sq q.z)) + (q.x * (2 * q.w * q.x + 2 * q.y * q.z)) +
      (q.y * (2 * q.w * q.y - 2 * q.x * q.z))) = q.w / 2 := by
    unfold sq; linear_combination (q.w / 2) * hq
  unfold increaseQuatYawErrVariance
  split
  · next h =>
    congr 1
    obtain ⟨i, hi⟩ := i
    obtain ⟨j, hj⟩ := j
    obtain ⟨h1, h2⟩ := h
    simp only at h1 h2
    simp only [yawVarInc, e0, e1, e2, e3, Spec.yawDir]
    interval_cases i <;> interval_cases j <;> simp [sq, -mul_eq_mul_left_iff] <;> ring
  · next h =>
    have : Spec.yawDir q i = 0 ∨ Spec.yawDir q j = 0 := by
      by_cases hi : i.val < 4
      · right
        have : ¬ j.val < 4 := fun hj => h ⟨hi, hj⟩
        unfold Spec.yawDir
        rw [if_neg (by omega), if_neg (by omega), if_neg (by omega), if_neg (by omega)]
      · left; unfold Spec.yawDir
        rw [if_neg (by omega), if_neg (by omega), if_neg (by omega), if_neg (by omega)]
    rcases this with e | e <;> rw [e] <;> ring

/-- **C60.** A valid covariance stays valid and no variance decreases. -/
theorem yaw_variance_increase_valid (q : Quat K) (hq : q.w ^ 2 + q.x ^ 2 + q.y ^ 2 + q.z ^ 2 = 1) (v : K) (hv : 0 ≤ v) (P : Mat K)
    (hP : Spec.PSD P) :
    Spec.PSD (increaseQuatYawErrVariance q v P) ∧ ∀ i, P i i ≤ increaseQuatYawErrVariance q v P i i := by
  have hm : 0 ≤ min v (1 / 100 : K) := le_min hv (by norm_num)
  refine ⟨psd_congr (fun i j => yaw_variance_increase q hq v P i j) (psd_add hP (psd_outer _ hm)), fun i => ?_⟩
  rw [yaw_variance_increase q hq v P i i]
  have := mul_nonneg hm (mul_self_nonneg (Spec.yawDir q i))
  linarith

/-- Non-vacuity: a unit quaternion with all components. -/
example : ((1 : ℚ) / 2) ^ 2 + (1 / 2) ^ 2 + (-1 / 2) ^ 2 + (1 / 2) ^ 2 = 1 := by norm_num

end

/-- **C60 (meaning of the direction).** `Spec.yawDir` is the derivative, at zero, of the attitude rotated about the earth
vertical by an angle. -/
theorem yawDir_is_derivative (q : Quat ℝ) :
    let r : ℝ → Quat ℝ := fun ψ => (⟨Real.cos (ψ / 2), 0, 0, Real.sin (ψ / 2)⟩ : Quat ℝ).mul q
    HasDerivAt (fun ψ => (r ψ).w) (Spec.yawDir q 0) 0 ∧ HasDerivAt (fun ψ => (r ψ).x) (Spec.yawDir q 1) 0 ∧
    HasDerivAt (fun ψ => (r ψ).y) (Spec.yawDir q 2) 0 ∧ HasDerivAt (fun ψ => (r ψ).z) (Spec.yawDir q 3) 0 := by
  intro r
  have hc : HasDerivAt (fun ψ : ℝ => Real.cos (ψ / 2)) 0 0 := by
    exact (((hasDerivAt_id (0 : ℝ)).div_const 2).cos).congr_deriv (by simp)
  have hs : HasDerivAt (fun ψ : ℝ => Real.sin (ψ / 2)) (1 / 2) 0 := by
    exact (((hasDerivAt_id (0 : ℝ)).div_const 2).sin).congr_deriv (by simp)
  have key : ∀ a b : ℝ, HasDerivAt (fun ψ : ℝ => Real.cos (ψ / 2) * a + Real.sin (ψ / 2) * b) (b / 2) 0 := by
    intro a b
    exact ((hc.mul_const a).add (hs.mul_const b)).congr_deriv (by ring)
  refine ⟨?_, ?_, ?_, ?_⟩
  · have e : (fun ψ => (r ψ).w) = fun ψ : ℝ => Real.cos (ψ / 2) * q.w + Real.sin (ψ / 2) * (-q.z) := by
      funext ψ; simp only [r, Quat.mul]; ring
    rw [e]
    exact (key _ _).congr_deriv rfl
  · have e : (fun ψ => (r ψ).x) = fun ψ : ℝ => Real.cos (ψ / 2) * q.x + Real.sin (ψ / 2) * (-q.y) := by
      funext ψ; simp only [r, Quat.mul]; ring
    rw [e]
    exact (key _ _).congr_deriv rfl
  · have e : (fun ψ => (r ψ).y) = fun ψ : ℝ => Real.cos (ψ / 2) * q.y + Real.sin (ψ / 2) * q.x := by
      funext ψ; simp only [r, Quat.mul]; ring
    rw [e]
    exact (key _ _).congr_deriv rfl
  · have e : (fun ψ => (r ψ).z) = fun ψ : ℝ => Real.cos (ψ / 2) * q.z + Real.sin (ψ / 2) * q.w := by
      funext ψ; simp only [r, Quat.mul]; ring
    rw [e]
    exact (key _ _).congr_deriv rfl

/-! ### C75: wind covariance reset -/

/-- **C75.** With fresh airspeed the wind states are decorrelated from all others and their 2×2 covariance is: airspeed
error along the heading, sideslip error (15 degrees) across it, 10 degrees of yaw error acting on the wind vector, plus
the horizontal velocity variances. -/
theorem resetWind_with_airspeed (x : WindIn) (P : Mat ℝ) (hr : x.tasReady = true) (ht : x.tasTime ≤ x.imuTime)
    (hf : x.imuTime.toNat - x.tasTime.toNat < 500000) (i j : Fin N) :
    let along := (max (1 / 2) (min x.easNoise 5) * max (9 / 10) (min x.eas2tas 10)) ^ 2
    let across := (x.tas * Real.sin (Real.pi / 12)) ^ 2
    let yawVar := (Real.pi / 18) ^ 2
    let u : Fin N → ℝ := fun i => if i = 22 then Real.cos x.yaw else Real.sin x.yaw
    let w : Fin N → ℝ := fun i => if i = 22 then -Real.sin x.yaw else Real.cos x.yaw
    let t : Fin N → ℝ := fun i => if i = 22 then -x.windE else x.windN
    (22 ≤ i.val → 22 ≤ j.val → resetWindCov x P i j = along * (u i * u j) + across * (w i * w j) + yawVar * (t i * t j) +
      if i = j then (if i = 22 then P 4 4 else P 5 5) else 0) ∧
    (22 ≤ i.val → j.val < 22 → resetWindCov x P i j = 0 ∧ resetWindCov x P j i = 0) ∧
    (i.val < 22 → j.val < 22 → resetWindCov x P i j = P i j) := by
  intro along across yawVar u w t
  have hc1 : constrain x.easNoise (1 / 2) 5 = max (1 / 2) (min x.easNoise 5) := constrain_eq (by norm_num)
  have hc2 : constrain x.eas2tas (9 / 10) 10 = max (9 / 10) (min x.eas2tas 10) := constrain_eq (by norm_num)
  have hr15 : radians 15 = Real.pi / 12 := by unfold radians; ring
  have hr10 : radians 10 = Real.pi / 18 := by unfold radians; ring
  have hcond : x.tasReady = true ∧ x.imuTime - x.tasTime < 500000 := by
    refine ⟨hr, ?_⟩
    rw [u64_lt_iff, u64_sub_toNat_of_le ht]
    exact hf
  have hcs := Real.sin_sq_add_cos_sq x.yaw
  have hW1 : -(x.windN * Real.cos x.yaw + x.windE * Real.sin x.yaw) * Real.sin x.yaw -
      (-x.windN * Real.sin x.yaw + x.windE * Real.cos x.yaw) * Real.cos x.yaw = -x.windE := by
    linear_combination (-x.windE) * hcs
  have hW2 : (x.windN * Real.cos x.yaw + x.windE * Real.sin x.yaw) * Real.cos x.yaw -
      (-x.windN * Real.sin x.yaw + x.windE * Real.cos x.yaw) * Real.sin x.yaw = x.windN := by
    linear_combination x.windN * hcs
  have h4 : uncorrSet 22 2 (fun _ => (0 : ℝ)) P 4 4 = P 4 4 := by
    unfold uncorrSet; rw [if_neg (by decide)]
  have h5 : uncorrSet 22 2 (fun _ => (0 : ℝ)) P 5 5 = P 5 5 := by
    unfold uncorrSet; rw [if_neg (by decide)]
  have hne : (22 : Fin N) ≠ 23 := by decide
  have hii : i.val < 24 := i.isLt
  have hjj : j.val < 24 := j.isLt
  unfold resetWindCov
  rw [if_pos hcond]
  simp only [hW1, hW2, h4, h5, hc1, hc2, hr15, hr10]
  have i22 : ∀ k : Fin N, 22 ≤ k.val → k = 22 ∨ k = 23 := by
    intro k hk
    have : k.val < 24 := k.isLt
    rcases Nat.lt_or_ge k.val 23 with h | h
    · left; ext; show k.val = 22; omega
    · right; ext; show k.val = 23; omega
  refine ⟨fun hi hj => ?_, fun hi hj => ?_, fun hi hj => ?_⟩
  · rcases i22 i hi with rfl | rfl <;> rcases i22 j hj with rfl | rfl <;>
      simp [hne, hne.symm, u, w, t, sq, along, across, yawVar] <;> ring
  · have n1 : j ≠ 22 := by rintro rfl; exact absurd hj (by decide)
    have n2 : j ≠ 23 := by rintro rfl; exact absurd hj (by decide)
    have nij : i ≠ j := by rintro rfl; omega
    simp only [n1, n2, and_false, false_and, if_false, or_self]
    unfold uncorrSet
    rw [if_pos (by left; unfold inBlk; omega), if_neg nij, if_pos (by right; unfold inBlk; omega), if_neg (Ne.symm nij)]
    exact ⟨rfl, rfl⟩
  · have n1 : i ≠ 22 := by rintro rfl; exact absurd hi (by decide)
    have n2 : i ≠ 23 := by rintro rfl; exact absurd hi (by decide)
    simp only [n1, n2, false_and, if_false, or_self]
    unfold uncorrSet
    rw [if_neg (by unfold inBlk; omega)]

/-- **C75.** Otherwise the wind states are decorrelated and both variances become the uncertainty parameter itself. -/
theorem resetWind_without_airspeed (x : WindIn) (P : Mat ℝ)
    (h : x.tasReady = false ∨ (x.tasTime ≤ x.imuTime ∧ 500000 ≤ x.imuTime.toNat - x.tasTime.toNat)) (i j : Fin N) :
    resetWindCov x P i j = if 22 ≤ i.val ∨ 22 ≤ j.val then (if i = j then x.initialWindUnc else 0) else P i j := by
  have hii : i.val < 24 := i.isLt
  have hjj : j.val < 24 := j.isLt
  have hn : ¬ (x.tasReady = true ∧ x.imuTime - x.tasTime < 500000) := by
    rintro ⟨h1, h2⟩
    rcases h with h | ⟨h, h'⟩
    · rw [h] at h1; cases h1
    · rw [u64_lt_iff, u64_sub_toNat_of_le h] at h2
      exact absurd h2 (not_lt.mpr h')
  unfold resetWindCov
  rw [if_neg hn]
  unfold uncorrSet
  have : (inBlk 22 2 i ∨ inBlk 22 2 j) ↔ (22 ≤ i.val ∨ 22 ≤ j.val) := by unfold inBlk; omega
  simp only [this]

/-- **C75 (finding).** The parameter is an uncertainty (standard deviation) elsewhere (initial variance is its square); in
this reset it is used as a variance, so for the default 1 m/s they agree, for any other positive value they do not. -/
theorem resetWind_units (x : WindIn) (P : Mat ℝ) (h : x.tasReady = false) (hp : 0 < x.initialWindUnc) :
    resetWindCov x P 22 22 = x.initialWindUnc ^ 2 ↔ x.initialWindUnc = 1 := by
  rw [resetWind_without_airspeed x P (Or.inl h)]
  rw [if_pos (by left; decide), if_pos rfl]
  constructor
  · intro e
    have : x.initialWindUnc * (x.initialWindUnc - 1) = 0 := by linear_combination -e
    rcases mul_eq_zero.mp this with h | h
    · linarith
    · linarith
  · intro e; rw [e]; norm_num

/-- **C75.** From a valid covariance the reset gives a valid covariance (non-negative uncertainty parameter, time stamps in
order). -/
theorem resetWind_valid (x : WindIn) (P : Mat ℝ) (hP : Spec.PSD P) (hu : 0 ≤ x.initialWindUnc) (ht : x.tasTime ≤ x.imuTime) :
    Spec.PSD (resetWindCov x P) := by
  by_cases hc : x.tasReady = true ∧ x.imuTime.toNat - x.tasTime.toNat < 500000
  · have key := resetWind_with_airspeed x P hc.1 ht hc.2
    have i22 : ∀ k : Fin N, (k = 22 ∨ k = 23) ↔ 22 ≤ k.val := by
      intro k
      have : k.val < 24 := k.isLt
      constructor
      · rintro (rfl | rfl) <;> decide
      · intro hk
        rcases Nat.lt_or_ge k.val 23 with h | h
        · left; ext; show k.val = 22; omega
        · right; ext; show k.val = 23; omega
    refine psd_congr (P := fun i j => uncorrSet 22 2 (fun k => if k = 22 then P 4 4 else P 5 5) P i j +
      (((max (1 / 2) (min x.easNoise 5) * max (9 / 10) (min x.eas2tas 10)) ^ 2 *
        ((if 22 ≤ i.val then (if i = 22 then Real.cos x.yaw else Real.sin x.yaw) else 0) *
         (if 22 ≤ j.val then (if j = 22 then Real.cos x.yaw else Real.sin x.yaw) else 0)) +
      (x.tas * Real.sin (Real.pi / 12)) ^ 2 *
        ((if 22 ≤ i.val then (if i = 22 then -Real.sin x.yaw else Real.cos x.yaw) else 0) *
         (if 22 ≤ j.val then (if j = 22 then -Real.sin x.yaw else Real.cos x.yaw) else 0))) +
      (Real.pi / 18) ^ 2 *
        ((if 22 ≤ i.val then (if i = 22 then -x.windE else x.windN) else 0) *
         (if 22 ≤ j.val then (if j = 22 then -x.windE else x.windN) else 0)))) (fun i j => ?_)
      (psd_add (psd_uncorrSet hP ?_) (psd_add (psd_add (psd_outer (fun k : Fin N =>
        if 22 ≤ k.val then (if k = 22 then Real.cos x.yaw else Real.sin x.yaw) else 0) (sq_nonneg _))
        (psd_outer (fun k : Fin N => if 22 ≤ k.val then (if k = 22 then -Real.sin x.yaw else Real.cos x.yaw) else 0) (sq_nonneg _)))
        (psd_outer (fun k : Fin N => if 22 ≤ k.val then (if k = 22 then -x.windE else x.windN) else 0) (sq_nonneg _))))
    · obtain ⟨k1, k2, k3⟩ := key i j
      have hii : i.val < 24 := i.isLt
      have hjj : j.val < 24 := j.isLt
      by_cases hi : 22 ≤ i.val <;> by_cases hj : 22 ≤ j.val
      · rw [k1 hi hj]; unfold uncorrSet
        rw [if_pos (Or.inl (by unfold inBlk; omega))]
        simp only [hi, hj, if_true]; ring
      · rw [(k2 hi (by omega)).1]; unfold uncorrSet
        have nij : i ≠ j := by rintro rfl; omega
        rw [if_pos (by left; unfold inBlk; omega), if_neg nij]
        simp only [hj, if_false]; ring
      · rw [((key j i).2.1 hj (by omega)).2]; unfold uncorrSet
        have nij : i ≠ j := by rintro rfl; omega
        rw [if_pos (by right; unfold inBlk; omega), if_neg nij]
        simp only [hi, if_false]; ring
      · rw [k3 (by omega) (by omega)]; unfold uncorrSet
        rw [if_neg (by unfold inBlk; omega)]
        simp only [hi, hj, if_false]; ring
    · intro i _; split
      · exact diag_nonneg hP 4
      · exact diag_nonneg hP 5
  · have h : x.tasReady = false ∨ (x.tasTime ≤ x.imuTime ∧ 500000 ≤ x.imuTime.toNat - x.tasTime.toNat) := by
      by_cases h1 : x.tasReady = true
      · right; exact ⟨ht, not_lt.mp fun h2 => hc ⟨h1, h2⟩⟩
      · left; simpa using h1
    refine psd_congr (P := uncorrSet 22 2 (fun _ => x.initialWindUnc) P) (fun i j => ?_) (psd_uncorrSet hP fun _ _ => hu)
    rw [resetWind_without_airspeed x P h]
    have hii : i.val < 24 := i.isLt
    have hjj : j.val < 24 := j.isLt
    unfold uncorrSet
    have : (inBlk 22 2 i ∨ inBlk 22 2 j) ↔ (22 ≤ i.val ∨ 22 ≤ j.val) := by unfold inBlk; omega
    simp only [this]

/-- Non-vacuity: airspeed 0.1 s old. -/
example : ∃ x : WindIn, x.tasReady = true ∧ x.tasTime ≤ x.imuTime ∧ x.imuTime.toNat - x.tasTime.toNat < 500000 ∧ 0 ≤ x.initialWindUnc :=
  ⟨⟨true, 1100000, 1000000, 0, 1, 1, 15, 3, -2, 1⟩, rfl, by decide, by decide, by norm_num⟩

end Ecl.Cov
