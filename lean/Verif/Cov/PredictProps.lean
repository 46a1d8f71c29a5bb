import Verif.Cov.PredictModel
import Verif.Cov.PredictGenA
import Verif.Cov.PredictGenB
import Verif.Cov.PredictGenC
import Verif.Cov.PredictGenD
import Verif.Cov.Props2
import Mathlib.LinearAlgebra.Pi
import Mathlib.Analysis.Calculus.Deriv.Mul
import Mathlib.Analysis.Calculus.Deriv.Pow
import Mathlib.Analysis.Calculus.Deriv.Add

/-!
# Covariance prediction (C27, C82)
-/

set_option linter.unusedSectionVars false
set_option linter.unusedSimpArgs false

namespace Ecl.Cov

section alg
variable {K : Type*} [Field K] [LinearOrder K] [IsStrictOrderedRing K]

/-- the transition Jacobian as a matrix -/
def matF (x : PredIn K) : Mat K := fun i j => rowF x i (Pi.single j 1)

theorem fin_cases10 (i : Fin N) : 10 ≤ i.val ∨ i = 0 ∨ i = 1 ∨ i = 2 ∨ i = 3 ∨ i = 4 ∨ i = 5 ∨ i = 6 ∨ i = 7 ∨ i = 8 ∨ i = 9 := by
  simp only [Fin.ext_iff]
  have := i.isLt
  show 10 ≤ i.val ∨ i.val = 0 ∨ i.val = 1 ∨ i.val = 2 ∨ i.val = 3 ∨ i.val = 4 ∨ i.val = 5 ∨ i.val = 6 ∨ i.val = 7 ∨
    i.val = 8 ∨ i.val = 9
  omega

theorem rowF_ge (x : PredIn K) (i : Fin N) (h : 10 ≤ i.val) (y : Fin N → K) : rowF x i y = y i := by
  revert i
  intro ⟨i, hi⟩ h
  have h' : 10 ≤ i := h
  match i, hi, h' with
  | 10, _, _ => rfl
  | 11, _, _ => rfl
  | 12, _, _ => rfl
  | 13, _, _ => rfl
  | 14, _, _ => rfl
  | 15, _, _ => rfl
  | 16, _, _ => rfl
  | 17, _, _ => rfl
  | 18, _, _ => rfl
  | 19, _, _ => rfl
  | 20, _, _ => rfl
  | 21, _, _ => rfl
  | 22, _, _ => rfl
  | 23, _, _ => rfl
  | k + 24, h, _ => exact absurd h (by show ¬ k + 24 < 24; omega)

theorem rowF_add (x : PredIn K) (i : Fin N) (y z : Fin N → K) : rowF x i (y + z) = rowF x i y + rowF x i z := by
  rcases fin_cases10 i with h | h | h | h | h | h | h | h | h | h | h
  · simp only [rowF_ge x i h]; rfl
  all_goals
    subst h
    simp only [rowF_0 (fun _ _ => (0 : K)), rowF_1 (fun _ _ => (0 : K)), rowF_2 (fun _ _ => (0 : K)), rowF_3 (fun _ _ => (0 : K)),
      rowF_4 (fun _ _ => (0 : K)), rowF_5 (fun _ _ => (0 : K)), rowF_6 (fun _ _ => (0 : K)), rowF_7, rowF_8, rowF_9, Pi.add_apply]
    ring

theorem rowF_smul (x : PredIn K) (i : Fin N) (a : K) (y : Fin N → K) : rowF x i (a • y) = a * rowF x i y := by
  rcases fin_cases10 i with h | h | h | h | h | h | h | h | h | h | h
  · simp only [rowF_ge x i h]; rfl
  all_goals
    subst h
    simp only [rowF_0 (fun _ _ => (0 : K)), rowF_1 (fun _ _ => (0 : K)), rowF_2 (fun _ _ => (0 : K)), rowF_3 (fun _ _ => (0 : K)),
      rowF_4 (fun _ _ => (0 : K)), rowF_5 (fun _ _ => (0 : K)), rowF_6 (fun _ _ => (0 : K)), rowF_7, rowF_8, rowF_9, Pi.smul_apply, smul_eq_mul]
    ring

theorem rowF_eq_sum (x : PredIn K) (i : Fin N) (y : Fin N → K) : rowF x i y = ∑ j, matF x i j * y j := by
  let L : (Fin N → K) →ₗ[K] K :=
    { toFun := rowF x i, map_add' := rowF_add x i, map_smul' := fun a y => by rw [rowF_smul]; rfl }
  have h := LinearMap.pi_apply_eq_sum_univ L y
  have h2 : L y = rowF x i y := rfl
  rw [← h2, h]
  refine Finset.sum_congr rfl fun j _ => ?_
  have e : (fun k : Fin N => if j = k then (1 : K) else 0) = Pi.single j 1 := by
    funext k; simp [Pi.single_apply, eq_comm]
  rw [smul_eq_mul, mul_comm, e]
  rfl

/-- `A M Aᵀ` -/
def Spec.sandwich {n m : Type*} [Fintype m] (A : n → m → K) (M : m → m → K) : n → n → K := fun i j =>
  ∑ k, ∑ l, A i k * M k l * A j l

theorem rowF_rowF (x : PredIn K) (i j : Fin N) (P : Mat K) :
    rowF x i (fun k => rowF x j (fun l => P k l)) = Spec.sandwich (matF x) P i j := by
  rw [rowF_eq_sum]
  unfold Spec.sandwich
  refine Finset.sum_congr rfl fun k _ => ?_
  rw [rowF_eq_sum, Finset.mul_sum]
  exact Finset.sum_congr rfl fun l _ => by ring

theorem imuCov_sandwich (x : PredIn K) (i j : Fin N) :
    imuCov x i j = Spec.sandwich (matG x) (fun k l => if k = l then imuVar x k else 0) i j := by
  unfold imuCov Spec.sandwich
  refine Finset.sum_congr rfl fun k _ => ?_
  rw [Finset.sum_eq_single k]
  · simp only [if_true]
  · intro l _ h; simp only [if_neg (Ne.symm h)]; ring
  · intro h; exact absurd (Finset.mem_univ _) h

theorem nxAll_eq (P : Mat K) (x : PredIn K) (hs : ∀ i j, P i j = P j i) (i j : Fin N) (h : i ≤ j) :
    nxAll P x i.val j.val = rowF x i (fun k => rowF x j (fun l => P k l)) + imuCov x i j := by
  revert j h
  intro ⟨j, hj⟩ h
  match j, hj, h with
  | 0, _, h => exact nxCol0_eq P x hs i h
  | 1, _, h => exact nxCol1_eq P x hs i h
  | 2, _, h => exact nxCol2_eq P x hs i h
  | 3, _, h => exact nxCol3_eq P x hs i h
  | 4, _, h => exact nxCol4_eq P x hs i h
  | 5, _, h => exact nxCol5_eq P x hs i h
  | 6, _, h => exact nxCol6_eq P x hs i h
  | 7, _, h => exact nxCol7_eq P x hs i h
  | 8, _, h => exact nxCol8_eq P x hs i h
  | 9, _, h => exact nxCol9_eq P x hs i h
  | 10, _, h => exact nxCol10_eq P x hs i h
  | 11, _, h => exact nxCol11_eq P x hs i h
  | 12, _, h => exact nxCol12_eq P x hs i h
  | 13, _, h => exact nxCol13_eq P x hs i h
  | 14, _, h => exact nxCol14_eq P x hs i h
  | 15, _, h => exact nxCol15_eq P x hs i h
  | 16, _, h => exact nxCol16_eq P x hs i h
  | 17, _, h => exact nxCol17_eq P x hs i h
  | 18, _, h => exact nxCol18_eq P x hs i h
  | 19, _, h => exact nxCol19_eq P x hs i h
  | 20, _, h => exact nxCol20_eq P x hs i h
  | 21, _, h => exact nxCol21_eq P x hs i h
  | 22, _, h => exact nxCol22_eq P x hs i h
  | 23, _, h => exact nxCol23_eq P x hs i h
  | k + 24, hk, _ => exact absurd hk (by show ¬ k + 24 < 24; omega)

end alg

/-! ### The specification: propagation of the 24 states over one filter step

Attitude by the small-angle quaternion increment, velocity by the rotated corrected delta velocity plus gravity, position
by velocity times the step, everything else constant — the process model of EKF/python/ekf_derivation/main.py. -/

section spec

/-- small-angle quaternion of the bias corrected delta angle -/
noncomputable def Spec.dq (s : Fin N → ℝ) (u : Fin 6 → ℝ) : Quat ℝ := ⟨1, (u 0 - s 10) / 2, (u 1 - s 11) / 2, (u 2 - s 12) / 2⟩

/-- attitude part of the state vector -/
def Spec.att (s : Fin N → ℝ) : Quat ℝ := ⟨s 0, s 1, s 2, s 3⟩

/-- the propagated state -/
noncomputable def Spec.propagate (dt g : ℝ) (s : Fin N → ℝ) (u : Fin 6 → ℝ) : Fin N → ℝ := fun i =>
  let q := (Spec.att s).mul (Spec.dq s u)
  let dv := (Spec.att s).dcm.mulVec ![u 3 - s 13, u 4 - s 14, u 5 - s 15]
  match i with
  | 0 => q.w | 1 => q.x | 2 => q.y | 3 => q.z
  | 4 => s 4 + dv 0 | 5 => s 5 + dv 1 | 6 => s 6 + dv 2 + g * dt
  | 7 => s 7 + s 4 * dt | 8 => s 8 + s 5 * dt | 9 => s 9 + s 6 * dt
  | i => s i

/-- `J` is the derivative (all directional derivatives) of `f` at `a` -/
def Spec.IsJacobian {n m : Type*} [Fintype m] (f : (m → ℝ) → n → ℝ) (a : m → ℝ) (J : n → m → ℝ) : Prop :=
  ∀ (i : n) (d : m → ℝ), HasDerivAt (fun t : ℝ => f (fun j => a j + t * d j) i) (∑ j, J i j * d j) 0

/-- scalars of the generated equations taken from a state, an IMU sample and input variances -/
def predIn (s : Fin N → ℝ) (u v : Fin 6 → ℝ) (dt : ℝ) : PredIn ℝ :=
  { q0 := s 0, q1 := s 1, q2 := s 2, q3 := s 3, dax := u 0, day := u 1, daz := u 2, dvx := u 3, dvy := u 4, dvz := u 5
    dax_b := s 10, day_b := s 11, daz_b := s 12, dvx_b := s 13, dvy_b := s 14, dvz_b := s 15
    daxVar := v 0, dayVar := v 1, dazVar := v 2, dvxVar := v 3, dvyVar := v 4, dvzVar := v 5, dt := dt }

theorem hasDerivAt_cubic (a b c d : ℝ) : HasDerivAt (fun t : ℝ => a + b * t + c * t ^ 2 + d * t ^ 3) b 0 := by
  have h : HasDerivAt (fun t : ℝ => a + b * t + c * t ^ 2 + d * t ^ 3)
      (0 + b * 1 + c * ((2 : ℕ) * (0 : ℝ) ^ (2 - 1) * 1) + d * ((3 : ℕ) * (0 : ℝ) ^ (3 - 1) * 1)) 0 :=
    (((hasDerivAt_const (0 : ℝ) a).add ((hasDerivAt_id (0 : ℝ)).const_mul b)).add
      (((hasDerivAt_id (0 : ℝ)).pow 2).const_mul c)).add (((hasDerivAt_id (0 : ℝ)).pow 3).const_mul d)
  exact h.congr_deriv (by norm_num)

theorem hasDerivAt_poly {f : ℝ → ℝ} {b : ℝ} (a c d : ℝ) (h : ∀ t, f t = a + b * t + c * t ^ 2 + d * t ^ 3) :
    HasDerivAt f b 0 := by
  have : f = fun t : ℝ => a + b * t + c * t ^ 2 + d * t ^ 3 := funext h
  rw [this]; exact hasDerivAt_cubic a b c d


/-- the transition matrix used by the equations is the derivative of the propagation with respect to the state -/
theorem matF_jacobian (s : Fin N → ℝ) (u v : Fin 6 → ℝ) (dt g : ℝ) :
    Spec.IsJacobian (fun s => Spec.propagate dt g s u) s (matF (predIn s u v dt)) := by
  intro i d
  rw [← rowF_eq_sum]
  rcases fin_cases10 i with h | h | h | h | h | h | h | h | h | h | h
  · rw [rowF_ge _ i h]
    refine hasDerivAt_poly (s i) 0 0 fun t => ?_
    have : Spec.propagate dt g (fun j => s j + t * d j) u i = s i + t * d i := by
      revert i
      intro ⟨i, hi⟩ h
      have h' : 10 ≤ i := h
      match i, hi, h' with
      | 10, _, _ => rfl
      | 11, _, _ => rfl
      | 12, _, _ => rfl
      | 13, _, _ => rfl
      | 14, _, _ => rfl
      | 15, _, _ => rfl
      | 16, _, _ => rfl
      | 17, _, _ => rfl
      | 18, _, _ => rfl
      | 19, _, _ => rfl
      | 20, _, _ => rfl
      | 21, _, _ => rfl
      | 22, _, _ => rfl
      | 23, _, _ => rfl
      | k + 24, h, _ => exact absurd h (by show ¬ k + 24 < 24; omega)
    show Spec.propagate dt g (fun j => s j + t * d j) u i = _
    rw [this]; ring
  · subst h
    refine hasDerivAt_poly (Spec.propagate dt g s u 0)
      ((Spec.att d).mul ⟨0, -(d 10) / 2, -(d 11) / 2, -(d 12) / 2⟩).w 0 fun t => ?_
    simp only [Spec.propagate, Spec.att, Spec.dq, Quat.mul, Quat.dcm, Matrix.mulVec, dotProduct, Fin.sum_univ_three,
      Matrix.of_apply, Matrix.cons_val, Matrix.cons_val_zero, Matrix.cons_val_one, rowF, hx, hy, hz, cA, cB, cC, cD, rotM, predIn]
    ring
  · subst h
    refine hasDerivAt_poly (Spec.propagate dt g s u 1)
      ((Spec.att d).mul ⟨0, -(d 10) / 2, -(d 11) / 2, -(d 12) / 2⟩).x 0 fun t => ?_
    simp only [Spec.propagate, Spec.att, Spec.dq, Quat.mul, Quat.dcm, Matrix.mulVec, dotProduct, Fin.sum_univ_three,
      Matrix.of_apply, Matrix.cons_val, Matrix.cons_val_zero, Matrix.cons_val_one, rowF, hx, hy, hz, cA, cB, cC, cD, rotM, predIn]
    ring
  · subst h
    refine hasDerivAt_poly (Spec.propagate dt g s u 2)
      ((Spec.att d).mul ⟨0, -(d 10) / 2, -(d 11) / 2, -(d 12) / 2⟩).y 0 fun t => ?_
    simp only [Spec.propagate, Spec.att, Spec.dq, Quat.mul, Quat.dcm, Matrix.mulVec, dotProduct, Fin.sum_univ_three,
      Matrix.of_apply, Matrix.cons_val, Matrix.cons_val_zero, Matrix.cons_val_one, rowF, hx, hy, hz, cA, cB, cC, cD, rotM, predIn]
    ring
  · subst h
    refine hasDerivAt_poly (Spec.propagate dt g s u 3)
      ((Spec.att d).mul ⟨0, -(d 10) / 2, -(d 11) / 2, -(d 12) / 2⟩).z 0 fun t => ?_
    simp only [Spec.propagate, Spec.att, Spec.dq, Quat.mul, Quat.dcm, Matrix.mulVec, dotProduct, Fin.sum_univ_three,
      Matrix.of_apply, Matrix.cons_val, Matrix.cons_val_zero, Matrix.cons_val_one, rowF, hx, hy, hz, cA, cB, cC, cD, rotM, predIn]
    ring
  · subst h
    refine hasDerivAt_poly (Spec.propagate dt g s u 4)
      (((Spec.att d).dcm.mulVec ![u 3 - s 13, u 4 - s 14, u 5 - s 15]) 0 -
        ((Spec.att (fun j => s j + d j)).dcm.mulVec ![d 13, d 14, d 15] 0 - (Spec.att s).dcm.mulVec ![d 13, d 14, d 15] 0 -
         (Spec.att d).dcm.mulVec ![d 13, d 14, d 15] 0))
      (-((Spec.att d).dcm.mulVec ![d 13, d 14, d 15] 0)) fun t => ?_
    simp only [Spec.propagate, Spec.att, Spec.dq, Quat.mul, Quat.dcm, Matrix.mulVec, dotProduct, Fin.sum_univ_three,
      Matrix.of_apply, Matrix.cons_val, Matrix.cons_val_zero, Matrix.cons_val_one, rowF, hx, hy, hz, cA, cB, cC, cD, rotM, predIn]
    ring
  · subst h
    refine hasDerivAt_poly (Spec.propagate dt g s u 5)
      (((Spec.att d).dcm.mulVec ![u 3 - s 13, u 4 - s 14, u 5 - s 15]) 1 -
        ((Spec.att (fun j => s j + d j)).dcm.mulVec ![d 13, d 14, d 15] 1 - (Spec.att s).dcm.mulVec ![d 13, d 14, d 15] 1 -
         (Spec.att d).dcm.mulVec ![d 13, d 14, d 15] 1))
      (-((Spec.att d).dcm.mulVec ![d 13, d 14, d 15] 1)) fun t => ?_
    simp only [Spec.propagate, Spec.att, Spec.dq, Quat.mul, Quat.dcm, Matrix.mulVec, dotProduct, Fin.sum_univ_three,
      Matrix.of_apply, Matrix.cons_val, Matrix.cons_val_zero, Matrix.cons_val_one, rowF, hx, hy, hz, cA, cB, cC, cD, rotM, predIn]
    ring
  · subst h
    refine hasDerivAt_poly (Spec.propagate dt g s u 6)
      (((Spec.att d).dcm.mulVec ![u 3 - s 13, u 4 - s 14, u 5 - s 15]) 2 -
        ((Spec.att (fun j => s j + d j)).dcm.mulVec ![d 13, d 14, d 15] 2 - (Spec.att s).dcm.mulVec ![d 13, d 14, d 15] 2 -
         (Spec.att d).dcm.mulVec ![d 13, d 14, d 15] 2))
      (-((Spec.att d).dcm.mulVec ![d 13, d 14, d 15] 2)) fun t => ?_
    simp only [Spec.propagate, Spec.att, Spec.dq, Quat.mul, Quat.dcm, Matrix.mulVec, dotProduct, Fin.sum_univ_three,
      Matrix.of_apply, Matrix.cons_val, Matrix.cons_val_zero, Matrix.cons_val_one, rowF, hx, hy, hz, cA, cB, cC, cD, rotM, predIn]
    ring
  · subst h
    refine hasDerivAt_poly (Spec.propagate dt g s u 7) 0 0 fun t => ?_
    simp only [Spec.propagate, rowF, predIn]
    ring
  · subst h
    refine hasDerivAt_poly (Spec.propagate dt g s u 8) 0 0 fun t => ?_
    simp only [Spec.propagate, rowF, predIn]
    ring
  · subst h
    refine hasDerivAt_poly (Spec.propagate dt g s u 9) 0 0 fun t => ?_
    simp only [Spec.propagate, rowF, predIn]
    ring

/-- the noise matrix used by the equations is the derivative of the propagation with respect to the IMU inputs -/
theorem matG_jacobian (s : Fin N → ℝ) (u v : Fin 6 → ℝ) (dt g : ℝ) :
    Spec.IsJacobian (fun u => Spec.propagate dt g s u) u (matG (predIn s u v dt)) := by
  intro i d
  rcases fin_cases10 i with h | h | h | h | h | h | h | h | h | h | h
  · have hz : ∑ k, matG (predIn s u v dt) i k * d k = 0 := by
      apply Finset.sum_eq_zero
      intro k _
      have : matG (predIn s u v dt) i k = 0 := by unfold matG; rw [dif_neg (by omega), dif_neg (by omega)]
      rw [this, zero_mul]
    rw [hz]
    refine hasDerivAt_poly (s i) 0 0 fun t => ?_
    have : Spec.propagate dt g s (fun j => u j + t * d j) i = s i := by
      revert i
      intro ⟨i, hi⟩ h _
      have h' : 10 ≤ i := h
      match i, hi, h' with
      | 10, _, _ => rfl
      | 11, _, _ => rfl
      | 12, _, _ => rfl
      | 13, _, _ => rfl
      | 14, _, _ => rfl
      | 15, _, _ => rfl
      | 16, _, _ => rfl
      | 17, _, _ => rfl
      | 18, _, _ => rfl
      | 19, _, _ => rfl
      | 20, _, _ => rfl
      | 21, _, _ => rfl
      | 22, _, _ => rfl
      | 23, _, _ => rfl
      | k + 24, h, _ => exact absurd h (by show ¬ k + 24 < 24; omega)
    show Spec.propagate dt g s (fun j => u j + t * d j) i = _
    rw [this]; ring
  · subst h
    rw [Fin.sum_univ_six, g_0_0, g_0_1, g_0_2, g_0_3, g_0_4, g_0_5]
    refine hasDerivAt_poly (Spec.propagate dt g s u 0) 0 0 fun t => ?_
    simp only [Spec.propagate, Spec.att, Spec.dq, Quat.mul, Quat.dcm, Matrix.mulVec, dotProduct, Fin.sum_univ_three,
      Matrix.of_apply, Matrix.cons_val, Matrix.cons_val_zero, Matrix.cons_val_one, rotM, predIn]
    ring
  · subst h
    rw [Fin.sum_univ_six, g_1_0, g_1_1, g_1_2, g_1_3, g_1_4, g_1_5]
    refine hasDerivAt_poly (Spec.propagate dt g s u 1) 0 0 fun t => ?_
    simp only [Spec.propagate, Spec.att, Spec.dq, Quat.mul, Quat.dcm, Matrix.mulVec, dotProduct, Fin.sum_univ_three,
      Matrix.of_apply, Matrix.cons_val, Matrix.cons_val_zero, Matrix.cons_val_one, rotM, predIn]
    ring
  · subst h
    rw [Fin.sum_univ_six, g_2_0, g_2_1, g_2_2, g_2_3, g_2_4, g_2_5]
    refine hasDerivAt_poly (Spec.propagate dt g s u 2) 0 0 fun t => ?_
    simp only [Spec.propagate, Spec.att, Spec.dq, Quat.mul, Quat.dcm, Matrix.mulVec, dotProduct, Fin.sum_univ_three,
      Matrix.of_apply, Matrix.cons_val, Matrix.cons_val_zero, Matrix.cons_val_one, rotM, predIn]
    ring
  · subst h
    rw [Fin.sum_univ_six, g_3_0, g_3_1, g_3_2, g_3_3, g_3_4, g_3_5]
    refine hasDerivAt_poly (Spec.propagate dt g s u 3) 0 0 fun t => ?_
    simp only [Spec.propagate, Spec.att, Spec.dq, Quat.mul, Quat.dcm, Matrix.mulVec, dotProduct, Fin.sum_univ_three,
      Matrix.of_apply, Matrix.cons_val, Matrix.cons_val_zero, Matrix.cons_val_one, rotM, predIn]
    ring
  · subst h
    rw [Fin.sum_univ_six, show matG (predIn s u v dt) 4 0 = 0 from rfl, show matG (predIn s u v dt) 4 1 = 0 from rfl, show matG (predIn s u v dt) 4 2 = 0 from rfl, show matG (predIn s u v dt) 4 3 = rotM (predIn s u v dt) 0 0 from rfl, show matG (predIn s u v dt) 4 4 = rotM (predIn s u v dt) 0 1 from rfl, show matG (predIn s u v dt) 4 5 = rotM (predIn s u v dt) 0 2 from rfl]
    refine hasDerivAt_poly (Spec.propagate dt g s u 4) 0 0 fun t => ?_
    simp only [Spec.propagate, Spec.att, Spec.dq, Quat.mul, Quat.dcm, Matrix.mulVec, dotProduct, Fin.sum_univ_three,
      Matrix.of_apply, Matrix.cons_val, Matrix.cons_val_zero, Matrix.cons_val_one, rotM, predIn]
    ring
  · subst h
    rw [Fin.sum_univ_six, show matG (predIn s u v dt) 5 0 = 0 from rfl, show matG (predIn s u v dt) 5 1 = 0 from rfl, show matG (predIn s u v dt) 5 2 = 0 from rfl, show matG (predIn s u v dt) 5 3 = rotM (predIn s u v dt) 1 0 from rfl, show matG (predIn s u v dt) 5 4 = rotM (predIn s u v dt) 1 1 from rfl, show matG (predIn s u v dt) 5 5 = rotM (predIn s u v dt) 1 2 from rfl]
    refine hasDerivAt_poly (Spec.propagate dt g s u 5) 0 0 fun t => ?_
    simp only [Spec.propagate, Spec.att, Spec.dq, Quat.mul, Quat.dcm, Matrix.mulVec, dotProduct, Fin.sum_univ_three,
      Matrix.of_apply, Matrix.cons_val, Matrix.cons_val_zero, Matrix.cons_val_one, rotM, predIn]
    ring
  · subst h
    rw [Fin.sum_univ_six, show matG (predIn s u v dt) 6 0 = 0 from rfl, show matG (predIn s u v dt) 6 1 = 0 from rfl, show matG (predIn s u v dt) 6 2 = 0 from rfl, show matG (predIn s u v dt) 6 3 = rotM (predIn s u v dt) 2 0 from rfl, show matG (predIn s u v dt) 6 4 = rotM (predIn s u v dt) 2 1 from rfl, show matG (predIn s u v dt) 6 5 = rotM (predIn s u v dt) 2 2 from rfl]
    refine hasDerivAt_poly (Spec.propagate dt g s u 6) 0 0 fun t => ?_
    simp only [Spec.propagate, Spec.att, Spec.dq, Quat.mul, Quat.dcm, Matrix.mulVec, dotProduct, Fin.sum_univ_three,
      Matrix.of_apply, Matrix.cons_val, Matrix.cons_val_zero, Matrix.cons_val_one, rotM, predIn]
    ring
  · subst h
    rw [Fin.sum_univ_six, show matG (predIn s u v dt) 7 0 = 0 from rfl, show matG (predIn s u v dt) 7 1 = 0 from rfl, show matG (predIn s u v dt) 7 2 = 0 from rfl, show matG (predIn s u v dt) 7 3 = 0 from rfl, show matG (predIn s u v dt) 7 4 = 0 from rfl, show matG (predIn s u v dt) 7 5 = 0 from rfl]
    refine hasDerivAt_poly (Spec.propagate dt g s u 7) 0 0 fun t => ?_
    simp only [Spec.propagate, Spec.att, Spec.dq, Quat.mul, Quat.dcm, Matrix.mulVec, dotProduct, Fin.sum_univ_three,
      Matrix.of_apply, Matrix.cons_val, Matrix.cons_val_zero, Matrix.cons_val_one, rotM, predIn]
    ring
  · subst h
    rw [Fin.sum_univ_six, show matG (predIn s u v dt) 8 0 = 0 from rfl, show matG (predIn s u v dt) 8 1 = 0 from rfl, show matG (predIn s u v dt) 8 2 = 0 from rfl, show matG (predIn s u v dt) 8 3 = 0 from rfl, show matG (predIn s u v dt) 8 4 = 0 from rfl, show matG (predIn s u v dt) 8 5 = 0 from rfl]
    refine hasDerivAt_poly (Spec.propagate dt g s u 8) 0 0 fun t => ?_
    simp only [Spec.propagate, Spec.att, Spec.dq, Quat.mul, Quat.dcm, Matrix.mulVec, dotProduct, Fin.sum_univ_three,
      Matrix.of_apply, Matrix.cons_val, Matrix.cons_val_zero, Matrix.cons_val_one, rotM, predIn]
    ring
  · subst h
    rw [Fin.sum_univ_six, show matG (predIn s u v dt) 9 0 = 0 from rfl, show matG (predIn s u v dt) 9 1 = 0 from rfl, show matG (predIn s u v dt) 9 2 = 0 from rfl, show matG (predIn s u v dt) 9 3 = 0 from rfl, show matG (predIn s u v dt) 9 4 = 0 from rfl, show matG (predIn s u v dt) 9 5 = 0 from rfl]
    refine hasDerivAt_poly (Spec.propagate dt g s u 9) 0 0 fun t => ?_
    simp only [Spec.propagate, Spec.att, Spec.dq, Quat.mul, Quat.dcm, Matrix.mulVec, dotProduct, Fin.sum_univ_three,
      Matrix.of_apply, Matrix.cons_val, Matrix.cons_val_zero, Matrix.cons_val_one, rotM, predIn]
    ring

end spec

end Ecl.Cov
