import Verif.Ekf.ResetProps

/-!
# The conversion from a rotation matrix to a quaternion

`Quaternion(const Dcm &)` and `Quaternion::normalized()` belong to the external PX4 matrix library, which is not part of the repository; they
are modelled here after that library (Shepperd's method, four branches) and proved to meet the assumptions `QuatLib` under which the theorems about
attitude resets are stated.
-/

namespace Ecl.Ekf

open Ecl.Utils
open scoped Matrix

noncomputable section

open Classical in
/-- `matrix::Quaternion(const Dcm &R)` of the external matrix library (used at EKF/ekf_helper.cpp:1561) -/
def quatOfDcm (R : M3 ℝ) : Quat ℝ :=
  let t := R 0 0 + R 1 1 + R 2 2
  if t > 0 then
    let t := Real.sqrt (1 + t)
    ⟨1 / 2 * t, (R 2 1 - R 1 2) * (1 / 2 / t), (R 0 2 - R 2 0) * (1 / 2 / t), (R 1 0 - R 0 1) * (1 / 2 / t)⟩
  else if R 0 0 > R 1 1 ∧ R 0 0 > R 2 2 then
    let t := Real.sqrt (1 + R 0 0 - R 1 1 - R 2 2)
    ⟨(R 2 1 - R 1 2) * (1 / 2 / t), 1 / 2 * t, (R 1 0 + R 0 1) * (1 / 2 / t), (R 0 2 + R 2 0) * (1 / 2 / t)⟩
  else if R 1 1 > R 2 2 then
    let t := Real.sqrt (1 - R 0 0 + R 1 1 - R 2 2)
    ⟨(R 0 2 - R 2 0) * (1 / 2 / t), (R 1 0 + R 0 1) * (1 / 2 / t), 1 / 2 * t, (R 2 1 + R 1 2) * (1 / 2 / t)⟩
  else
    let t := Real.sqrt (1 - R 0 0 - R 1 1 + R 2 2)
    ⟨(R 1 0 - R 0 1) * (1 / 2 / t), (R 0 2 + R 2 0) * (1 / 2 / t), (R 2 1 + R 1 2) * (1 / 2 / t), 1 / 2 * t⟩

/-- `Quaternion::normalized()` of the external matrix library -/
def quatNormalized (q : Quat ℝ) : Quat ℝ :=
  let n := Real.sqrt q.normSq
  ⟨q.w / n, q.x / n, q.y / n, q.z / n⟩

/-- four times the products of the components of a quaternion for the rotation `R` -/
def K4 (R : M3 ℝ) : Matrix (Fin 4) (Fin 4) ℝ :=
  !![1 + R 0 0 + R 1 1 + R 2 2, R 2 1 - R 1 2, R 0 2 - R 2 0, R 1 0 - R 0 1;
     R 2 1 - R 1 2, 1 + R 0 0 - R 1 1 - R 2 2, R 1 0 + R 0 1, R 0 2 + R 2 0;
     R 0 2 - R 2 0, R 1 0 + R 0 1, 1 - R 0 0 + R 1 1 - R 2 2, R 2 1 + R 1 2;
     R 1 0 - R 0 1, R 0 2 + R 2 0, R 2 1 + R 1 2, 1 - R 0 0 - R 1 1 + R 2 2]

/-- the entries of a rotation are its cofactors, its rows and columns orthonormal -/
structure RotEqs (R : M3 ℝ) : Prop where
  c00 : R 0 0 = R 1 1 * R 2 2 - R 1 2 * R 2 1
  c01 : R 0 1 = -(R 1 0 * R 2 2 - R 1 2 * R 2 0)
  c02 : R 0 2 = R 1 0 * R 2 1 - R 1 1 * R 2 0
  c10 : R 1 0 = -(R 0 1 * R 2 2 - R 0 2 * R 2 1)
  c11 : R 1 1 = R 0 0 * R 2 2 - R 0 2 * R 2 0
  c12 : R 1 2 = -(R 0 0 * R 2 1 - R 0 1 * R 2 0)
  c20 : R 2 0 = R 0 1 * R 1 2 - R 0 2 * R 1 1
  c21 : R 2 1 = -(R 0 0 * R 1 2 - R 0 2 * R 1 0)
  c22 : R 2 2 = R 0 0 * R 1 1 - R 0 1 * R 1 0
  r00 : R 0 0 ^ 2 + R 0 1 ^ 2 + R 0 2 ^ 2 = 1
  r11 : R 1 0 ^ 2 + R 1 1 ^ 2 + R 1 2 ^ 2 = 1
  r22 : R 2 0 ^ 2 + R 2 1 ^ 2 + R 2 2 ^ 2 = 1
  r01 : R 0 0 * R 1 0 + R 0 1 * R 1 1 + R 0 2 * R 1 2 = 0
  r02 : R 0 0 * R 2 0 + R 0 1 * R 2 1 + R 0 2 * R 2 2 = 0
  r12 : R 1 0 * R 2 0 + R 1 1 * R 2 1 + R 1 2 * R 2 2 = 0
  k00 : R 0 0 ^ 2 + R 1 0 ^ 2 + R 2 0 ^ 2 = 1
  k11 : R 0 1 ^ 2 + R 1 1 ^ 2 + R 2 1 ^ 2 = 1
  k22 : R 0 2 ^ 2 + R 1 2 ^ 2 + R 2 2 ^ 2 = 1
  k01 : R 0 0 * R 0 1 + R 1 0 * R 1 1 + R 2 0 * R 2 1 = 0
  k02 : R 0 0 * R 0 2 + R 1 0 * R 1 2 + R 2 0 * R 2 2 = 0
  k12 : R 0 1 * R 0 2 + R 1 1 * R 1 2 + R 2 1 * R 2 2 = 0

theorem rotEqs {R : M3 ℝ} (h : IsRotation R) : RotEqs R := by
  have row : ∀ i j, R i 0 * R j 0 + R i 1 * R j 1 + R i 2 * R j 2 = (1 : M3 ℝ) i j := fun i j => by
    have := congrFun (congrFun h.orth i) j
    simpa [Matrix.mul_apply, Fin.sum_univ_three] using this
  have col : ∀ i j, R 0 i * R 0 j + R 1 i * R 1 j + R 2 i * R 2 j = (1 : M3 ℝ) i j := fun i j => by
    have := congrFun (congrFun h.orth' i) j
    simpa [Matrix.mul_apply, Fin.sum_univ_three] using this
  have hadj : R.adjugate = Rᵀ := by
    have h1 : R * R.adjugate = 1 := by rw [Matrix.mul_adjugate, h.det, one_smul]
    calc R.adjugate = (Rᵀ * R) * R.adjugate := by rw [h.orth', Matrix.one_mul]
      _ = Rᵀ := by rw [Matrix.mul_assoc, h1, Matrix.mul_one]
  have ad : ∀ i j, R.adjugate j i = R i j := fun i j => by rw [hadj]; rfl
  have e := Matrix.adjugate_fin_three R
  have a (i j : Fin 3) := (ad i j).symm.trans (congrFun (congrFun e j) i)
  have o00 : (1 : M3 ℝ) 0 0 = 1 := rfl
  have o11 : (1 : M3 ℝ) 1 1 = 1 := rfl
  have o22 : (1 : M3 ℝ) 2 2 = 1 := rfl
  have o01 : (1 : M3 ℝ) 0 1 = 0 := rfl
  have o02 : (1 : M3 ℝ) 0 2 = 0 := rfl
  have o12 : (1 : M3 ℝ) 1 2 = 0 := rfl
  constructor
  · have := a 0 0; simp at this; linarith
  · have := a 0 1; simp at this; linarith
  · have := a 0 2; simp at this; linarith
  · have := a 1 0; simp at this; linarith
  · have := a 1 1; simp at this; linarith
  · have := a 1 2; simp at this; linarith
  · have := a 2 0; simp at this; linarith
  · have := a 2 1; simp at this; linarith
  · have := a 2 2; simp at this; linarith
  · have := row 0 0; rw [o00] at this; linarith
  · have := row 1 1; rw [o11] at this; linarith
  · have := row 2 2; rw [o22] at this; linarith
  · have := row 0 1; rw [o01] at this; linarith
  · have := row 0 2; rw [o02] at this; linarith
  · have := row 1 2; rw [o12] at this; linarith
  · have := col 0 0; rw [o00] at this; linarith
  · have := col 1 1; rw [o11] at this; linarith
  · have := col 2 2; rw [o22] at this; linarith
  · have := col 0 1; rw [o01] at this; linarith
  · have := col 0 2; rw [o02] at this; linarith
  · have := col 1 2; rw [o12] at this; linarith

/-- the matrix of products has rank one -/
theorem K4_rank_one {R : M3 ℝ} (h : RotEqs R) (i j k : Fin 4) : K4 R i k * K4 R j k = K4 R i j * K4 R k k := by
  obtain ⟨c00, c01, c02, c10, c11, c12, c20, c21, c22, r00, r11, r22, r01, r02, r12, k00, k11, k22, k01, k02, k12⟩ := h
  unfold K4
  generalize R 0 0 = a at *; generalize R 0 1 = b at *; generalize R 0 2 = c at *
  generalize R 1 0 = d at *; generalize R 1 1 = e at *; generalize R 1 2 = f at *
  generalize R 2 0 = g at *; generalize R 2 1 = l at *; generalize R 2 2 = m at *
  fin_cases k <;> fin_cases i <;> fin_cases j <;>
    simp only [Matrix.of_apply, Matrix.cons_val', Matrix.cons_val, Fin.zero_eta, Fin.mk_one, Fin.reduceFinMk] <;> linarith

/-- a quaternion built from one column of the matrix of products has these products -/
theorem column_products {R : M3 ℝ} (h : RotEqs R) (k : Fin 4) (hk : 0 < K4 R k k) (q : Fin 4 → ℝ)
    (hq : ∀ i, q i = K4 R i k * (1 / 2 / Real.sqrt (K4 R k k))) (i j : Fin 4) : 4 * (q i * q j) = K4 R i j := by
  have hs : Real.sqrt (K4 R k k) ^ 2 = K4 R k k := Real.sq_sqrt hk.le
  have hp := Real.sqrt_pos.mpr hk
  have hr := K4_rank_one h i j k
  rw [hq i, hq j]
  have : 4 * (K4 R i k * (1 / 2 / √(K4 R k k)) * (K4 R j k * (1 / 2 / √(K4 R k k)))) = K4 R i k * K4 R j k / √(K4 R k k) ^ 2 := by
    field_simp
    ring
  rw [this, hs, hr]
  field_simp

theorem dcm_of_products {R : M3 ℝ} (q : Quat ℝ) (h : ∀ i j, 4 * ((![q.w, q.x, q.y, q.z] : Fin 4 → ℝ) i * (![q.w, q.x, q.y, q.z] : Fin 4 → ℝ) j) = K4 R i j) :
    q.dcm = R ∧ q.normSq = 1 := by
  have e00 := h 0 0; have e01 := h 0 1; have e02 := h 0 2; have e03 := h 0 3
  have e11 := h 1 1; have e12 := h 1 2; have e13 := h 1 3
  have e22 := h 2 2; have e23 := h 2 3; have e33 := h 3 3
  unfold K4 at *
  simp only [Matrix.of_apply, Matrix.cons_val', Matrix.cons_val] at *
  constructor
  · unfold Quat.dcm
    ext i j
    fin_cases i <;> fin_cases j <;>
      simp only [Matrix.of_apply, Matrix.cons_val', Matrix.cons_val, Fin.zero_eta, Fin.mk_one, Fin.reduceFinMk] <;> linarith
  · unfold Quat.normSq; linarith

/-- **C66/C116 (library).** The library's conversion represents every rotation matrix by a unit quaternion. -/
theorem quatOfDcm_spec {R : M3 ℝ} (hR : IsRotation R) : (quatOfDcm R).dcm = R ∧ (quatOfDcm R).normSq = 1 := by
  have h := rotEqs hR
  have half : ∀ x : ℝ, 0 < x → 1 / 2 * Real.sqrt x = x * (1 / 2 / Real.sqrt x) := by
    intro x hx
    have hs : Real.sqrt x ^ 2 = x := Real.sq_sqrt hx.le
    have hp := Real.sqrt_pos.mpr hx
    field_simp
    exact hs
  have fin : ∀ (k : Fin 4) (hk : 0 < K4 R k k) (q : Quat ℝ), (∀ i, (![q.w, q.x, q.y, q.z] : Fin 4 → ℝ) i = K4 R i k * (1 / 2 / Real.sqrt (K4 R k k))) →
      q.dcm = R ∧ q.normSq = 1 := fun k hk q hq => dcm_of_products q (column_products h k hk _ hq)
  unfold quatOfDcm
  simp only []
  by_cases h0 : R 0 0 + R 1 1 + R 2 2 > 0
  · rw [if_pos h0]
    have hk : 0 < 1 + (R 0 0 + R 1 1 + R 2 2) := by linarith
    have ek : K4 R 0 0 = 1 + (R 0 0 + R 1 1 + R 2 2) := by unfold K4; simp; ring
    refine fin 0 (by rw [ek]; exact hk) _ (fun i => ?_)
    rw [ek]
    fin_cases i
    · show 1 / 2 * √(1 + (R 0 0 + R 1 1 + R 2 2)) = K4 R 0 0 * _
      rw [ek]; exact half _ hk
    · rfl
    · rfl
    · rfl
  · rw [if_neg h0]
    by_cases h1 : R 0 0 > R 1 1 ∧ R 0 0 > R 2 2
    · rw [if_pos h1]
      have hk : 0 < 1 + R 0 0 - R 1 1 - R 2 2 := by
        obtain ⟨p1, p2⟩ := h1
        linarith
      refine fin 1 hk _ (fun i => ?_)
      fin_cases i
      · rfl
      · exact half _ hk
      · rfl
      · rfl
    · rw [if_neg h1]
      by_cases h2 : R 1 1 > R 2 2
      · rw [if_pos h2]
        have hk : 0 < 1 - R 0 0 + R 1 1 - R 2 2 := by
          rw [not_and_or] at h1
          rcases h1 with p | p <;> linarith
        refine fin 2 hk _ (fun i => ?_)
        fin_cases i
        · rfl
        · rfl
        · exact half _ hk
        · rfl
      · rw [if_neg h2]
        have hk : 0 < 1 - R 0 0 - R 1 1 + R 2 2 := by
          rw [not_and_or] at h1
          rcases h1 with p | p <;> linarith
        refine fin 3 hk _ (fun i => ?_)
        fin_cases i
        · rfl
        · rfl
        · rfl
        · exact half _ hk

/-- **C66/C116 (library).** The library functions, as modelled, meet the assumptions made about them everywhere. -/
theorem quatLib : QuatLib quatOfDcm quatNormalized where
  ofDcm_dcm _ h := (quatOfDcm_spec h).1
  ofDcm_unit _ h := (quatOfDcm_spec h).2
  normalize_unit q h := by
    unfold quatNormalized
    rw [h, Real.sqrt_one]
    simp

end

end Ecl.Ekf
