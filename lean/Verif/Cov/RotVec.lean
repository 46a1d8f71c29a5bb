import Verif.Cov.PredictProps3
import Verif.Basic.Rot
import Mathlib.Analysis.SpecialFunctions.Trigonometric.InverseDeriv
import Mathlib.Analysis.SpecialFunctions.Pow.Real
import Mathlib.Analysis.SpecialFunctions.Trigonometric.Bounds

/-!
# Variances of the rotation vector (`calcRotVecVariances`) — EKF/ekf_helper.cpp:1027-1067

Real arithmetic.
-/

namespace Ecl.Cov

noncomputable section

/-- `calcRotVecVariances`, EKF/ekf_helper.cpp:1027-1067; `powf(t4, 1.5)` is the real power -/
def rotVecVariances (q : Quat ℝ) (P : Mat ℝ) : Fin 3 → ℝ :=
  let q0 := if q.w ≥ 0 then q.w else -q.w
  let q1 := if q.w ≥ 0 then q.x else -q.x
  let q2 := if q.w ≥ 0 then q.y else -q.y
  let q3 := if q.w ≥ 0 then q.z else -q.z
  let t2 := q0 * q0
  let t3 := Real.arccos q0
  let t4 := -t2 + 1
  let t5 := t2 - 1
  if t4 > 1 / 1000000000 ∧ t5 < -(1 / 1000000000) then
    let t6 := 1 / t5
    let t7 := q1 * t6 * 2
    let t8 := 1 / t4 ^ (3 / 2 : ℝ)
    let t9 := q0 * q1 * t3 * t8 * 2
    let t10 := t7 + t9
    let t11 := 1 / Real.sqrt t4
    let t12 := q2 * t6 * 2
    let t13 := q0 * q2 * t3 * t8 * 2
    let t14 := t12 + t13
    let t15 := q3 * t6 * 2
    let t16 := q0 * q3 * t3 * t8 * 2
    let t17 := t15 + t16
    ![t10 * (P 0 0 * t10 + P 1 0 * t3 * t11 * 2) + t3 * t11 * (P 0 1 * t10 + P 1 1 * t3 * t11 * 2) * 2,
      t14 * (P 0 0 * t14 + P 2 0 * t3 * t11 * 2) + t3 * t11 * (P 0 2 * t14 + P 2 2 * t3 * t11 * 2) * 2,
      t17 * (P 0 0 * t17 + P 3 0 * t3 * t11 * 2) + t3 * t11 * (P 0 3 * t17 + P 3 3 * t3 * t11 * 2) * 2]
  else ![4 * P 1 1, 4 * P 2 2, 4 * P 3 3]

/-- component of the rotation vector of the rotation given by a quaternion with scalar part `a ≥ 0` and this vector component `b`: angle `2 arccos a` times the component
`b / √(1 − a²)` of the axis -/
def Spec.rotComp (a b : ℝ) : ℝ := 2 * Real.arccos a * (b / Real.sqrt (1 - a ^ 2))

/-- the same for a quaternion of either sign (`q` and `−q` are the same rotation) -/
def Spec.rotCompSigned (a b : ℝ) : ℝ := if 0 ≤ a then Spec.rotComp a b else Spec.rotComp (-a) (-b)

/-- partial derivative of `rotComp` with respect to the scalar part -/
def Spec.dScalar (a b : ℝ) : ℝ := 2 * b * (Real.arccos a * a / (Real.sqrt (1 - a ^ 2)) ^ 3 - 1 / (1 - a ^ 2))

/-- partial derivative with respect to the vector component -/
def Spec.dVector (a : ℝ) : ℝ := 2 * Real.arccos a / Real.sqrt (1 - a ^ 2)

end

/-- The partial derivatives are derivatives. -/
theorem rotComp_deriv (a b : ℝ) (h : a ^ 2 < 1) :
    HasDerivAt (fun a => Spec.rotComp a b) (Spec.dScalar a b) a ∧ HasDerivAt (fun b => Spec.rotComp a b) (Spec.dVector a) b := by
  have h1 : a ≠ 1 := by rintro rfl; norm_num at h
  have h2 : a ≠ -1 := by rintro rfl; norm_num at h
  have hp : 0 < 1 - a ^ 2 := by linarith
  have hs : 0 < Real.sqrt (1 - a ^ 2) := Real.sqrt_pos.mpr hp
  have hss : Real.sqrt (1 - a ^ 2) ^ 2 = 1 - a ^ 2 := Real.sq_sqrt hp.le
  constructor
  · have d1 := Real.hasDerivAt_arccos h2 h1
    have d2 : HasDerivAt (fun a : ℝ => 1 - a ^ 2) (-(2 * a)) a := by
      simpa using ((hasDerivAt_pow 2 a).const_sub 1)
    have d3 := d2.sqrt hp.ne'
    have d4 := (d3.inv hs.ne').const_mul b
    have d5 := (d1.const_mul 2).mul d4
    have e : (fun a => Spec.rotComp a b) = fun y => 2 * Real.arccos y * (b * (Real.sqrt (1 - y ^ 2))⁻¹) := by
      funext y; unfold Spec.rotComp; rw [div_eq_mul_inv]
    rw [e]
    refine d5.congr_deriv ?_
    unfold Spec.dScalar
    have h3 : 1 - a ^ 2 = Real.sqrt (1 - a ^ 2) * Real.sqrt (1 - a ^ 2) := (Real.mul_self_sqrt hp.le).symm
    show 2 * -(1 / Real.sqrt (1 - a ^ 2)) * (b * (Real.sqrt (1 - a ^ 2))⁻¹) +
      2 * Real.arccos a * (b * (-(-(2 * a) / (2 * Real.sqrt (1 - a ^ 2))) / Real.sqrt (1 - a ^ 2) ^ 2)) = _
    clear d5 d4 d3 d1
    generalize Real.sqrt (1 - a ^ 2) = r at *
    rw [h3]
    field_simp
    ring
  · have : HasDerivAt (fun b => 2 * Real.arccos a * (b / Real.sqrt (1 - a ^ 2))) (2 * Real.arccos a * (1 / Real.sqrt (1 - a ^ 2))) b :=
      ((hasDerivAt_id b).div_const _).const_mul _
    refine this.congr_deriv ?_
    unfold Spec.dVector
    ring

/-- value of the code's expressions away from the identity -/
theorem rotVec_value (q : Quat ℝ) (P : Mat ℝ) (hs : ∀ i j, P i j = P j i) (h : q.w ^ 2 < 1 - 1 / 1000000000) :
    let σ : ℝ := if 0 ≤ q.w then 1 else -1
    ∀ k : Fin 3, let b := ![q.x, q.y, q.z] k
      let j : Fin N := ![1, 2, 3] k
      rotVecVariances q P k = Spec.dScalar (σ * q.w) (σ * b) ^ 2 * P 0 0 + 2 * Spec.dScalar (σ * q.w) (σ * b) * Spec.dVector (σ * q.w) * P 0 j +
        Spec.dVector (σ * q.w) ^ 2 * P j j := by
  intro σ k b j
  have hσ : (if q.w ≥ 0 then q.w else -q.w) = σ * q.w ∧ (if q.w ≥ 0 then q.x else -q.x) = σ * q.x ∧
      (if q.w ≥ 0 then q.y else -q.y) = σ * q.y ∧ (if q.w ≥ 0 then q.z else -q.z) = σ * q.z := by
    by_cases h0 : 0 ≤ q.w
    · simp [σ, h0]
    · simp [σ, h0]
  obtain ⟨e0, e1, e2, e3⟩ := hσ
  have hq : (σ * q.w) ^ 2 = q.w ^ 2 := by
    by_cases h0 : 0 ≤ q.w
    · simp [σ, h0]
    · simp [σ, h0]
  unfold rotVecVariances
  simp only [e0, e1, e2, e3]
  generalize σ * q.w = a at *
  have ha : a ^ 2 < 1 - 1 / 1000000000 := by rw [hq]; exact h
  have hp : 0 < 1 - a ^ 2 := by linarith
  rw [if_pos ⟨by nlinarith, by nlinarith⟩]
  have h4 : -(a * a) + 1 = 1 - a ^ 2 := by ring
  have h5 : a * a - 1 = -(1 - a ^ 2) := by ring
  rw [h4, h5]
  have h32 : (1 - a ^ 2) ^ (3 / 2 : ℝ) = Real.sqrt (1 - a ^ 2) ^ 3 := by
    have e : (3 / 2 : ℝ) = 1 + 1 / 2 := by norm_num
    rw [e, Real.rpow_add hp, Real.rpow_one, ← Real.sqrt_eq_rpow]
    nth_rewrite 1 [← Real.mul_self_sqrt hp.le]
    ring
  rw [h32]
  unfold Spec.dScalar Spec.dVector
  have hsp : 0 < Real.sqrt (1 - a ^ 2) := Real.sqrt_pos.mpr hp
  have h3 : 1 - a ^ 2 = Real.sqrt (1 - a ^ 2) * Real.sqrt (1 - a ^ 2) := (Real.mul_self_sqrt hp.le).symm
  generalize Real.sqrt (1 - a ^ 2) = r at *
  rw [h3]
  have hr : r ≠ 0 := hsp.ne'
  have key : ∀ c p00 p0 pj : ℝ, (c * (1 / -(r * r)) * 2 + a * c * Real.arccos a * (1 / r ^ 3) * 2) *
      (p00 * (c * (1 / -(r * r)) * 2 + a * c * Real.arccos a * (1 / r ^ 3) * 2) + p0 * Real.arccos a * (1 / r) * 2) +
      Real.arccos a * (1 / r) * (p0 * (c * (1 / -(r * r)) * 2 + a * c * Real.arccos a * (1 / r ^ 3) * 2) + pj * Real.arccos a * (1 / r) * 2) * 2 =
      (2 * c * (Real.arccos a * a / r ^ 3 - 1 / (r * r))) ^ 2 * p00 +
      2 * (2 * c * (Real.arccos a * a / r ^ 3 - 1 / (r * r))) * (2 * Real.arccos a / r) * p0 + (2 * Real.arccos a / r) ^ 2 * pj := by
    intro c p00 p0 pj
    field_simp
    ring
  fin_cases k
  · have := key (σ * q.x) (P 0 0) (P 0 1) (P 1 1)
    simp only [hs 1 0, hs 2 0, hs 3 0]
    exact this
  · have := key (σ * q.y) (P 0 0) (P 0 2) (P 2 2)
    simp only [hs 1 0, hs 2 0, hs 3 0]
    exact this
  · have := key (σ * q.z) (P 0 0) (P 0 3) (P 3 3)
    simp only [hs 1 0, hs 2 0, hs 3 0]
    exact this

/-- the quaternion's scalar part bounds: the partial derivative with respect to the vector component is between 2 and π, and
the one with respect to the scalar part is at most twice the vector component -/
theorem rotVec_bounds (a b : ℝ) (h0 : 0 ≤ a) (h1 : a < 1) :
    (2 ≤ Spec.dVector a ∧ Spec.dVector a ≤ Real.pi) ∧ |Spec.dScalar a b| ≤ 2 * |b| := by
  have ht : 0 < Real.arccos a := Real.arccos_pos.mpr h1
  have ht2 : Real.arccos a ≤ Real.pi / 2 := Real.arccos_le_pi_div_two.mpr h0
  have hc : Real.cos (Real.arccos a) = a := Real.cos_arccos (by linarith) h1.le
  have hs : Real.sin (Real.arccos a) = Real.sqrt (1 - a ^ 2) := Real.sin_arccos a
  have hp : 0 < 1 - a ^ 2 := by nlinarith
  have hsq : Real.sqrt (1 - a ^ 2) ^ 2 = 1 - a ^ 2 := Real.sq_sqrt hp.le
  have hsp : 0 < Real.sqrt (1 - a ^ 2) := Real.sqrt_pos.mpr hp
  have hle : Real.sqrt (1 - a ^ 2) ≤ Real.arccos a := by rw [← hs]; exact (Real.sin_lt ht).le
  have hj : 2 / Real.pi * Real.arccos a ≤ Real.sqrt (1 - a ^ 2) := by rw [← hs]; exact Real.mul_le_sin ht.le ht2
  have htan : Real.arccos a * a ≤ Real.sqrt (1 - a ^ 2) := by
    rcases eq_or_lt_of_le h0 with e | e
    · rw [← e]; simp
    · have hlt : Real.arccos a < Real.pi / 2 := Real.arccos_lt_pi_div_two.mpr e
      have := (Real.lt_tan ht hlt).le
      rw [Real.tan_eq_sin_div_cos, hc, hs, le_div_iff₀ e] at this
      exact this
  unfold Spec.dVector Spec.dScalar
  generalize Real.sqrt (1 - a ^ 2) = r at *
  rw [← hsq]
  generalize Real.arccos a = t at *
  refine ⟨⟨?_, ?_⟩, ?_⟩
  · rw [le_div_iff₀ hsp]; linarith
  · rw [div_le_iff₀ hsp]
    have := Real.pi_pos
    rw [div_mul_eq_mul_div, div_le_iff₀ this] at hj
    linarith
  · have e : t * a / r ^ 3 - 1 / r ^ 2 = -((r - t * a) / r ^ 3) := by field_simp; ring
    have hn : 0 ≤ (r - t * a) / r ^ 3 := div_nonneg (by linarith) (by positivity)
    rw [e, abs_mul, abs_neg, abs_mul, abs_two, abs_of_nonneg hn]
    have h3 : (r - t * a) / r ^ 3 ≤ 1 := by
      rw [div_le_one (by positivity)]
      have e3 : r ^ 3 = r - a * (a * r) := by
        have : r ^ 3 = r * r ^ 2 := by ring
        rw [this, hsq]; ring
      rw [e3]
      have : a * r ≤ t := by nlinarith
      nlinarith
    nlinarith [abs_nonneg b]

/-- **Away from the identity the reported variances are the covariance of the attitude states projected on the gradient of the
rotation vector.**  For either sign of the quaternion. -/
theorem rotVec_projection (q : Quat ℝ) (P : Mat ℝ) (hs : ∀ i j, P i j = P j i) (h : q.w ^ 2 < 1 - 1 / 1000000000) (hw : q.w ≠ 0)
    (k : Fin 3) :
    ∃ g : Fin N → ℝ,
      (∀ u : Fin N → ℝ, HasDerivAt (fun t : ℝ => Spec.rotCompSigned (q.w + t * u 0) (![q.x, q.y, q.z] k + t * u (![1, 2, 3] k)))
        (∑ i, g i * u i) 0) ∧
      rotVecVariances q P k = Spec.form P g g := by
  set b : ℝ := ![q.x, q.y, q.z] k with hb
  set j : Fin N := ![1, 2, 3] k with hj
  set σ : ℝ := if 0 ≤ q.w then 1 else -1 with hσ
  have hj0 : j ≠ 0 := by rw [hj]; fin_cases k <;> decide
  have hσ2 : σ * σ = 1 := by by_cases h0 : 0 ≤ q.w <;> simp [σ, h0]
  have hq : (σ * q.w) ^ 2 = q.w ^ 2 := by rw [mul_pow, pow_two σ, hσ2, one_mul]
  have hlt : (σ * q.w) ^ 2 < 1 := by rw [hq]; linarith
  refine ⟨fun i => if i = 0 then σ * Spec.dScalar (σ * q.w) (σ * b) else if i = j then σ * Spec.dVector (σ * q.w) else 0, ?_, ?_⟩
  · intro u
    have hsum : (∑ i : Fin N, (if i = 0 then σ * Spec.dScalar (σ * q.w) (σ * b) else if i = j then σ * Spec.dVector (σ * q.w) else 0) * u i) =
        σ * Spec.dScalar (σ * q.w) (σ * b) * u 0 + σ * Spec.dVector (σ * q.w) * u j := by
      rw [Fintype.sum_eq_add 0 j (Ne.symm hj0)]
      · simp [hj0]
      · rintro x ⟨h1, h2⟩; simp [h1, h2]
    rw [hsum]
    have hev : (fun t : ℝ => Spec.rotCompSigned (q.w + t * u 0) (b + t * u j)) =ᶠ[nhds 0]
        fun t => Spec.rotComp (σ * (q.w + t * u 0)) 1 * (σ * (b + t * u j)) := by
      have hcont : ContinuousAt (fun t : ℝ => q.w + t * u 0) 0 := by fun_prop
      have hlin : ∀ a c : ℝ, Spec.rotComp a c = Spec.rotComp a 1 * c := by
        intro a c; unfold Spec.rotComp; ring
      rcases lt_or_gt_of_ne hw with hn | hn
      · have := hcont.eventually_lt_const (u := 0) (by simpa using hn)
        filter_upwards [this] with t ht
        have e1 : σ = -1 := by simp [σ, not_le.mpr hn]
        rw [Spec.rotCompSigned, if_neg (not_le.mpr ht), hlin, e1]
        ring_nf
      · have := hcont.eventually_const_lt (u := 0) (by simpa using hn)
        filter_upwards [this] with t ht
        have e1 : σ = 1 := by simp [σ, hn.le]
        rw [Spec.rotCompSigned, if_pos ht.le, hlin, e1]
        ring_nf
    refine HasDerivAt.congr_of_eventuallyEq ?_ hev
    have d1 : HasDerivAt (fun t : ℝ => σ * (q.w + t * u 0)) (σ * u 0) 0 := by
      have := (((hasDerivAt_id (0 : ℝ)).mul_const (u 0)).const_add q.w).const_mul σ
      simpa using this
    have d2 : HasDerivAt (fun t : ℝ => σ * (b + t * u j)) (σ * u j) 0 := by
      have := (((hasDerivAt_id (0 : ℝ)).mul_const (u j)).const_add b).const_mul σ
      simpa using this
    have d3 := (rotComp_deriv (σ * q.w) 1 hlt).1
    have d4 : HasDerivAt (fun t : ℝ => Spec.rotComp (σ * (q.w + t * u 0)) 1) (Spec.dScalar (σ * q.w) 1 * (σ * u 0)) 0 := by
      have e : σ * (q.w + 0 * u 0) = σ * q.w := by ring
      have d3' : HasDerivAt (fun a => Spec.rotComp a 1) (Spec.dScalar (σ * q.w) 1) (σ * (q.w + 0 * u 0)) := by rw [e]; exact d3
      exact HasDerivAt.comp (0 : ℝ) d3' d1
    refine (d4.mul d2).congr_deriv ?_
    unfold Spec.dScalar Spec.dVector Spec.rotComp
    ring_nf
  · have hv := rotVec_value q P hs h k
    simp only [← hb, ← hj, ← hσ] at hv
    rw [hv]
    unfold Spec.form
    rw [Fintype.sum_eq_add 0 j (Ne.symm hj0)]
    · rw [Fintype.sum_eq_add 0 j (Ne.symm hj0), Fintype.sum_eq_add 0 j (Ne.symm hj0)]
      · simp only [if_true, hj0, if_false, hs j 0]
        linear_combination (-(Spec.dScalar (σ * q.w) (σ * b) ^ 2 * P 0 0) - 2 * Spec.dScalar (σ * q.w) (σ * b) * Spec.dVector (σ * q.w) * P 0 j -
          Spec.dVector (σ * q.w) ^ 2 * P j j) * hσ2
      · rintro x ⟨h1, h2⟩; simp [h1, h2]
      · rintro x ⟨h1, h2⟩; simp [h1, h2]
    · rintro x ⟨h1, h2⟩; simp [h1, h2]

/-- **The reported variances are never negative, and do not depend on which of the two quaternions of the attitude is used.**
(At a scalar part of exactly zero the two quaternions describe rotations by ±180° and the sign convention matters only for the
correlation term; with a negated quaternion the cross terms of the covariance belonging to it are the same.) -/
theorem rotVec_nonneg (q : Quat ℝ) (P : Mat ℝ) (hP : Spec.PSD P) (k : Fin 3) : 0 ≤ rotVecVariances q P k := by
  by_cases h : q.w ^ 2 < 1 - 1 / 1000000000
  · have hv := rotVec_value q P hP.symm h k
    simp only at hv
    rw [hv]
    refine psd_minor hP 0 _ ?_ _ _
    fin_cases k <;> decide
  · unfold rotVecVariances
    have h2 : ∀ x : ℝ, x = q.w ∨ x = -q.w → ¬ (-(x * x) + 1 > 1 / 1000000000 ∧ x * x - 1 < -(1 / 1000000000)) := by
      rintro x (rfl | rfl) ⟨h3, -⟩ <;> exact h (by nlinarith)
    simp only
    rw [if_neg (h2 _ (by by_cases h0 : q.w ≥ 0 <;> simp [h0]))]
    fin_cases k
    · have := diag_nonneg hP 1; show 0 ≤ 4 * P 1 1; linarith
    · have := diag_nonneg hP 2; show 0 ≤ 4 * P 2 2; linarith
    · have := diag_nonneg hP 3; show 0 ≤ 4 * P 3 3; linarith

/-- sign of the quaternion -/
theorem rotVec_sign (q : Quat ℝ) (P : Mat ℝ) (hw : q.w ≠ 0) : rotVecVariances ⟨-q.w, -q.x, -q.y, -q.z⟩ P = rotVecVariances q P := by
  unfold rotVecVariances
  rcases lt_or_gt_of_ne hw with h | h
  · have h1 : ¬ (q.w ≥ 0) := not_le.mpr h
    have h2 : -q.w ≥ 0 := by linarith
    simp only [h1, h2, if_true, if_false]
  · have h1 : q.w ≥ 0 := h.le
    have h2 : ¬ (-q.w ≥ 0) := by intro h3; linarith
    simp only [h1, h2, if_true, if_false, neg_neg]

/-- **Close to the identity**: four times the variances of the vector part. -/
theorem rotVec_identity (q : Quat ℝ) (P : Mat ℝ) (h : 1 - 1 / 1000000000 ≤ q.w ^ 2) :
    rotVecVariances q P = ![4 * P 1 1, 4 * P 2 2, 4 * P 3 3] := by
  unfold rotVecVariances
  have h2 : ∀ x : ℝ, x = q.w ∨ x = -q.w → ¬ (-(x * x) + 1 > 1 / 1000000000 ∧ x * x - 1 < -(1 / 1000000000)) := by
    rintro x (rfl | rfl) ⟨h3, -⟩ <;> nlinarith
  simp only
  rw [if_neg (h2 _ (by by_cases h0 : q.w ≥ 0 <;> simp [h0]))]

/-- a quaternion away from the identity, and a covariance with correlations -/
example : ((⟨3 / 5, 4 / 5, 0, 0⟩ : Quat ℝ).w ^ 2 < 1 - 1 / 1000000000) ∧ (⟨3 / 5, 4 / 5, 0, 0⟩ : Quat ℝ).w ≠ 0 ∧
    Spec.PSD (fun _ _ : Fin N => (1 : ℝ)) ∧ (1 - 1 / 1000000000 : ℝ) ≤ (⟨1, 0, 0, 0⟩ : Quat ℝ).w ^ 2 := by
  refine ⟨by norm_num, by norm_num, ⟨fun _ _ => rfl, fun x => ?_⟩, by norm_num⟩
  unfold Spec.form
  have : (∑ i : Fin N, ∑ j : Fin N, x i * 1 * x j) = (∑ i, x i) * (∑ i, x i) := by
    rw [Finset.sum_mul_sum]; simp
  rw [this]
  exact mul_self_nonneg _

end Ecl.Cov
