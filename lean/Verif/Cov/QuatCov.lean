import Verif.Cov.Props2
import Verif.Basic.RealTrig
import Mathlib.Analysis.SpecialFunctions.Trigonometric.Deriv
import Mathlib.Analysis.SpecialFunctions.Sqrt
import Mathlib.Analysis.SpecialFunctions.Pow.Real
import Mathlib.Tactic.IntervalCases

/-!
# Initial quaternion covariance — EKF/ekf_helper.cpp:1073-1169, EKF/covariance.cpp:1042-1056
-/

namespace Ecl.Cov

noncomputable section

/-- rotation vector of the quaternion, EKF/ekf_helper.cpp:1075-1093 (for the identity C computes 0/0, a NaN that fails the
comparison below; here division by zero gives zero, which fails it as well) -/
def rotVec (q : Quat ℝ) : ℝ × ℝ × ℝ :=
  let p : Quat ℝ := if q.w ≥ 0 then q else ⟨-q.w, -q.x, -q.y, -q.z⟩
  let delta := 2 * Real.arccos p.w
  let scaler := delta / Real.sin (delta * (1 / 2))
  (scaler * p.x, scaler * p.y, scaler * p.z)

/-- the sixteen quaternion covariances of the regular branch, EKF/ekf_helper.cpp:1096-1161 -/
def quatBlock (rX rY rZ v0 v1 v2 : ℝ) : Fin 4 → Fin 4 → ℝ :=
  let t2 := rX*rX
  let t4 := rY*rY
  let t5 := rZ*rZ
  let t6 := t2+t4+t5
  let t7 := Real.sqrt t6
  let t8 := t7*(1/2)
  let t3 := Real.sin t8
  let t9 := t3*t3
  let t10 := 1/t6
  let t11 := 1/Real.sqrt t6
  let t12 := Real.cos t8
  let t13 := 1/(t6 ^ (3/2 : ℝ))
  let t14 := t3*t11
  let t15 := rX*rY*t3*t13
  let t16 := rX*rZ*t3*t13
  let t17 := rY*rZ*t3*t13
  let t18 := t2*t10*t12*(1/2)
  let t27 := t2*t3*t13
  let t19 := t14+t18-t27
  let t23 := rX*rY*t10*t12*(1/2)
  let t28 := t15-t23
  let t20 := rY*v1*t3*t11*t28*(1/2)
  let t25 := rX*rZ*t10*t12*(1/2)
  let t31 := t16-t25
  let t21 := rZ*v2*t3*t11*t31*(1/2)
  let t22 := t20+t21-rX*v0*t3*t11*t19*(1/2)
  let t24 := t15-t23
  let t26 := t16-t25
  let t29 := t4*t10*t12*(1/2)
  let t34 := t3*t4*t13
  let t30 := t14+t29-t34
  let t32 := t5*t10*t12*(1/2)
  let t40 := t3*t5*t13
  let t33 := t14+t32-t40
  let t36 := rY*rZ*t10*t12*(1/2)
  let t39 := t17-t36
  let t35 := rZ*v2*t3*t11*t39*(1/2)
  let t37 := t15-t23
  let t38 := t17-t36
  let t41 := v0*(t15-t23)*(t16-t25)
  let t42 := t41-v1*t30*t39-v2*t33*t39
  let t43 := t16-t25
  let t44 := t17-t36
  ![![v0*t2*t9*t10*(1/4)+v1*t4*t9*t10*(1/4)+v2*t5*t9*t10*(1/4),
      t22,
      t35+rX*v0*t3*t11*(t15-rX*rY*t10*t12*(1/2))*(1/2)-rY*v1*t3*t11*t30*(1/2),
      rX*v0*t3*t11*(t16-rX*rZ*t10*t12*(1/2))*(1/2)+rY*v1*t3*t11*(t17-rY*rZ*t10*t12*(1/2))*(1/2)-rZ*v2*t3*t11*t33*(1/2)],
    ![t22,
      v0*(t19*t19)+v1*(t24*t24)+v2*(t26*t26),
      v2*(t16-t25)*(t17-rY*rZ*t10*t12*(1/2))-v0*t19*t28-v1*t28*t30,
      v1*(t15-t23)*(t17-rY*rZ*t10*t12*(1/2))-v0*t19*t31-v2*t31*t33],
    ![t35-rY*v1*t3*t11*t30*(1/2)+rX*v0*t3*t11*(t15-t23)*(1/2),
      v2*(t16-t25)*(t17-t36)-v0*t19*t28-v1*t28*t30,
      v1*(t30*t30)+v0*(t37*t37)+v2*(t38*t38),
      t42],
    ![rZ*v2*t3*t11*t33*(-1/2)+rX*v0*t3*t11*(t16-t25)*(1/2)+rY*v1*t3*t11*(t17-t36)*(1/2),
      v1*(t15-t23)*(t17-t36)-v0*t19*t31-v2*t31*t33,
      t42,
      v2*(t33*t33)+v0*(t43*t43)+v1*(t44*t44)]]

/-- `initialiseQuatCovariances(rot_vec_var)`, EKF/ekf_helper.cpp:1073-1169 -/
def initQuatCov (q : Quat ℝ) (v : Fin 3 → ℝ) (P : Mat ℝ) : Mat ℝ :=
  let r := rotVec q
  if r.1*r.1 + r.2.1*r.2.1 + r.2.2*r.2.2 > 1 / 1000000000 then
    let Q := uncorrSet 2 2 (fun _ => 0) (uncorrSet 0 2 (fun _ => 0) P)
    fun i j => if h : i.val < 4 ∧ j.val < 4 then quatBlock r.1 r.2.1 r.2.2 (v 0) (v 1) (v 2) ⟨i.val, h.1⟩ ⟨j.val, h.2⟩
      else Q i j
  else
    uncorrSet 1 3 (fun i => if i.val = 1 then 1/4 * v 0 else if i.val = 2 then 1/4 * v 1 else 1/4 * v 2)
      (uncorrSet 0 1 (fun _ => 0) P)

/-- `resetQuatCov`, EKF/covariance.cpp:1042-1051 (`zeroQuatCov` first, 1052-1056) -/
def resetQuatCov (q : Quat ℝ) (tiltErr : ℝ) (P : Mat ℝ) : Mat ℝ :=
  initQuatCov q (fun _ => sq tiltErr) (uncorrSet 2 2 (fun _ => 0) (uncorrSet 0 2 (fun _ => 0) P))

/-! ### C74 -/

/-- quaternion of a rotation vector -/
def Spec.quatOfRot (r : Fin 3 → ℝ) : Fin 4 → ℝ :=
  let th := Real.sqrt (r 0 ^ 2 + r 1 ^ 2 + r 2 ^ 2)
  ![Real.cos (th / 2), r 0 * (Real.sin (th / 2) / th), r 1 * (Real.sin (th / 2) / th), r 2 * (Real.sin (th / 2) / th)]

/-- sensitivity of the quaternion to the rotation vector; `quatJac_is_derivative` shows it is the derivative -/
def Spec.quatJac (r : Fin 3 → ℝ) (i : Fin 4) (k : Fin 3) : ℝ :=
  let th := Real.sqrt (r 0 ^ 2 + r 1 ^ 2 + r 2 ^ 2)
  let dsinc := r k * (Real.cos (th / 2) / (2 * th ^ 2) - Real.sin (th / 2) / th ^ 3)
  ![-(r k * Real.sin (th / 2) / (2 * th)),
    (if k = 0 then Real.sin (th / 2) / th else 0) + r 0 * dsinc,
    (if k = 1 then Real.sin (th / 2) / th else 0) + r 1 * dsinc,
    (if k = 2 then Real.sin (th / 2) / th else 0) + r 2 * dsinc] i

theorem hasDerivAt_theta (r : Fin 3 → ℝ) (h : 0 < r 0 ^ 2 + r 1 ^ 2 + r 2 ^ 2) (k : Fin 3) :
    HasDerivAt (fun t => Real.sqrt ((Function.update r k t) 0 ^ 2 + (Function.update r k t) 1 ^ 2 + (Function.update r k t) 2 ^ 2))
      (r k / Real.sqrt (r 0 ^ 2 + r 1 ^ 2 + r 2 ^ 2)) (r k) := by
  have hin : HasDerivAt (fun t => (Function.update r k t) 0 ^ 2 + (Function.update r k t) 1 ^ 2 + (Function.update r k t) 2 ^ 2)
      (2 * r k) (r k) := by
    have hcomp : ∀ j : Fin 3, HasDerivAt (fun t => (Function.update r k t) j ^ 2) (if j = k then 2 * r k else 0) (r k) := by
      intro j
      by_cases hj : j = k
      · subst hj
        simp only [Function.update_self, if_true]
        exact (hasDerivAt_pow 2 (r j)).congr_deriv (by simp)
      · simp only [Function.update_of_ne hj, if_neg hj]
        exact hasDerivAt_const _ _
    refine (((hcomp 0).add (hcomp 1)).add (hcomp 2)).congr_deriv ?_
    fin_cases k <;> simp
  have hne : (Function.update r k (r k)) 0 ^ 2 + (Function.update r k (r k)) 1 ^ 2 + (Function.update r k (r k)) 2 ^ 2 ≠ 0 := by
    rw [Function.update_eq_self]; exact h.ne'
  refine (hin.sqrt hne).congr_deriv ?_
  rw [Function.update_eq_self]
  field_simp

/-- **C74 (the Jacobian).** -/
theorem quatJac_is_derivative (r : Fin 3 → ℝ) (h : 0 < r 0 ^ 2 + r 1 ^ 2 + r 2 ^ 2) (i : Fin 4) (k : Fin 3) :
    HasDerivAt (fun t => Spec.quatOfRot (Function.update r k t) i) (Spec.quatJac r i k) (r k) := by
  have hth := hasDerivAt_theta r h k
  have hpos : 0 < Real.sqrt (r 0 ^ 2 + r 1 ^ 2 + r 2 ^ 2) := Real.sqrt_pos.mpr h
  set th := Real.sqrt (r 0 ^ 2 + r 1 ^ 2 + r 2 ^ 2) with hthdef
  set f : ℝ → ℝ := fun t => Real.sqrt ((Function.update r k t) 0 ^ 2 + (Function.update r k t) 1 ^ 2 + (Function.update r k t) 2 ^ 2) with hf
  have hfr : f (r k) = th := by rw [hf]; simp only [Function.update_eq_self]; rfl
  have hcos : HasDerivAt (fun t => Real.cos (f t / 2)) (-(r k * Real.sin (th / 2) / (2 * th))) (r k) := by
    refine ((hth.div_const 2).cos).congr_deriv ?_
    rw [hfr]; field_simp
  have hsin : HasDerivAt (fun t => Real.sin (f t / 2)) (r k * Real.cos (th / 2) / (2 * th)) (r k) := by
    refine ((hth.div_const 2).sin).congr_deriv ?_
    rw [hfr]; field_simp
  have hsinc : HasDerivAt (fun t => Real.sin (f t / 2) / f t)
      (r k * (Real.cos (th / 2) / (2 * th ^ 2) - Real.sin (th / 2) / th ^ 3)) (r k) := by
    refine (hsin.div hth (by rw [hfr]; exact hpos.ne')).congr_deriv ?_
    rw [hfr]; field_simp
  have hvec : ∀ j : Fin 3, HasDerivAt (fun t => (Function.update r k t) j * (Real.sin (f t / 2) / f t))
      ((if k = j then Real.sin (th / 2) / th else 0) + r j * (r k * (Real.cos (th / 2) / (2 * th ^ 2) - Real.sin (th / 2) / th ^ 3)))
      (r k) := by
    intro j
    have hj : HasDerivAt (fun t => (Function.update r k t) j) (if k = j then 1 else 0) (r k) := by
      by_cases e : j = k
      · subst e; simp only [Function.update_self, if_true]; exact hasDerivAt_id _
      · simp only [Function.update_of_ne e, if_neg (Ne.symm e)]; exact hasDerivAt_const _ _
    refine (hj.mul hsinc).congr_deriv ?_
    rw [hfr, Function.update_eq_self]
    split <;> ring
  fin_cases i
  · exact hcos
  · exact hvec 0
  · exact hvec 1
  · exact hvec 2

/-- **C74 (rotation vector).** For a unit quaternion other than plus or minus the identity, the rotation vector used in the
computation is non-zero and represents the same attitude (the quaternion or its negative). -/
theorem rotVec_spec (q : Quat ℝ) (hq : q.w ^ 2 + q.x ^ 2 + q.y ^ 2 + q.z ^ 2 = 1) (hne : q.w ^ 2 < 1) :
    let r : Fin 3 → ℝ := ![(rotVec q).1, (rotVec q).2.1, (rotVec q).2.2]
    let s : ℝ := if q.w ≥ 0 then 1 else -1
    0 < r 0 ^ 2 + r 1 ^ 2 + r 2 ^ 2 ∧ Spec.quatOfRot r = ![s * q.w, s * q.x, s * q.y, s * q.z] := by
  intro r s
  obtain ⟨p, hp, hpw, hpn, hps⟩ : ∃ p : Quat ℝ, p = (if q.w ≥ 0 then q else ⟨-q.w, -q.x, -q.y, -q.z⟩) ∧ 0 ≤ p.w ∧
      p.w ^ 2 + p.x ^ 2 + p.y ^ 2 + p.z ^ 2 = 1 ∧ (s * q.w = p.w ∧ s * q.x = p.x ∧ s * q.y = p.y ∧ s * q.z = p.z ∧ p.w ^ 2 < 1) := by
    refine ⟨_, rfl, ?_, ?_, ?_⟩
    · split
      · assumption
      · next h => simp only; linarith [not_le.mp h]
    · split
      · exact hq
      · simp only; linarith [hq]
    · by_cases h : q.w ≥ 0
      · simp only [s, if_pos h, one_mul, true_and]; exact hne
      · simp only [s, if_neg h, neg_one_mul, true_and]; linarith
  obtain ⟨e0, e1, e2, e3, hlt⟩ := hps
  set a := Real.arccos p.w with ha
  have hw1 : p.w ≤ 1 := by nlinarith
  have hw1' : p.w < 1 := by nlinarith
  have hcosa : Real.cos a = p.w := Real.cos_arccos (by linarith) hw1
  have hapos : 0 < a := Real.arccos_pos.mpr hw1'
  have hapi : a < Real.pi := by
    have : a ≤ Real.pi / 2 := Real.arccos_le_pi_div_two.mpr hpw
    linarith [Real.pi_pos]
  have hsin : 0 < Real.sin a := Real.sin_pos_of_pos_of_lt_pi hapos hapi
  have hs2 : p.x ^ 2 + p.y ^ 2 + p.z ^ 2 = Real.sin a ^ 2 := by
    have := Real.sin_sq_add_cos_sq a
    rw [hcosa] at this; linarith
  have hr : rotVec q = (2 * a / Real.sin a * p.x, 2 * a / Real.sin a * p.y, 2 * a / Real.sin a * p.z) := by
    simp only [rotVec, ← hp, ← ha]
    rw [show 2 * a * (1 / 2) = a by ring]
  have r0 : r 0 = 2 * a / Real.sin a * p.x := by show (rotVec q).1 = _; rw [hr]
  have r1 : r 1 = 2 * a / Real.sin a * p.y := by show (rotVec q).2.1 = _; rw [hr]
  have r2 : r 2 = 2 * a / Real.sin a * p.z := by show (rotVec q).2.2 = _; rw [hr]
  have hsum : r 0 ^ 2 + r 1 ^ 2 + r 2 ^ 2 = (2 * a) ^ 2 := by
    rw [r0, r1, r2]
    have : (2 * a / Real.sin a * p.x) ^ 2 + (2 * a / Real.sin a * p.y) ^ 2 + (2 * a / Real.sin a * p.z) ^ 2 =
        (2 * a) ^ 2 / Real.sin a ^ 2 * (p.x ^ 2 + p.y ^ 2 + p.z ^ 2) := by field_simp
    rw [this, hs2]; field_simp
  refine ⟨by rw [hsum]; positivity, ?_⟩
  unfold Spec.quatOfRot
  simp only
  rw [hsum, Real.sqrt_sq (by linarith), show 2 * a / 2 = a by ring, hcosa, e0, e1, e2, e3, r0, r1, r2]
  congr 1
  · congr 1
    · field_simp
    · congr 1
      · field_simp
      · congr 1
        field_simp

/-- **C74 (block).** In the regular branch the quaternion covariance block is `G diag(v) Gᵀ` with `G` the derivative of
the quaternion with respect to the rotation vector. -/
theorem quatBlock_eq (rX rY rZ v0 v1 v2 : ℝ) (h : 0 < rX ^ 2 + rY ^ 2 + rZ ^ 2) (i j : Fin 4) :
    quatBlock rX rY rZ v0 v1 v2 i j = ∑ k, Spec.quatJac ![rX, rY, rZ] i k * ![v0, v1, v2] k * Spec.quatJac ![rX, rY, rZ] j k := by
  have hsum : rX * rX + rY * rY + rZ * rZ = rX ^ 2 + rY ^ 2 + rZ ^ 2 := by ring
  obtain ⟨th, hth, hpos, hsq⟩ : ∃ th, th = Real.sqrt (rX ^ 2 + rY ^ 2 + rZ ^ 2) ∧ 0 < th ∧ rX ^ 2 + rY ^ 2 + rZ ^ 2 = th ^ 2 :=
    ⟨_, rfl, Real.sqrt_pos.mpr h, (Real.sq_sqrt h.le).symm⟩
  have hpow : (th ^ 2) ^ (3 / 2 : ℝ) = th ^ 3 := by
    rw [← Real.rpow_natCast th 2, ← Real.rpow_mul hpos.le, ← Real.rpow_natCast th 3]; norm_num
  have hsqrt : Real.sqrt (th ^ 2) = th := Real.sqrt_sq hpos.le
  have hG : ∀ i k, Spec.quatJac ![rX, rY, rZ] i k = (
      let dsinc := ![rX, rY, rZ] k * (Real.cos (th / 2) / (2 * th ^ 2) - Real.sin (th / 2) / th ^ 3)
      ![-(![rX, rY, rZ] k * Real.sin (th / 2) / (2 * th)),
        (if k = 0 then Real.sin (th / 2) / th else 0) + rX * dsinc,
        (if k = 1 then Real.sin (th / 2) / th else 0) + rY * dsinc,
        (if k = 2 then Real.sin (th / 2) / th else 0) + rZ * dsinc] i) := by
    intro i k; rw [hth]; rfl
  have hne := hpos.ne'
  have h2 : th * (1 / 2) = th / 2 := by ring
  simp only [hG, Fin.sum_univ_three, quatBlock, hsum, hsq, hsqrt, hpow, h2]
  generalize Real.sin (th / 2) = S
  generalize Real.cos (th / 2) = C
  clear hG hpow hsqrt hth h2 hsum
  fin_cases i <;> fin_cases j <;> simp <;> field_simp <;> ring

/-- **C74.** Initialising the quaternion covariance removes all correlations with other states, leaves every other element,
and, for a unit quaternion rotated from identity by more than about 3e-5 rad, sets the 4×4 block to `G diag(v) Gᵀ`; below
that to `diag(0, v/4)`. -/
theorem initQuatCov_spec (q : Quat ℝ) (v : Fin 3 → ℝ) (P : Mat ℝ) (i j : Fin N) :
    let r : Fin 3 → ℝ := ![(rotVec q).1, (rotVec q).2.1, (rotVec q).2.2]
    (i.val < 4 → 4 ≤ j.val → initQuatCov q v P i j = 0 ∧ initQuatCov q v P j i = 0) ∧
    (4 ≤ i.val → 4 ≤ j.val → initQuatCov q v P i j = P i j) ∧
    (∀ (hi : i.val < 4) (hj : j.val < 4), 1 / 1000000000 < r 0 ^ 2 + r 1 ^ 2 + r 2 ^ 2 →
      initQuatCov q v P i j = ∑ k, Spec.quatJac r ⟨i.val, hi⟩ k * v k * Spec.quatJac r ⟨j.val, hj⟩ k) ∧
    (i.val < 4 → j.val < 4 → r 0 ^ 2 + r 1 ^ 2 + r 2 ^ 2 ≤ 1 / 1000000000 →
      initQuatCov q v P i j = if i = j then ![0, v 0 / 4, v 1 / 4, v 2 / 4] (Fin.ofNat 4 i.val) else 0) := by
  intro r
  have hr : r 0 ^ 2 + r 1 ^ 2 + r 2 ^ 2 = (rotVec q).1 * (rotVec q).1 + (rotVec q).2.1 * (rotVec q).2.1 +
      (rotVec q).2.2 * (rotVec q).2.2 := by
    show (rotVec q).1 ^ 2 + (rotVec q).2.1 ^ 2 + (rotVec q).2.2 ^ 2 = _; ring
  have hv : v = ![v 0, v 1, v 2] := by ext k; fin_cases k <;> rfl
  by_cases hc : (rotVec q).1 * (rotVec q).1 + (rotVec q).2.1 * (rotVec q).2.1 + (rotVec q).2.2 * (rotVec q).2.2 > 1 / 1000000000
  · refine ⟨fun h1 h2 => ?_, fun h1 h2 => ?_, fun h1 h2 _ => ?_, fun h1 h2 h3 => ?_⟩
    · have nij : i ≠ j := by rintro rfl; omega
      simp only [initQuatCov, if_pos hc]
      rw [dif_neg (by omega), dif_neg (by omega)]
      simp only [uncorrSet, nij, Ne.symm nij, if_false, ite_self]
      constructor
      · split
        · rfl
        · rw [if_pos (by unfold inBlk; omega)]
      · split
        · rfl
        · rw [if_pos (by unfold inBlk; omega)]
    · simp only [initQuatCov, if_pos hc]
      rw [dif_neg (by omega)]
      simp only [uncorrSet]
      rw [if_neg (by unfold inBlk; omega), if_neg (by unfold inBlk; omega)]
    · simp only [initQuatCov, if_pos hc]
      rw [dif_pos ⟨h1, h2⟩, quatBlock_eq _ _ _ _ _ _ (by
        have : (0 : ℝ) < 1 / 1000000000 := by norm_num
        nlinarith), ← hv]
    · rw [hr] at h3; exact absurd hc (not_lt.mpr h3)
  · refine ⟨fun h1 h2 => ?_, fun h1 h2 => ?_, fun h1 h2 h3 => ?_, fun h1 h2 _ => ?_⟩
    · have nij : i ≠ j := by rintro rfl; omega
      simp only [initQuatCov, if_neg hc, uncorrSet, nij, Ne.symm nij, if_false, ite_self]
      constructor
      · split
        · rfl
        · rw [if_pos (by unfold inBlk; omega)]
      · split
        · rfl
        · rw [if_pos (by unfold inBlk; omega)]
    · simp only [initQuatCov, if_neg hc, uncorrSet]
      rw [if_neg (by unfold inBlk; omega), if_neg (by unfold inBlk; omega)]
    · rw [hr] at h3; exact absurd h3 hc
    · simp only [initQuatCov, if_neg hc, uncorrSet]
      by_cases e : i = j
      · subst e
        obtain ⟨i, hi⟩ := i
        simp only at h1
        simp only [if_true]
        interval_cases i <;> simp [inBlk, Fin.ofNat] <;> ring
      · simp only [e, if_false, ite_self]
        split
        · rfl
        · rw [if_pos (by unfold inBlk; omega)]

/-- **C74 (validity).** With non-negative variances a valid covariance stays valid. -/
theorem initQuatCov_valid (q : Quat ℝ) (v : Fin 3 → ℝ) (hv : ∀ k, 0 ≤ v k) (P : Mat ℝ) (hP : Spec.PSD P) :
    Spec.PSD (initQuatCov q v P) := by
  set r : Fin 3 → ℝ := ![(rotVec q).1, (rotVec q).2.1, (rotVec q).2.2] with hr
  have key := initQuatCov_spec q v P
  rw [← hr] at key
  have hmask : Spec.PSD (fun i j : Fin N => if i.val < 4 ∨ j.val < 4 then 0 else P i j) := psd_mask hP fun i : Fin N => i.val < 4
  by_cases hc : 1 / 1000000000 < r 0 ^ 2 + r 1 ^ 2 + r 2 ^ 2
  · let g : Fin 3 → Fin N → ℝ := fun k i => if h : i.val < 4 then Spec.quatJac r ⟨i.val, h⟩ k else 0
    refine psd_congr (fun i j => ?_) (psd_add hmask (psd_add (psd_add (psd_outer (g 0) (hv 0)) (psd_outer (g 1) (hv 1)))
      (psd_outer (g 2) (hv 2))))
    obtain ⟨k1, k2, k3, -⟩ := key i j
    by_cases hi : i.val < 4 <;> by_cases hj : j.val < 4
    · rw [k3 hi hj hc, if_pos (Or.inl hi), Fin.sum_univ_three]
      simp only [g, hi, hj, dif_pos]; ring
    · rw [(k1 hi (by omega)).1, if_pos (Or.inl hi)]
      simp only [g, hj, dif_neg, not_false_eq_true]; ring
    · rw [((key j i).1 hj (by omega)).2, if_pos (Or.inr hj)]
      simp only [g, hi, dif_neg, not_false_eq_true]; ring
    · rw [k2 (by omega) (by omega), if_neg (by omega)]
      simp only [g, hi, hj, dif_neg, not_false_eq_true]; ring
  · have hd : Spec.PSD (fun i j : Fin N => if i = j then (if i.val < 4 then ![0, v 0 / 4, v 1 / 4, v 2 / 4] (Fin.ofNat 4 i.val) else 0) else 0) := by
      refine psd_diag fun i => ?_
      split
      · have h0 := hv 0; have h1 := hv 1; have h2 := hv 2
        generalize Fin.ofNat 4 i.val = m
        fin_cases m <;> simp <;> linarith
      · exact le_rfl
    refine psd_congr (fun i j => ?_) (psd_add hmask hd)
    obtain ⟨k1, k2, -, k4⟩ := key i j
    by_cases hi : i.val < 4 <;> by_cases hj : j.val < 4
    · rw [k4 hi hj (not_lt.mp hc), if_pos (Or.inl hi), if_pos hi]; ring
    · rw [(k1 hi (by omega)).1, if_pos (Or.inl hi), if_neg (by rintro rfl; omega)]; ring
    · rw [((key j i).1 hj (by omega)).2, if_pos (Or.inr hj), if_neg (by rintro rfl; omega)]; ring
    · rw [k2 (by omega) (by omega), if_neg (by omega)]
      simp only [hi, if_false, ite_self]; ring

/-- Non-vacuity: a quarter turn about the vertical. -/
example : ∃ q : Quat ℝ, q.w ^ 2 + q.x ^ 2 + q.y ^ 2 + q.z ^ 2 = 1 ∧ q.w ^ 2 < 1 :=
  ⟨⟨3 / 5, 0, 0, 4 / 5⟩, by norm_num, by norm_num⟩

end

/-- **C74 (reset).** A reset of the attitude covariance leaves every entry that does not involve the attitude unchanged,
removes all correlations of the attitude with other states, and gives the attitude the covariance of three equal rotation
variances, whatever the covariance was before. -/
theorem resetQuatCov_spec (q : Quat ℝ) (e : ℝ) (P : Mat ℝ) (i j : Fin N) :
    (4 ≤ i.val → 4 ≤ j.val → resetQuatCov q e P i j = P i j) ∧
    (i.val < 4 → 4 ≤ j.val → resetQuatCov q e P i j = 0 ∧ resetQuatCov q e P j i = 0) ∧
    (i.val < 4 → j.val < 4 → resetQuatCov q e P i j = initQuatCov q (fun _ => e ^ 2) (fun _ _ => 0) i j) := by
  have e2 : (fun _ : Fin 3 => sq e) = fun _ => e ^ 2 := by funext _; unfold sq; ring
  unfold resetQuatCov
  rw [e2]
  have k1 := initQuatCov_spec q (fun _ => e ^ 2) (uncorrSet 2 2 (fun _ => 0) (uncorrSet 0 2 (fun _ => 0) P)) i j
  have k2 := initQuatCov_spec q (fun _ => e ^ 2) (fun _ _ => 0) i j
  simp only at k1 k2
  refine ⟨fun hi hj => ?_, k1.1, fun hi hj => ?_⟩
  · rw [k1.2.1 hi hj]
    unfold uncorrSet inBlk
    rw [if_neg (by omega), if_neg (by omega)]
  · rcases lt_or_ge (1 / 1000000000) ((![(rotVec q).1, (rotVec q).2.1, (rotVec q).2.2] : Fin 3 → ℝ) 0 ^ 2 +
      (![(rotVec q).1, (rotVec q).2.1, (rotVec q).2.2] : Fin 3 → ℝ) 1 ^ 2 +
      (![(rotVec q).1, (rotVec q).2.1, (rotVec q).2.2] : Fin 3 → ℝ) 2 ^ 2) with hc | hc
    · rw [k1.2.2.1 hi hj hc, k2.2.2.1 hi hj hc]
    · rw [k1.2.2.2 hi hj hc, k2.2.2.2 hi hj hc]

example : (4 : ℕ) ≤ (7 : Fin N).val := by decide

end Ecl.Cov
