import Verif.Gsf.Props
import Mathlib.Analysis.Real.Pi.Bounds

/-!
# Yaw estimator: fusion of a velocity in one model (C53) and its likelihood (C52)
-/

namespace Ecl.Gsf

open Utils

/-- `innov · S⁻¹ · innov` for a two-dimensional innovation -/
def Spec.chi2 (Sinv : Fin 2 → Fin 2 → ℝ) (d : Fin 2 → ℝ) : ℝ := ∑ a, ∑ b, d a * Sinv a b * d b

theorem testRatio_eq (m : Mdl) : testRatio m = Spec.chi2 m.sinv m.innov := by
  unfold testRatio Spec.chi2
  simp only [Fin.sum_univ_two]
  ring

theorem obsVar_ge (a : ℝ) : (1 : ℝ) / 4 ≤ obsVar a := by
  unfold obsVar sq
  have := le_max_right a 0.5
  nlinarith

theorem detS_ge (P : C3) (hP : Cov.Spec.PSD P) (a : ℝ) : (1 : ℝ) / 16 ≤ detS P (obsVar a) := by
  have h := obsVar_ge a
  have := det_ge P hP (obsVar a) (by linarith)
  nlinarith

/-- the squared, normalised innovation computed with the generated inverse is not negative -/
theorem chi2_nonneg (P : C3) (hP : Cov.Spec.PSD P) (r : ℝ) (hr : 0 < r) (d : Fin 2 → ℝ) : 0 ≤ Spec.chi2 (updGen P r).1 d := by
  have hD := det_ge P hP r hr
  have hpos : 0 < detS P r := lt_of_lt_of_le (by positivity) hD
  have hf := hP.nonneg ![d 1, -d 0, 0]
  have e : Spec.chi2 (updGen P r).1 d = 1 / detS P r * (Cov.Spec.form P ![d 1, -d 0, 0] ![d 1, -d 0, 0] + r * (d 0 ^ 2 + d 1 ^ 2)) := by
    unfold Spec.chi2 Cov.Spec.form updGen detS
    simp only [Fin.sum_univ_two, Fin.sum_univ_three, Matrix.cons_val_zero, Matrix.cons_val_one, Matrix.cons_val]
    rw [hP.symm 1 0]
    ring
  rw [e]
  have : 0 ≤ r * (d 0 ^ 2 + d 1 ^ 2) := by positivity
  positivity

theorem updGen_sdet (P : C3) (r : ℝ) : (updGen P r).2.2.2 = 1 / detS P r := rfl

/-- the model after the gain and covariance stage of an update, before the state correction -/
noncomputable def mid (vel : Fin 2 → ℝ) (velAcc : ℝ) (m : Mdl) : Mdl := { m with
  innov := ![m.X 0 - vel 0, m.X 1 - vel 1]
  sdet := (updGen m.P (obsVar velAcc)).2.2.2
  sinv := (updGen m.P (obsVar velAcc)).1
  P := floorP (updGen m.P (obsVar velAcc)).2.2.1 }

theorem updateEKF_good (vel : Fin 2 → ℝ) (velAcc : ℝ) (m : Mdl) (hP : Cov.Spec.PSD m.P) :
    updateEKF vel velAcc m =
      let q := mid vel velAcc m
      let scale := if testRatio q > 25 then √(25 / testRatio q) else 1
      let X' : V3 ℝ := fun i => m.X i - ((updGen m.P (obsVar velAcc)).2.1 i 0 * q.innov 0 + (updGen m.P (obsVar velAcc)).2.1 i 1 * q.innov 1) * scale
      ({ q with
        X := X'
        R := yawRot (X' 2 - m.X 2) m.R }, true) := by
  have hD := detS_ge m.P hP velAcc
  unfold updateEKF
  rw [if_neg]
  · rfl
  · show ¬ |detS m.P (obsVar velAcc)| < 0.000001
    rw [abs_of_pos (by linarith), not_lt]
    linarith

/-- **C53.** Fusion of a velocity in one model with a valid covariance.  With r = max(accuracy, 0.5)², S = HPHᵀ + r·I:
the update never fails; the innovation is predicted minus observed velocity; the stored matrix is S⁻¹ and the stored determinant that of S⁻¹; the state
moves by −K·innovation, K = PHᵀS⁻¹, shortened so that the innovation used never exceeds five standard deviations; the covariance becomes P − KHP
(with a 10⁻⁶ floor on the variances) and stays valid; the attitude is turned by the yaw change. -/
theorem update_spec (vel : Fin 2 → ℝ) (velAcc : ℝ) (m : Mdl) (hP : Cov.Spec.PSD m.P) :
    let r := max velAcc 0.5 ^ 2
    let m' := (updateEKF vel velAcc m).1
    (updateEKF vel velAcc m).2 = true ∧
    (m'.innov 0 = m.X 0 - vel 0 ∧ m'.innov 1 = m.X 1 - vel 1) ∧
    (∀ a b, ∑ k, m'.sinv a k * Spec.S m.P r k b = if a = b then 1 else 0) ∧
    m'.sdet * (Spec.S m.P r 0 0 * Spec.S m.P r 1 1 - Spec.S m.P r 0 1 * Spec.S m.P r 1 0) = 1 ∧
    (∃ (K : Fin 3 → Fin 2 → ℝ) (s : ℝ),
      (∀ i b, ∑ k, K i k * Spec.S m.P r k b = m.P i b.castSucc) ∧
      (0 < s ∧ s ≤ 1 ∧ s ^ 2 * Spec.chi2 m'.sinv m'.innov ≤ 25 ∧ (Spec.chi2 m'.sinv m'.innov ≤ 25 → s = 1) ∧
        (25 < Spec.chi2 m'.sinv m'.innov → s ^ 2 * Spec.chi2 m'.sinv m'.innov = 25)) ∧
      (∀ i, m'.X i = m.X i - s * ∑ k, K i k * m'.innov k) ∧
      (∀ i j, m'.P i j = if i = j then max (m.P i i - ∑ k, K i k * m.P i k.castSucc) 0.000001 else m.P i j - ∑ k, K i k * m.P j k.castSucc)) ∧
    Cov.Spec.PSD m'.P ∧ (∀ i, (1 / 1000000 : ℝ) ≤ m'.P i i ∧ m'.P i i ≤ max (m.P i i) (1 / 1000000)) ∧
    m'.R = yawRot (m'.X 2 - m.X 2) m.R ∧ m'.bias = m.bias := by
  intro r m'
  have hr : r = obsVar velAcc := by show max velAcc 0.5 ^ 2 = _; unfold obsVar sq; ring
  have hge := obsVar_ge velAcc
  have hrpos : 0 < obsVar velAcc := by linarith
  have hDg := detS_ge m.P hP velAcc
  obtain ⟨h1, h2, h3, h4⟩ := updGen_eq m.P hP.symm (obsVar velAcc) (by linarith)
  obtain ⟨hpsd, hle⟩ := posterior_psd m.P hP (obsVar velAcc) hrpos
  have hc := chi2_nonneg m.P hP (obsVar velAcc) hrpos ![m.X 0 - vel 0, m.X 1 - vel 1]
  have hE := updateEKF_good vel velAcc m hP
  have hm' : m' = (updateEKF vel velAcc m).1 := rfl
  rw [hE] at hm'
  rw [hE]
  clear_value m'
  clear_value r
  subst hr
  have hT : testRatio (mid vel velAcc m) = Spec.chi2 (updGen m.P (obsVar velAcc)).1 ![m.X 0 - vel 0, m.X 1 - vel 1] := testRatio_eq _
  simp only [hT] at hm'
  have hin : m'.innov = ![m.X 0 - vel 0, m.X 1 - vel 1] := by rw [hm']; rfl
  have hsi : m'.sinv = (updGen m.P (obsVar velAcc)).1 := by rw [hm']; rfl
  have hPP : m'.P = floorP (updGen m.P (obsVar velAcc)).2.2.1 := by rw [hm']; rfl
  refine ⟨rfl, ⟨by rw [hin]; rfl, by rw [hin]; rfl⟩, ?_, ?_, ?_, ?_, ?_, ?_, ?_⟩
  · rw [hsi]; exact h1
  · have : m'.sdet = (updGen m.P (obsVar velAcc)).2.2.2 := by rw [hm']; rfl
    rw [this]; exact h4
  · refine ⟨(updGen m.P (obsVar velAcc)).2.1, if Spec.chi2 (updGen m.P (obsVar velAcc)).1 ![m.X 0 - vel 0, m.X 1 - vel 1] > 25 then
      √(25 / Spec.chi2 (updGen m.P (obsVar velAcc)).1 ![m.X 0 - vel 0, m.X 1 - vel 1]) else 1, h2, ?_, ?_, ?_⟩
    · rw [hsi, hin]
      generalize Spec.chi2 (updGen m.P (obsVar velAcc)).1 ![m.X 0 - vel 0, m.X 1 - vel 1] = t at hc
      by_cases h : t > 25
      · rw [if_pos h]
        have hq : 0 < 25 / t := by positivity
        have hs2 : √(25 / t) ^ 2 = 25 / t := Real.sq_sqrt hq.le
        have e : √(25 / t) ^ 2 * t = 25 := by rw [hs2]; field_simp
        refine ⟨Real.sqrt_pos.mpr hq, ?_, e.le, fun h' => absurd h (not_lt.mpr h'), fun _ => e⟩
        rw [Real.sqrt_le_one]
        rw [div_le_one (by linarith)]
        exact h.le
      · rw [if_neg h]
        exact ⟨one_pos, le_rfl, by rw [not_lt] at h; linarith, fun _ => rfl, fun h' => absurd h' h⟩
    · intro i
      rw [hin]
      rw [hm']
      simp only [Fin.sum_univ_two]
      show m.X i - (_ * (![m.X 0 - vel 0, m.X 1 - vel 1] : Fin 2 → ℝ) 0 + _ * (![m.X 0 - vel 0, m.X 1 - vel 1] : Fin 2 → ℝ) 1) * _ = _
      ring
    · intro i j
      rw [hPP]
      unfold floorP
      rw [← h3 i j, ← h3 i i]
  · rw [hPP]; exact floorP_psd _ hpsd
  · intro i
    rw [hPP]
    have := (floorP_diag (updGen m.P (obsVar velAcc)).2.2.1 i).1
    refine ⟨by linarith, ?_⟩
    unfold floorP
    rw [if_pos rfl]
    have e : (0.000001 : ℝ) = 1 / 1000000 := by norm_num
    rw [e]
    exact max_le_max (hle i) le_rfl
  · rw [hm']
  · rw [hm']; rfl

/-- **C53.** Turning by the yaw change is multiplication with the rotation about the vertical: it keeps a rotation a rotation and its tilt. -/
theorem yawRot_spec (d : ℝ) (R : M3 ℝ) :
    yawRot d R = !![Real.cos d, -Real.sin d, 0; Real.sin d, Real.cos d, 0; 0, 0, 1] * R ∧ tiltRow (yawRot d R) = tiltRow R ∧
    (IsRotation R → IsRotation (yawRot d R)) := by
  have e : yawRot d R = !![Real.cos d, -Real.sin d, 0; Real.sin d, Real.cos d, 0; 0, 0, 1] * R := by
    ext i j
    unfold yawRot
    rw [Matrix.mul_apply, Fin.sum_univ_three]
    fin_cases i <;> simp <;> ring
  refine ⟨e, rfl, fun h => ?_⟩
  have hc := Real.sin_sq_add_cos_sq d
  rw [e]
  refine isRotation_of_orth ?_ ?_
  · rw [Matrix.transpose_mul, Matrix.mul_assoc, ← Matrix.mul_assoc R, h.orth, Matrix.one_mul]
    ext i j
    rw [Matrix.mul_apply, Fin.sum_univ_three]
    fin_cases i <;> fin_cases j <;> simp [Matrix.transpose_apply] <;> linarith
  · rw [Matrix.det_mul, h.det, Matrix.det_fin_three]
    simp
    linarith

/-- **C52.** The likelihood of a model is, up to the rounding of 1/2π, the two-dimensional normal density of its innovation; it is positive and less than
two thirds, so a model can lose but never gain absolute weight. -/
theorem density_spec (vel : Fin 2 → ℝ) (velAcc : ℝ) (m : Mdl) (hP : Cov.Spec.PSD m.P) :
    let m' := (updateEKF vel velAcc m).1
    (∃ c : ℝ, |c - 1 / (2 * Real.pi)| < 1 / 1000000000 ∧
      density m' = c / √(detS m.P (max velAcc 0.5 ^ 2)) * Real.exp (-(1 / 2) * Spec.chi2 m'.sinv m'.innov)) ∧
    0 < density m' ∧ density m' ≤ 0.64 := by
  intro m'
  have hE : m' = (updateEKF vel velAcc m).1 := rfl
  rw [updateEKF_good vel velAcc m hP] at hE
  have hDg := detS_ge m.P hP velAcc
  have hge := obsVar_ge velAcc
  have hr : max velAcc 0.5 ^ 2 = obsVar velAcc := by unfold obsVar sq; ring
  have hc := chi2_nonneg m.P hP (obsVar velAcc) (by linarith) ![m.X 0 - vel 0, m.X 1 - vel 1]
  have hsd : m'.sdet = 1 / detS m.P (obsVar velAcc) := by rw [hE]; rfl
  have hchi : Spec.chi2 m'.sinv m'.innov = Spec.chi2 (updGen m.P (obsVar velAcc)).1 ![m.X 0 - vel 0, m.X 1 - vel 1] := by rw [hE]; rfl
  have hden : density m' = 0.159154943 * (1 / √(detS m.P (obsVar velAcc))) * Real.exp (-(1 / 2) * Spec.chi2 m'.sinv m'.innov) := by
    unfold density
    rw [testRatio_eq, hsd, Real.sqrt_div zero_le_one, Real.sqrt_one]
    norm_num
  rw [hden, hr]
  have hs : (1 : ℝ) / 4 ≤ √(detS m.P (obsVar velAcc)) := by
    rw [show (1 : ℝ) / 4 = √(1 / 16) by rw [show (1 : ℝ) / 16 = (1 / 4) ^ 2 by norm_num, Real.sqrt_sq (by norm_num)]]
    exact Real.sqrt_le_sqrt hDg
  have hx : Real.exp (-(1 / 2) * Spec.chi2 m'.sinv m'.innov) ≤ 1 := by
    rw [hchi, Real.exp_le_one_iff]; nlinarith
  have hx0 := Real.exp_pos (-(1 / 2) * Spec.chi2 m'.sinv m'.innov)
  have hi : 1 / √(detS m.P (obsVar velAcc)) ≤ 4 := by
    rw [div_le_iff₀ (by linarith)]; linarith
  have hi0 : 0 < 1 / √(detS m.P (obsVar velAcc)) := by positivity
  refine ⟨⟨0.159154943, ?_, by ring⟩, by positivity, ?_⟩
  · have p1 := Real.pi_gt_d20
    have p2 := Real.pi_lt_d20
    have hp : 0 < 2 * Real.pi := by positivity
    have e1 : (0.159154943 : ℝ) - 1 / (2 * Real.pi) = (0.159154943 * (2 * Real.pi) - 1) / (2 * Real.pi) := by field_simp
    rw [e1, abs_div, abs_of_pos hp, div_lt_iff₀ hp, abs_lt]
    constructor <;> nlinarith
  · generalize 1 / √(detS m.P (obsVar velAcc)) = u at *
    generalize Real.exp (-(1 / 2) * Spec.chi2 m'.sinv m'.innov) = e at *
    nlinarith [mul_le_mul hi hx hx0.le (by norm_num)]

/-- non-vacuity: a diagonal covariance is valid, and an innovation of 100 m/s is beyond five standard deviations -/
example : Cov.Spec.PSD (![![1, 0, 0], ![0, 1, 0], ![0, 0, 1]] : C3) ∧
    25 < Spec.chi2 (updGen ![![1, 0, 0], ![0, 1, 0], ![0, 0, 1]] 1).1 ![100, 0] := by
  constructor
  · constructor
    · intro i j; fin_cases i <;> fin_cases j <;> rfl
    · intro x
      unfold Cov.Spec.form
      simp [Fin.sum_univ_three]
      nlinarith [sq_nonneg (x 0), sq_nonneg (x 1), sq_nonneg (x 2)]
  · unfold Spec.chi2 updGen
    simp [Fin.sum_univ_two, powf_eq_zpow]
    norm_num

end Ecl.Gsf
