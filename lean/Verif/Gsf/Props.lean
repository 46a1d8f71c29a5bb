import Verif.Gsf.Model
import Verif.Utils.Props
import Verif.Cov.Props
import Mathlib.Analysis.SpecialFunctions.Trigonometric.Deriv
import Mathlib.Analysis.Calculus.Deriv.Add
import Mathlib.Analysis.Calculus.Deriv.Mul

/-!
# Yaw estimator: the single-model equations (C53, C54, C104)
-/

namespace Ecl.Gsf

open Utils

/-! ## Specification -/

/-- horizontal velocity and yaw after a delta velocity `(a, b)` in the front-right frame -/
noncomputable def Spec.motion (a b : ℝ) (vn ve psi : ℝ) : V3 ℝ :=
  ![vn + (a * Real.cos psi - b * Real.sin psi), ve + (a * Real.sin psi + b * Real.cos psi), psi]

/-- state transition matrix: derivative of `motion` with respect to (vn, ve, ψ) -/
noncomputable def Spec.F (a b psi : ℝ) : C3 :=
  ![![1, 0, -(a * Real.sin psi + b * Real.cos psi)], ![0, 1, a * Real.cos psi - b * Real.sin psi], ![0, 0, 1]]

/-- influence of the noise of the front and right delta velocities and of the yaw increment -/
noncomputable def Spec.G (psi : ℝ) : C3 :=
  ![![Real.cos psi, -Real.sin psi, 0], ![Real.sin psi, Real.cos psi, 0], ![0, 0, 1]]

/-- F P Fᵀ + G diag(q, q, qz) Gᵀ -/
noncomputable def Spec.predicted (P : C3) (a b psi q qz : ℝ) (i j : Fin 3) : ℝ :=
  (∑ k, ∑ l, Spec.F a b psi i k * P k l * Spec.F a b psi j l) + ∑ k, Spec.G psi i k * (![q, q, qz] : V3 ℝ) k * Spec.G psi j k

/-- innovation covariance of a direct observation of both velocities with variance `r` each -/
def Spec.S (P : C3) (r : ℝ) (a b : Fin 2) : ℝ := P a.castSucc b.castSucc + if a = b then r else 0

/-! ## C53 -/

/-- **C53.** The transition matrix is the Jacobian of the motion model. -/
theorem transition_jacobian (a b vn ve psi : ℝ) (i : Fin 3) :
    HasDerivAt (fun t => Spec.motion a b t ve psi i) (Spec.F a b psi i 0) vn ∧
    HasDerivAt (fun t => Spec.motion a b vn t psi i) (Spec.F a b psi i 1) ve ∧
    HasDerivAt (fun t => Spec.motion a b vn ve t i) (Spec.F a b psi i 2) psi := by
  have hc := Real.hasDerivAt_cos psi
  have hs := Real.hasDerivAt_sin psi
  fin_cases i
  · refine ⟨?_, ?_, ?_⟩
    · exact HasDerivAt.add_const _ (hasDerivAt_id vn)
    · exact hasDerivAt_const _ _
    · have := HasDerivAt.const_add vn ((hc.const_mul a).sub (hs.const_mul b))
      refine this.congr_deriv ?_
      show _ = -(a * Real.sin psi + b * Real.cos psi)
      ring
  · refine ⟨?_, ?_, ?_⟩
    · exact hasDerivAt_const _ _
    · exact HasDerivAt.add_const _ (hasDerivAt_id ve)
    · have := HasDerivAt.const_add ve ((hs.const_mul a).add (hc.const_mul b))
      refine this.congr_deriv ?_
      show _ = a * Real.cos psi - b * Real.sin psi
      ring
  · exact ⟨hasDerivAt_const _ _, hasDerivAt_const _ _, hasDerivAt_id psi⟩

/-- **C53.** The generated covariance prediction is F P Fᵀ + G Q Gᵀ, for every symmetric P. -/
theorem predictP_eq (P : C3) (hs : ∀ i j, P i j = P j i) (psi a b q qz : ℝ) (i j : Fin 3) :
    predictP P psi a b q qz i j = Spec.predicted P a b psi q qz i j := by
  have h10 := hs 1 0
  have h20 := hs 2 0
  have h21 := hs 2 1
  unfold Spec.predicted predictP Spec.F Spec.G
  simp only [powf_eq_zpow, Fin.sum_univ_three]
  fin_cases i <;> fin_cases j <;> simp [h10, h20, h21, -mul_eq_mul_left_iff, -mul_eq_mul_right_iff] <;> ring

/-- **C53.** One prediction of a model that is running: the yaw state is the yaw of its attitude, the velocity states follow the motion model, and
the covariance is the predicted one with the 10⁻⁶ floor on the variances; noise 2 m/s² and 0.1 rad/s times the integration time. -/
theorem prediction (x : In) (m : Mdl) (hs : ∀ i j, m.P i j = m.P j i) :
    ∃ a b psi, psi = yawOf m.R ∧
      (a * Real.cos psi - b * Real.sin psi = m.R 0 0 * x.dVel 0 + m.R 0 1 * x.dVel 1 + m.R 0 2 * x.dVel 2) ∧
      (a * Real.sin psi + b * Real.cos psi = m.R 1 0 * x.dVel 0 + m.R 1 1 * x.dVel 1 + m.R 1 2 * x.dVel 2) ∧
      (predictX x m).X = Spec.motion a b (m.X 0) (m.X 1) psi ∧
      (predictX x m).R = m.R ∧ (predictX x m).bias = m.bias ∧
      ∀ i j, (predictX x m).P i j = if i = j then max (Spec.predicted m.P a b psi ((2 * x.dVelDt) ^ 2) ((0.1 * x.dAngDt) ^ 2) i i) 0.000001
        else Spec.predicted m.P a b psi ((2 * x.dVelDt) ^ 2) ((0.1 * x.dAngDt) ^ 2) i j := by
  have hcs := Real.sin_sq_add_cos_sq (yawOf m.R)
  have e0 : (dvNed x m.R 0 * Real.cos (yawOf m.R) + dvNed x m.R 1 * Real.sin (yawOf m.R)) * Real.cos (yawOf m.R) -
      (-dvNed x m.R 0 * Real.sin (yawOf m.R) + dvNed x m.R 1 * Real.cos (yawOf m.R)) * Real.sin (yawOf m.R) = dvNed x m.R 0 := by
    linear_combination (dvNed x m.R 0) * hcs
  have e1 : (dvNed x m.R 0 * Real.cos (yawOf m.R) + dvNed x m.R 1 * Real.sin (yawOf m.R)) * Real.sin (yawOf m.R) +
      (-dvNed x m.R 0 * Real.sin (yawOf m.R) + dvNed x m.R 1 * Real.cos (yawOf m.R)) * Real.cos (yawOf m.R) = dvNed x m.R 1 := by
    linear_combination (dvNed x m.R 1) * hcs
  refine ⟨_, _, yawOf m.R, rfl, e0, e1, ?_, rfl, rfl, ?_⟩
  · unfold Spec.motion
    rw [e0, e1]
    rfl
  · intro i j
    show floorP _ i j = _
    unfold floorP
    rw [predictP_eq _ hs, predictP_eq _ hs]
    simp only [sq, pow_two]

theorem S_entries (P : C3) (r : ℝ) (hs : ∀ i j, P i j = P j i) :
    Spec.S P r 0 0 = P 0 0 + r ∧ Spec.S P r 0 1 = P 0 1 ∧ Spec.S P r 1 0 = P 0 1 ∧ Spec.S P r 1 1 = P 1 1 + r := by
  unfold Spec.S
  have h : P 1 0 = P 0 1 := hs 1 0
  refine ⟨?_, ?_, ?_, ?_⟩ <;> simp [h]

theorem detS_eq (P : C3) (r : ℝ) : detS P r = (P 0 0 + r) * (P 1 1 + r) - P 0 1 ^ 2 := by
  unfold detS
  simp only [powf_eq_zpow]
  norm_num
  ring

/-- **C53.** The generated update quantities: inverse of the innovation covariance S = HPHᵀ + r·I, inverse determinant, optimal gain K = PHᵀS⁻¹
(as K S = PHᵀ), and posterior covariance P − K H P, for every symmetric P with det S ≠ 0. -/
theorem updGen_eq (P : C3) (hs : ∀ i j, P i j = P j i) (r : ℝ) (hD : detS P r ≠ 0) :
    let g := updGen P r
    (∀ a b, ∑ k, g.1 a k * Spec.S P r k b = if a = b then 1 else 0) ∧
    (∀ i b, ∑ k, g.2.1 i k * Spec.S P r k b = P i b.castSucc) ∧
    (∀ i j, g.2.2.1 i j = P i j - ∑ k, g.2.1 i k * P j k.castSucc) ∧
    g.2.2.2 * (Spec.S P r 0 0 * Spec.S P r 1 1 - Spec.S P r 0 1 * Spec.S P r 1 0) = 1 := by
  obtain ⟨s00, s01, s10, s11⟩ := S_entries P r hs
  have h10 := hs 1 0
  have h20 := hs 2 0
  have h21 := hs 2 1
  have hD' : P 0 0 * P 1 1 + P 0 0 * r + P 1 1 * r + -P 0 1 ^ 2 + r ^ 2 ≠ 0 := by
    rw [detS_eq] at hD
    intro h
    apply hD
    linarith
  intro g
  have hg : g = updGen P r := rfl
  unfold updGen at hg
  have hpow : ∀ y : ℝ, y ^ (-2 : ℤ) = (1 / y) ^ 2 := by
    intro y
    rw [zpow_neg, one_div, inv_pow]
    rfl
  simp only [powf_eq_zpow, hpow, zpow_ofNat] at hg
  have hu : 1 / (P 0 0 * P 1 1 + P 0 0 * r + P 1 1 * r + -P 0 1 ^ 2 + r ^ 2) * (P 0 0 * P 1 1 + P 0 0 * r + P 1 1 * r + -P 0 1 ^ 2 + r ^ 2) = 1 :=
    one_div_mul_cancel hD'
  generalize 1 / (P 0 0 * P 1 1 + P 0 0 * r + P 1 1 * r + -P 0 1 ^ 2 + r ^ 2) = u at hg hu
  clear_value g
  subst hg
  refine ⟨?_, ?_, ?_, ?_⟩
  · intro a b
    simp only [Fin.sum_univ_two]
    fin_cases a <;> fin_cases b
    · simp [s00, s01, s10, s11]; linear_combination hu
    · simp [s00, s01, s10, s11]; ring
    · simp [s00, s01, s10, s11]; ring
    · simp [s00, s01, s10, s11]; linear_combination hu
  · intro i b
    simp only [Fin.sum_univ_two]
    fin_cases i <;> fin_cases b
    · simp [s00, s01, s10, s11]; linear_combination P 0 0 * hu
    · simp [s00, s01, s10, s11]; linear_combination P 0 1 * hu
    · simp [s00, s01, s10, s11, h10]; linear_combination P 0 1 * hu
    · simp [s00, s01, s10, s11]; linear_combination P 1 1 * hu
    · simp [s00, s01, s10, s11, h20]; linear_combination P 0 2 * hu
    · simp [s00, s01, s10, s11, h21]; linear_combination P 1 2 * hu
  · intro i j
    simp only [Fin.sum_univ_two]
    fin_cases i <;> fin_cases j
    · simp; linear_combination (-u * (P 0 1 ^ 2 * r) - u * P 0 0 * (P 0 0 * (P 1 1 + r) + -P 0 1 ^ 2)) * hu
    · simp [h10]; linear_combination P 0 1 * (u * (P 0 1 ^ 2 - P 1 1 * (P 0 0 + r)) - u * P 0 0 * r) * hu
    · simp [h20, h21]; linear_combination (u * (P 0 1 * (P 0 1 * P 0 2 - P 1 2 * (P 0 0 + r))) + u * P 0 0 * (P 0 1 * P 1 2 - P 0 2 * (P 1 1 + r))) * hu
    · simp [h10]; linear_combination P 0 1 * (u * (P 0 1 ^ 2 - P 1 1 * (P 0 0 + r)) - u * P 0 0 * r) * hu
    · simp [h10]; linear_combination (-(P 0 1 ^ 2 * r) * u + u * (P 0 1 ^ 2 - P 1 1 * (P 0 0 + r)) * P 1 1) * hu
    · simp [h20, h21]; linear_combination ((P 0 1 * P 0 2 - P 1 2 * (P 0 0 + r)) * u * P 1 1 + u * (P 0 1 * (P 0 1 * P 1 2 - P 0 2 * (P 1 1 + r)))) * hu
    · simp [h20, h21]; linear_combination (u * (P 0 1 * (P 0 1 * P 0 2 - P 1 2 * (P 0 0 + r))) + u * P 0 0 * (P 0 1 * P 1 2 - P 0 2 * (P 1 1 + r))) * hu
    · simp [h20, h21, h10]; linear_combination ((P 0 1 * P 0 2 - P 1 2 * (P 0 0 + r)) * u * P 1 1 + u * (P 0 1 * (P 0 1 * P 1 2 - P 0 2 * (P 1 1 + r)))) * hu
    · simp [h20, h21]; linear_combination ((P 0 1 * P 0 2 - P 1 2 * (P 0 0 + r)) * u * P 1 2 + (P 0 1 * P 1 2 - P 0 2 * (P 1 1 + r)) * u * P 0 2) * hu
  · simp only [s00, s01, s10, s11]
    linear_combination hu

/-! ## Validity of the covariance -/

theorem predicted_psd (P : C3) (hP : Cov.Spec.PSD P) (a b psi q qz : ℝ) (hq : 0 ≤ q) (hz : 0 ≤ qz) :
    Cov.Spec.PSD (Spec.predicted P a b psi q qz) := by
  have hs := hP.symm
  constructor
  · intro i j
    rw [← predictP_eq P hs, ← predictP_eq P hs]
    fin_cases i <;> fin_cases j <;> rfl
  · intro x
    let y : Fin 3 → ℝ := fun k => ∑ i, Spec.F a b psi i k * x i
    let z : Fin 3 → ℝ := fun k => ∑ i, Spec.G psi i k * x i
    have h := hP.nonneg y
    have e : Cov.Spec.form (Spec.predicted P a b psi q qz) x x = Cov.Spec.form P y y + (q * z 0 ^ 2 + q * z 1 ^ 2 + qz * z 2 ^ 2) := by
      unfold Cov.Spec.form Spec.predicted
      simp only [Fin.sum_univ_three, y, z, Matrix.cons_val_zero, Matrix.cons_val_one, Matrix.cons_val]
      generalize Spec.F a b psi = F
      generalize Spec.G psi = G
      ring
    rw [e]
    have : 0 ≤ q * z 0 ^ 2 + q * z 1 ^ 2 + qz * z 2 ^ 2 := by positivity
    linarith

theorem floorP_psd (P : C3) (hP : Cov.Spec.PSD P) : Cov.Spec.PSD (floorP P) := by
  constructor
  · intro i j
    unfold floorP
    by_cases h : i = j
    · subst h; rfl
    · rw [if_neg h, if_neg (fun h' => h h'.symm), hP.symm]
  · intro x
    have h := hP.nonneg x
    have e : Cov.Spec.form (floorP P) x x = Cov.Spec.form P x x + ∑ i, (max (P i i) 0.000001 - P i i) * x i ^ 2 := by
      unfold Cov.Spec.form floorP
      simp only [Fin.sum_univ_three]
      simp
      ring
    rw [e]
    have : 0 ≤ ∑ i, (max (P i i) 0.000001 - P i i) * x i ^ 2 :=
      Finset.sum_nonneg fun i _ => mul_nonneg (by have := le_max_left (P i i) 0.000001; linarith) (sq_nonneg _)
    linarith

theorem floorP_diag (P : C3) (i : Fin 3) : 0.000001 ≤ floorP P i i ∧ P i i ≤ floorP P i i := by
  unfold floorP
  rw [if_pos rfl]
  exact ⟨le_max_right _ _, le_max_left _ _⟩

/-- the innovation covariance of a valid covariance is positive: its determinant is at least r² -/
theorem det_ge (P : C3) (hP : Cov.Spec.PSD P) (r : ℝ) (hr : 0 < r) : r ^ 2 ≤ detS P r := by
  have h := Cov.mulVec_sq_le hP (Pi.single 1 1) hr 0
  have e1 : Cov.Spec.mulVec P (Pi.single 1 1) 0 = P 0 1 := by
    unfold Cov.Spec.mulVec
    simp [Fin.sum_univ_three]
  have e2 : Cov.Spec.innovVar P (Pi.single 1 1) r = P 1 1 + r := by
    unfold Cov.Spec.innovVar Cov.Spec.form
    simp [Fin.sum_univ_three]
  rw [e1, e2] at h
  have h1 := Cov.diag_nonneg hP 1
  rw [detS_eq]
  nlinarith [mul_nonneg h1 hr.le]

/-- the generated posterior of a valid covariance is valid and has no larger variances -/
theorem posterior_psd (P : C3) (hP : Cov.Spec.PSD P) (r : ℝ) (hr : 0 < r) :
    Cov.Spec.PSD (updGen P r).2.2.1 ∧ ∀ i, (updGen P r).2.2.1 i i ≤ P i i := by
  have hD : detS P r ≠ 0 := (lt_of_lt_of_le (by positivity) (det_ge P hP r hr)).ne'
  have hs := hP.symm
  obtain ⟨-, hK, hN, -⟩ := updGen_eq P hs r hD
  have hsym : ∀ i j, (updGen P r).2.2.1 i j = (updGen P r).2.2.1 j i := by
    intro i j
    unfold updGen
    fin_cases i <;> fin_cases j <;> rfl
  generalize (updGen P r).2.1 = K at hK hN
  generalize (updGen P r).2.2.1 = N at hN hsym
  obtain ⟨s00, s01, s10, s11⟩ := S_entries P r hs
  simp only [Fin.sum_univ_two] at hK hN
  have key : ∀ x : Fin 3 → ℝ, Cov.Spec.form N x x = Cov.Spec.form P x x - ((∑ i, x i * K i 0) * (∑ j, P j 0 * x j) + (∑ i, x i * K i 1) * (∑ j, P j 1 * x j)) := by
    intro x
    unfold Cov.Spec.form
    simp only [Fin.sum_univ_three, hN, Fin.castSucc_zero, Fin.castSucc_one]
    ring
  -- K S = P Hᵀ summed against x
  have hc : ∀ x : Fin 3 → ℝ, ∀ b : Fin 2, (∑ i, x i * K i 0) * Spec.S P r 0 b + (∑ i, x i * K i 1) * Spec.S P r 1 b = ∑ j, P j b.castSucc * x j := by
    intro x b
    simp only [Fin.sum_univ_three]
    have h0 := hK 0 b
    have h1 := hK 1 b
    have h2 := hK 2 b
    linear_combination x 0 * h0 + x 1 * h1 + x 2 * h2
  have pos : ∀ x : Fin 3 → ℝ, 0 ≤ Cov.Spec.form N x x := by
    intro x
    set c0 := ∑ i, x i * K i 0 with hc0
    set c1 := ∑ i, x i * K i 1 with hc1
    have e0 := hc x 0
    have e1 := hc x 1
    rw [s00, s10] at e0
    rw [s01, s11] at e1
    have hz := hP.nonneg ![x 0 - c0, x 1 - c1, x 2]
    have e : Cov.Spec.form N x x = Cov.Spec.form P ![x 0 - c0, x 1 - c1, x 2] ![x 0 - c0, x 1 - c1, x 2] + r * (c0 ^ 2 + c1 ^ 2) := by
      rw [key, ← hc0, ← hc1]
      have d0 : ∑ j, P j 0 * x j = c0 * (P 0 0 + r) + c1 * P 0 1 := e0.symm
      have d1 : ∑ j, P j 1 * x j = c0 * P 0 1 + c1 * (P 1 1 + r) := e1.symm
      unfold Cov.Spec.form
      simp only [Fin.sum_univ_three, Matrix.cons_val_zero, Matrix.cons_val_one, Matrix.cons_val] at d0 d1 ⊢
      rw [hs 1 0, hs 2 0, hs 2 1] at *
      linear_combination c0 * d0 + c1 * d1
    rw [e]
    have : 0 ≤ r * (c0 ^ 2 + c1 ^ 2) := by positivity
    linarith
  refine ⟨⟨hsym, pos⟩, ?_⟩
  intro i
  have hN' := hN i i
  have a0 := hK i 0
  have a1 := hK i 1
  rw [s00, s10] at a0
  rw [s01, s11] at a1
  rw [hN', ← a0, ← a1]
  have hq := hP.nonneg ![K i 0, K i 1, 0]
  have e : Cov.Spec.form P ![K i 0, K i 1, 0] ![K i 0, K i 1, 0] = K i 0 * (K i 0 * P 0 0 + K i 1 * P 0 1) + K i 1 * (K i 0 * P 0 1 + K i 1 * P 1 1) := by
    unfold Cov.Spec.form
    simp only [Fin.sum_univ_three, Matrix.cons_val_zero, Matrix.cons_val_one, Matrix.cons_val]
    rw [hs 1 0]
    ring
  rw [e] at hq
  nlinarith [mul_nonneg hr.le (sq_nonneg (K i 0)), mul_nonneg hr.le (sq_nonneg (K i 1))]

end Ecl.Gsf
