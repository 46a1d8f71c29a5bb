import Verif.Utils.Model
import Mathlib.LinearAlgebra.Matrix.NonsingularInverse

/-!
# C39 (rotation utilities), C40 (Kahan summation), C61 (`ecl::powf`)
-/

namespace Ecl.Utils

open Real
open scoped Matrix

/-- Specification: a proper rotation matrix -/
structure IsRotation (R : M3 ℝ) : Prop where
  orth : R * Rᵀ = 1
  orth' : Rᵀ * R = 1
  det : R.det = 1

/-- third row of a matrix (direction of "down" in the body frame): the tilt of the attitude -/
def tiltRow (R : M3 ℝ) : V3 ℝ := R 2

theorem isRotation_of_orth {R : M3 ℝ} (h : R * Rᵀ = 1) (hd : R.det = 1) : IsRotation R :=
  ⟨h, mul_eq_one_comm.mp h, hd⟩

theorem IsRotation.row2 {R : M3 ℝ} (h : IsRotation R) : R 2 0 ^ 2 + R 2 1 ^ 2 + R 2 2 ^ 2 = 1 := by
  have := congrFun (congrFun h.orth 2) 2
  simp [Matrix.mul_apply, Fin.sum_univ_three] at this
  linarith

/-- **C39.** For every angle triple the 312 Tait-Bryan matrix is a proper rotation. -/
theorem taitBryan312_isRotation (r : V3 ℝ) : IsRotation (taitBryan312ToRotMat r) := by
  have h0 := sin_sq_add_cos_sq (r 0)
  have h1 := sin_sq_add_cos_sq (r 1)
  have h2 := sin_sq_add_cos_sq (r 2)
  unfold taitBryan312ToRotMat
  generalize sin (r 0) = s0 at *
  generalize cos (r 0) = c0 at *
  generalize sin (r 1) = s1 at *
  generalize cos (r 1) = c1 at *
  generalize sin (r 2) = s2 at *
  generalize cos (r 2) = c2 at *
  have e0 : s0 ^ 2 = 1 - c0 ^ 2 := by linarith
  have e1 : s1 ^ 2 = 1 - c1 ^ 2 := by linarith
  have e2 : s2 ^ 2 = 1 - c2 ^ 2 := by linarith
  apply isRotation_of_orth
  · ext i j
    fin_cases i <;> fin_cases j <;>
      simp [Matrix.mul_apply, Fin.sum_univ_three] <;> ring_nf <;> simp only [e0, e1, e2] <;> ring
  · rw [Matrix.det_fin_three]; simp; ring_nf; simp only [e0, e1, e2]; ring

/-- **C39.** The 312 matrix is the product of a yaw, a roll and a pitch rotation, in that order. -/
theorem taitBryan312_factors (r : V3 ℝ) : taitBryan312ToRotMat r =
    !![cos (r 0), -sin (r 0), 0; sin (r 0), cos (r 0), 0; 0, 0, 1] *
    !![1, 0, 0; 0, cos (r 1), -sin (r 1); 0, sin (r 1), cos (r 1)] *
    !![cos (r 2), 0, sin (r 2); 0, 1, 0; -sin (r 2), 0, cos (r 2)] := by
  unfold taitBryan312ToRotMat
  ext i j
  fin_cases i <;> fin_cases j <;> simp [Matrix.mul_apply, Fin.sum_univ_three] <;> ring

/-- the matrix library's 321 matrix is a yaw, pitch, roll product -/
theorem dcmOfEuler_factors (phi theta psi : ℝ) : dcmOfEuler phi theta psi =
    !![cos psi, -sin psi, 0; sin psi, cos psi, 0; 0, 0, 1] *
    !![cos theta, 0, sin theta; 0, 1, 0; -sin theta, 0, cos theta] *
    !![1, 0, 0; 0, cos phi, -sin phi; 0, sin phi, cos phi] := by
  unfold dcmOfEuler
  ext i j
  fin_cases i <;> fin_cases j <;> simp [Matrix.mul_apply, Fin.sum_univ_three] <;> ring

theorem dcmOfEuler_isRotation (phi theta psi : ℝ) : IsRotation (dcmOfEuler phi theta psi) := by
  have h0 := sin_sq_add_cos_sq phi
  have h1 := sin_sq_add_cos_sq theta
  have h2 := sin_sq_add_cos_sq psi
  unfold dcmOfEuler
  generalize sin phi = s0 at *
  generalize cos phi = c0 at *
  generalize sin theta = s1 at *
  generalize cos theta = c1 at *
  generalize sin psi = s2 at *
  generalize cos psi = c2 at *
  have e0 : s0 ^ 2 = 1 - c0 ^ 2 := by linarith
  have e1 : s1 ^ 2 = 1 - c1 ^ 2 := by linarith
  have e2 : s2 ^ 2 = 1 - c2 ^ 2 := by linarith
  apply isRotation_of_orth
  · ext i j
    fin_cases i <;> fin_cases j <;>
      simp [Matrix.mul_apply, Fin.sum_univ_three] <;> ring_nf <;> simp only [e0, e1, e2] <;> ring
  · rw [Matrix.det_fin_three]; simp; ring_nf; simp only [e0, e1, e2]; ring

/-- **C39.** `quatToInverseRotMat` is the transpose of the direction cosine matrix for every quaternion and
a proper rotation for every unit quaternion. -/
theorem quatToInverseRotMat_spec (q : Quat ℝ) :
    quatToInverseRotMat q = q.dcmᵀ ∧ (q.normSq = 1 → IsRotation (quatToInverseRotMat q)) := by
  have h : quatToInverseRotMat q = q.dcmᵀ := by
    ext i j
    fin_cases i <;> fin_cases j <;> simp [quatToInverseRotMat, Quat.dcm, Matrix.transpose_apply] <;>
      ring_nf <;> simp
  refine ⟨h, fun hq => ?_⟩
  rw [h]
  refine isRotation_of_orth ?_ ?_
  · rw [Matrix.transpose_transpose]; exact Quat.dcm_transpose_mul q hq
  · rw [Matrix.det_transpose]; exact Quat.dcm_det q hq

/-- **C39.** The quaternion yaw extractors agree with the matrix ones on the quaternion's direction
cosine matrix (every quaternion). -/
theorem yaw_extractors_agree (q : Quat ℝ) :
    getEuler321YawQ q = getEuler321Yaw q.dcm ∧ getEuler312YawQ q = getEuler312Yaw q.dcm := by
  constructor
  · simp only [getEuler321YawQ, getEuler321Yaw, Quat.dcm, sq]; congr 1; simp; ring
  · simp only [getEuler312YawQ, getEuler312Yaw, Quat.dcm, sq]; congr 1; simp; ring

/-- at least one of the two sequences is well conditioned: the selected one always has a tilt sine of at
most `1/√2` in its singular angle -/
theorem selected_sequence_regular {R : M3 ℝ} (h : IsRotation R) :
    (shouldUse321 R → 2 * R 2 0 ^ 2 < 1) ∧ (¬ shouldUse321 R → 2 * R 2 1 ^ 2 ≤ 1) := by
  have hr := h.row2
  constructor
  · intro hs
    have : R 2 0 ^ 2 < R 2 1 ^ 2 := sq_lt_sq.mpr hs
    nlinarith [sq_nonneg (R 2 2)]
  · intro hs
    have : R 2 1 ^ 2 ≤ R 2 0 ^ 2 := sq_le_sq.mpr (not_lt.mp hs)
    nlinarith [sq_nonneg (R 2 2)]

theorem not_gimbal {x : ℝ} (h : 2 * x ^ 2 < 1) :
    ¬ |arcsin (-x) - π / 2| < 1 / 1000 ∧ ¬ |arcsin (-x) + π / 2| < 1 / 1000 := by
  have h4 : 2 * (-x) ^ 2 < 1 := by simpa using h
  generalize -x = y at h4
  have hs : Real.sqrt 2 / 2 = sin (π / 4) := by rw [sin_pi_div_four]
  have h2 : Real.sqrt 2 ^ 2 = 2 := Real.sq_sqrt (by norm_num)
  have hpos : 0 < Real.sqrt 2 := by positivity
  have y1 : y < sin (π / 4) := by rw [← hs]; nlinarith
  have y2 : -sin (π / 4) < y := by rw [← hs]; nlinarith
  have a1 : arcsin y < π / 4 := by
    rw [arcsin_lt_iff_lt_sin' ⟨by linarith [pi_pos], by linarith [pi_pos]⟩]; exact y1
  have a2 : -(π / 4) < arcsin y := by
    rw [lt_arcsin_iff_sin_lt' ⟨by linarith [pi_pos], by linarith [pi_pos]⟩, sin_neg]; exact y2
  have hp := two_le_pi
  constructor
  · intro hh; rw [abs_lt] at hh; linarith
  · intro hh; rw [abs_lt] at hh; linarith

/-- **C39 (yaw replacement).** Replacing the yaw of a proper rotation yields a proper rotation with the same
tilt row whose yaw (extracted with the sequence that was selected) is exactly the requested one. -/
theorem updateYaw_spec (yaw : ℝ) (hy : yaw ∈ Set.Ioc (-π) π) (R : M3 ℝ) (h : IsRotation R) :
    IsRotation (updateYawInRotMat yaw R) ∧
    tiltRow (updateYawInRotMat yaw R) = tiltRow R ∧
    (shouldUse321 R → getEuler321Yaw (updateYawInRotMat yaw R) = yaw) ∧
    (¬ shouldUse321 R → getEuler312Yaw (updateYawInRotMat yaw R) = yaw) := by
  have hr := h.row2
  have hreg := selected_sequence_regular h
  by_cases hs : shouldUse321 R
  · have hlt := hreg.1 hs
    obtain ⟨g1, g2⟩ := not_gimbal hlt
    have hE : updateYawInRotMat yaw R =
        dcmOfEuler (atan2 (R 2 1) (R 2 2)) (arcsin (-R 2 0)) yaw := by
      unfold updateYawInRotMat updateEuler321YawInRotMat eulerOfDcm
      simp only [hs, if_true, g1, g2, if_false]
    have hsum : R 2 2 ^ 2 + R 2 1 ^ 2 = 1 - R 2 0 ^ 2 := by linarith
    have hpos : 0 < R 2 2 ^ 2 + R 2 1 ^ 2 := by rw [hsum]; nlinarith
    have hsq : 0 < Real.sqrt (1 - R 2 0 ^ 2) := Real.sqrt_pos.mpr (by nlinarith)
    have hsin : sin (arcsin (-R 2 0)) = -R 2 0 := sin_arcsin (by nlinarith) (by nlinarith)
    have hcos : cos (arcsin (-R 2 0)) = Real.sqrt (1 - R 2 0 ^ 2) := by rw [cos_arcsin]; simp
    rw [hE]
    refine ⟨dcmOfEuler_isRotation _ _ _, ?_, ?_, fun hn => absurd hs hn⟩
    · funext j
      unfold tiltRow dcmOfEuler
      rw [hsin, hcos, sin_atan2, cos_atan2 hpos.ne', hsum]
      fin_cases j <;> simp <;> field_simp
    · intro _
      unfold getEuler321Yaw dcmOfEuler
      simp only [Matrix.of_apply, Matrix.cons_val', Matrix.cons_val_zero, Matrix.cons_val_one]
      rw [hcos]
      exact atan2_polar hsq hy
  · have hle := hreg.2 hs
    have hE : updateYawInRotMat yaw R =
        taitBryan312ToRotMat ![yaw, arcsin (R 2 1), atan2 (-R 2 0) (R 2 2)] := by
      unfold updateYawInRotMat updateEuler312YawInRotMat
      simp only [hs, if_false]
    have hsum : R 2 2 ^ 2 + (-R 2 0) ^ 2 = 1 - R 2 1 ^ 2 := by linarith
    have hpos : 0 < R 2 2 ^ 2 + (-R 2 0) ^ 2 := by rw [hsum]; nlinarith
    have hsq : 0 < Real.sqrt (1 - R 2 1 ^ 2) := Real.sqrt_pos.mpr (by nlinarith)
    have hsin : sin (arcsin (R 2 1)) = R 2 1 := sin_arcsin (by nlinarith) (by nlinarith)
    have hcos : cos (arcsin (R 2 1)) = Real.sqrt (1 - R 2 1 ^ 2) := by rw [cos_arcsin]
    rw [hE]
    refine ⟨taitBryan312_isRotation _, ?_, fun hn => absurd hn hs, ?_⟩
    · funext j
      unfold tiltRow taitBryan312ToRotMat
      simp only [Matrix.cons_val]
      rw [hsin, hcos, sin_atan2, cos_atan2 hpos.ne', hsum]
      fin_cases j <;> simp <;> field_simp
    · intro _
      unfold getEuler312Yaw taitBryan312ToRotMat
      simp
      rw [hcos, mul_comm (cos yaw)]
      exact atan2_polar hsq hy

/-- Non-vacuity: the identity attitude and a rolled attitude take different branches. -/
example : IsRotation (1 : M3 ℝ) ∧ ¬ shouldUse321 (1 : M3 ℝ) ∧
    IsRotation !![1, 0, 0; 0, 3/5, -4/5; 0, 4/5, (3/5 : ℝ)] ∧
    shouldUse321 !![1, 0, 0; 0, 3/5, -4/5; 0, 4/5, (3/5 : ℝ)] := by
  refine ⟨⟨by simp, by simp, by simp⟩, by simp [shouldUse321], ?_, ?_⟩
  · refine isRotation_of_orth ?_ ?_
    · ext i j; fin_cases i <;> fin_cases j <;> simp [Matrix.mul_apply, Fin.sum_univ_three] <;> norm_num
    · rw [Matrix.det_fin_three]; simp; norm_num
  · simp [shouldUse321]

section kahan
variable {K : Type*} [Field K]

/-- **C40 (exact arithmetic).** Without rounding, Kahan summation returns the plain sum minus the pending
compensation and leaves no compensation. -/
theorem kahan_exact (s x a : K) : kahanSummation id s x a = (s + (x - a), 0) := by
  simp [kahanSummation]

/-- **C40 (compensation identity).** For any rounding function: if the input correction and the two
compensation subtractions are representable (for IEEE floats the latter is the Fast2Sum situation), then
nothing is lost: `new sum - new accumulator = old sum - old accumulator + input`, although the returned
sum itself is rounded arbitrarily. -/
theorem kahan_compensates (rnd : K → K) (s x a : K)
    (h1 : rnd (x - a) = x - a)
    (h2 : rnd (rnd (s + (x - a)) - s) = rnd (s + (x - a)) - s)
    (h3 : rnd (rnd (s + (x - a)) - s - (x - a)) = rnd (s + (x - a)) - s - (x - a)) :
    (kahanSummation rnd s x a).1 = rnd (s + (x - a)) ∧
    (kahanSummation rnd s x a).1 - (kahanSummation rnd s x a).2 = s - a + x := by
  unfold kahanSummation
  simp only [h1, h2, h3]
  exact ⟨trivial, by ring⟩

/-- the three exactness conditions of `kahan_compensates` along a run -/
def ExactRun (rnd : K → K) : K × K → List K → Prop
  | _, [] => True
  | s, x :: xs =>
    rnd (x - s.2) = x - s.2 ∧
    rnd (rnd (s.1 + (x - s.2)) - s.1) = rnd (s.1 + (x - s.2)) - s.1 ∧
    rnd (rnd (s.1 + (x - s.2)) - s.1 - (x - s.2)) = rnd (s.1 + (x - s.2)) - s.1 - (x - s.2) ∧
    ExactRun rnd (kahanSummation rnd s.1 x s.2) xs

/-- **C40 (any number of steps).** Along any run whose compensation steps are exact, sum minus accumulator
is the exact sum of all inputs: rounding errors do not accumulate. -/
theorem kahanRun_exact (rnd : K → K) (s : K × K) (xs : List K) (h : ExactRun rnd s xs) :
    (kahanRun rnd s xs).1 - (kahanRun rnd s xs).2 = s.1 - s.2 + xs.sum := by
  induction xs generalizing s with
  | nil => simp [kahanRun]
  | cons x xs ih =>
    obtain ⟨h1, h2, h3, h4⟩ := h
    have := ih _ h4
    have hc := (kahan_compensates rnd s.1 x s.2 h1 h2 h3).2
    show (kahanRun rnd (kahanSummation rnd s.1 x s.2) xs).1 - (kahanRun rnd (kahanSummation rnd s.1 x s.2) xs).2 = _
    rw [this, hc, List.sum_cons]; ring

/-- Non-vacuity with real rounding (round down to integers): adding 1/4 ... is kept in the accumulator. -/
example : kahanSummation (fun x : ℚ => if 8 ≤ x then ⌊x⌋ else x) 8 (1/4) 0 = (8, -1/4) := by
  have : ⌊(8 + 1/4 : ℚ)⌋ = 8 := by rw [Int.floor_eq_iff]; norm_num
  norm_num [kahanSummation]

end kahan

section powf
variable {K : Type*} [Field K]

theorem powLoop_eq (x : K) (n : ℕ) (h : 0 < n) : powLoop x n = x ^ n := by
  have aux : ∀ m : ℕ, (List.range m).foldl (fun ret _ => ret * x) x = x ^ (m + 1) := by
    intro m
    induction m with
    | zero => simp
    | succ m ih => rw [List.range_succ, List.foldl_append, ih]; simp [pow_succ]
  unfold powLoop; rw [aux]; congr 1; omega

/-- **C61.** `ecl::powf` is integer exponentiation for every base and exponent. -/
theorem powf_eq_zpow (x : K) (n : ℤ) : powf x n = x ^ n := by
  unfold powf
  split
  · next h =>
    rw [powLoop_eq _ _ (by omega)]
    obtain ⟨m, rfl⟩ := Int.eq_ofNat_of_zero_le (le_of_lt h)
    simp
  · split
    · next h =>
      rw [powLoop_eq _ _ (by omega)]
      obtain ⟨m, hm⟩ := Int.eq_ofNat_of_zero_le (a := -n) (by omega)
      have : n = -(m : ℤ) := by omega
      subst this; simp
    · next h1 h2 =>
      have : n = 0 := by omega
      subst this; simp

example : powf (2 : ℚ) (-3) = 1 / 8 ∧ powf (2 : ℚ) 5 = 32 := by
  rw [powf_eq_zpow, powf_eq_zpow]; norm_num

end powf

end Ecl.Utils
