import Verif.Basic.Num
import Mathlib.LinearAlgebra.Matrix.Notation
import Mathlib.LinearAlgebra.Matrix.Determinant.Basic
import Mathlib.Tactic.FinCases
import Mathlib.Tactic.LinearCombination
import Mathlib.Tactic.FieldSimp

/-!
# Quaternions and rotation matrices

The external PX4 `matrix` library is not part of the repository; the few operations of it that the code
uses are specified here (Hamilton product, inverse, quaternion to direction-cosine matrix, normalisation).
They are part of the trusted base (DESIGN.md).
-/

namespace Ecl

/-- `matrix::Quatf` (w first) -/
@[ext] structure Quat (K : Type*) where
  w : K
  x : K
  y : K
  z : K
deriving DecidableEq

/-- 3-vectors and 3x3 matrices -/
abbrev V3 (K : Type*) := Fin 3 → K
abbrev M3 (K : Type*) := Matrix (Fin 3) (Fin 3) K

open scoped Matrix

namespace Quat
variable {K : Type*} [Field K]

/-- identity quaternion -/
def one : Quat K := ⟨1, 0, 0, 0⟩

/-- Hamilton product (`matrix::Quaternion::operator*`) -/
def mul (p q : Quat K) : Quat K :=
  ⟨p.w * q.w - p.x * q.x - p.y * q.y - p.z * q.z,
   p.w * q.x + p.x * q.w + p.y * q.z - p.z * q.y,
   p.w * q.y - p.x * q.z + p.y * q.w + p.z * q.x,
   p.w * q.z + p.x * q.y - p.y * q.x + p.z * q.w⟩

def normSq (q : Quat K) : K := q.w * q.w + q.x * q.x + q.y * q.y + q.z * q.z

/-- `matrix::Quaternion::inversed` -/
def inversed (q : Quat K) : Quat K :=
  ⟨q.w / q.normSq, -q.x / q.normSq, -q.y / q.normSq, -q.z / q.normSq⟩

/-- `matrix::Dcm(const Quaternion&)` -/
def dcm (q : Quat K) : M3 K :=
  !![q.w*q.w + q.x*q.x - q.y*q.y - q.z*q.z, 2*(q.x*q.y - q.w*q.z), 2*(q.w*q.y + q.x*q.z);
     2*(q.x*q.y + q.w*q.z), q.w*q.w - q.x*q.x + q.y*q.y - q.z*q.z, 2*(q.y*q.z - q.w*q.x);
     2*(q.x*q.z - q.w*q.y), 2*(q.w*q.x + q.y*q.z), q.w*q.w - q.x*q.x - q.y*q.y + q.z*q.z]

theorem mul_assoc (p q r : Quat K) : (p.mul q).mul r = p.mul (q.mul r) := by
  ext <;> simp only [mul] <;> ring

theorem one_mul (p : Quat K) : one.mul p = p := by
  ext <;> simp [mul, one]

theorem mul_one (p : Quat K) : p.mul one = p := by
  ext <;> simp [mul, one]

theorem normSq_mul (p q : Quat K) : (p.mul q).normSq = p.normSq * q.normSq := by
  simp only [mul, normSq]; ring

theorem dcm_one : (one : Quat K).dcm = 1 := by
  ext i j; fin_cases i <;> fin_cases j <;> simp [dcm, one]

theorem dcm_mul (p q : Quat K) : (p.mul q).dcm = p.dcm * q.dcm := by
  ext i j
  fin_cases i <;> fin_cases j <;>
    simp [dcm, mul, Matrix.mul_apply, Fin.sum_univ_three] <;> ring

theorem inversed_of_unit {q : Quat K} (h : q.normSq = 1) : q.inversed = ⟨q.w, -q.x, -q.y, -q.z⟩ := by
  simp [inversed, h]

theorem dcm_transpose_mul (q : Quat K) (h : q.normSq = 1) : q.dcmᵀ * q.dcm = 1 := by
  unfold normSq at h
  ext i j
  fin_cases i <;> fin_cases j <;>
    simp [dcm, Matrix.mul_apply, Fin.sum_univ_three, Matrix.transpose_apply]
  all_goals first
    | linear_combination (q.w*q.w + q.x*q.x + q.y*q.y + q.z*q.z + 1) * h
    | ring

theorem dcm_mul_transpose (q : Quat K) (h : q.normSq = 1) : q.dcm * q.dcmᵀ = 1 := by
  unfold normSq at h
  ext i j
  fin_cases i <;> fin_cases j <;>
    simp [dcm, Matrix.mul_apply, Fin.sum_univ_three, Matrix.transpose_apply]
  all_goals first
    | linear_combination (q.w*q.w + q.x*q.x + q.y*q.y + q.z*q.z + 1) * h
    | ring

theorem dcm_inversed (q : Quat K) (h : q.normSq = 1) : q.inversed.dcm = q.dcmᵀ := by
  rw [inversed_of_unit h]
  ext i j
  fin_cases i <;> fin_cases j <;> simp [dcm, Matrix.transpose_apply] <;> ring_nf <;> simp

theorem dcm_det (q : Quat K) (h : q.normSq = 1) : q.dcm.det = 1 := by
  unfold normSq at h
  rw [Matrix.det_fin_three]
  simp [dcm]
  linear_combination ((q.w*q.w + q.x*q.x + q.y*q.y + q.z*q.z)^2 +
    (q.w*q.w + q.x*q.x + q.y*q.y + q.z*q.z) + 1) * h

end Quat
end Ecl
