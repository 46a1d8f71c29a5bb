import Verif.Whole.SignBase

/-!
# Two sign changes: the mirror image and the other quaternion (generated by tools/gen_sign.py)
-/

namespace Ecl.Whole

open Ecl.Cov Ecl.Fusion

noncomputable section

/-- Reflection of the world east-west and of the vehicle left-right.  Components that change sign: quaternion x and z; velocity, position, velocity
bias, earth and body field along east / right; the angle biases about the forward and down axes (rotation vectors change the other two
components); the east wind. -/
def Spec.mirSign : Fin N → ℝ := ![1, -1, 1, -1, 1, -1, 1, 1, -1, 1, -1, 1, -1, 1, -1, 1, 1, -1, 1, 1, -1, 1, 1, -1]

/-- the other quaternion of the same attitude: the four quaternion components change sign -/
def Spec.covSign : Fin N → ℝ := ![-1, -1, -1, -1, 1, 1, 1, 1, 1, 1, 1, 1, 1, 1, 1, 1, 1, 1, 1, 1, 1, 1, 1, 1]

theorem mir_0 : Spec.mirSign 0 = 1 := rfl
theorem mir_1 : Spec.mirSign 1 = -1 := rfl
theorem mir_2 : Spec.mirSign 2 = 1 := rfl
theorem mir_3 : Spec.mirSign 3 = -1 := rfl
theorem mir_4 : Spec.mirSign 4 = 1 := rfl
theorem mir_5 : Spec.mirSign 5 = -1 := rfl
theorem mir_6 : Spec.mirSign 6 = 1 := rfl
theorem mir_7 : Spec.mirSign 7 = 1 := rfl
theorem mir_8 : Spec.mirSign 8 = -1 := rfl
theorem mir_9 : Spec.mirSign 9 = 1 := rfl
theorem mir_10 : Spec.mirSign 10 = -1 := rfl
theorem mir_11 : Spec.mirSign 11 = 1 := rfl
theorem mir_12 : Spec.mirSign 12 = -1 := rfl
theorem mir_13 : Spec.mirSign 13 = 1 := rfl
theorem mir_14 : Spec.mirSign 14 = -1 := rfl
theorem mir_15 : Spec.mirSign 15 = 1 := rfl
theorem mir_16 : Spec.mirSign 16 = 1 := rfl
theorem mir_17 : Spec.mirSign 17 = -1 := rfl
theorem mir_18 : Spec.mirSign 18 = 1 := rfl
theorem mir_19 : Spec.mirSign 19 = 1 := rfl
theorem mir_20 : Spec.mirSign 20 = -1 := rfl
theorem mir_21 : Spec.mirSign 21 = 1 := rfl
theorem mir_22 : Spec.mirSign 22 = 1 := rfl
theorem mir_23 : Spec.mirSign 23 = -1 := rfl

theorem mir_isSign : IsSign Spec.mirSign := by
  intro i
  fin_cases i <;> norm_num [Spec.mirSign, N]

theorem cov_0 : Spec.covSign 0 = -1 := rfl
theorem cov_1 : Spec.covSign 1 = -1 := rfl
theorem cov_2 : Spec.covSign 2 = -1 := rfl
theorem cov_3 : Spec.covSign 3 = -1 := rfl
theorem cov_4 : Spec.covSign 4 = 1 := rfl
theorem cov_5 : Spec.covSign 5 = 1 := rfl
theorem cov_6 : Spec.covSign 6 = 1 := rfl
theorem cov_7 : Spec.covSign 7 = 1 := rfl
theorem cov_8 : Spec.covSign 8 = 1 := rfl
theorem cov_9 : Spec.covSign 9 = 1 := rfl
theorem cov_10 : Spec.covSign 10 = 1 := rfl
theorem cov_11 : Spec.covSign 11 = 1 := rfl
theorem cov_12 : Spec.covSign 12 = 1 := rfl
theorem cov_13 : Spec.covSign 13 = 1 := rfl
theorem cov_14 : Spec.covSign 14 = 1 := rfl
theorem cov_15 : Spec.covSign 15 = 1 := rfl
theorem cov_16 : Spec.covSign 16 = 1 := rfl
theorem cov_17 : Spec.covSign 17 = 1 := rfl
theorem cov_18 : Spec.covSign 18 = 1 := rfl
theorem cov_19 : Spec.covSign 19 = 1 := rfl
theorem cov_20 : Spec.covSign 20 = 1 := rfl
theorem cov_21 : Spec.covSign 21 = 1 := rfl
theorem cov_22 : Spec.covSign 22 = 1 := rfl
theorem cov_23 : Spec.covSign 23 = 1 := rfl

theorem cov_isSign : IsSign Spec.covSign := by
  intro i
  fin_cases i <;> norm_num [Spec.covSign, N]

end

end Ecl.Whole
