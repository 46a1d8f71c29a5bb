import Verif.Whole.Model

/-!
# Moving the local frame: the state vector with displaced position
-/

namespace Ecl.Whole

open Ecl.Cov Ecl.Fusion

section
variable {K : Type*} [Add K]

/-- the state vector with the position (states 7, 8, 9) displaced by `d` -/
def Spec.displaced (d : Fin 3 → K) (s : Vec K) : Vec K := fun i =>
  if i.val = 7 then s i + d 0 else if i.val = 8 then s i + d 1 else if i.val = 9 then s i + d 2 else s i

variable (d : Fin 3 → K) (s : Vec K)

@[simp] theorem disp_0 : Spec.displaced d s 0 = s 0 := rfl
@[simp] theorem disp_1 : Spec.displaced d s 1 = s 1 := rfl
@[simp] theorem disp_2 : Spec.displaced d s 2 = s 2 := rfl
@[simp] theorem disp_3 : Spec.displaced d s 3 = s 3 := rfl
@[simp] theorem disp_4 : Spec.displaced d s 4 = s 4 := rfl
@[simp] theorem disp_5 : Spec.displaced d s 5 = s 5 := rfl
@[simp] theorem disp_6 : Spec.displaced d s 6 = s 6 := rfl
@[simp] theorem disp_7 : Spec.displaced d s 7 = s 7 + d 0 := rfl
@[simp] theorem disp_8 : Spec.displaced d s 8 = s 8 + d 1 := rfl
@[simp] theorem disp_9 : Spec.displaced d s 9 = s 9 + d 2 := rfl
@[simp] theorem disp_10 : Spec.displaced d s 10 = s 10 := rfl
@[simp] theorem disp_11 : Spec.displaced d s 11 = s 11 := rfl
@[simp] theorem disp_12 : Spec.displaced d s 12 = s 12 := rfl
@[simp] theorem disp_13 : Spec.displaced d s 13 = s 13 := rfl
@[simp] theorem disp_14 : Spec.displaced d s 14 = s 14 := rfl
@[simp] theorem disp_15 : Spec.displaced d s 15 = s 15 := rfl
@[simp] theorem disp_16 : Spec.displaced d s 16 = s 16 := rfl
@[simp] theorem disp_17 : Spec.displaced d s 17 = s 17 := rfl
@[simp] theorem disp_18 : Spec.displaced d s 18 = s 18 := rfl
@[simp] theorem disp_19 : Spec.displaced d s 19 = s 19 := rfl
@[simp] theorem disp_20 : Spec.displaced d s 20 = s 20 := rfl
@[simp] theorem disp_21 : Spec.displaced d s 21 = s 21 := rfl
@[simp] theorem disp_22 : Spec.displaced d s 22 = s 22 := rfl
@[simp] theorem disp_23 : Spec.displaced d s 23 = s 23 := rfl

@[simp] theorem disp_att : attQuat (Spec.displaced d s) = attQuat s := rfl

theorem disp_other (i : Fin N) (h : i.val < 7 ∨ 9 < i.val) : Spec.displaced d s i = s i := by
  unfold Spec.displaced; rw [if_neg (by omega), if_neg (by omega), if_neg (by omega)]

end

end Ecl.Whole
