import Verif.Cov.PredictGen
import Mathlib.Tactic.Ring
import Mathlib.Tactic.FinCases

/-!
# Sparse rows of the transition Jacobian

`rowF x i y` is row `i` of the Jacobian of the state propagation applied to `y`; `imuCov x i j` is the contribution of
the IMU noise.  That they are the Jacobians is proved in `PredictProps.lean`.
-/

set_option linter.unusedSectionVars false
set_option linter.unusedSimpArgs false
set_option linter.unusedVariables false

namespace Ecl.Cov

section
variable {K : Type*} [Field K]

/-- half of the corrected delta angle -/
def hx (x : PredIn K) : K := (x.dax - x.dax_b) / 2
def hy (x : PredIn K) : K := (x.day - x.day_b) / 2
def hz (x : PredIn K) : K := (x.daz - x.daz_b) / 2

/-- body to earth rotation of the quaternion -/
def rotM (x : PredIn K) : Fin 3 → Fin 3 → K
  | 0, 0 => x.q0 ^ 2 + x.q1 ^ 2 - x.q2 ^ 2 - x.q3 ^ 2
  | 0, 1 => 2 * (x.q1 * x.q2 - x.q0 * x.q3)
  | 0, 2 => 2 * (x.q1 * x.q3 + x.q0 * x.q2)
  | 1, 0 => 2 * (x.q1 * x.q2 + x.q0 * x.q3)
  | 1, 1 => x.q0 ^ 2 - x.q1 ^ 2 + x.q2 ^ 2 - x.q3 ^ 2
  | 1, 2 => 2 * (x.q2 * x.q3 - x.q0 * x.q1)
  | 2, 0 => 2 * (x.q1 * x.q3 - x.q0 * x.q2)
  | 2, 1 => 2 * (x.q2 * x.q3 + x.q0 * x.q1)
  | 2, 2 => x.q0 ^ 2 - x.q1 ^ 2 - x.q2 ^ 2 + x.q3 ^ 2

/-- the four combinations of corrected delta velocity and quaternion that appear in `∂(R(q) dv)/∂q` -/
def cA (x : PredIn K) : K := x.q0 * (x.dvx - x.dvx_b) - x.q3 * (x.dvy - x.dvy_b) + x.q2 * (x.dvz - x.dvz_b)
def cB (x : PredIn K) : K := x.q1 * (x.dvx - x.dvx_b) + x.q2 * (x.dvy - x.dvy_b) + x.q3 * (x.dvz - x.dvz_b)
def cC (x : PredIn K) : K := -x.q2 * (x.dvx - x.dvx_b) + x.q1 * (x.dvy - x.dvy_b) + x.q0 * (x.dvz - x.dvz_b)
def cD (x : PredIn K) : K := x.q3 * (x.dvx - x.dvx_b) + x.q0 * (x.dvy - x.dvy_b) - x.q1 * (x.dvz - x.dvz_b)

/-- row `i` of the transition Jacobian applied to a vector -/
def rowF (x : PredIn K) (i : Fin N) (y : Fin N → K) : K :=
  match i with
  | 0 => y 0 - hx x * y 1 - hy x * y 2 - hz x * y 3 + x.q1 / 2 * y 10 + x.q2 / 2 * y 11 + x.q3 / 2 * y 12
  | 1 => hx x * y 0 + y 1 + hz x * y 2 - hy x * y 3 - x.q0 / 2 * y 10 + x.q3 / 2 * y 11 - x.q2 / 2 * y 12
  | 2 => hy x * y 0 - hz x * y 1 + y 2 + hx x * y 3 - x.q3 / 2 * y 10 - x.q0 / 2 * y 11 + x.q1 / 2 * y 12
  | 3 => hz x * y 0 + hy x * y 1 - hx x * y 2 + y 3 + x.q2 / 2 * y 10 - x.q1 / 2 * y 11 - x.q0 / 2 * y 12
  | 4 => y 4 + 2 * cA x * y 0 + 2 * cB x * y 1 + 2 * cC x * y 2 - 2 * cD x * y 3
          - (rotM x 0 0 * y 13 + rotM x 0 1 * y 14 + rotM x 0 2 * y 15)
  | 5 => y 5 + 2 * cD x * y 0 - 2 * cC x * y 1 + 2 * cB x * y 2 + 2 * cA x * y 3
          - (rotM x 1 0 * y 13 + rotM x 1 1 * y 14 + rotM x 1 2 * y 15)
  | 6 => y 6 + 2 * cC x * y 0 + 2 * cD x * y 1 - 2 * cA x * y 2 + 2 * cB x * y 3
          - (rotM x 2 0 * y 13 + rotM x 2 1 * y 14 + rotM x 2 2 * y 15)
  | 7 => y 7 + x.dt * y 4
  | 8 => y 8 + x.dt * y 5
  | 9 => y 9 + x.dt * y 6
  | i => y i

/-- rows of the quaternion part of the noise Jacobian (delta angle noise) -/
def quatG (x : PredIn K) : Fin 4 → Fin 3 → K
  | 0, 0 => -x.q1 / 2 | 0, 1 => -x.q2 / 2 | 0, 2 => -x.q3 / 2
  | 1, 0 => x.q0 / 2 | 1, 1 => -x.q3 / 2 | 1, 2 => x.q2 / 2
  | 2, 0 => x.q3 / 2 | 2, 1 => x.q0 / 2 | 2, 2 => -x.q1 / 2
  | 3, 0 => -x.q2 / 2 | 3, 1 => x.q1 / 2 | 3, 2 => x.q0 / 2

/-- noise Jacobian: six IMU inputs -/
def matG (x : PredIn K) (i : Fin N) (k : Fin 6) : K :=
  if h : i.val < 4 ∧ k.val < 3 then quatG x ⟨i.val, h.1⟩ ⟨k.val, h.2⟩
  else if h : (4 ≤ i.val ∧ i.val < 7) ∧ 3 ≤ k.val then rotM x ⟨i.val - 4, by omega⟩ ⟨k.val - 3, by omega⟩
  else 0

/-- variances of the six IMU inputs -/
def imuVar (x : PredIn K) : Fin 6 → K
  | 0 => x.daxVar | 1 => x.dayVar | 2 => x.dazVar | 3 => x.dvxVar | 4 => x.dvyVar | 5 => x.dvzVar

/-- `(G Q Gᵀ) i j` -/
def imuCov (x : PredIn K) (i j : Fin N) : K := ∑ k, matG x i k * imuVar x k * matG x j k

theorem imuCov_off (x : PredIn K) (i j : Fin N) (h : ¬ ((i.val < 4 ∧ j.val < 4) ∨
    ((4 ≤ i.val ∧ i.val < 7) ∧ (4 ≤ j.val ∧ j.val < 7)))) : imuCov x i j = 0 := by
  apply Finset.sum_eq_zero
  intro k _
  by_cases hk : k.val < 3
  · by_cases hi : i.val < 4
    · have : matG x j k = 0 := by
        unfold matG; rw [dif_neg (by omega), dif_neg (by omega)]
      rw [this]; ring
    · have : matG x i k = 0 := by
        unfold matG; rw [dif_neg (by omega), dif_neg (by omega)]
      rw [this]; ring
  · by_cases hi : 4 ≤ i.val ∧ i.val < 7
    · have : matG x j k = 0 := by
        unfold matG; rw [dif_neg (by omega), dif_neg (by omega)]
      rw [this]; ring
    · have : matG x i k = 0 := by
        unfold matG; rw [dif_neg (by omega), dif_neg (by omega)]
      rw [this]; ring

theorem imuCov_eq (x : PredIn K) (i j : Fin N) : imuCov x i j =
    matG x i 0 * x.daxVar * matG x j 0 + matG x i 1 * x.dayVar * matG x j 1 + matG x i 2 * x.dazVar * matG x j 2 +
    matG x i 3 * x.dvxVar * matG x j 3 + matG x i 4 * x.dvyVar * matG x j 4 + matG x i 5 * x.dvzVar * matG x j 5 := by
  unfold imuCov
  simp only [Fin.sum_univ_six]
  rfl

end

section
variable {K : Type*} [Field K] [CharZero K]

theorem hx_eq (P : Mat K) (x : PredIn K) : hx x = PS11 P x := by unfold hx PS11; ring
theorem hy_eq (P : Mat K) (x : PredIn K) : hy x = PS12 P x := by unfold hy PS12; ring
theorem hz_eq (P : Mat K) (x : PredIn K) : hz x = PS13 P x := by unfold hz PS13; ring
theorem cA_eq (P : Mat K) (x : PredIn K) : cA x = PS57 P x := by unfold cA PS57 PS49 PS50 PS51; ring
theorem cB_eq (P : Mat K) (x : PredIn K) : cB x = PS61 P x := by unfold cB PS61 PS49 PS50 PS51; ring
theorem cC_eq (P : Mat K) (x : PredIn K) : cC x = PS59 P x := by unfold cC PS59 PS49 PS50 PS51; ring
theorem cD_eq (P : Mat K) (x : PredIn K) : cD x = PS52 P x := by unfold cD PS52 PS49 PS50 PS51; ring
theorem rot_00 (P : Mat K) (x : PredIn K) : rotM x 0 0 = PS44 P x := by
  simp only [rotM, PS44, PS65, PS70, PS54, PS46, PS66, PS68, PS73, PS71, PS43, PS41, PS64, PS42, PS0, PS2, PS4, PS35, PS36, PS37, PS38, PS39, PS40]; try ring
theorem rot_01 (P : Mat K) (x : PredIn K) : rotM x 0 1 = -2 * PS54 P x := by
  simp only [rotM, PS44, PS65, PS70, PS54, PS46, PS66, PS68, PS73, PS71, PS43, PS41, PS64, PS42, PS0, PS2, PS4, PS35, PS36, PS37, PS38, PS39, PS40]; try ring
theorem rot_02 (P : Mat K) (x : PredIn K) : rotM x 0 2 = 2 * PS46 P x := by
  simp only [rotM, PS44, PS65, PS70, PS54, PS46, PS66, PS68, PS73, PS71, PS43, PS41, PS64, PS42, PS0, PS2, PS4, PS35, PS36, PS37, PS38, PS39, PS40]; try ring
theorem rot_10 (P : Mat K) (x : PredIn K) : rotM x 1 0 = 2 * PS66 P x := by
  simp only [rotM, PS44, PS65, PS70, PS54, PS46, PS66, PS68, PS73, PS71, PS43, PS41, PS64, PS42, PS0, PS2, PS4, PS35, PS36, PS37, PS38, PS39, PS40]; try ring
theorem rot_11 (P : Mat K) (x : PredIn K) : rotM x 1 1 = PS65 P x := by
  simp only [rotM, PS44, PS65, PS70, PS54, PS46, PS66, PS68, PS73, PS71, PS43, PS41, PS64, PS42, PS0, PS2, PS4, PS35, PS36, PS37, PS38, PS39, PS40]; try ring
theorem rot_12 (P : Mat K) (x : PredIn K) : rotM x 1 2 = -2 * PS68 P x := by
  simp only [rotM, PS44, PS65, PS70, PS54, PS46, PS66, PS68, PS73, PS71, PS43, PS41, PS64, PS42, PS0, PS2, PS4, PS35, PS36, PS37, PS38, PS39, PS40]; try ring
theorem rot_20 (P : Mat K) (x : PredIn K) : rotM x 2 0 = -2 * PS73 P x := by
  simp only [rotM, PS44, PS65, PS70, PS54, PS46, PS66, PS68, PS73, PS71, PS43, PS41, PS64, PS42, PS0, PS2, PS4, PS35, PS36, PS37, PS38, PS39, PS40]; try ring
theorem rot_21 (P : Mat K) (x : PredIn K) : rotM x 2 1 = 2 * PS71 P x := by
  simp only [rotM, PS44, PS65, PS70, PS54, PS46, PS66, PS68, PS73, PS71, PS43, PS41, PS64, PS42, PS0, PS2, PS4, PS35, PS36, PS37, PS38, PS39, PS40]; try ring
theorem rot_22 (P : Mat K) (x : PredIn K) : rotM x 2 2 = PS70 P x := by
  simp only [rotM, PS44, PS65, PS70, PS54, PS46, PS66, PS68, PS73, PS71, PS43, PS41, PS64, PS42, PS0, PS2, PS4, PS35, PS36, PS37, PS38, PS39, PS40]; try ring

theorem half0 (P : Mat K) (x : PredIn K) : x.q0 / 2 = PS34 P x := by unfold PS34; ring
theorem half1 (P : Mat K) (x : PredIn K) : x.q1 / 2 = PS6 P x := by unfold PS6; ring
theorem half2 (P : Mat K) (x : PredIn K) : x.q2 / 2 = PS7 P x := by unfold PS7; ring
theorem half3 (P : Mat K) (x : PredIn K) : x.q3 / 2 = PS9 P x := by unfold PS9; ring
theorem rowF_0 (P : Mat K) (x : PredIn K) (y : Fin N → K) : rowF x 0 y = y 0 - PS11 P x * y 1 - PS12 P x * y 2 - PS13 P x * y 3 + PS6 P x * y 10 + PS7 P x * y 11 + PS9 P x * y 12 := by
  simp only [rowF, hx_eq P, hy_eq P, hz_eq P, cA_eq P, cB_eq P, cC_eq P, cD_eq P, half0 P, half1 P, half2 P, half3 P, rot_00 P, rot_01 P, rot_02 P, rot_10 P, rot_11 P, rot_12 P, rot_20 P, rot_21 P, rot_22 P]
theorem rowF_1 (P : Mat K) (x : PredIn K) (y : Fin N → K) : rowF x 1 y = PS11 P x * y 0 + y 1 + PS13 P x * y 2 - PS12 P x * y 3 - PS34 P x * y 10 + PS9 P x * y 11 - PS7 P x * y 12 := by
  simp only [rowF, hx_eq P, hy_eq P, hz_eq P, cA_eq P, cB_eq P, cC_eq P, cD_eq P, half0 P, half1 P, half2 P, half3 P, rot_00 P, rot_01 P, rot_02 P, rot_10 P, rot_11 P, rot_12 P, rot_20 P, rot_21 P, rot_22 P]
theorem rowF_2 (P : Mat K) (x : PredIn K) (y : Fin N → K) : rowF x 2 y = PS12 P x * y 0 - PS13 P x * y 1 + y 2 + PS11 P x * y 3 - PS9 P x * y 10 - PS34 P x * y 11 + PS6 P x * y 12 := by
  simp only [rowF, hx_eq P, hy_eq P, hz_eq P, cA_eq P, cB_eq P, cC_eq P, cD_eq P, half0 P, half1 P, half2 P, half3 P, rot_00 P, rot_01 P, rot_02 P, rot_10 P, rot_11 P, rot_12 P, rot_20 P, rot_21 P, rot_22 P]
theorem rowF_3 (P : Mat K) (x : PredIn K) (y : Fin N → K) : rowF x 3 y = PS13 P x * y 0 + PS12 P x * y 1 - PS11 P x * y 2 + y 3 + PS7 P x * y 10 - PS6 P x * y 11 - PS34 P x * y 12 := by
  simp only [rowF, hx_eq P, hy_eq P, hz_eq P, cA_eq P, cB_eq P, cC_eq P, cD_eq P, half0 P, half1 P, half2 P, half3 P, rot_00 P, rot_01 P, rot_02 P, rot_10 P, rot_11 P, rot_12 P, rot_20 P, rot_21 P, rot_22 P]
theorem rowF_4 (P : Mat K) (x : PredIn K) (y : Fin N → K) : rowF x 4 y = y 4 + 2 * PS57 P x * y 0 + 2 * PS61 P x * y 1 + 2 * PS59 P x * y 2 - 2 * PS52 P x * y 3 - (PS44 P x * y 13 + -2 * PS54 P x * y 14 + 2 * PS46 P x * y 15) := by
  simp only [rowF, hx_eq P, hy_eq P, hz_eq P, cA_eq P, cB_eq P, cC_eq P, cD_eq P, half0 P, half1 P, half2 P, half3 P, rot_00 P, rot_01 P, rot_02 P, rot_10 P, rot_11 P, rot_12 P, rot_20 P, rot_21 P, rot_22 P]
theorem rowF_5 (P : Mat K) (x : PredIn K) (y : Fin N → K) : rowF x 5 y = y 5 + 2 * PS52 P x * y 0 - 2 * PS59 P x * y 1 + 2 * PS61 P x * y 2 + 2 * PS57 P x * y 3 - (2 * PS66 P x * y 13 + PS65 P x * y 14 + -2 * PS68 P x * y 15) := by
  simp only [rowF, hx_eq P, hy_eq P, hz_eq P, cA_eq P, cB_eq P, cC_eq P, cD_eq P, half0 P, half1 P, half2 P, half3 P, rot_00 P, rot_01 P, rot_02 P, rot_10 P, rot_11 P, rot_12 P, rot_20 P, rot_21 P, rot_22 P]
theorem rowF_6 (P : Mat K) (x : PredIn K) (y : Fin N → K) : rowF x 6 y = y 6 + 2 * PS59 P x * y 0 + 2 * PS52 P x * y 1 - 2 * PS57 P x * y 2 + 2 * PS61 P x * y 3 - (-2 * PS73 P x * y 13 + 2 * PS71 P x * y 14 + PS70 P x * y 15) := by
  simp only [rowF, hx_eq P, hy_eq P, hz_eq P, cA_eq P, cB_eq P, cC_eq P, cD_eq P, half0 P, half1 P, half2 P, half3 P, rot_00 P, rot_01 P, rot_02 P, rot_10 P, rot_11 P, rot_12 P, rot_20 P, rot_21 P, rot_22 P]
theorem rowF_7 (x : PredIn K) (y : Fin N → K) : rowF x 7 y = y 7 + x.dt * y 4 := rfl
theorem rowF_8 (x : PredIn K) (y : Fin N → K) : rowF x 8 y = y 8 + x.dt * y 5 := rfl
theorem rowF_9 (x : PredIn K) (y : Fin N → K) : rowF x 9 y = y 9 + x.dt * y 6 := rfl
theorem rowF_10 (x : PredIn K) (y : Fin N → K) : rowF x 10 y = y 10 := rfl
theorem rowF_11 (x : PredIn K) (y : Fin N → K) : rowF x 11 y = y 11 := rfl
theorem rowF_12 (x : PredIn K) (y : Fin N → K) : rowF x 12 y = y 12 := rfl
theorem rowF_13 (x : PredIn K) (y : Fin N → K) : rowF x 13 y = y 13 := rfl
theorem rowF_14 (x : PredIn K) (y : Fin N → K) : rowF x 14 y = y 14 := rfl
theorem rowF_15 (x : PredIn K) (y : Fin N → K) : rowF x 15 y = y 15 := rfl
theorem rowF_16 (x : PredIn K) (y : Fin N → K) : rowF x 16 y = y 16 := rfl
theorem rowF_17 (x : PredIn K) (y : Fin N → K) : rowF x 17 y = y 17 := rfl
theorem rowF_18 (x : PredIn K) (y : Fin N → K) : rowF x 18 y = y 18 := rfl
theorem rowF_19 (x : PredIn K) (y : Fin N → K) : rowF x 19 y = y 19 := rfl
theorem rowF_20 (x : PredIn K) (y : Fin N → K) : rowF x 20 y = y 20 := rfl
theorem rowF_21 (x : PredIn K) (y : Fin N → K) : rowF x 21 y = y 21 := rfl
theorem rowF_22 (x : PredIn K) (y : Fin N → K) : rowF x 22 y = y 22 := rfl
theorem rowF_23 (x : PredIn K) (y : Fin N → K) : rowF x 23 y = y 23 := rfl

theorem g_0_0 (x : PredIn K) : matG x 0 0 = -x.q1 / 2 := rfl
theorem g_0_1 (x : PredIn K) : matG x 0 1 = -x.q2 / 2 := rfl
theorem g_0_2 (x : PredIn K) : matG x 0 2 = -x.q3 / 2 := rfl
theorem g_0_3 (x : PredIn K) : matG x 0 3 = 0 := rfl
theorem g_0_4 (x : PredIn K) : matG x 0 4 = 0 := rfl
theorem g_0_5 (x : PredIn K) : matG x 0 5 = 0 := rfl
theorem g_1_0 (x : PredIn K) : matG x 1 0 = x.q0 / 2 := rfl
theorem g_1_1 (x : PredIn K) : matG x 1 1 = -x.q3 / 2 := rfl
theorem g_1_2 (x : PredIn K) : matG x 1 2 = x.q2 / 2 := rfl
theorem g_1_3 (x : PredIn K) : matG x 1 3 = 0 := rfl
theorem g_1_4 (x : PredIn K) : matG x 1 4 = 0 := rfl
theorem g_1_5 (x : PredIn K) : matG x 1 5 = 0 := rfl
theorem g_2_0 (x : PredIn K) : matG x 2 0 = x.q3 / 2 := rfl
theorem g_2_1 (x : PredIn K) : matG x 2 1 = x.q0 / 2 := rfl
theorem g_2_2 (x : PredIn K) : matG x 2 2 = -x.q1 / 2 := rfl
theorem g_2_3 (x : PredIn K) : matG x 2 3 = 0 := rfl
theorem g_2_4 (x : PredIn K) : matG x 2 4 = 0 := rfl
theorem g_2_5 (x : PredIn K) : matG x 2 5 = 0 := rfl
theorem g_3_0 (x : PredIn K) : matG x 3 0 = -x.q2 / 2 := rfl
theorem g_3_1 (x : PredIn K) : matG x 3 1 = x.q1 / 2 := rfl
theorem g_3_2 (x : PredIn K) : matG x 3 2 = x.q0 / 2 := rfl
theorem g_3_3 (x : PredIn K) : matG x 3 3 = 0 := rfl
theorem g_3_4 (x : PredIn K) : matG x 3 4 = 0 := rfl
theorem g_3_5 (x : PredIn K) : matG x 3 5 = 0 := rfl
theorem g_4_0 (P : Mat K) (x : PredIn K) : matG x 4 0 = 0 := rfl
theorem g_4_1 (P : Mat K) (x : PredIn K) : matG x 4 1 = 0 := rfl
theorem g_4_2 (P : Mat K) (x : PredIn K) : matG x 4 2 = 0 := rfl
theorem g_4_3 (P : Mat K) (x : PredIn K) : matG x 4 3 = PS44 P x := rot_00 P x
theorem g_4_4 (P : Mat K) (x : PredIn K) : matG x 4 4 = -2 * PS54 P x := rot_01 P x
theorem g_4_5 (P : Mat K) (x : PredIn K) : matG x 4 5 = 2 * PS46 P x := rot_02 P x
theorem g_5_0 (P : Mat K) (x : PredIn K) : matG x 5 0 = 0 := rfl
theorem g_5_1 (P : Mat K) (x : PredIn K) : matG x 5 1 = 0 := rfl
theorem g_5_2 (P : Mat K) (x : PredIn K) : matG x 5 2 = 0 := rfl
theorem g_5_3 (P : Mat K) (x : PredIn K) : matG x 5 3 = 2 * PS66 P x := rot_10 P x
theorem g_5_4 (P : Mat K) (x : PredIn K) : matG x 5 4 = PS65 P x := rot_11 P x
theorem g_5_5 (P : Mat K) (x : PredIn K) : matG x 5 5 = -2 * PS68 P x := rot_12 P x
theorem g_6_0 (P : Mat K) (x : PredIn K) : matG x 6 0 = 0 := rfl
theorem g_6_1 (P : Mat K) (x : PredIn K) : matG x 6 1 = 0 := rfl
theorem g_6_2 (P : Mat K) (x : PredIn K) : matG x 6 2 = 0 := rfl
theorem g_6_3 (P : Mat K) (x : PredIn K) : matG x 6 3 = -2 * PS73 P x := rot_20 P x
theorem g_6_4 (P : Mat K) (x : PredIn K) : matG x 6 4 = 2 * PS71 P x := rot_21 P x
theorem g_6_5 (P : Mat K) (x : PredIn K) : matG x 6 5 = PS70 P x := rot_22 P x
theorem noise_0_0 (x : PredIn K) : imuCov x 0 0 = (-x.q1 / 2) * x.daxVar * (-x.q1 / 2) + (-x.q2 / 2) * x.dayVar * (-x.q2 / 2) + (-x.q3 / 2) * x.dazVar * (-x.q3 / 2) := by
  rw [imuCov_eq]; simp only [g_0_0, g_0_1, g_0_2, g_0_3, g_0_4, g_0_5]; ring
theorem noise_0_1 (x : PredIn K) : imuCov x 0 1 = (-x.q1 / 2) * x.daxVar * (x.q0 / 2) + (-x.q2 / 2) * x.dayVar * (-x.q3 / 2) + (-x.q3 / 2) * x.dazVar * (x.q2 / 2) := by
  rw [imuCov_eq]; simp only [g_0_0, g_0_1, g_0_2, g_0_3, g_0_4, g_0_5, g_1_0, g_1_1, g_1_2, g_1_3, g_1_4, g_1_5]; ring
theorem noise_0_2 (x : PredIn K) : imuCov x 0 2 = (-x.q1 / 2) * x.daxVar * (x.q3 / 2) + (-x.q2 / 2) * x.dayVar * (x.q0 / 2) + (-x.q3 / 2) * x.dazVar * (-x.q1 / 2) := by
  rw [imuCov_eq]; simp only [g_0_0, g_0_1, g_0_2, g_0_3, g_0_4, g_0_5, g_2_0, g_2_1, g_2_2, g_2_3, g_2_4, g_2_5]; ring
theorem noise_0_3 (x : PredIn K) : imuCov x 0 3 = (-x.q1 / 2) * x.daxVar * (-x.q2 / 2) + (-x.q2 / 2) * x.dayVar * (x.q1 / 2) + (-x.q3 / 2) * x.dazVar * (x.q0 / 2) := by
  rw [imuCov_eq]; simp only [g_0_0, g_0_1, g_0_2, g_0_3, g_0_4, g_0_5, g_3_0, g_3_1, g_3_2, g_3_3, g_3_4, g_3_5]; ring
theorem noise_1_1 (x : PredIn K) : imuCov x 1 1 = (x.q0 / 2) * x.daxVar * (x.q0 / 2) + (-x.q3 / 2) * x.dayVar * (-x.q3 / 2) + (x.q2 / 2) * x.dazVar * (x.q2 / 2) := by
  rw [imuCov_eq]; simp only [g_1_0, g_1_1, g_1_2, g_1_3, g_1_4, g_1_5]; ring
theorem noise_1_2 (x : PredIn K) : imuCov x 1 2 = (x.q0 / 2) * x.daxVar * (x.q3 / 2) + (-x.q3 / 2) * x.dayVar * (x.q0 / 2) + (x.q2 / 2) * x.dazVar * (-x.q1 / 2) := by
  rw [imuCov_eq]; simp only [g_1_0, g_1_1, g_1_2, g_1_3, g_1_4, g_1_5, g_2_0, g_2_1, g_2_2, g_2_3, g_2_4, g_2_5]; ring
theorem noise_1_3 (x : PredIn K) : imuCov x 1 3 = (x.q0 / 2) * x.daxVar * (-x.q2 / 2) + (-x.q3 / 2) * x.dayVar * (x.q1 / 2) + (x.q2 / 2) * x.dazVar * (x.q0 / 2) := by
  rw [imuCov_eq]; simp only [g_1_0, g_1_1, g_1_2, g_1_3, g_1_4, g_1_5, g_3_0, g_3_1, g_3_2, g_3_3, g_3_4, g_3_5]; ring
theorem noise_2_2 (x : PredIn K) : imuCov x 2 2 = (x.q3 / 2) * x.daxVar * (x.q3 / 2) + (x.q0 / 2) * x.dayVar * (x.q0 / 2) + (-x.q1 / 2) * x.dazVar * (-x.q1 / 2) := by
  rw [imuCov_eq]; simp only [g_2_0, g_2_1, g_2_2, g_2_3, g_2_4, g_2_5]; ring
theorem noise_2_3 (x : PredIn K) : imuCov x 2 3 = (x.q3 / 2) * x.daxVar * (-x.q2 / 2) + (x.q0 / 2) * x.dayVar * (x.q1 / 2) + (-x.q1 / 2) * x.dazVar * (x.q0 / 2) := by
  rw [imuCov_eq]; simp only [g_2_0, g_2_1, g_2_2, g_2_3, g_2_4, g_2_5, g_3_0, g_3_1, g_3_2, g_3_3, g_3_4, g_3_5]; ring
theorem noise_3_3 (x : PredIn K) : imuCov x 3 3 = (-x.q2 / 2) * x.daxVar * (-x.q2 / 2) + (x.q1 / 2) * x.dayVar * (x.q1 / 2) + (x.q0 / 2) * x.dazVar * (x.q0 / 2) := by
  rw [imuCov_eq]; simp only [g_3_0, g_3_1, g_3_2, g_3_3, g_3_4, g_3_5]; ring
theorem noise_4_4 (P : Mat K) (x : PredIn K) : imuCov x 4 4 = (PS44 P x) * x.dvxVar * (PS44 P x) + (-2 * PS54 P x) * x.dvyVar * (-2 * PS54 P x) + (2 * PS46 P x) * x.dvzVar * (2 * PS46 P x) := by
  rw [imuCov_eq]; simp only [g_4_0 P, g_4_1 P, g_4_2 P, g_4_3 P, g_4_4 P, g_4_5 P]; ring
theorem noise_4_5 (P : Mat K) (x : PredIn K) : imuCov x 4 5 = (PS44 P x) * x.dvxVar * (2 * PS66 P x) + (-2 * PS54 P x) * x.dvyVar * (PS65 P x) + (2 * PS46 P x) * x.dvzVar * (-2 * PS68 P x) := by
  rw [imuCov_eq]; simp only [g_4_0 P, g_4_1 P, g_4_2 P, g_4_3 P, g_4_4 P, g_4_5 P, g_5_0 P, g_5_1 P, g_5_2 P, g_5_3 P, g_5_4 P, g_5_5 P]; ring
theorem noise_4_6 (P : Mat K) (x : PredIn K) : imuCov x 4 6 = (PS44 P x) * x.dvxVar * (-2 * PS73 P x) + (-2 * PS54 P x) * x.dvyVar * (2 * PS71 P x) + (2 * PS46 P x) * x.dvzVar * (PS70 P x) := by
  rw [imuCov_eq]; simp only [g_4_0 P, g_4_1 P, g_4_2 P, g_4_3 P, g_4_4 P, g_4_5 P, g_6_0 P, g_6_1 P, g_6_2 P, g_6_3 P, g_6_4 P, g_6_5 P]; ring
theorem noise_5_5 (P : Mat K) (x : PredIn K) : imuCov x 5 5 = (2 * PS66 P x) * x.dvxVar * (2 * PS66 P x) + (PS65 P x) * x.dvyVar * (PS65 P x) + (-2 * PS68 P x) * x.dvzVar * (-2 * PS68 P x) := by
  rw [imuCov_eq]; simp only [g_5_0 P, g_5_1 P, g_5_2 P, g_5_3 P, g_5_4 P, g_5_5 P]; ring
theorem noise_5_6 (P : Mat K) (x : PredIn K) : imuCov x 5 6 = (2 * PS66 P x) * x.dvxVar * (-2 * PS73 P x) + (PS65 P x) * x.dvyVar * (2 * PS71 P x) + (-2 * PS68 P x) * x.dvzVar * (PS70 P x) := by
  rw [imuCov_eq]; simp only [g_5_0 P, g_5_1 P, g_5_2 P, g_5_3 P, g_5_4 P, g_5_5 P, g_6_0 P, g_6_1 P, g_6_2 P, g_6_3 P, g_6_4 P, g_6_5 P]; ring
theorem noise_6_6 (P : Mat K) (x : PredIn K) : imuCov x 6 6 = (-2 * PS73 P x) * x.dvxVar * (-2 * PS73 P x) + (2 * PS71 P x) * x.dvyVar * (2 * PS71 P x) + (PS70 P x) * x.dvzVar * (PS70 P x) := by
  rw [imuCov_eq]; simp only [g_6_0 P, g_6_1 P, g_6_2 P, g_6_3 P, g_6_4 P, g_6_5 P]; ring

end
end Ecl.Cov
