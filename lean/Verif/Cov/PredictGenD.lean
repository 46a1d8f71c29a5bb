import Verif.Cov.PredictSpec

/-!
# Entry by entry: the transcribed equations equal `F P Fᵀ + G Q Gᵀ` (generated by tools/gen_cov.py)
-/

set_option linter.unusedSimpArgs false
set_option linter.unusedSectionVars false
set_option linter.unusedVariables false

namespace Ecl.Cov

variable {K : Type*} [Field K] [CharZero K]

theorem nx_0_16_eq (P : Mat K) (x : PredIn K) (hs : ∀ i j, P i j = P j i) :
    nx_0_16 P x = rowF x 0 (fun k => rowF x 16 (fun l => P k l)) + imuCov x 0 16 := by
  simp only [nx_0_16, rowF_0 P, rowF_16, imuCov_off x 0 16 (by decide)]
  ring

theorem nx_1_16_eq (P : Mat K) (x : PredIn K) (hs : ∀ i j, P i j = P j i) :
    nx_1_16 P x = rowF x 1 (fun k => rowF x 16 (fun l => P k l)) + imuCov x 1 16 := by
  simp only [nx_1_16, rowF_1 P, rowF_16, imuCov_off x 1 16 (by decide)]
  ring

theorem nx_2_16_eq (P : Mat K) (x : PredIn K) (hs : ∀ i j, P i j = P j i) :
    nx_2_16 P x = rowF x 2 (fun k => rowF x 16 (fun l => P k l)) + imuCov x 2 16 := by
  simp only [nx_2_16, rowF_2 P, rowF_16, imuCov_off x 2 16 (by decide)]
  ring

theorem nx_3_16_eq (P : Mat K) (x : PredIn K) (hs : ∀ i j, P i j = P j i) :
    nx_3_16 P x = rowF x 3 (fun k => rowF x 16 (fun l => P k l)) + imuCov x 3 16 := by
  simp only [nx_3_16, rowF_3 P, rowF_16, imuCov_off x 3 16 (by decide)]
  ring

theorem nx_4_16_eq (P : Mat K) (x : PredIn K) (hs : ∀ i j, P i j = P j i) :
    nx_4_16 P x = rowF x 4 (fun k => rowF x 16 (fun l => P k l)) + imuCov x 4 16 := by
  simp only [nx_4_16, PS60, PS62, PS72, PS74, PS139, PS140, rowF_4 P, rowF_16, imuCov_off x 4 16 (by decide)]
  ring

theorem nx_5_16_eq (P : Mat K) (x : PredIn K) (hs : ∀ i j, P i j = P j i) :
    nx_5_16 P x = rowF x 5 (fun k => rowF x 16 (fun l => P k l)) + imuCov x 5 16 := by
  simp only [nx_5_16, PS60, PS62, PS72, PS74, PS160, PS162, rowF_5 P, rowF_16, imuCov_off x 5 16 (by decide)]
  ring

theorem nx_6_16_eq (P : Mat K) (x : PredIn K) (hs : ∀ i j, P i j = P j i) :
    nx_6_16 P x = rowF x 6 (fun k => rowF x 16 (fun l => P k l)) + imuCov x 6 16 := by
  simp only [nx_6_16, PS60, PS62, PS72, PS74, PS165, PS166, rowF_6 P, rowF_16, imuCov_off x 6 16 (by decide)]
  ring

theorem nx_7_16_eq (P : Mat K) (x : PredIn K) (hs : ∀ i j, P i j = P j i) :
    nx_7_16 P x = rowF x 7 (fun k => rowF x 16 (fun l => P k l)) + imuCov x 7 16 := by
  simp only [nx_7_16, rowF_7, rowF_16, imuCov_off x 7 16 (by decide)]
  ring

theorem nx_8_16_eq (P : Mat K) (x : PredIn K) (hs : ∀ i j, P i j = P j i) :
    nx_8_16 P x = rowF x 8 (fun k => rowF x 16 (fun l => P k l)) + imuCov x 8 16 := by
  simp only [nx_8_16, rowF_8, rowF_16, imuCov_off x 8 16 (by decide)]
  ring

theorem nx_9_16_eq (P : Mat K) (x : PredIn K) (hs : ∀ i j, P i j = P j i) :
    nx_9_16 P x = rowF x 9 (fun k => rowF x 16 (fun l => P k l)) + imuCov x 9 16 := by
  simp only [nx_9_16, rowF_9, rowF_16, imuCov_off x 9 16 (by decide)]
  ring

theorem nx_10_16_eq (P : Mat K) (x : PredIn K) (hs : ∀ i j, P i j = P j i) :
    nx_10_16 P x = rowF x 10 (fun k => rowF x 16 (fun l => P k l)) + imuCov x 10 16 := by
  simp only [nx_10_16, rowF_10, rowF_16, imuCov_off x 10 16 (by decide)]
  ring

theorem nx_11_16_eq (P : Mat K) (x : PredIn K) (hs : ∀ i j, P i j = P j i) :
    nx_11_16 P x = rowF x 11 (fun k => rowF x 16 (fun l => P k l)) + imuCov x 11 16 := by
  simp only [nx_11_16, rowF_11, rowF_16, imuCov_off x 11 16 (by decide)]
  ring

theorem nx_12_16_eq (P : Mat K) (x : PredIn K) (hs : ∀ i j, P i j = P j i) :
    nx_12_16 P x = rowF x 12 (fun k => rowF x 16 (fun l => P k l)) + imuCov x 12 16 := by
  simp only [nx_12_16, rowF_12, rowF_16, imuCov_off x 12 16 (by decide)]
  ring

theorem nx_13_16_eq (P : Mat K) (x : PredIn K) (hs : ∀ i j, P i j = P j i) :
    nx_13_16 P x = rowF x 13 (fun k => rowF x 16 (fun l => P k l)) + imuCov x 13 16 := by
  simp only [nx_13_16, rowF_13, rowF_16, imuCov_off x 13 16 (by decide)]
  ring

theorem nx_14_16_eq (P : Mat K) (x : PredIn K) (hs : ∀ i j, P i j = P j i) :
    nx_14_16 P x = rowF x 14 (fun k => rowF x 16 (fun l => P k l)) + imuCov x 14 16 := by
  simp only [nx_14_16, rowF_14, rowF_16, imuCov_off x 14 16 (by decide)]
  ring

theorem nx_15_16_eq (P : Mat K) (x : PredIn K) (hs : ∀ i j, P i j = P j i) :
    nx_15_16 P x = rowF x 15 (fun k => rowF x 16 (fun l => P k l)) + imuCov x 15 16 := by
  simp only [nx_15_16, rowF_15, rowF_16, imuCov_off x 15 16 (by decide)]
  ring

theorem nx_16_16_eq (P : Mat K) (x : PredIn K) (hs : ∀ i j, P i j = P j i) :
    nx_16_16 P x = rowF x 16 (fun k => rowF x 16 (fun l => P k l)) + imuCov x 16 16 := by
  simp only [nx_16_16, rowF_16, rowF_16, imuCov_off x 16 16 (by decide)]
  ring

theorem nxCol16_eq (P : Mat K) (x : PredIn K) (hs : ∀ i j, P i j = P j i) (i : Fin N) (h : i ≤ 16) :
    nxCol16 P x i.val = rowF x i (fun k => rowF x 16 (fun l => P k l)) + imuCov x i 16 := by
  revert i h
  intro ⟨i, hi⟩ h
  have h' : i ≤ 16 := h
  match i, hi, h' with
  | 0, _, _ => exact nx_0_16_eq P x hs
  | 1, _, _ => exact nx_1_16_eq P x hs
  | 2, _, _ => exact nx_2_16_eq P x hs
  | 3, _, _ => exact nx_3_16_eq P x hs
  | 4, _, _ => exact nx_4_16_eq P x hs
  | 5, _, _ => exact nx_5_16_eq P x hs
  | 6, _, _ => exact nx_6_16_eq P x hs
  | 7, _, _ => exact nx_7_16_eq P x hs
  | 8, _, _ => exact nx_8_16_eq P x hs
  | 9, _, _ => exact nx_9_16_eq P x hs
  | 10, _, _ => exact nx_10_16_eq P x hs
  | 11, _, _ => exact nx_11_16_eq P x hs
  | 12, _, _ => exact nx_12_16_eq P x hs
  | 13, _, _ => exact nx_13_16_eq P x hs
  | 14, _, _ => exact nx_14_16_eq P x hs
  | 15, _, _ => exact nx_15_16_eq P x hs
  | 16, _, _ => exact nx_16_16_eq P x hs
  | k + 17, _, h'' => exact absurd h'' (by omega)

theorem nx_0_17_eq (P : Mat K) (x : PredIn K) (hs : ∀ i j, P i j = P j i) :
    nx_0_17 P x = rowF x 0 (fun k => rowF x 17 (fun l => P k l)) + imuCov x 0 17 := by
  simp only [nx_0_17, rowF_0 P, rowF_17, imuCov_off x 0 17 (by decide)]
  ring

theorem nx_1_17_eq (P : Mat K) (x : PredIn K) (hs : ∀ i j, P i j = P j i) :
    nx_1_17 P x = rowF x 1 (fun k => rowF x 17 (fun l => P k l)) + imuCov x 1 17 := by
  simp only [nx_1_17, rowF_1 P, rowF_17, imuCov_off x 1 17 (by decide)]
  ring

theorem nx_2_17_eq (P : Mat K) (x : PredIn K) (hs : ∀ i j, P i j = P j i) :
    nx_2_17 P x = rowF x 2 (fun k => rowF x 17 (fun l => P k l)) + imuCov x 2 17 := by
  simp only [nx_2_17, rowF_2 P, rowF_17, imuCov_off x 2 17 (by decide)]
  ring

theorem nx_3_17_eq (P : Mat K) (x : PredIn K) (hs : ∀ i j, P i j = P j i) :
    nx_3_17 P x = rowF x 3 (fun k => rowF x 17 (fun l => P k l)) + imuCov x 3 17 := by
  simp only [nx_3_17, rowF_3 P, rowF_17, imuCov_off x 3 17 (by decide)]
  ring

theorem nx_4_17_eq (P : Mat K) (x : PredIn K) (hs : ∀ i j, P i j = P j i) :
    nx_4_17 P x = rowF x 4 (fun k => rowF x 17 (fun l => P k l)) + imuCov x 4 17 := by
  simp only [nx_4_17, PS60, PS62, PS72, PS74, PS139, PS140, rowF_4 P, rowF_17, imuCov_off x 4 17 (by decide)]
  ring

theorem nx_5_17_eq (P : Mat K) (x : PredIn K) (hs : ∀ i j, P i j = P j i) :
    nx_5_17 P x = rowF x 5 (fun k => rowF x 17 (fun l => P k l)) + imuCov x 5 17 := by
  simp only [nx_5_17, PS60, PS62, PS72, PS74, PS160, PS162, rowF_5 P, rowF_17, imuCov_off x 5 17 (by decide)]
  ring

theorem nx_6_17_eq (P : Mat K) (x : PredIn K) (hs : ∀ i j, P i j = P j i) :
    nx_6_17 P x = rowF x 6 (fun k => rowF x 17 (fun l => P k l)) + imuCov x 6 17 := by
  simp only [nx_6_17, PS60, PS62, PS72, PS74, PS165, PS166, rowF_6 P, rowF_17, imuCov_off x 6 17 (by decide)]
  ring

theorem nx_7_17_eq (P : Mat K) (x : PredIn K) (hs : ∀ i j, P i j = P j i) :
    nx_7_17 P x = rowF x 7 (fun k => rowF x 17 (fun l => P k l)) + imuCov x 7 17 := by
  simp only [nx_7_17, rowF_7, rowF_17, imuCov_off x 7 17 (by decide)]
  ring

theorem nx_8_17_eq (P : Mat K) (x : PredIn K) (hs : ∀ i j, P i j = P j i) :
    nx_8_17 P x = rowF x 8 (fun k => rowF x 17 (fun l => P k l)) + imuCov x 8 17 := by
  simp only [nx_8_17, rowF_8, rowF_17, imuCov_off x 8 17 (by decide)]
  ring

theorem nx_9_17_eq (P : Mat K) (x : PredIn K) (hs : ∀ i j, P i j = P j i) :
    nx_9_17 P x = rowF x 9 (fun k => rowF x 17 (fun l => P k l)) + imuCov x 9 17 := by
  simp only [nx_9_17, rowF_9, rowF_17, imuCov_off x 9 17 (by decide)]
  ring

theorem nx_10_17_eq (P : Mat K) (x : PredIn K) (hs : ∀ i j, P i j = P j i) :
    nx_10_17 P x = rowF x 10 (fun k => rowF x 17 (fun l => P k l)) + imuCov x 10 17 := by
  simp only [nx_10_17, rowF_10, rowF_17, imuCov_off x 10 17 (by decide)]
  ring

theorem nx_11_17_eq (P : Mat K) (x : PredIn K) (hs : ∀ i j, P i j = P j i) :
    nx_11_17 P x = rowF x 11 (fun k => rowF x 17 (fun l => P k l)) + imuCov x 11 17 := by
  simp only [nx_11_17, rowF_11, rowF_17, imuCov_off x 11 17 (by decide)]
  ring

theorem nx_12_17_eq (P : Mat K) (x : PredIn K) (hs : ∀ i j, P i j = P j i) :
    nx_12_17 P x = rowF x 12 (fun k => rowF x 17 (fun l => P k l)) + imuCov x 12 17 := by
  simp only [nx_12_17, rowF_12, rowF_17, imuCov_off x 12 17 (by decide)]
  ring

theorem nx_13_17_eq (P : Mat K) (x : PredIn K) (hs : ∀ i j, P i j = P j i) :
    nx_13_17 P x = rowF x 13 (fun k => rowF x 17 (fun l => P k l)) + imuCov x 13 17 := by
  simp only [nx_13_17, rowF_13, rowF_17, imuCov_off x 13 17 (by decide)]
  ring

theorem nx_14_17_eq (P : Mat K) (x : PredIn K) (hs : ∀ i j, P i j = P j i) :
    nx_14_17 P x = rowF x 14 (fun k => rowF x 17 (fun l => P k l)) + imuCov x 14 17 := by
  simp only [nx_14_17, rowF_14, rowF_17, imuCov_off x 14 17 (by decide)]
  ring

theorem nx_15_17_eq (P : Mat K) (x : PredIn K) (hs : ∀ i j, P i j = P j i) :
    nx_15_17 P x = rowF x 15 (fun k => rowF x 17 (fun l => P k l)) + imuCov x 15 17 := by
  simp only [nx_15_17, rowF_15, rowF_17, imuCov_off x 15 17 (by decide)]
  ring

theorem nx_16_17_eq (P : Mat K) (x : PredIn K) (hs : ∀ i j, P i j = P j i) :
    nx_16_17 P x = rowF x 16 (fun k => rowF x 17 (fun l => P k l)) + imuCov x 16 17 := by
  simp only [nx_16_17, rowF_16, rowF_17, imuCov_off x 16 17 (by decide)]
  ring

theorem nx_17_17_eq (P : Mat K) (x : PredIn K) (hs : ∀ i j, P i j = P j i) :
    nx_17_17 P x = rowF x 17 (fun k => rowF x 17 (fun l => P k l)) + imuCov x 17 17 := by
  simp only [nx_17_17, rowF_17, rowF_17, imuCov_off x 17 17 (by decide)]
  ring

theorem nxCol17_eq (P : Mat K) (x : PredIn K) (hs : ∀ i j, P i j = P j i) (i : Fin N) (h : i ≤ 17) :
    nxCol17 P x i.val = rowF x i (fun k => rowF x 17 (fun l => P k l)) + imuCov x i 17 := by
  revert i h
  intro ⟨i, hi⟩ h
  have h' : i ≤ 17 := h
  match i, hi, h' with
  | 0, _, _ => exact nx_0_17_eq P x hs
  | 1, _, _ => exact nx_1_17_eq P x hs
  | 2, _, _ => exact nx_2_17_eq P x hs
  | 3, _, _ => exact nx_3_17_eq P x hs
  | 4, _, _ => exact nx_4_17_eq P x hs
  | 5, _, _ => exact nx_5_17_eq P x hs
  | 6, _, _ => exact nx_6_17_eq P x hs
  | 7, _, _ => exact nx_7_17_eq P x hs
  | 8, _, _ => exact nx_8_17_eq P x hs
  | 9, _, _ => exact nx_9_17_eq P x hs
  | 10, _, _ => exact nx_10_17_eq P x hs
  | 11, _, _ => exact nx_11_17_eq P x hs
  | 12, _, _ => exact nx_12_17_eq P x hs
  | 13, _, _ => exact nx_13_17_eq P x hs
  | 14, _, _ => exact nx_14_17_eq P x hs
  | 15, _, _ => exact nx_15_17_eq P x hs
  | 16, _, _ => exact nx_16_17_eq P x hs
  | 17, _, _ => exact nx_17_17_eq P x hs
  | k + 18, _, h'' => exact absurd h'' (by omega)

theorem nx_0_18_eq (P : Mat K) (x : PredIn K) (hs : ∀ i j, P i j = P j i) :
    nx_0_18 P x = rowF x 0 (fun k => rowF x 18 (fun l => P k l)) + imuCov x 0 18 := by
  simp only [nx_0_18, rowF_0 P, rowF_18, imuCov_off x 0 18 (by decide)]
  ring

theorem nx_1_18_eq (P : Mat K) (x : PredIn K) (hs : ∀ i j, P i j = P j i) :
    nx_1_18 P x = rowF x 1 (fun k => rowF x 18 (fun l => P k l)) + imuCov x 1 18 := by
  simp only [nx_1_18, rowF_1 P, rowF_18, imuCov_off x 1 18 (by decide)]
  ring

theorem nx_2_18_eq (P : Mat K) (x : PredIn K) (hs : ∀ i j, P i j = P j i) :
    nx_2_18 P x = rowF x 2 (fun k => rowF x 18 (fun l => P k l)) + imuCov x 2 18 := by
  simp only [nx_2_18, rowF_2 P, rowF_18, imuCov_off x 2 18 (by decide)]
  ring

theorem nx_3_18_eq (P : Mat K) (x : PredIn K) (hs : ∀ i j, P i j = P j i) :
    nx_3_18 P x = rowF x 3 (fun k => rowF x 18 (fun l => P k l)) + imuCov x 3 18 := by
  simp only [nx_3_18, rowF_3 P, rowF_18, imuCov_off x 3 18 (by decide)]
  ring

theorem nx_4_18_eq (P : Mat K) (x : PredIn K) (hs : ∀ i j, P i j = P j i) :
    nx_4_18 P x = rowF x 4 (fun k => rowF x 18 (fun l => P k l)) + imuCov x 4 18 := by
  simp only [nx_4_18, PS60, PS62, PS72, PS74, PS139, PS140, rowF_4 P, rowF_18, imuCov_off x 4 18 (by decide)]
  ring

theorem nx_5_18_eq (P : Mat K) (x : PredIn K) (hs : ∀ i j, P i j = P j i) :
    nx_5_18 P x = rowF x 5 (fun k => rowF x 18 (fun l => P k l)) + imuCov x 5 18 := by
  simp only [nx_5_18, PS60, PS62, PS72, PS74, PS160, PS162, rowF_5 P, rowF_18, imuCov_off x 5 18 (by decide)]
  ring

theorem nx_6_18_eq (P : Mat K) (x : PredIn K) (hs : ∀ i j, P i j = P j i) :
    nx_6_18 P x = rowF x 6 (fun k => rowF x 18 (fun l => P k l)) + imuCov x 6 18 := by
  simp only [nx_6_18, PS60, PS62, PS72, PS74, PS165, PS166, rowF_6 P, rowF_18, imuCov_off x 6 18 (by decide)]
  ring

theorem nx_7_18_eq (P : Mat K) (x : PredIn K) (hs : ∀ i j, P i j = P j i) :
    nx_7_18 P x = rowF x 7 (fun k => rowF x 18 (fun l => P k l)) + imuCov x 7 18 := by
  simp only [nx_7_18, rowF_7, rowF_18, imuCov_off x 7 18 (by decide)]
  ring

theorem nx_8_18_eq (P : Mat K) (x : PredIn K) (hs : ∀ i j, P i j = P j i) :
    nx_8_18 P x = rowF x 8 (fun k => rowF x 18 (fun l => P k l)) + imuCov x 8 18 := by
  simp only [nx_8_18, rowF_8, rowF_18, imuCov_off x 8 18 (by decide)]
  ring

theorem nx_9_18_eq (P : Mat K) (x : PredIn K) (hs : ∀ i j, P i j = P j i) :
    nx_9_18 P x = rowF x 9 (fun k => rowF x 18 (fun l => P k l)) + imuCov x 9 18 := by
  simp only [nx_9_18, rowF_9, rowF_18, imuCov_off x 9 18 (by decide)]
  ring

theorem nx_10_18_eq (P : Mat K) (x : PredIn K) (hs : ∀ i j, P i j = P j i) :
    nx_10_18 P x = rowF x 10 (fun k => rowF x 18 (fun l => P k l)) + imuCov x 10 18 := by
  simp only [nx_10_18, rowF_10, rowF_18, imuCov_off x 10 18 (by decide)]
  ring

theorem nx_11_18_eq (P : Mat K) (x : PredIn K) (hs : ∀ i j, P i j = P j i) :
    nx_11_18 P x = rowF x 11 (fun k => rowF x 18 (fun l => P k l)) + imuCov x 11 18 := by
  simp only [nx_11_18, rowF_11, rowF_18, imuCov_off x 11 18 (by decide)]
  ring

theorem nx_12_18_eq (P : Mat K) (x : PredIn K) (hs : ∀ i j, P i j = P j i) :
    nx_12_18 P x = rowF x 12 (fun k => rowF x 18 (fun l => P k l)) + imuCov x 12 18 := by
  simp only [nx_12_18, rowF_12, rowF_18, imuCov_off x 12 18 (by decide)]
  ring

theorem nx_13_18_eq (P : Mat K) (x : PredIn K) (hs : ∀ i j, P i j = P j i) :
    nx_13_18 P x = rowF x 13 (fun k => rowF x 18 (fun l => P k l)) + imuCov x 13 18 := by
  simp only [nx_13_18, rowF_13, rowF_18, imuCov_off x 13 18 (by decide)]
  ring

theorem nx_14_18_eq (P : Mat K) (x : PredIn K) (hs : ∀ i j, P i j = P j i) :
    nx_14_18 P x = rowF x 14 (fun k => rowF x 18 (fun l => P k l)) + imuCov x 14 18 := by
  simp only [nx_14_18, rowF_14, rowF_18, imuCov_off x 14 18 (by decide)]
  ring

theorem nx_15_18_eq (P : Mat K) (x : PredIn K) (hs : ∀ i j, P i j = P j i) :
    nx_15_18 P x = rowF x 15 (fun k => rowF x 18 (fun l => P k l)) + imuCov x 15 18 := by
  simp only [nx_15_18, rowF_15, rowF_18, imuCov_off x 15 18 (by decide)]
  ring

theorem nx_16_18_eq (P : Mat K) (x : PredIn K) (hs : ∀ i j, P i j = P j i) :
    nx_16_18 P x = rowF x 16 (fun k => rowF x 18 (fun l => P k l)) + imuCov x 16 18 := by
  simp only [nx_16_18, rowF_16, rowF_18, imuCov_off x 16 18 (by decide)]
  ring

theorem nx_17_18_eq (P : Mat K) (x : PredIn K) (hs : ∀ i j, P i j = P j i) :
    nx_17_18 P x = rowF x 17 (fun k => rowF x 18 (fun l => P k l)) + imuCov x 17 18 := by
  simp only [nx_17_18, rowF_17, rowF_18, imuCov_off x 17 18 (by decide)]
  ring

theorem nx_18_18_eq (P : Mat K) (x : PredIn K) (hs : ∀ i j, P i j = P j i) :
    nx_18_18 P x = rowF x 18 (fun k => rowF x 18 (fun l => P k l)) + imuCov x 18 18 := by
  simp only [nx_18_18, rowF_18, rowF_18, imuCov_off x 18 18 (by decide)]
  ring

theorem nxCol18_eq (P : Mat K) (x : PredIn K) (hs : ∀ i j, P i j = P j i) (i : Fin N) (h : i ≤ 18) :
    nxCol18 P x i.val = rowF x i (fun k => rowF x 18 (fun l => P k l)) + imuCov x i 18 := by
  revert i h
  intro ⟨i, hi⟩ h
  have h' : i ≤ 18 := h
  match i, hi, h' with
  | 0, _, _ => exact nx_0_18_eq P x hs
  | 1, _, _ => exact nx_1_18_eq P x hs
  | 2, _, _ => exact nx_2_18_eq P x hs
  | 3, _, _ => exact nx_3_18_eq P x hs
  | 4, _, _ => exact nx_4_18_eq P x hs
  | 5, _, _ => exact nx_5_18_eq P x hs
  | 6, _, _ => exact nx_6_18_eq P x hs
  | 7, _, _ => exact nx_7_18_eq P x hs
  | 8, _, _ => exact nx_8_18_eq P x hs
  | 9, _, _ => exact nx_9_18_eq P x hs
  | 10, _, _ => exact nx_10_18_eq P x hs
  | 11, _, _ => exact nx_11_18_eq P x hs
  | 12, _, _ => exact nx_12_18_eq P x hs
  | 13, _, _ => exact nx_13_18_eq P x hs
  | 14, _, _ => exact nx_14_18_eq P x hs
  | 15, _, _ => exact nx_15_18_eq P x hs
  | 16, _, _ => exact nx_16_18_eq P x hs
  | 17, _, _ => exact nx_17_18_eq P x hs
  | 18, _, _ => exact nx_18_18_eq P x hs
  | k + 19, _, h'' => exact absurd h'' (by omega)

theorem nx_0_19_eq (P : Mat K) (x : PredIn K) (hs : ∀ i j, P i j = P j i) :
    nx_0_19 P x = rowF x 0 (fun k => rowF x 19 (fun l => P k l)) + imuCov x 0 19 := by
  simp only [nx_0_19, rowF_0 P, rowF_19, imuCov_off x 0 19 (by decide)]
  ring

theorem nx_1_19_eq (P : Mat K) (x : PredIn K) (hs : ∀ i j, P i j = P j i) :
    nx_1_19 P x = rowF x 1 (fun k => rowF x 19 (fun l => P k l)) + imuCov x 1 19 := by
  simp only [nx_1_19, rowF_1 P, rowF_19, imuCov_off x 1 19 (by decide)]
  ring

theorem nx_2_19_eq (P : Mat K) (x : PredIn K) (hs : ∀ i j, P i j = P j i) :
    nx_2_19 P x = rowF x 2 (fun k => rowF x 19 (fun l => P k l)) + imuCov x 2 19 := by
  simp only [nx_2_19, rowF_2 P, rowF_19, imuCov_off x 2 19 (by decide)]
  ring

theorem nx_3_19_eq (P : Mat K) (x : PredIn K) (hs : ∀ i j, P i j = P j i) :
    nx_3_19 P x = rowF x 3 (fun k => rowF x 19 (fun l => P k l)) + imuCov x 3 19 := by
  simp only [nx_3_19, rowF_3 P, rowF_19, imuCov_off x 3 19 (by decide)]
  ring

theorem nx_4_19_eq (P : Mat K) (x : PredIn K) (hs : ∀ i j, P i j = P j i) :
    nx_4_19 P x = rowF x 4 (fun k => rowF x 19 (fun l => P k l)) + imuCov x 4 19 := by
  simp only [nx_4_19, PS60, PS62, PS72, PS74, PS139, PS140, rowF_4 P, rowF_19, imuCov_off x 4 19 (by decide)]
  ring

theorem nx_5_19_eq (P : Mat K) (x : PredIn K) (hs : ∀ i j, P i j = P j i) :
    nx_5_19 P x = rowF x 5 (fun k => rowF x 19 (fun l => P k l)) + imuCov x 5 19 := by
  simp only [nx_5_19, PS60, PS62, PS72, PS74, PS160, PS162, rowF_5 P, rowF_19, imuCov_off x 5 19 (by decide)]
  ring

theorem nx_6_19_eq (P : Mat K) (x : PredIn K) (hs : ∀ i j, P i j = P j i) :
    nx_6_19 P x = rowF x 6 (fun k => rowF x 19 (fun l => P k l)) + imuCov x 6 19 := by
  simp only [nx_6_19, PS60, PS62, PS72, PS74, PS165, PS166, rowF_6 P, rowF_19, imuCov_off x 6 19 (by decide)]
  ring

theorem nx_7_19_eq (P : Mat K) (x : PredIn K) (hs : ∀ i j, P i j = P j i) :
    nx_7_19 P x = rowF x 7 (fun k => rowF x 19 (fun l => P k l)) + imuCov x 7 19 := by
  simp only [nx_7_19, rowF_7, rowF_19, imuCov_off x 7 19 (by decide)]
  ring

theorem nx_8_19_eq (P : Mat K) (x : PredIn K) (hs : ∀ i j, P i j = P j i) :
    nx_8_19 P x = rowF x 8 (fun k => rowF x 19 (fun l => P k l)) + imuCov x 8 19 := by
  simp only [nx_8_19, rowF_8, rowF_19, imuCov_off x 8 19 (by decide)]
  ring

theorem nx_9_19_eq (P : Mat K) (x : PredIn K) (hs : ∀ i j, P i j = P j i) :
    nx_9_19 P x = rowF x 9 (fun k => rowF x 19 (fun l => P k l)) + imuCov x 9 19 := by
  simp only [nx_9_19, rowF_9, rowF_19, imuCov_off x 9 19 (by decide)]
  ring

theorem nx_10_19_eq (P : Mat K) (x : PredIn K) (hs : ∀ i j, P i j = P j i) :
    nx_10_19 P x = rowF x 10 (fun k => rowF x 19 (fun l => P k l)) + imuCov x 10 19 := by
  simp only [nx_10_19, rowF_10, rowF_19, imuCov_off x 10 19 (by decide)]
  ring

theorem nx_11_19_eq (P : Mat K) (x : PredIn K) (hs : ∀ i j, P i j = P j i) :
    nx_11_19 P x = rowF x 11 (fun k => rowF x 19 (fun l => P k l)) + imuCov x 11 19 := by
  simp only [nx_11_19, rowF_11, rowF_19, imuCov_off x 11 19 (by decide)]
  ring

theorem nx_12_19_eq (P : Mat K) (x : PredIn K) (hs : ∀ i j, P i j = P j i) :
    nx_12_19 P x = rowF x 12 (fun k => rowF x 19 (fun l => P k l)) + imuCov x 12 19 := by
  simp only [nx_12_19, rowF_12, rowF_19, imuCov_off x 12 19 (by decide)]
  ring

theorem nx_13_19_eq (P : Mat K) (x : PredIn K) (hs : ∀ i j, P i j = P j i) :
    nx_13_19 P x = rowF x 13 (fun k => rowF x 19 (fun l => P k l)) + imuCov x 13 19 := by
  simp only [nx_13_19, rowF_13, rowF_19, imuCov_off x 13 19 (by decide)]
  ring

theorem nx_14_19_eq (P : Mat K) (x : PredIn K) (hs : ∀ i j, P i j = P j i) :
    nx_14_19 P x = rowF x 14 (fun k => rowF x 19 (fun l => P k l)) + imuCov x 14 19 := by
  simp only [nx_14_19, rowF_14, rowF_19, imuCov_off x 14 19 (by decide)]
  ring

theorem nx_15_19_eq (P : Mat K) (x : PredIn K) (hs : ∀ i j, P i j = P j i) :
    nx_15_19 P x = rowF x 15 (fun k => rowF x 19 (fun l => P k l)) + imuCov x 15 19 := by
  simp only [nx_15_19, rowF_15, rowF_19, imuCov_off x 15 19 (by decide)]
  ring

theorem nx_16_19_eq (P : Mat K) (x : PredIn K) (hs : ∀ i j, P i j = P j i) :
    nx_16_19 P x = rowF x 16 (fun k => rowF x 19 (fun l => P k l)) + imuCov x 16 19 := by
  simp only [nx_16_19, rowF_16, rowF_19, imuCov_off x 16 19 (by decide)]
  ring

theorem nx_17_19_eq (P : Mat K) (x : PredIn K) (hs : ∀ i j, P i j = P j i) :
    nx_17_19 P x = rowF x 17 (fun k => rowF x 19 (fun l => P k l)) + imuCov x 17 19 := by
  simp only [nx_17_19, rowF_17, rowF_19, imuCov_off x 17 19 (by decide)]
  ring

theorem nx_18_19_eq (P : Mat K) (x : PredIn K) (hs : ∀ i j, P i j = P j i) :
    nx_18_19 P x = rowF x 18 (fun k => rowF x 19 (fun l => P k l)) + imuCov x 18 19 := by
  simp only [nx_18_19, rowF_18, rowF_19, imuCov_off x 18 19 (by decide)]
  ring

theorem nx_19_19_eq (P : Mat K) (x : PredIn K) (hs : ∀ i j, P i j = P j i) :
    nx_19_19 P x = rowF x 19 (fun k => rowF x 19 (fun l => P k l)) + imuCov x 19 19 := by
  simp only [nx_19_19, rowF_19, rowF_19, imuCov_off x 19 19 (by decide)]
  ring

theorem nxCol19_eq (P : Mat K) (x : PredIn K) (hs : ∀ i j, P i j = P j i) (i : Fin N) (h : i ≤ 19) :
    nxCol19 P x i.val = rowF x i (fun k => rowF x 19 (fun l => P k l)) + imuCov x i 19 := by
  revert i h
  intro ⟨i, hi⟩ h
  have h' : i ≤ 19 := h
  match i, hi, h' with
  | 0, _, _ => exact nx_0_19_eq P x hs
  | 1, _, _ => exact nx_1_19_eq P x hs
  | 2, _, _ => exact nx_2_19_eq P x hs
  | 3, _, _ => exact nx_3_19_eq P x hs
  | 4, _, _ => exact nx_4_19_eq P x hs
  | 5, _, _ => exact nx_5_19_eq P x hs
  | 6, _, _ => exact nx_6_19_eq P x hs
  | 7, _, _ => exact nx_7_19_eq P x hs
  | 8, _, _ => exact nx_8_19_eq P x hs
  | 9, _, _ => exact nx_9_19_eq P x hs
  | 10, _, _ => exact nx_10_19_eq P x hs
  | 11, _, _ => exact nx_11_19_eq P x hs
  | 12, _, _ => exact nx_12_19_eq P x hs
  | 13, _, _ => exact nx_13_19_eq P x hs
  | 14, _, _ => exact nx_14_19_eq P x hs
  | 15, _, _ => exact nx_15_19_eq P x hs
  | 16, _, _ => exact nx_16_19_eq P x hs
  | 17, _, _ => exact nx_17_19_eq P x hs
  | 18, _, _ => exact nx_18_19_eq P x hs
  | 19, _, _ => exact nx_19_19_eq P x hs
  | k + 20, _, h'' => exact absurd h'' (by omega)

theorem nx_0_20_eq (P : Mat K) (x : PredIn K) (hs : ∀ i j, P i j = P j i) :
    nx_0_20 P x = rowF x 0 (fun k => rowF x 20 (fun l => P k l)) + imuCov x 0 20 := by
  simp only [nx_0_20, rowF_0 P, rowF_20, imuCov_off x 0 20 (by decide)]
  ring

theorem nx_1_20_eq (P : Mat K) (x : PredIn K) (hs : ∀ i j, P i j = P j i) :
    nx_1_20 P x = rowF x 1 (fun k => rowF x 20 (fun l => P k l)) + imuCov x 1 20 := by
  simp only [nx_1_20, rowF_1 P, rowF_20, imuCov_off x 1 20 (by decide)]
  ring

theorem nx_2_20_eq (P : Mat K) (x : PredIn K) (hs : ∀ i j, P i j = P j i) :
    nx_2_20 P x = rowF x 2 (fun k => rowF x 20 (fun l => P k l)) + imuCov x 2 20 := by
  simp only [nx_2_20, rowF_2 P, rowF_20, imuCov_off x 2 20 (by decide)]
  ring

theorem nx_3_20_eq (P : Mat K) (x : PredIn K) (hs : ∀ i j, P i j = P j i) :
    nx_3_20 P x = rowF x 3 (fun k => rowF x 20 (fun l => P k l)) + imuCov x 3 20 := by
  simp only [nx_3_20, rowF_3 P, rowF_20, imuCov_off x 3 20 (by decide)]
  ring

theorem nx_4_20_eq (P : Mat K) (x : PredIn K) (hs : ∀ i j, P i j = P j i) :
    nx_4_20 P x = rowF x 4 (fun k => rowF x 20 (fun l => P k l)) + imuCov x 4 20 := by
  simp only [nx_4_20, PS60, PS62, PS72, PS74, PS139, PS140, rowF_4 P, rowF_20, imuCov_off x 4 20 (by decide)]
  ring

theorem nx_5_20_eq (P : Mat K) (x : PredIn K) (hs : ∀ i j, P i j = P j i) :
    nx_5_20 P x = rowF x 5 (fun k => rowF x 20 (fun l => P k l)) + imuCov x 5 20 := by
  simp only [nx_5_20, PS60, PS62, PS72, PS74, PS160, PS162, rowF_5 P, rowF_20, imuCov_off x 5 20 (by decide)]
  ring

theorem nx_6_20_eq (P : Mat K) (x : PredIn K) (hs : ∀ i j, P i j = P j i) :
    nx_6_20 P x = rowF x 6 (fun k => rowF x 20 (fun l => P k l)) + imuCov x 6 20 := by
  simp only [nx_6_20, PS60, PS62, PS72, PS74, PS165, PS166, rowF_6 P, rowF_20, imuCov_off x 6 20 (by decide)]
  ring

theorem nx_7_20_eq (P : Mat K) (x : PredIn K) (hs : ∀ i j, P i j = P j i) :
    nx_7_20 P x = rowF x 7 (fun k => rowF x 20 (fun l => P k l)) + imuCov x 7 20 := by
  simp only [nx_7_20, rowF_7, rowF_20, imuCov_off x 7 20 (by decide)]
  ring

theorem nx_8_20_eq (P : Mat K) (x : PredIn K) (hs : ∀ i j, P i j = P j i) :
    nx_8_20 P x = rowF x 8 (fun k => rowF x 20 (fun l => P k l)) + imuCov x 8 20 := by
  simp only [nx_8_20, rowF_8, rowF_20, imuCov_off x 8 20 (by decide)]
  ring

theorem nx_9_20_eq (P : Mat K) (x : PredIn K) (hs : ∀ i j, P i j = P j i) :
    nx_9_20 P x = rowF x 9 (fun k => rowF x 20 (fun l => P k l)) + imuCov x 9 20 := by
  simp only [nx_9_20, rowF_9, rowF_20, imuCov_off x 9 20 (by decide)]
  ring

theorem nx_10_20_eq (P : Mat K) (x : PredIn K) (hs : ∀ i j, P i j = P j i) :
    nx_10_20 P x = rowF x 10 (fun k => rowF x 20 (fun l => P k l)) + imuCov x 10 20 := by
  simp only [nx_10_20, rowF_10, rowF_20, imuCov_off x 10 20 (by decide)]
  ring

theorem nx_11_20_eq (P : Mat K) (x : PredIn K) (hs : ∀ i j, P i j = P j i) :
    nx_11_20 P x = rowF x 11 (fun k => rowF x 20 (fun l => P k l)) + imuCov x 11 20 := by
  simp only [nx_11_20, rowF_11, rowF_20, imuCov_off x 11 20 (by decide)]
  ring

theorem nx_12_20_eq (P : Mat K) (x : PredIn K) (hs : ∀ i j, P i j = P j i) :
    nx_12_20 P x = rowF x 12 (fun k => rowF x 20 (fun l => P k l)) + imuCov x 12 20 := by
  simp only [nx_12_20, rowF_12, rowF_20, imuCov_off x 12 20 (by decide)]
  ring

theorem nx_13_20_eq (P : Mat K) (x : PredIn K) (hs : ∀ i j, P i j = P j i) :
    nx_13_20 P x = rowF x 13 (fun k => rowF x 20 (fun l => P k l)) + imuCov x 13 20 := by
  simp only [nx_13_20, rowF_13, rowF_20, imuCov_off x 13 20 (by decide)]
  ring

theorem nx_14_20_eq (P : Mat K) (x : PredIn K) (hs : ∀ i j, P i j = P j i) :
    nx_14_20 P x = rowF x 14 (fun k => rowF x 20 (fun l => P k l)) + imuCov x 14 20 := by
  simp only [nx_14_20, rowF_14, rowF_20, imuCov_off x 14 20 (by decide)]
  ring

theorem nx_15_20_eq (P : Mat K) (x : PredIn K) (hs : ∀ i j, P i j = P j i) :
    nx_15_20 P x = rowF x 15 (fun k => rowF x 20 (fun l => P k l)) + imuCov x 15 20 := by
  simp only [nx_15_20, rowF_15, rowF_20, imuCov_off x 15 20 (by decide)]
  ring

theorem nx_16_20_eq (P : Mat K) (x : PredIn K) (hs : ∀ i j, P i j = P j i) :
    nx_16_20 P x = rowF x 16 (fun k => rowF x 20 (fun l => P k l)) + imuCov x 16 20 := by
  simp only [nx_16_20, rowF_16, rowF_20, imuCov_off x 16 20 (by decide)]
  ring

theorem nx_17_20_eq (P : Mat K) (x : PredIn K) (hs : ∀ i j, P i j = P j i) :
    nx_17_20 P x = rowF x 17 (fun k => rowF x 20 (fun l => P k l)) + imuCov x 17 20 := by
  simp only [nx_17_20, rowF_17, rowF_20, imuCov_off x 17 20 (by decide)]
  ring

theorem nx_18_20_eq (P : Mat K) (x : PredIn K) (hs : ∀ i j, P i j = P j i) :
    nx_18_20 P x = rowF x 18 (fun k => rowF x 20 (fun l => P k l)) + imuCov x 18 20 := by
  simp only [nx_18_20, rowF_18, rowF_20, imuCov_off x 18 20 (by decide)]
  ring

theorem nx_19_20_eq (P : Mat K) (x : PredIn K) (hs : ∀ i j, P i j = P j i) :
    nx_19_20 P x = rowF x 19 (fun k => rowF x 20 (fun l => P k l)) + imuCov x 19 20 := by
  simp only [nx_19_20, rowF_19, rowF_20, imuCov_off x 19 20 (by decide)]
  ring

theorem nx_20_20_eq (P : Mat K) (x : PredIn K) (hs : ∀ i j, P i j = P j i) :
    nx_20_20 P x = rowF x 20 (fun k => rowF x 20 (fun l => P k l)) + imuCov x 20 20 := by
  simp only [nx_20_20, rowF_20, rowF_20, imuCov_off x 20 20 (by decide)]
  ring

theorem nxCol20_eq (P : Mat K) (x : PredIn K) (hs : ∀ i j, P i j = P j i) (i : Fin N) (h : i ≤ 20) :
    nxCol20 P x i.val = rowF x i (fun k => rowF x 20 (fun l => P k l)) + imuCov x i 20 := by
  revert i h
  intro ⟨i, hi⟩ h
  have h' : i ≤ 20 := h
  match i, hi, h' with
  | 0, _, _ => exact nx_0_20_eq P x hs
  | 1, _, _ => exact nx_1_20_eq P x hs
  | 2, _, _ => exact nx_2_20_eq P x hs
  | 3, _, _ => exact nx_3_20_eq P x hs
  | 4, _, _ => exact nx_4_20_eq P x hs
  | 5, _, _ => exact nx_5_20_eq P x hs
  | 6, _, _ => exact nx_6_20_eq P x hs
  | 7, _, _ => exact nx_7_20_eq P x hs
  | 8, _, _ => exact nx_8_20_eq P x hs
  | 9, _, _ => exact nx_9_20_eq P x hs
  | 10, _, _ => exact nx_10_20_eq P x hs
  | 11, _, _ => exact nx_11_20_eq P x hs
  | 12, _, _ => exact nx_12_20_eq P x hs
  | 13, _, _ => exact nx_13_20_eq P x hs
  | 14, _, _ => exact nx_14_20_eq P x hs
  | 15, _, _ => exact nx_15_20_eq P x hs
  | 16, _, _ => exact nx_16_20_eq P x hs
  | 17, _, _ => exact nx_17_20_eq P x hs
  | 18, _, _ => exact nx_18_20_eq P x hs
  | 19, _, _ => exact nx_19_20_eq P x hs
  | 20, _, _ => exact nx_20_20_eq P x hs
  | k + 21, _, h'' => exact absurd h'' (by omega)

theorem nx_0_21_eq (P : Mat K) (x : PredIn K) (hs : ∀ i j, P i j = P j i) :
    nx_0_21 P x = rowF x 0 (fun k => rowF x 21 (fun l => P k l)) + imuCov x 0 21 := by
  simp only [nx_0_21, rowF_0 P, rowF_21, imuCov_off x 0 21 (by decide)]
  ring

theorem nx_1_21_eq (P : Mat K) (x : PredIn K) (hs : ∀ i j, P i j = P j i) :
    nx_1_21 P x = rowF x 1 (fun k => rowF x 21 (fun l => P k l)) + imuCov x 1 21 := by
  simp only [nx_1_21, rowF_1 P, rowF_21, imuCov_off x 1 21 (by decide)]
  ring

theorem nx_2_21_eq (P : Mat K) (x : PredIn K) (hs : ∀ i j, P i j = P j i) :
    nx_2_21 P x = rowF x 2 (fun k => rowF x 21 (fun l => P k l)) + imuCov x 2 21 := by
  simp only [nx_2_21, rowF_2 P, rowF_21, imuCov_off x 2 21 (by decide)]
  ring

theorem nx_3_21_eq (P : Mat K) (x : PredIn K) (hs : ∀ i j, P i j = P j i) :
    nx_3_21 P x = rowF x 3 (fun k => rowF x 21 (fun l => P k l)) + imuCov x 3 21 := by
  simp only [nx_3_21, rowF_3 P, rowF_21, imuCov_off x 3 21 (by decide)]
  ring

theorem nx_4_21_eq (P : Mat K) (x : PredIn K) (hs : ∀ i j, P i j = P j i) :
    nx_4_21 P x = rowF x 4 (fun k => rowF x 21 (fun l => P k l)) + imuCov x 4 21 := by
  simp only [nx_4_21, PS60, PS62, PS72, PS74, PS139, PS140, rowF_4 P, rowF_21, imuCov_off x 4 21 (by decide)]
  ring

theorem nx_5_21_eq (P : Mat K) (x : PredIn K) (hs : ∀ i j, P i j = P j i) :
    nx_5_21 P x = rowF x 5 (fun k => rowF x 21 (fun l => P k l)) + imuCov x 5 21 := by
  simp only [nx_5_21, PS60, PS62, PS72, PS74, PS160, PS162, rowF_5 P, rowF_21, imuCov_off x 5 21 (by decide)]
  ring

theorem nx_6_21_eq (P : Mat K) (x : PredIn K) (hs : ∀ i j, P i j = P j i) :
    nx_6_21 P x = rowF x 6 (fun k => rowF x 21 (fun l => P k l)) + imuCov x 6 21 := by
  simp only [nx_6_21, PS60, PS62, PS72, PS74, PS165, PS166, rowF_6 P, rowF_21, imuCov_off x 6 21 (by decide)]
  ring

theorem nx_7_21_eq (P : Mat K) (x : PredIn K) (hs : ∀ i j, P i j = P j i) :
    nx_7_21 P x = rowF x 7 (fun k => rowF x 21 (fun l => P k l)) + imuCov x 7 21 := by
  simp only [nx_7_21, rowF_7, rowF_21, imuCov_off x 7 21 (by decide)]
  ring

theorem nx_8_21_eq (P : Mat K) (x : PredIn K) (hs : ∀ i j, P i j = P j i) :
    nx_8_21 P x = rowF x 8 (fun k => rowF x 21 (fun l => P k l)) + imuCov x 8 21 := by
  simp only [nx_8_21, rowF_8, rowF_21, imuCov_off x 8 21 (by decide)]
  ring

theorem nx_9_21_eq (P : Mat K) (x : PredIn K) (hs : ∀ i j, P i j = P j i) :
    nx_9_21 P x = rowF x 9 (fun k => rowF x 21 (fun l => P k l)) + imuCov x 9 21 := by
  simp only [nx_9_21, rowF_9, rowF_21, imuCov_off x 9 21 (by decide)]
  ring

theorem nx_10_21_eq (P : Mat K) (x : PredIn K) (hs : ∀ i j, P i j = P j i) :
    nx_10_21 P x = rowF x 10 (fun k => rowF x 21 (fun l => P k l)) + imuCov x 10 21 := by
  simp only [nx_10_21, rowF_10, rowF_21, imuCov_off x 10 21 (by decide)]
  ring

theorem nx_11_21_eq (P : Mat K) (x : PredIn K) (hs : ∀ i j, P i j = P j i) :
    nx_11_21 P x = rowF x 11 (fun k => rowF x 21 (fun l => P k l)) + imuCov x 11 21 := by
  simp only [nx_11_21, rowF_11, rowF_21, imuCov_off x 11 21 (by decide)]
  ring

theorem nx_12_21_eq (P : Mat K) (x : PredIn K) (hs : ∀ i j, P i j = P j i) :
    nx_12_21 P x = rowF x 12 (fun k => rowF x 21 (fun l => P k l)) + imuCov x 12 21 := by
  simp only [nx_12_21, rowF_12, rowF_21, imuCov_off x 12 21 (by decide)]
  ring

theorem nx_13_21_eq (P : Mat K) (x : PredIn K) (hs : ∀ i j, P i j = P j i) :
    nx_13_21 P x = rowF x 13 (fun k => rowF x 21 (fun l => P k l)) + imuCov x 13 21 := by
  simp only [nx_13_21, rowF_13, rowF_21, imuCov_off x 13 21 (by decide)]
  ring

theorem nx_14_21_eq (P : Mat K) (x : PredIn K) (hs : ∀ i j, P i j = P j i) :
    nx_14_21 P x = rowF x 14 (fun k => rowF x 21 (fun l => P k l)) + imuCov x 14 21 := by
  simp only [nx_14_21, rowF_14, rowF_21, imuCov_off x 14 21 (by decide)]
  ring

theorem nx_15_21_eq (P : Mat K) (x : PredIn K) (hs : ∀ i j, P i j = P j i) :
    nx_15_21 P x = rowF x 15 (fun k => rowF x 21 (fun l => P k l)) + imuCov x 15 21 := by
  simp only [nx_15_21, rowF_15, rowF_21, imuCov_off x 15 21 (by decide)]
  ring

theorem nx_16_21_eq (P : Mat K) (x : PredIn K) (hs : ∀ i j, P i j = P j i) :
    nx_16_21 P x = rowF x 16 (fun k => rowF x 21 (fun l => P k l)) + imuCov x 16 21 := by
  simp only [nx_16_21, rowF_16, rowF_21, imuCov_off x 16 21 (by decide)]
  ring

theorem nx_17_21_eq (P : Mat K) (x : PredIn K) (hs : ∀ i j, P i j = P j i) :
    nx_17_21 P x = rowF x 17 (fun k => rowF x 21 (fun l => P k l)) + imuCov x 17 21 := by
  simp only [nx_17_21, rowF_17, rowF_21, imuCov_off x 17 21 (by decide)]
  ring

theorem nx_18_21_eq (P : Mat K) (x : PredIn K) (hs : ∀ i j, P i j = P j i) :
    nx_18_21 P x = rowF x 18 (fun k => rowF x 21 (fun l => P k l)) + imuCov x 18 21 := by
  simp only [nx_18_21, rowF_18, rowF_21, imuCov_off x 18 21 (by decide)]
  ring

theorem nx_19_21_eq (P : Mat K) (x : PredIn K) (hs : ∀ i j, P i j = P j i) :
    nx_19_21 P x = rowF x 19 (fun k => rowF x 21 (fun l => P k l)) + imuCov x 19 21 := by
  simp only [nx_19_21, rowF_19, rowF_21, imuCov_off x 19 21 (by decide)]
  ring

theorem nx_20_21_eq (P : Mat K) (x : PredIn K) (hs : ∀ i j, P i j = P j i) :
    nx_20_21 P x = rowF x 20 (fun k => rowF x 21 (fun l => P k l)) + imuCov x 20 21 := by
  simp only [nx_20_21, rowF_20, rowF_21, imuCov_off x 20 21 (by decide)]
  ring

theorem nx_21_21_eq (P : Mat K) (x : PredIn K) (hs : ∀ i j, P i j = P j i) :
    nx_21_21 P x = rowF x 21 (fun k => rowF x 21 (fun l => P k l)) + imuCov x 21 21 := by
  simp only [nx_21_21, rowF_21, rowF_21, imuCov_off x 21 21 (by decide)]
  ring

theorem nxCol21_eq (P : Mat K) (x : PredIn K) (hs : ∀ i j, P i j = P j i) (i : Fin N) (h : i ≤ 21) :
    nxCol21 P x i.val = rowF x i (fun k => rowF x 21 (fun l => P k l)) + imuCov x i 21 := by
  revert i h
  intro ⟨i, hi⟩ h
  have h' : i ≤ 21 := h
  match i, hi, h' with
  | 0, _, _ => exact nx_0_21_eq P x hs
  | 1, _, _ => exact nx_1_21_eq P x hs
  | 2, _, _ => exact nx_2_21_eq P x hs
  | 3, _, _ => exact nx_3_21_eq P x hs
  | 4, _, _ => exact nx_4_21_eq P x hs
  | 5, _, _ => exact nx_5_21_eq P x hs
  | 6, _, _ => exact nx_6_21_eq P x hs
  | 7, _, _ => exact nx_7_21_eq P x hs
  | 8, _, _ => exact nx_8_21_eq P x hs
  | 9, _, _ => exact nx_9_21_eq P x hs
  | 10, _, _ => exact nx_10_21_eq P x hs
  | 11, _, _ => exact nx_11_21_eq P x hs
  | 12, _, _ => exact nx_12_21_eq P x hs
  | 13, _, _ => exact nx_13_21_eq P x hs
  | 14, _, _ => exact nx_14_21_eq P x hs
  | 15, _, _ => exact nx_15_21_eq P x hs
  | 16, _, _ => exact nx_16_21_eq P x hs
  | 17, _, _ => exact nx_17_21_eq P x hs
  | 18, _, _ => exact nx_18_21_eq P x hs
  | 19, _, _ => exact nx_19_21_eq P x hs
  | 20, _, _ => exact nx_20_21_eq P x hs
  | 21, _, _ => exact nx_21_21_eq P x hs
  | k + 22, _, h'' => exact absurd h'' (by omega)

theorem nx_0_22_eq (P : Mat K) (x : PredIn K) (hs : ∀ i j, P i j = P j i) :
    nx_0_22 P x = rowF x 0 (fun k => rowF x 22 (fun l => P k l)) + imuCov x 0 22 := by
  simp only [nx_0_22, rowF_0 P, rowF_22, imuCov_off x 0 22 (by decide)]
  ring

theorem nx_1_22_eq (P : Mat K) (x : PredIn K) (hs : ∀ i j, P i j = P j i) :
    nx_1_22 P x = rowF x 1 (fun k => rowF x 22 (fun l => P k l)) + imuCov x 1 22 := by
  simp only [nx_1_22, rowF_1 P, rowF_22, imuCov_off x 1 22 (by decide)]
  ring

theorem nx_2_22_eq (P : Mat K) (x : PredIn K) (hs : ∀ i j, P i j = P j i) :
    nx_2_22 P x = rowF x 2 (fun k => rowF x 22 (fun l => P k l)) + imuCov x 2 22 := by
  simp only [nx_2_22, rowF_2 P, rowF_22, imuCov_off x 2 22 (by decide)]
  ring

theorem nx_3_22_eq (P : Mat K) (x : PredIn K) (hs : ∀ i j, P i j = P j i) :
    nx_3_22 P x = rowF x 3 (fun k => rowF x 22 (fun l => P k l)) + imuCov x 3 22 := by
  simp only [nx_3_22, rowF_3 P, rowF_22, imuCov_off x 3 22 (by decide)]
  ring

theorem nx_4_22_eq (P : Mat K) (x : PredIn K) (hs : ∀ i j, P i j = P j i) :
    nx_4_22 P x = rowF x 4 (fun k => rowF x 22 (fun l => P k l)) + imuCov x 4 22 := by
  simp only [nx_4_22, PS60, PS62, PS72, PS74, PS139, PS140, rowF_4 P, rowF_22, imuCov_off x 4 22 (by decide)]
  ring

theorem nx_5_22_eq (P : Mat K) (x : PredIn K) (hs : ∀ i j, P i j = P j i) :
    nx_5_22 P x = rowF x 5 (fun k => rowF x 22 (fun l => P k l)) + imuCov x 5 22 := by
  simp only [nx_5_22, PS60, PS62, PS72, PS74, PS160, PS162, rowF_5 P, rowF_22, imuCov_off x 5 22 (by decide)]
  ring

theorem nx_6_22_eq (P : Mat K) (x : PredIn K) (hs : ∀ i j, P i j = P j i) :
    nx_6_22 P x = rowF x 6 (fun k => rowF x 22 (fun l => P k l)) + imuCov x 6 22 := by
  simp only [nx_6_22, PS60, PS62, PS72, PS74, PS165, PS166, rowF_6 P, rowF_22, imuCov_off x 6 22 (by decide)]
  ring

theorem nx_7_22_eq (P : Mat K) (x : PredIn K) (hs : ∀ i j, P i j = P j i) :
    nx_7_22 P x = rowF x 7 (fun k => rowF x 22 (fun l => P k l)) + imuCov x 7 22 := by
  simp only [nx_7_22, rowF_7, rowF_22, imuCov_off x 7 22 (by decide)]
  ring

theorem nx_8_22_eq (P : Mat K) (x : PredIn K) (hs : ∀ i j, P i j = P j i) :
    nx_8_22 P x = rowF x 8 (fun k => rowF x 22 (fun l => P k l)) + imuCov x 8 22 := by
  simp only [nx_8_22, rowF_8, rowF_22, imuCov_off x 8 22 (by decide)]
  ring

theorem nx_9_22_eq (P : Mat K) (x : PredIn K) (hs : ∀ i j, P i j = P j i) :
    nx_9_22 P x = rowF x 9 (fun k => rowF x 22 (fun l => P k l)) + imuCov x 9 22 := by
  simp only [nx_9_22, rowF_9, rowF_22, imuCov_off x 9 22 (by decide)]
  ring

theorem nx_10_22_eq (P : Mat K) (x : PredIn K) (hs : ∀ i j, P i j = P j i) :
    nx_10_22 P x = rowF x 10 (fun k => rowF x 22 (fun l => P k l)) + imuCov x 10 22 := by
  simp only [nx_10_22, rowF_10, rowF_22, imuCov_off x 10 22 (by decide)]
  ring

theorem nx_11_22_eq (P : Mat K) (x : PredIn K) (hs : ∀ i j, P i j = P j i) :
    nx_11_22 P x = rowF x 11 (fun k => rowF x 22 (fun l => P k l)) + imuCov x 11 22 := by
  simp only [nx_11_22, rowF_11, rowF_22, imuCov_off x 11 22 (by decide)]
  ring

theorem nx_12_22_eq (P : Mat K) (x : PredIn K) (hs : ∀ i j, P i j = P j i) :
    nx_12_22 P x = rowF x 12 (fun k => rowF x 22 (fun l => P k l)) + imuCov x 12 22 := by
  simp only [nx_12_22, rowF_12, rowF_22, imuCov_off x 12 22 (by decide)]
  ring

theorem nx_13_22_eq (P : Mat K) (x : PredIn K) (hs : ∀ i j, P i j = P j i) :
    nx_13_22 P x = rowF x 13 (fun k => rowF x 22 (fun l => P k l)) + imuCov x 13 22 := by
  simp only [nx_13_22, rowF_13, rowF_22, imuCov_off x 13 22 (by decide)]
  ring

theorem nx_14_22_eq (P : Mat K) (x : PredIn K) (hs : ∀ i j, P i j = P j i) :
    nx_14_22 P x = rowF x 14 (fun k => rowF x 22 (fun l => P k l)) + imuCov x 14 22 := by
  simp only [nx_14_22, rowF_14, rowF_22, imuCov_off x 14 22 (by decide)]
  ring

theorem nx_15_22_eq (P : Mat K) (x : PredIn K) (hs : ∀ i j, P i j = P j i) :
    nx_15_22 P x = rowF x 15 (fun k => rowF x 22 (fun l => P k l)) + imuCov x 15 22 := by
  simp only [nx_15_22, rowF_15, rowF_22, imuCov_off x 15 22 (by decide)]
  ring

theorem nx_16_22_eq (P : Mat K) (x : PredIn K) (hs : ∀ i j, P i j = P j i) :
    nx_16_22 P x = rowF x 16 (fun k => rowF x 22 (fun l => P k l)) + imuCov x 16 22 := by
  simp only [nx_16_22, rowF_16, rowF_22, imuCov_off x 16 22 (by decide)]
  ring

theorem nx_17_22_eq (P : Mat K) (x : PredIn K) (hs : ∀ i j, P i j = P j i) :
    nx_17_22 P x = rowF x 17 (fun k => rowF x 22 (fun l => P k l)) + imuCov x 17 22 := by
  simp only [nx_17_22, rowF_17, rowF_22, imuCov_off x 17 22 (by decide)]
  ring

theorem nx_18_22_eq (P : Mat K) (x : PredIn K) (hs : ∀ i j, P i j = P j i) :
    nx_18_22 P x = rowF x 18 (fun k => rowF x 22 (fun l => P k l)) + imuCov x 18 22 := by
  simp only [nx_18_22, rowF_18, rowF_22, imuCov_off x 18 22 (by decide)]
  ring

theorem nx_19_22_eq (P : Mat K) (x : PredIn K) (hs : ∀ i j, P i j = P j i) :
    nx_19_22 P x = rowF x 19 (fun k => rowF x 22 (fun l => P k l)) + imuCov x 19 22 := by
  simp only [nx_19_22, rowF_19, rowF_22, imuCov_off x 19 22 (by decide)]
  ring

theorem nx_20_22_eq (P : Mat K) (x : PredIn K) (hs : ∀ i j, P i j = P j i) :
    nx_20_22 P x = rowF x 20 (fun k => rowF x 22 (fun l => P k l)) + imuCov x 20 22 := by
  simp only [nx_20_22, rowF_20, rowF_22, imuCov_off x 20 22 (by decide)]
  ring

theorem nx_21_22_eq (P : Mat K) (x : PredIn K) (hs : ∀ i j, P i j = P j i) :
    nx_21_22 P x = rowF x 21 (fun k => rowF x 22 (fun l => P k l)) + imuCov x 21 22 := by
  simp only [nx_21_22, rowF_21, rowF_22, imuCov_off x 21 22 (by decide)]
  ring

theorem nx_22_22_eq (P : Mat K) (x : PredIn K) (hs : ∀ i j, P i j = P j i) :
    nx_22_22 P x = rowF x 22 (fun k => rowF x 22 (fun l => P k l)) + imuCov x 22 22 := by
  simp only [nx_22_22, rowF_22, rowF_22, imuCov_off x 22 22 (by decide)]
  ring

theorem nxCol22_eq (P : Mat K) (x : PredIn K) (hs : ∀ i j, P i j = P j i) (i : Fin N) (h : i ≤ 22) :
    nxCol22 P x i.val = rowF x i (fun k => rowF x 22 (fun l => P k l)) + imuCov x i 22 := by
  revert i h
  intro ⟨i, hi⟩ h
  have h' : i ≤ 22 := h
  match i, hi, h' with
  | 0, _, _ => exact nx_0_22_eq P x hs
  | 1, _, _ => exact nx_1_22_eq P x hs
  | 2, _, _ => exact nx_2_22_eq P x hs
  | 3, _, _ => exact nx_3_22_eq P x hs
  | 4, _, _ => exact nx_4_22_eq P x hs
  | 5, _, _ => exact nx_5_22_eq P x hs
  | 6, _, _ => exact nx_6_22_eq P x hs
  | 7, _, _ => exact nx_7_22_eq P x hs
  | 8, _, _ => exact nx_8_22_eq P x hs
  | 9, _, _ => exact nx_9_22_eq P x hs
  | 10, _, _ => exact nx_10_22_eq P x hs
  | 11, _, _ => exact nx_11_22_eq P x hs
  | 12, _, _ => exact nx_12_22_eq P x hs
  | 13, _, _ => exact nx_13_22_eq P x hs
  | 14, _, _ => exact nx_14_22_eq P x hs
  | 15, _, _ => exact nx_15_22_eq P x hs
  | 16, _, _ => exact nx_16_22_eq P x hs
  | 17, _, _ => exact nx_17_22_eq P x hs
  | 18, _, _ => exact nx_18_22_eq P x hs
  | 19, _, _ => exact nx_19_22_eq P x hs
  | 20, _, _ => exact nx_20_22_eq P x hs
  | 21, _, _ => exact nx_21_22_eq P x hs
  | 22, _, _ => exact nx_22_22_eq P x hs
  | k + 23, _, h'' => exact absurd h'' (by omega)

theorem nx_0_23_eq (P : Mat K) (x : PredIn K) (hs : ∀ i j, P i j = P j i) :
    nx_0_23 P x = rowF x 0 (fun k => rowF x 23 (fun l => P k l)) + imuCov x 0 23 := by
  simp only [nx_0_23, rowF_0 P, rowF_23, imuCov_off x 0 23 (by decide)]
  ring

theorem nx_1_23_eq (P : Mat K) (x : PredIn K) (hs : ∀ i j, P i j = P j i) :
    nx_1_23 P x = rowF x 1 (fun k => rowF x 23 (fun l => P k l)) + imuCov x 1 23 := by
  simp only [nx_1_23, rowF_1 P, rowF_23, imuCov_off x 1 23 (by decide)]
  ring

theorem nx_2_23_eq (P : Mat K) (x : PredIn K) (hs : ∀ i j, P i j = P j i) :
    nx_2_23 P x = rowF x 2 (fun k => rowF x 23 (fun l => P k l)) + imuCov x 2 23 := by
  simp only [nx_2_23, rowF_2 P, rowF_23, imuCov_off x 2 23 (by decide)]
  ring

theorem nx_3_23_eq (P : Mat K) (x : PredIn K) (hs : ∀ i j, P i j = P j i) :
    nx_3_23 P x = rowF x 3 (fun k => rowF x 23 (fun l => P k l)) + imuCov x 3 23 := by
  simp only [nx_3_23, rowF_3 P, rowF_23, imuCov_off x 3 23 (by decide)]
  ring

theorem nx_4_23_eq (P : Mat K) (x : PredIn K) (hs : ∀ i j, P i j = P j i) :
    nx_4_23 P x = rowF x 4 (fun k => rowF x 23 (fun l => P k l)) + imuCov x 4 23 := by
  simp only [nx_4_23, PS60, PS62, PS72, PS74, PS139, PS140, rowF_4 P, rowF_23, imuCov_off x 4 23 (by decide)]
  ring

theorem nx_5_23_eq (P : Mat K) (x : PredIn K) (hs : ∀ i j, P i j = P j i) :
    nx_5_23 P x = rowF x 5 (fun k => rowF x 23 (fun l => P k l)) + imuCov x 5 23 := by
  simp only [nx_5_23, PS60, PS62, PS72, PS74, PS160, PS162, rowF_5 P, rowF_23, imuCov_off x 5 23 (by decide)]
  ring

theorem nx_6_23_eq (P : Mat K) (x : PredIn K) (hs : ∀ i j, P i j = P j i) :
    nx_6_23 P x = rowF x 6 (fun k => rowF x 23 (fun l => P k l)) + imuCov x 6 23 := by
  simp only [nx_6_23, PS60, PS62, PS72, PS74, PS165, PS166, rowF_6 P, rowF_23, imuCov_off x 6 23 (by decide)]
  ring

theorem nx_7_23_eq (P : Mat K) (x : PredIn K) (hs : ∀ i j, P i j = P j i) :
    nx_7_23 P x = rowF x 7 (fun k => rowF x 23 (fun l => P k l)) + imuCov x 7 23 := by
  simp only [nx_7_23, rowF_7, rowF_23, imuCov_off x 7 23 (by decide)]
  ring

theorem nx_8_23_eq (P : Mat K) (x : PredIn K) (hs : ∀ i j, P i j = P j i) :
    nx_8_23 P x = rowF x 8 (fun k => rowF x 23 (fun l => P k l)) + imuCov x 8 23 := by
  simp only [nx_8_23, rowF_8, rowF_23, imuCov_off x 8 23 (by decide)]
  ring

theorem nx_9_23_eq (P : Mat K) (x : PredIn K) (hs : ∀ i j, P i j = P j i) :
    nx_9_23 P x = rowF x 9 (fun k => rowF x 23 (fun l => P k l)) + imuCov x 9 23 := by
  simp only [nx_9_23, rowF_9, rowF_23, imuCov_off x 9 23 (by decide)]
  ring

theorem nx_10_23_eq (P : Mat K) (x : PredIn K) (hs : ∀ i j, P i j = P j i) :
    nx_10_23 P x = rowF x 10 (fun k => rowF x 23 (fun l => P k l)) + imuCov x 10 23 := by
  simp only [nx_10_23, rowF_10, rowF_23, imuCov_off x 10 23 (by decide)]
  ring

theorem nx_11_23_eq (P : Mat K) (x : PredIn K) (hs : ∀ i j, P i j = P j i) :
    nx_11_23 P x = rowF x 11 (fun k => rowF x 23 (fun l => P k l)) + imuCov x 11 23 := by
  simp only [nx_11_23, rowF_11, rowF_23, imuCov_off x 11 23 (by decide)]
  ring

theorem nx_12_23_eq (P : Mat K) (x : PredIn K) (hs : ∀ i j, P i j = P j i) :
    nx_12_23 P x = rowF x 12 (fun k => rowF x 23 (fun l => P k l)) + imuCov x 12 23 := by
  simp only [nx_12_23, rowF_12, rowF_23, imuCov_off x 12 23 (by decide)]
  ring

theorem nx_13_23_eq (P : Mat K) (x : PredIn K) (hs : ∀ i j, P i j = P j i) :
    nx_13_23 P x = rowF x 13 (fun k => rowF x 23 (fun l => P k l)) + imuCov x 13 23 := by
  simp only [nx_13_23, rowF_13, rowF_23, imuCov_off x 13 23 (by decide)]
  ring

theorem nx_14_23_eq (P : Mat K) (x : PredIn K) (hs : ∀ i j, P i j = P j i) :
    nx_14_23 P x = rowF x 14 (fun k => rowF x 23 (fun l => P k l)) + imuCov x 14 23 := by
  simp only [nx_14_23, rowF_14, rowF_23, imuCov_off x 14 23 (by decide)]
  ring

theorem nx_15_23_eq (P : Mat K) (x : PredIn K) (hs : ∀ i j, P i j = P j i) :
    nx_15_23 P x = rowF x 15 (fun k => rowF x 23 (fun l => P k l)) + imuCov x 15 23 := by
  simp only [nx_15_23, rowF_15, rowF_23, imuCov_off x 15 23 (by decide)]
  ring

theorem nx_16_23_eq (P : Mat K) (x : PredIn K) (hs : ∀ i j, P i j = P j i) :
    nx_16_23 P x = rowF x 16 (fun k => rowF x 23 (fun l => P k l)) + imuCov x 16 23 := by
  simp only [nx_16_23, rowF_16, rowF_23, imuCov_off x 16 23 (by decide)]
  ring

theorem nx_17_23_eq (P : Mat K) (x : PredIn K) (hs : ∀ i j, P i j = P j i) :
    nx_17_23 P x = rowF x 17 (fun k => rowF x 23 (fun l => P k l)) + imuCov x 17 23 := by
  simp only [nx_17_23, rowF_17, rowF_23, imuCov_off x 17 23 (by decide)]
  ring

theorem nx_18_23_eq (P : Mat K) (x : PredIn K) (hs : ∀ i j, P i j = P j i) :
    nx_18_23 P x = rowF x 18 (fun k => rowF x 23 (fun l => P k l)) + imuCov x 18 23 := by
  simp only [nx_18_23, rowF_18, rowF_23, imuCov_off x 18 23 (by decide)]
  ring

theorem nx_19_23_eq (P : Mat K) (x : PredIn K) (hs : ∀ i j, P i j = P j i) :
    nx_19_23 P x = rowF x 19 (fun k => rowF x 23 (fun l => P k l)) + imuCov x 19 23 := by
  simp only [nx_19_23, rowF_19, rowF_23, imuCov_off x 19 23 (by decide)]
  ring

theorem nx_20_23_eq (P : Mat K) (x : PredIn K) (hs : ∀ i j, P i j = P j i) :
    nx_20_23 P x = rowF x 20 (fun k => rowF x 23 (fun l => P k l)) + imuCov x 20 23 := by
  simp only [nx_20_23, rowF_20, rowF_23, imuCov_off x 20 23 (by decide)]
  ring

theorem nx_21_23_eq (P : Mat K) (x : PredIn K) (hs : ∀ i j, P i j = P j i) :
    nx_21_23 P x = rowF x 21 (fun k => rowF x 23 (fun l => P k l)) + imuCov x 21 23 := by
  simp only [nx_21_23, rowF_21, rowF_23, imuCov_off x 21 23 (by decide)]
  ring

theorem nx_22_23_eq (P : Mat K) (x : PredIn K) (hs : ∀ i j, P i j = P j i) :
    nx_22_23 P x = rowF x 22 (fun k => rowF x 23 (fun l => P k l)) + imuCov x 22 23 := by
  simp only [nx_22_23, rowF_22, rowF_23, imuCov_off x 22 23 (by decide)]
  ring

theorem nx_23_23_eq (P : Mat K) (x : PredIn K) (hs : ∀ i j, P i j = P j i) :
    nx_23_23 P x = rowF x 23 (fun k => rowF x 23 (fun l => P k l)) + imuCov x 23 23 := by
  simp only [nx_23_23, rowF_23, rowF_23, imuCov_off x 23 23 (by decide)]
  ring

theorem nxCol23_eq (P : Mat K) (x : PredIn K) (hs : ∀ i j, P i j = P j i) (i : Fin N) (h : i ≤ 23) :
    nxCol23 P x i.val = rowF x i (fun k => rowF x 23 (fun l => P k l)) + imuCov x i 23 := by
  revert i h
  intro ⟨i, hi⟩ h
  have h' : i ≤ 23 := h
  match i, hi, h' with
  | 0, _, _ => exact nx_0_23_eq P x hs
  | 1, _, _ => exact nx_1_23_eq P x hs
  | 2, _, _ => exact nx_2_23_eq P x hs
  | 3, _, _ => exact nx_3_23_eq P x hs
  | 4, _, _ => exact nx_4_23_eq P x hs
  | 5, _, _ => exact nx_5_23_eq P x hs
  | 6, _, _ => exact nx_6_23_eq P x hs
  | 7, _, _ => exact nx_7_23_eq P x hs
  | 8, _, _ => exact nx_8_23_eq P x hs
  | 9, _, _ => exact nx_9_23_eq P x hs
  | 10, _, _ => exact nx_10_23_eq P x hs
  | 11, _, _ => exact nx_11_23_eq P x hs
  | 12, _, _ => exact nx_12_23_eq P x hs
  | 13, _, _ => exact nx_13_23_eq P x hs
  | 14, _, _ => exact nx_14_23_eq P x hs
  | 15, _, _ => exact nx_15_23_eq P x hs
  | 16, _, _ => exact nx_16_23_eq P x hs
  | 17, _, _ => exact nx_17_23_eq P x hs
  | 18, _, _ => exact nx_18_23_eq P x hs
  | 19, _, _ => exact nx_19_23_eq P x hs
  | 20, _, _ => exact nx_20_23_eq P x hs
  | 21, _, _ => exact nx_21_23_eq P x hs
  | 22, _, _ => exact nx_22_23_eq P x hs
  | 23, _, _ => exact nx_23_23_eq P x hs
  | k + 24, _, h'' => exact absurd h'' (by omega)

end Ecl.Cov
