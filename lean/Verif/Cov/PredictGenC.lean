import Verif.Cov.PredictSpec

/-!
# Entry by entry: the transcribed equations equal `F P Fᵀ + G Q Gᵀ` (generated by tools/gen_cov.py)
-/

set_option linter.unusedSimpArgs false
set_option linter.unusedSectionVars false
set_option linter.unusedVariables false

namespace Ecl.Cov

variable {K : Type*} [Field K] [CharZero K]

theorem nx_0_7_eq (P : Mat K) (x : PredIn K) (hs : ∀ i j, P i j = P j i) :
    nx_0_7 P x = rowF x 0 (fun k => rowF x 7 (fun l => P k l)) + imuCov x 0 7 := by
  simp only [nx_0_7, PS63, rowF_0 P, rowF_7, imuCov_off x 0 7 (by decide)]
  simp only [hs 10 4, hs 10 7, hs 11 4, hs 11 7, hs 12 4, hs 12 7]
  ring

theorem nx_1_7_eq (P : Mat K) (x : PredIn K) (hs : ∀ i j, P i j = P j i) :
    nx_1_7 P x = rowF x 1 (fun k => rowF x 7 (fun l => P k l)) + imuCov x 1 7 := by
  simp only [nx_1_7, PS98, rowF_1 P, rowF_7, imuCov_off x 1 7 (by decide)]
  simp only [hs 10 4, hs 10 7, hs 11 4, hs 11 7, hs 12 4, hs 12 7]
  ring

theorem nx_2_7_eq (P : Mat K) (x : PredIn K) (hs : ∀ i j, P i j = P j i) :
    nx_2_7 P x = rowF x 2 (fun k => rowF x 7 (fun l => P k l)) + imuCov x 2 7 := by
  simp only [nx_2_7, PS119, rowF_2 P, rowF_7, imuCov_off x 2 7 (by decide)]
  simp only [hs 10 4, hs 10 7, hs 11 4, hs 11 7, hs 12 4, hs 12 7]
  ring

theorem nx_3_7_eq (P : Mat K) (x : PredIn K) (hs : ∀ i j, P i j = P j i) :
    nx_3_7 P x = rowF x 3 (fun k => rowF x 7 (fun l => P k l)) + imuCov x 3 7 := by
  simp only [nx_3_7, PS135, rowF_3 P, rowF_7, imuCov_off x 3 7 (by decide)]
  simp only [hs 10 4, hs 10 7, hs 11 4, hs 11 7, hs 12 4, hs 12 7]
  ring

theorem nx_4_7_eq (P : Mat K) (x : PredIn K) (hs : ∀ i j, P i j = P j i) :
    nx_4_7 P x = rowF x 4 (fun k => rowF x 7 (fun l => P k l)) + imuCov x 4 7 := by
  simp only [nx_4_7, PS60, PS62, PS72, PS74, PS139, PS140, PS158, rowF_4 P, rowF_7, imuCov_off x 4 7 (by decide)]
  simp only [hs 13 4, hs 13 7, hs 14 4, hs 14 7, hs 15 4, hs 15 7]
  ring

theorem nx_5_7_eq (P : Mat K) (x : PredIn K) (hs : ∀ i j, P i j = P j i) :
    nx_5_7 P x = rowF x 5 (fun k => rowF x 7 (fun l => P k l)) + imuCov x 5 7 := by
  simp only [nx_5_7, PS60, PS62, PS72, PS74, PS160, PS162, rowF_5 P, rowF_7, imuCov_off x 5 7 (by decide)]
  simp only [hs 5 4, hs 13 4, hs 13 7, hs 14 4, hs 14 7, hs 15 4, hs 15 7]
  ring

theorem nx_6_7_eq (P : Mat K) (x : PredIn K) (hs : ∀ i j, P i j = P j i) :
    nx_6_7 P x = rowF x 6 (fun k => rowF x 7 (fun l => P k l)) + imuCov x 6 7 := by
  simp only [nx_6_7, PS60, PS62, PS72, PS74, PS165, PS166, rowF_6 P, rowF_7, imuCov_off x 6 7 (by decide)]
  simp only [hs 6 4, hs 13 4, hs 13 7, hs 14 4, hs 14 7, hs 15 4, hs 15 7]
  ring

theorem nx_7_7_eq (P : Mat K) (x : PredIn K) (hs : ∀ i j, P i j = P j i) :
    nx_7_7 P x = rowF x 7 (fun k => rowF x 7 (fun l => P k l)) + imuCov x 7 7 := by
  simp only [nx_7_7, rowF_7, rowF_7, imuCov_off x 7 7 (by decide)]
  simp only [hs 7 4]
  ring

theorem nxCol7_eq (P : Mat K) (x : PredIn K) (hs : ∀ i j, P i j = P j i) (i : Fin N) (h : i ≤ 7) :
    nxCol7 P x i.val = rowF x i (fun k => rowF x 7 (fun l => P k l)) + imuCov x i 7 := by
  revert i h
  intro ⟨i, hi⟩ h
  have h' : i ≤ 7 := h
  match i, hi, h' with
  | 0, _, _ => exact nx_0_7_eq P x hs
  | 1, _, _ => exact nx_1_7_eq P x hs
  | 2, _, _ => exact nx_2_7_eq P x hs
  | 3, _, _ => exact nx_3_7_eq P x hs
  | 4, _, _ => exact nx_4_7_eq P x hs
  | 5, _, _ => exact nx_5_7_eq P x hs
  | 6, _, _ => exact nx_6_7_eq P x hs
  | 7, _, _ => exact nx_7_7_eq P x hs

theorem nx_0_8_eq (P : Mat K) (x : PredIn K) (hs : ∀ i j, P i j = P j i) :
    nx_0_8 P x = rowF x 0 (fun k => rowF x 8 (fun l => P k l)) + imuCov x 0 8 := by
  simp only [nx_0_8, PS69, rowF_0 P, rowF_8, imuCov_off x 0 8 (by decide)]
  simp only [hs 10 5, hs 10 8, hs 11 5, hs 11 8, hs 12 5, hs 12 8]
  ring

theorem nx_1_8_eq (P : Mat K) (x : PredIn K) (hs : ∀ i j, P i j = P j i) :
    nx_1_8 P x = rowF x 1 (fun k => rowF x 8 (fun l => P k l)) + imuCov x 1 8 := by
  simp only [nx_1_8, PS100, rowF_1 P, rowF_8, imuCov_off x 1 8 (by decide)]
  simp only [hs 10 5, hs 10 8, hs 11 5, hs 11 8, hs 12 5, hs 12 8]
  ring

theorem nx_2_8_eq (P : Mat K) (x : PredIn K) (hs : ∀ i j, P i j = P j i) :
    nx_2_8 P x = rowF x 2 (fun k => rowF x 8 (fun l => P k l)) + imuCov x 2 8 := by
  simp only [nx_2_8, PS121, rowF_2 P, rowF_8, imuCov_off x 2 8 (by decide)]
  simp only [hs 10 5, hs 10 8, hs 11 5, hs 11 8, hs 12 5, hs 12 8]
  ring

theorem nx_3_8_eq (P : Mat K) (x : PredIn K) (hs : ∀ i j, P i j = P j i) :
    nx_3_8 P x = rowF x 3 (fun k => rowF x 8 (fun l => P k l)) + imuCov x 3 8 := by
  simp only [nx_3_8, PS137, rowF_3 P, rowF_8, imuCov_off x 3 8 (by decide)]
  simp only [hs 10 5, hs 10 8, hs 11 5, hs 11 8, hs 12 5, hs 12 8]
  ring

theorem nx_4_8_eq (P : Mat K) (x : PredIn K) (hs : ∀ i j, P i j = P j i) :
    nx_4_8 P x = rowF x 4 (fun k => rowF x 8 (fun l => P k l)) + imuCov x 4 8 := by
  simp only [nx_4_8, PS60, PS62, PS72, PS74, PS139, PS140, PS164, rowF_4 P, rowF_8, imuCov_off x 4 8 (by decide)]
  simp only [hs 13 5, hs 13 8, hs 14 5, hs 14 8, hs 15 5, hs 15 8]
  ring

theorem nx_5_8_eq (P : Mat K) (x : PredIn K) (hs : ∀ i j, P i j = P j i) :
    nx_5_8 P x = rowF x 5 (fun k => rowF x 8 (fun l => P k l)) + imuCov x 5 8 := by
  simp only [nx_5_8, PS60, PS62, PS72, PS74, PS160, PS162, PS181, rowF_5 P, rowF_8, imuCov_off x 5 8 (by decide)]
  simp only [hs 13 5, hs 13 8, hs 14 5, hs 14 8, hs 15 5, hs 15 8]
  ring

theorem nx_6_8_eq (P : Mat K) (x : PredIn K) (hs : ∀ i j, P i j = P j i) :
    nx_6_8 P x = rowF x 6 (fun k => rowF x 8 (fun l => P k l)) + imuCov x 6 8 := by
  simp only [nx_6_8, PS60, PS62, PS72, PS74, PS165, PS166, rowF_6 P, rowF_8, imuCov_off x 6 8 (by decide)]
  simp only [hs 6 5, hs 13 5, hs 13 8, hs 14 5, hs 14 8, hs 15 5, hs 15 8]
  ring

theorem nx_7_8_eq (P : Mat K) (x : PredIn K) (hs : ∀ i j, P i j = P j i) :
    nx_7_8 P x = rowF x 7 (fun k => rowF x 8 (fun l => P k l)) + imuCov x 7 8 := by
  simp only [nx_7_8, rowF_7, rowF_8, imuCov_off x 7 8 (by decide)]
  simp only [hs 7 5]
  ring

theorem nx_8_8_eq (P : Mat K) (x : PredIn K) (hs : ∀ i j, P i j = P j i) :
    nx_8_8 P x = rowF x 8 (fun k => rowF x 8 (fun l => P k l)) + imuCov x 8 8 := by
  simp only [nx_8_8, rowF_8, rowF_8, imuCov_off x 8 8 (by decide)]
  simp only [hs 8 5]
  ring

theorem nxCol8_eq (P : Mat K) (x : PredIn K) (hs : ∀ i j, P i j = P j i) (i : Fin N) (h : i ≤ 8) :
    nxCol8 P x i.val = rowF x i (fun k => rowF x 8 (fun l => P k l)) + imuCov x i 8 := by
  revert i h
  intro ⟨i, hi⟩ h
  have h' : i ≤ 8 := h
  match i, hi, h' with
  | 0, _, _ => exact nx_0_8_eq P x hs
  | 1, _, _ => exact nx_1_8_eq P x hs
  | 2, _, _ => exact nx_2_8_eq P x hs
  | 3, _, _ => exact nx_3_8_eq P x hs
  | 4, _, _ => exact nx_4_8_eq P x hs
  | 5, _, _ => exact nx_5_8_eq P x hs
  | 6, _, _ => exact nx_6_8_eq P x hs
  | 7, _, _ => exact nx_7_8_eq P x hs
  | 8, _, _ => exact nx_8_8_eq P x hs

theorem nx_0_9_eq (P : Mat K) (x : PredIn K) (hs : ∀ i j, P i j = P j i) :
    nx_0_9 P x = rowF x 0 (fun k => rowF x 9 (fun l => P k l)) + imuCov x 0 9 := by
  simp only [nx_0_9, PS75, rowF_0 P, rowF_9, imuCov_off x 0 9 (by decide)]
  simp only [hs 10 6, hs 10 9, hs 11 6, hs 11 9, hs 12 6, hs 12 9]
  ring

theorem nx_1_9_eq (P : Mat K) (x : PredIn K) (hs : ∀ i j, P i j = P j i) :
    nx_1_9 P x = rowF x 1 (fun k => rowF x 9 (fun l => P k l)) + imuCov x 1 9 := by
  simp only [nx_1_9, PS101, rowF_1 P, rowF_9, imuCov_off x 1 9 (by decide)]
  simp only [hs 10 6, hs 10 9, hs 11 6, hs 11 9, hs 12 6, hs 12 9]
  ring

theorem nx_2_9_eq (P : Mat K) (x : PredIn K) (hs : ∀ i j, P i j = P j i) :
    nx_2_9 P x = rowF x 2 (fun k => rowF x 9 (fun l => P k l)) + imuCov x 2 9 := by
  simp only [nx_2_9, PS122, rowF_2 P, rowF_9, imuCov_off x 2 9 (by decide)]
  simp only [hs 10 6, hs 10 9, hs 11 6, hs 11 9, hs 12 6, hs 12 9]
  ring

theorem nx_3_9_eq (P : Mat K) (x : PredIn K) (hs : ∀ i j, P i j = P j i) :
    nx_3_9 P x = rowF x 3 (fun k => rowF x 9 (fun l => P k l)) + imuCov x 3 9 := by
  simp only [nx_3_9, PS138, rowF_3 P, rowF_9, imuCov_off x 3 9 (by decide)]
  simp only [hs 10 6, hs 10 9, hs 11 6, hs 11 9, hs 12 6, hs 12 9]
  ring

theorem nx_4_9_eq (P : Mat K) (x : PredIn K) (hs : ∀ i j, P i j = P j i) :
    nx_4_9 P x = rowF x 4 (fun k => rowF x 9 (fun l => P k l)) + imuCov x 4 9 := by
  simp only [nx_4_9, PS60, PS62, PS72, PS74, PS139, PS140, PS168, rowF_4 P, rowF_9, imuCov_off x 4 9 (by decide)]
  simp only [hs 13 6, hs 13 9, hs 14 6, hs 14 9, hs 15 6, hs 15 9]
  ring

theorem nx_5_9_eq (P : Mat K) (x : PredIn K) (hs : ∀ i j, P i j = P j i) :
    nx_5_9 P x = rowF x 5 (fun k => rowF x 9 (fun l => P k l)) + imuCov x 5 9 := by
  simp only [nx_5_9, PS60, PS62, PS72, PS74, PS160, PS162, PS182, rowF_5 P, rowF_9, imuCov_off x 5 9 (by decide)]
  simp only [hs 13 6, hs 13 9, hs 14 6, hs 14 9, hs 15 6, hs 15 9]
  ring

theorem nx_6_9_eq (P : Mat K) (x : PredIn K) (hs : ∀ i j, P i j = P j i) :
    nx_6_9 P x = rowF x 6 (fun k => rowF x 9 (fun l => P k l)) + imuCov x 6 9 := by
  simp only [nx_6_9, PS60, PS62, PS72, PS74, PS165, PS166, PS186, rowF_6 P, rowF_9, imuCov_off x 6 9 (by decide)]
  simp only [hs 13 6, hs 13 9, hs 14 6, hs 14 9, hs 15 6, hs 15 9]
  ring

theorem nx_7_9_eq (P : Mat K) (x : PredIn K) (hs : ∀ i j, P i j = P j i) :
    nx_7_9 P x = rowF x 7 (fun k => rowF x 9 (fun l => P k l)) + imuCov x 7 9 := by
  simp only [nx_7_9, rowF_7, rowF_9, imuCov_off x 7 9 (by decide)]
  simp only [hs 7 6]
  ring

theorem nx_8_9_eq (P : Mat K) (x : PredIn K) (hs : ∀ i j, P i j = P j i) :
    nx_8_9 P x = rowF x 8 (fun k => rowF x 9 (fun l => P k l)) + imuCov x 8 9 := by
  simp only [nx_8_9, rowF_8, rowF_9, imuCov_off x 8 9 (by decide)]
  simp only [hs 8 6]
  ring

theorem nx_9_9_eq (P : Mat K) (x : PredIn K) (hs : ∀ i j, P i j = P j i) :
    nx_9_9 P x = rowF x 9 (fun k => rowF x 9 (fun l => P k l)) + imuCov x 9 9 := by
  simp only [nx_9_9, rowF_9, rowF_9, imuCov_off x 9 9 (by decide)]
  simp only [hs 9 6]
  ring

theorem nxCol9_eq (P : Mat K) (x : PredIn K) (hs : ∀ i j, P i j = P j i) (i : Fin N) (h : i ≤ 9) :
    nxCol9 P x i.val = rowF x i (fun k => rowF x 9 (fun l => P k l)) + imuCov x i 9 := by
  revert i h
  intro ⟨i, hi⟩ h
  have h' : i ≤ 9 := h
  match i, hi, h' with
  | 0, _, _ => exact nx_0_9_eq P x hs
  | 1, _, _ => exact nx_1_9_eq P x hs
  | 2, _, _ => exact nx_2_9_eq P x hs
  | 3, _, _ => exact nx_3_9_eq P x hs
  | 4, _, _ => exact nx_4_9_eq P x hs
  | 5, _, _ => exact nx_5_9_eq P x hs
  | 6, _, _ => exact nx_6_9_eq P x hs
  | 7, _, _ => exact nx_7_9_eq P x hs
  | 8, _, _ => exact nx_8_9_eq P x hs
  | 9, _, _ => exact nx_9_9_eq P x hs

theorem nx_0_10_eq (P : Mat K) (x : PredIn K) (hs : ∀ i j, P i j = P j i) :
    nx_0_10 P x = rowF x 0 (fun k => rowF x 10 (fun l => P k l)) + imuCov x 0 10 := by
  simp only [nx_0_10, PS8, PS10, PS14, rowF_0 P, rowF_10, imuCov_off x 0 10 (by decide)]
  simp only [hs 11 10, hs 12 10]
  ring

theorem nx_1_10_eq (P : Mat K) (x : PredIn K) (hs : ∀ i j, P i j = P j i) :
    nx_1_10 P x = rowF x 1 (fun k => rowF x 10 (fun l => P k l)) + imuCov x 1 10 := by
  simp only [nx_1_10, PS83, PS84, PS85, rowF_1 P, rowF_10, imuCov_off x 1 10 (by decide)]
  simp only [hs 11 10, hs 12 10]
  ring

theorem nx_2_10_eq (P : Mat K) (x : PredIn K) (hs : ∀ i j, P i j = P j i) :
    nx_2_10 P x = rowF x 2 (fun k => rowF x 10 (fun l => P k l)) + imuCov x 2 10 := by
  simp only [nx_2_10, PS18, PS76, PS109, rowF_2 P, rowF_10, imuCov_off x 2 10 (by decide)]
  simp only [hs 11 10, hs 12 10]
  ring

theorem nx_3_10_eq (P : Mat K) (x : PredIn K) (hs : ∀ i j, P i j = P j i) :
    nx_3_10 P x = rowF x 3 (fun k => rowF x 10 (fun l => P k l)) + imuCov x 3 10 := by
  simp only [nx_3_10, PS15, PS86, PS123, rowF_3 P, rowF_10, imuCov_off x 3 10 (by decide)]
  simp only [hs 11 10, hs 12 10]
  ring

theorem nx_4_10_eq (P : Mat K) (x : PredIn K) (hs : ∀ i j, P i j = P j i) :
    nx_4_10 P x = rowF x 4 (fun k => rowF x 10 (fun l => P k l)) + imuCov x 4 10 := by
  simp only [nx_4_10, PS60, PS62, PS72, PS74, PS139, PS140, rowF_4 P, rowF_10, imuCov_off x 4 10 (by decide)]
  simp only [hs 13 10, hs 14 10, hs 15 10]
  ring

theorem nx_5_10_eq (P : Mat K) (x : PredIn K) (hs : ∀ i j, P i j = P j i) :
    nx_5_10 P x = rowF x 5 (fun k => rowF x 10 (fun l => P k l)) + imuCov x 5 10 := by
  simp only [nx_5_10, PS60, PS62, PS72, PS74, PS160, PS162, rowF_5 P, rowF_10, imuCov_off x 5 10 (by decide)]
  simp only [hs 13 10, hs 14 10, hs 15 10]
  ring

theorem nx_6_10_eq (P : Mat K) (x : PredIn K) (hs : ∀ i j, P i j = P j i) :
    nx_6_10 P x = rowF x 6 (fun k => rowF x 10 (fun l => P k l)) + imuCov x 6 10 := by
  simp only [nx_6_10, PS60, PS62, PS72, PS74, PS165, PS166, rowF_6 P, rowF_10, imuCov_off x 6 10 (by decide)]
  simp only [hs 13 10, hs 14 10, hs 15 10]
  ring

theorem nx_7_10_eq (P : Mat K) (x : PredIn K) (hs : ∀ i j, P i j = P j i) :
    nx_7_10 P x = rowF x 7 (fun k => rowF x 10 (fun l => P k l)) + imuCov x 7 10 := by
  simp only [nx_7_10, rowF_7, rowF_10, imuCov_off x 7 10 (by decide)]
  ring

theorem nx_8_10_eq (P : Mat K) (x : PredIn K) (hs : ∀ i j, P i j = P j i) :
    nx_8_10 P x = rowF x 8 (fun k => rowF x 10 (fun l => P k l)) + imuCov x 8 10 := by
  simp only [nx_8_10, rowF_8, rowF_10, imuCov_off x 8 10 (by decide)]
  ring

theorem nx_9_10_eq (P : Mat K) (x : PredIn K) (hs : ∀ i j, P i j = P j i) :
    nx_9_10 P x = rowF x 9 (fun k => rowF x 10 (fun l => P k l)) + imuCov x 9 10 := by
  simp only [nx_9_10, rowF_9, rowF_10, imuCov_off x 9 10 (by decide)]
  ring

theorem nx_10_10_eq (P : Mat K) (x : PredIn K) (hs : ∀ i j, P i j = P j i) :
    nx_10_10 P x = rowF x 10 (fun k => rowF x 10 (fun l => P k l)) + imuCov x 10 10 := by
  simp only [nx_10_10, rowF_10, rowF_10, imuCov_off x 10 10 (by decide)]
  ring

theorem nxCol10_eq (P : Mat K) (x : PredIn K) (hs : ∀ i j, P i j = P j i) (i : Fin N) (h : i ≤ 10) :
    nxCol10 P x i.val = rowF x i (fun k => rowF x 10 (fun l => P k l)) + imuCov x i 10 := by
  revert i h
  intro ⟨i, hi⟩ h
  have h' : i ≤ 10 := h
  match i, hi, h' with
  | 0, _, _ => exact nx_0_10_eq P x hs
  | 1, _, _ => exact nx_1_10_eq P x hs
  | 2, _, _ => exact nx_2_10_eq P x hs
  | 3, _, _ => exact nx_3_10_eq P x hs
  | 4, _, _ => exact nx_4_10_eq P x hs
  | 5, _, _ => exact nx_5_10_eq P x hs
  | 6, _, _ => exact nx_6_10_eq P x hs
  | 7, _, _ => exact nx_7_10_eq P x hs
  | 8, _, _ => exact nx_8_10_eq P x hs
  | 9, _, _ => exact nx_9_10_eq P x hs
  | 10, _, _ => exact nx_10_10_eq P x hs

theorem nx_0_11_eq (P : Mat K) (x : PredIn K) (hs : ∀ i j, P i j = P j i) :
    nx_0_11 P x = rowF x 0 (fun k => rowF x 11 (fun l => P k l)) + imuCov x 0 11 := by
  simp only [nx_0_11, PS15, PS16, PS17, rowF_0 P, rowF_11, imuCov_off x 0 11 (by decide)]
  simp only [hs 12 11]
  ring

theorem nx_1_11_eq (P : Mat K) (x : PredIn K) (hs : ∀ i j, P i j = P j i) :
    nx_1_11 P x = rowF x 1 (fun k => rowF x 11 (fun l => P k l)) + imuCov x 1 11 := by
  simp only [nx_1_11, PS19, PS76, PS77, rowF_1 P, rowF_11, imuCov_off x 1 11 (by decide)]
  simp only [hs 12 11]
  ring

theorem nx_2_11_eq (P : Mat K) (x : PredIn K) (hs : ∀ i j, P i j = P j i) :
    nx_2_11 P x = rowF x 2 (fun k => rowF x 11 (fun l => P k l)) + imuCov x 2 11 := by
  simp only [nx_2_11, PS83, PS107, PS108, rowF_2 P, rowF_11, imuCov_off x 2 11 (by decide)]
  simp only [hs 12 11]
  ring

theorem nx_3_11_eq (P : Mat K) (x : PredIn K) (hs : ∀ i j, P i j = P j i) :
    nx_3_11 P x = rowF x 3 (fun k => rowF x 11 (fun l => P k l)) + imuCov x 3 11 := by
  simp only [nx_3_11, PS8, PS102, PS127, rowF_3 P, rowF_11, imuCov_off x 3 11 (by decide)]
  simp only [hs 12 11]
  ring

theorem nx_4_11_eq (P : Mat K) (x : PredIn K) (hs : ∀ i j, P i j = P j i) :
    nx_4_11 P x = rowF x 4 (fun k => rowF x 11 (fun l => P k l)) + imuCov x 4 11 := by
  simp only [nx_4_11, PS60, PS62, PS72, PS74, PS139, PS140, rowF_4 P, rowF_11, imuCov_off x 4 11 (by decide)]
  simp only [hs 13 11, hs 14 11, hs 15 11]
  ring

theorem nx_5_11_eq (P : Mat K) (x : PredIn K) (hs : ∀ i j, P i j = P j i) :
    nx_5_11 P x = rowF x 5 (fun k => rowF x 11 (fun l => P k l)) + imuCov x 5 11 := by
  simp only [nx_5_11, PS60, PS62, PS72, PS74, PS160, PS162, rowF_5 P, rowF_11, imuCov_off x 5 11 (by decide)]
  simp only [hs 13 11, hs 14 11, hs 15 11]
  ring

theorem nx_6_11_eq (P : Mat K) (x : PredIn K) (hs : ∀ i j, P i j = P j i) :
    nx_6_11 P x = rowF x 6 (fun k => rowF x 11 (fun l => P k l)) + imuCov x 6 11 := by
  simp only [nx_6_11, PS60, PS62, PS72, PS74, PS165, PS166, rowF_6 P, rowF_11, imuCov_off x 6 11 (by decide)]
  simp only [hs 13 11, hs 14 11, hs 15 11]
  ring

theorem nx_7_11_eq (P : Mat K) (x : PredIn K) (hs : ∀ i j, P i j = P j i) :
    nx_7_11 P x = rowF x 7 (fun k => rowF x 11 (fun l => P k l)) + imuCov x 7 11 := by
  simp only [nx_7_11, rowF_7, rowF_11, imuCov_off x 7 11 (by decide)]
  ring

theorem nx_8_11_eq (P : Mat K) (x : PredIn K) (hs : ∀ i j, P i j = P j i) :
    nx_8_11 P x = rowF x 8 (fun k => rowF x 11 (fun l => P k l)) + imuCov x 8 11 := by
  simp only [nx_8_11, rowF_8, rowF_11, imuCov_off x 8 11 (by decide)]
  ring

theorem nx_9_11_eq (P : Mat K) (x : PredIn K) (hs : ∀ i j, P i j = P j i) :
    nx_9_11 P x = rowF x 9 (fun k => rowF x 11 (fun l => P k l)) + imuCov x 9 11 := by
  simp only [nx_9_11, rowF_9, rowF_11, imuCov_off x 9 11 (by decide)]
  ring

theorem nx_10_11_eq (P : Mat K) (x : PredIn K) (hs : ∀ i j, P i j = P j i) :
    nx_10_11 P x = rowF x 10 (fun k => rowF x 11 (fun l => P k l)) + imuCov x 10 11 := by
  simp only [nx_10_11, rowF_10, rowF_11, imuCov_off x 10 11 (by decide)]
  ring

theorem nx_11_11_eq (P : Mat K) (x : PredIn K) (hs : ∀ i j, P i j = P j i) :
    nx_11_11 P x = rowF x 11 (fun k => rowF x 11 (fun l => P k l)) + imuCov x 11 11 := by
  simp only [nx_11_11, rowF_11, rowF_11, imuCov_off x 11 11 (by decide)]
  ring

theorem nxCol11_eq (P : Mat K) (x : PredIn K) (hs : ∀ i j, P i j = P j i) (i : Fin N) (h : i ≤ 11) :
    nxCol11 P x i.val = rowF x i (fun k => rowF x 11 (fun l => P k l)) + imuCov x i 11 := by
  revert i h
  intro ⟨i, hi⟩ h
  have h' : i ≤ 11 := h
  match i, hi, h' with
  | 0, _, _ => exact nx_0_11_eq P x hs
  | 1, _, _ => exact nx_1_11_eq P x hs
  | 2, _, _ => exact nx_2_11_eq P x hs
  | 3, _, _ => exact nx_3_11_eq P x hs
  | 4, _, _ => exact nx_4_11_eq P x hs
  | 5, _, _ => exact nx_5_11_eq P x hs
  | 6, _, _ => exact nx_6_11_eq P x hs
  | 7, _, _ => exact nx_7_11_eq P x hs
  | 8, _, _ => exact nx_8_11_eq P x hs
  | 9, _, _ => exact nx_9_11_eq P x hs
  | 10, _, _ => exact nx_10_11_eq P x hs
  | 11, _, _ => exact nx_11_11_eq P x hs

theorem nx_0_12_eq (P : Mat K) (x : PredIn K) (hs : ∀ i j, P i j = P j i) :
    nx_0_12 P x = rowF x 0 (fun k => rowF x 12 (fun l => P k l)) + imuCov x 0 12 := by
  simp only [nx_0_12, PS18, PS19, PS20, rowF_0 P, rowF_12, imuCov_off x 0 12 (by decide)]
  ring

theorem nx_1_12_eq (P : Mat K) (x : PredIn K) (hs : ∀ i j, P i j = P j i) :
    nx_1_12 P x = rowF x 1 (fun k => rowF x 12 (fun l => P k l)) + imuCov x 1 12 := by
  simp only [nx_1_12, PS16, PS86, PS87, rowF_1 P, rowF_12, imuCov_off x 1 12 (by decide)]
  ring

theorem nx_2_12_eq (P : Mat K) (x : PredIn K) (hs : ∀ i j, P i j = P j i) :
    nx_2_12 P x = rowF x 2 (fun k => rowF x 12 (fun l => P k l)) + imuCov x 2 12 := by
  simp only [nx_2_12, PS10, PS102, PS103, rowF_2 P, rowF_12, imuCov_off x 2 12 (by decide)]
  ring

theorem nx_3_12_eq (P : Mat K) (x : PredIn K) (hs : ∀ i j, P i j = P j i) :
    nx_3_12 P x = rowF x 3 (fun k => rowF x 12 (fun l => P k l)) + imuCov x 3 12 := by
  simp only [nx_3_12, PS84, PS107, PS126, rowF_3 P, rowF_12, imuCov_off x 3 12 (by decide)]
  ring

theorem nx_4_12_eq (P : Mat K) (x : PredIn K) (hs : ∀ i j, P i j = P j i) :
    nx_4_12 P x = rowF x 4 (fun k => rowF x 12 (fun l => P k l)) + imuCov x 4 12 := by
  simp only [nx_4_12, PS60, PS62, PS72, PS74, PS139, PS140, rowF_4 P, rowF_12, imuCov_off x 4 12 (by decide)]
  simp only [hs 13 12, hs 14 12, hs 15 12]
  ring

theorem nx_5_12_eq (P : Mat K) (x : PredIn K) (hs : ∀ i j, P i j = P j i) :
    nx_5_12 P x = rowF x 5 (fun k => rowF x 12 (fun l => P k l)) + imuCov x 5 12 := by
  simp only [nx_5_12, PS60, PS62, PS72, PS74, PS160, PS162, rowF_5 P, rowF_12, imuCov_off x 5 12 (by decide)]
  simp only [hs 13 12, hs 14 12, hs 15 12]
  ring

theorem nx_6_12_eq (P : Mat K) (x : PredIn K) (hs : ∀ i j, P i j = P j i) :
    nx_6_12 P x = rowF x 6 (fun k => rowF x 12 (fun l => P k l)) + imuCov x 6 12 := by
  simp only [nx_6_12, PS60, PS62, PS72, PS74, PS165, PS166, rowF_6 P, rowF_12, imuCov_off x 6 12 (by decide)]
  simp only [hs 13 12, hs 14 12, hs 15 12]
  ring

theorem nx_7_12_eq (P : Mat K) (x : PredIn K) (hs : ∀ i j, P i j = P j i) :
    nx_7_12 P x = rowF x 7 (fun k => rowF x 12 (fun l => P k l)) + imuCov x 7 12 := by
  simp only [nx_7_12, rowF_7, rowF_12, imuCov_off x 7 12 (by decide)]
  ring

theorem nx_8_12_eq (P : Mat K) (x : PredIn K) (hs : ∀ i j, P i j = P j i) :
    nx_8_12 P x = rowF x 8 (fun k => rowF x 12 (fun l => P k l)) + imuCov x 8 12 := by
  simp only [nx_8_12, rowF_8, rowF_12, imuCov_off x 8 12 (by decide)]
  ring

theorem nx_9_12_eq (P : Mat K) (x : PredIn K) (hs : ∀ i j, P i j = P j i) :
    nx_9_12 P x = rowF x 9 (fun k => rowF x 12 (fun l => P k l)) + imuCov x 9 12 := by
  simp only [nx_9_12, rowF_9, rowF_12, imuCov_off x 9 12 (by decide)]
  ring

theorem nx_10_12_eq (P : Mat K) (x : PredIn K) (hs : ∀ i j, P i j = P j i) :
    nx_10_12 P x = rowF x 10 (fun k => rowF x 12 (fun l => P k l)) + imuCov x 10 12 := by
  simp only [nx_10_12, rowF_10, rowF_12, imuCov_off x 10 12 (by decide)]
  ring

theorem nx_11_12_eq (P : Mat K) (x : PredIn K) (hs : ∀ i j, P i j = P j i) :
    nx_11_12 P x = rowF x 11 (fun k => rowF x 12 (fun l => P k l)) + imuCov x 11 12 := by
  simp only [nx_11_12, rowF_11, rowF_12, imuCov_off x 11 12 (by decide)]
  ring

theorem nx_12_12_eq (P : Mat K) (x : PredIn K) (hs : ∀ i j, P i j = P j i) :
    nx_12_12 P x = rowF x 12 (fun k => rowF x 12 (fun l => P k l)) + imuCov x 12 12 := by
  simp only [nx_12_12, rowF_12, rowF_12, imuCov_off x 12 12 (by decide)]
  ring

theorem nxCol12_eq (P : Mat K) (x : PredIn K) (hs : ∀ i j, P i j = P j i) (i : Fin N) (h : i ≤ 12) :
    nxCol12 P x i.val = rowF x i (fun k => rowF x 12 (fun l => P k l)) + imuCov x i 12 := by
  revert i h
  intro ⟨i, hi⟩ h
  have h' : i ≤ 12 := h
  match i, hi, h' with
  | 0, _, _ => exact nx_0_12_eq P x hs
  | 1, _, _ => exact nx_1_12_eq P x hs
  | 2, _, _ => exact nx_2_12_eq P x hs
  | 3, _, _ => exact nx_3_12_eq P x hs
  | 4, _, _ => exact nx_4_12_eq P x hs
  | 5, _, _ => exact nx_5_12_eq P x hs
  | 6, _, _ => exact nx_6_12_eq P x hs
  | 7, _, _ => exact nx_7_12_eq P x hs
  | 8, _, _ => exact nx_8_12_eq P x hs
  | 9, _, _ => exact nx_9_12_eq P x hs
  | 10, _, _ => exact nx_10_12_eq P x hs
  | 11, _, _ => exact nx_11_12_eq P x hs
  | 12, _, _ => exact nx_12_12_eq P x hs

theorem nx_0_13_eq (P : Mat K) (x : PredIn K) (hs : ∀ i j, P i j = P j i) :
    nx_0_13 P x = rowF x 0 (fun k => rowF x 13 (fun l => P k l)) + imuCov x 0 13 := by
  simp only [nx_0_13, PS45, rowF_0 P, rowF_13, imuCov_off x 0 13 (by decide)]
  ring

theorem nx_1_13_eq (P : Mat K) (x : PredIn K) (hs : ∀ i j, P i j = P j i) :
    nx_1_13 P x = rowF x 1 (fun k => rowF x 13 (fun l => P k l)) + imuCov x 1 13 := by
  simp only [nx_1_13, PS93, rowF_1 P, rowF_13, imuCov_off x 1 13 (by decide)]
  ring

theorem nx_2_13_eq (P : Mat K) (x : PredIn K) (hs : ∀ i j, P i j = P j i) :
    nx_2_13 P x = rowF x 2 (fun k => rowF x 13 (fun l => P k l)) + imuCov x 2 13 := by
  simp only [nx_2_13, PS114, rowF_2 P, rowF_13, imuCov_off x 2 13 (by decide)]
  ring

theorem nx_3_13_eq (P : Mat K) (x : PredIn K) (hs : ∀ i j, P i j = P j i) :
    nx_3_13 P x = rowF x 3 (fun k => rowF x 13 (fun l => P k l)) + imuCov x 3 13 := by
  simp only [nx_3_13, PS130, rowF_3 P, rowF_13, imuCov_off x 3 13 (by decide)]
  ring

theorem nx_4_13_eq (P : Mat K) (x : PredIn K) (hs : ∀ i j, P i j = P j i) :
    nx_4_13 P x = rowF x 4 (fun k => rowF x 13 (fun l => P k l)) + imuCov x 4 13 := by
  simp only [nx_4_13, PS60, PS62, PS72, PS74, PS139, PS140, PS141, rowF_4 P, rowF_13, imuCov_off x 4 13 (by decide)]
  simp only [hs 14 13, hs 15 13]
  ring

theorem nx_5_13_eq (P : Mat K) (x : PredIn K) (hs : ∀ i j, P i j = P j i) :
    nx_5_13 P x = rowF x 5 (fun k => rowF x 13 (fun l => P k l)) + imuCov x 5 13 := by
  simp only [nx_5_13, PS60, PS62, PS72, PS74, PS160, PS162, PS170, rowF_5 P, rowF_13, imuCov_off x 5 13 (by decide)]
  simp only [hs 14 13, hs 15 13]
  ring

theorem nx_6_13_eq (P : Mat K) (x : PredIn K) (hs : ∀ i j, P i j = P j i) :
    nx_6_13 P x = rowF x 6 (fun k => rowF x 13 (fun l => P k l)) + imuCov x 6 13 := by
  simp only [nx_6_13, PS60, PS62, PS72, PS74, PS165, PS166, PS185, rowF_6 P, rowF_13, imuCov_off x 6 13 (by decide)]
  simp only [hs 14 13, hs 15 13]
  ring

theorem nx_7_13_eq (P : Mat K) (x : PredIn K) (hs : ∀ i j, P i j = P j i) :
    nx_7_13 P x = rowF x 7 (fun k => rowF x 13 (fun l => P k l)) + imuCov x 7 13 := by
  simp only [nx_7_13, rowF_7, rowF_13, imuCov_off x 7 13 (by decide)]
  ring

theorem nx_8_13_eq (P : Mat K) (x : PredIn K) (hs : ∀ i j, P i j = P j i) :
    nx_8_13 P x = rowF x 8 (fun k => rowF x 13 (fun l => P k l)) + imuCov x 8 13 := by
  simp only [nx_8_13, rowF_8, rowF_13, imuCov_off x 8 13 (by decide)]
  ring

theorem nx_9_13_eq (P : Mat K) (x : PredIn K) (hs : ∀ i j, P i j = P j i) :
    nx_9_13 P x = rowF x 9 (fun k => rowF x 13 (fun l => P k l)) + imuCov x 9 13 := by
  simp only [nx_9_13, rowF_9, rowF_13, imuCov_off x 9 13 (by decide)]
  ring

theorem nx_10_13_eq (P : Mat K) (x : PredIn K) (hs : ∀ i j, P i j = P j i) :
    nx_10_13 P x = rowF x 10 (fun k => rowF x 13 (fun l => P k l)) + imuCov x 10 13 := by
  simp only [nx_10_13, rowF_10, rowF_13, imuCov_off x 10 13 (by decide)]
  ring

theorem nx_11_13_eq (P : Mat K) (x : PredIn K) (hs : ∀ i j, P i j = P j i) :
    nx_11_13 P x = rowF x 11 (fun k => rowF x 13 (fun l => P k l)) + imuCov x 11 13 := by
  simp only [nx_11_13, rowF_11, rowF_13, imuCov_off x 11 13 (by decide)]
  ring

theorem nx_12_13_eq (P : Mat K) (x : PredIn K) (hs : ∀ i j, P i j = P j i) :
    nx_12_13 P x = rowF x 12 (fun k => rowF x 13 (fun l => P k l)) + imuCov x 12 13 := by
  simp only [nx_12_13, rowF_12, rowF_13, imuCov_off x 12 13 (by decide)]
  ring

theorem nx_13_13_eq (P : Mat K) (x : PredIn K) (hs : ∀ i j, P i j = P j i) :
    nx_13_13 P x = rowF x 13 (fun k => rowF x 13 (fun l => P k l)) + imuCov x 13 13 := by
  simp only [nx_13_13, rowF_13, rowF_13, imuCov_off x 13 13 (by decide)]
  ring

theorem nxCol13_eq (P : Mat K) (x : PredIn K) (hs : ∀ i j, P i j = P j i) (i : Fin N) (h : i ≤ 13) :
    nxCol13 P x i.val = rowF x i (fun k => rowF x 13 (fun l => P k l)) + imuCov x i 13 := by
  revert i h
  intro ⟨i, hi⟩ h
  have h' : i ≤ 13 := h
  match i, hi, h' with
  | 0, _, _ => exact nx_0_13_eq P x hs
  | 1, _, _ => exact nx_1_13_eq P x hs
  | 2, _, _ => exact nx_2_13_eq P x hs
  | 3, _, _ => exact nx_3_13_eq P x hs
  | 4, _, _ => exact nx_4_13_eq P x hs
  | 5, _, _ => exact nx_5_13_eq P x hs
  | 6, _, _ => exact nx_6_13_eq P x hs
  | 7, _, _ => exact nx_7_13_eq P x hs
  | 8, _, _ => exact nx_8_13_eq P x hs
  | 9, _, _ => exact nx_9_13_eq P x hs
  | 10, _, _ => exact nx_10_13_eq P x hs
  | 11, _, _ => exact nx_11_13_eq P x hs
  | 12, _, _ => exact nx_12_13_eq P x hs
  | 13, _, _ => exact nx_13_13_eq P x hs

theorem nx_0_14_eq (P : Mat K) (x : PredIn K) (hs : ∀ i j, P i j = P j i) :
    nx_0_14 P x = rowF x 0 (fun k => rowF x 14 (fun l => P k l)) + imuCov x 0 14 := by
  simp only [nx_0_14, PS55, rowF_0 P, rowF_14, imuCov_off x 0 14 (by decide)]
  ring

theorem nx_1_14_eq (P : Mat K) (x : PredIn K) (hs : ∀ i j, P i j = P j i) :
    nx_1_14 P x = rowF x 1 (fun k => rowF x 14 (fun l => P k l)) + imuCov x 1 14 := by
  simp only [nx_1_14, PS96, rowF_1 P, rowF_14, imuCov_off x 1 14 (by decide)]
  ring

theorem nx_2_14_eq (P : Mat K) (x : PredIn K) (hs : ∀ i j, P i j = P j i) :
    nx_2_14 P x = rowF x 2 (fun k => rowF x 14 (fun l => P k l)) + imuCov x 2 14 := by
  simp only [nx_2_14, PS117, rowF_2 P, rowF_14, imuCov_off x 2 14 (by decide)]
  ring

theorem nx_3_14_eq (P : Mat K) (x : PredIn K) (hs : ∀ i j, P i j = P j i) :
    nx_3_14 P x = rowF x 3 (fun k => rowF x 14 (fun l => P k l)) + imuCov x 3 14 := by
  simp only [nx_3_14, PS133, rowF_3 P, rowF_14, imuCov_off x 3 14 (by decide)]
  ring

theorem nx_4_14_eq (P : Mat K) (x : PredIn K) (hs : ∀ i j, P i j = P j i) :
    nx_4_14 P x = rowF x 4 (fun k => rowF x 14 (fun l => P k l)) + imuCov x 4 14 := by
  simp only [nx_4_14, PS60, PS62, PS72, PS74, PS139, PS140, PS146, rowF_4 P, rowF_14, imuCov_off x 4 14 (by decide)]
  simp only [hs 15 14]
  ring

theorem nx_5_14_eq (P : Mat K) (x : PredIn K) (hs : ∀ i j, P i j = P j i) :
    nx_5_14 P x = rowF x 5 (fun k => rowF x 14 (fun l => P k l)) + imuCov x 5 14 := by
  simp only [nx_5_14, PS60, PS62, PS72, PS74, PS160, PS162, PS169, rowF_5 P, rowF_14, imuCov_off x 5 14 (by decide)]
  simp only [hs 15 14]
  ring

theorem nx_6_14_eq (P : Mat K) (x : PredIn K) (hs : ∀ i j, P i j = P j i) :
    nx_6_14 P x = rowF x 6 (fun k => rowF x 14 (fun l => P k l)) + imuCov x 6 14 := by
  simp only [nx_6_14, PS60, PS62, PS72, PS74, PS165, PS166, PS184, rowF_6 P, rowF_14, imuCov_off x 6 14 (by decide)]
  simp only [hs 15 14]
  ring

theorem nx_7_14_eq (P : Mat K) (x : PredIn K) (hs : ∀ i j, P i j = P j i) :
    nx_7_14 P x = rowF x 7 (fun k => rowF x 14 (fun l => P k l)) + imuCov x 7 14 := by
  simp only [nx_7_14, rowF_7, rowF_14, imuCov_off x 7 14 (by decide)]
  ring

theorem nx_8_14_eq (P : Mat K) (x : PredIn K) (hs : ∀ i j, P i j = P j i) :
    nx_8_14 P x = rowF x 8 (fun k => rowF x 14 (fun l => P k l)) + imuCov x 8 14 := by
  simp only [nx_8_14, rowF_8, rowF_14, imuCov_off x 8 14 (by decide)]
  ring

theorem nx_9_14_eq (P : Mat K) (x : PredIn K) (hs : ∀ i j, P i j = P j i) :
    nx_9_14 P x = rowF x 9 (fun k => rowF x 14 (fun l => P k l)) + imuCov x 9 14 := by
  simp only [nx_9_14, rowF_9, rowF_14, imuCov_off x 9 14 (by decide)]
  ring

theorem nx_10_14_eq (P : Mat K) (x : PredIn K) (hs : ∀ i j, P i j = P j i) :
    nx_10_14 P x = rowF x 10 (fun k => rowF x 14 (fun l => P k l)) + imuCov x 10 14 := by
  simp only [nx_10_14, rowF_10, rowF_14, imuCov_off x 10 14 (by decide)]
  ring

theorem nx_11_14_eq (P : Mat K) (x : PredIn K) (hs : ∀ i j, P i j = P j i) :
    nx_11_14 P x = rowF x 11 (fun k => rowF x 14 (fun l => P k l)) + imuCov x 11 14 := by
  simp only [nx_11_14, rowF_11, rowF_14, imuCov_off x 11 14 (by decide)]
  ring

theorem nx_12_14_eq (P : Mat K) (x : PredIn K) (hs : ∀ i j, P i j = P j i) :
    nx_12_14 P x = rowF x 12 (fun k => rowF x 14 (fun l => P k l)) + imuCov x 12 14 := by
  simp only [nx_12_14, rowF_12, rowF_14, imuCov_off x 12 14 (by decide)]
  ring

theorem nx_13_14_eq (P : Mat K) (x : PredIn K) (hs : ∀ i j, P i j = P j i) :
    nx_13_14 P x = rowF x 13 (fun k => rowF x 14 (fun l => P k l)) + imuCov x 13 14 := by
  simp only [nx_13_14, rowF_13, rowF_14, imuCov_off x 13 14 (by decide)]
  ring

theorem nx_14_14_eq (P : Mat K) (x : PredIn K) (hs : ∀ i j, P i j = P j i) :
    nx_14_14 P x = rowF x 14 (fun k => rowF x 14 (fun l => P k l)) + imuCov x 14 14 := by
  simp only [nx_14_14, rowF_14, rowF_14, imuCov_off x 14 14 (by decide)]
  ring

theorem nxCol14_eq (P : Mat K) (x : PredIn K) (hs : ∀ i j, P i j = P j i) (i : Fin N) (h : i ≤ 14) :
    nxCol14 P x i.val = rowF x i (fun k => rowF x 14 (fun l => P k l)) + imuCov x i 14 := by
  revert i h
  intro ⟨i, hi⟩ h
  have h' : i ≤ 14 := h
  match i, hi, h' with
  | 0, _, _ => exact nx_0_14_eq P x hs
  | 1, _, _ => exact nx_1_14_eq P x hs
  | 2, _, _ => exact nx_2_14_eq P x hs
  | 3, _, _ => exact nx_3_14_eq P x hs
  | 4, _, _ => exact nx_4_14_eq P x hs
  | 5, _, _ => exact nx_5_14_eq P x hs
  | 6, _, _ => exact nx_6_14_eq P x hs
  | 7, _, _ => exact nx_7_14_eq P x hs
  | 8, _, _ => exact nx_8_14_eq P x hs
  | 9, _, _ => exact nx_9_14_eq P x hs
  | 10, _, _ => exact nx_10_14_eq P x hs
  | 11, _, _ => exact nx_11_14_eq P x hs
  | 12, _, _ => exact nx_12_14_eq P x hs
  | 13, _, _ => exact nx_13_14_eq P x hs
  | 14, _, _ => exact nx_14_14_eq P x hs

theorem nx_0_15_eq (P : Mat K) (x : PredIn K) (hs : ∀ i j, P i j = P j i) :
    nx_0_15 P x = rowF x 0 (fun k => rowF x 15 (fun l => P k l)) + imuCov x 0 15 := by
  simp only [nx_0_15, PS47, rowF_0 P, rowF_15, imuCov_off x 0 15 (by decide)]
  ring

theorem nx_1_15_eq (P : Mat K) (x : PredIn K) (hs : ∀ i j, P i j = P j i) :
    nx_1_15 P x = rowF x 1 (fun k => rowF x 15 (fun l => P k l)) + imuCov x 1 15 := by
  simp only [nx_1_15, PS94, rowF_1 P, rowF_15, imuCov_off x 1 15 (by decide)]
  ring

theorem nx_2_15_eq (P : Mat K) (x : PredIn K) (hs : ∀ i j, P i j = P j i) :
    nx_2_15 P x = rowF x 2 (fun k => rowF x 15 (fun l => P k l)) + imuCov x 2 15 := by
  simp only [nx_2_15, PS115, rowF_2 P, rowF_15, imuCov_off x 2 15 (by decide)]
  ring

theorem nx_3_15_eq (P : Mat K) (x : PredIn K) (hs : ∀ i j, P i j = P j i) :
    nx_3_15 P x = rowF x 3 (fun k => rowF x 15 (fun l => P k l)) + imuCov x 3 15 := by
  simp only [nx_3_15, PS131, rowF_3 P, rowF_15, imuCov_off x 3 15 (by decide)]
  ring

theorem nx_4_15_eq (P : Mat K) (x : PredIn K) (hs : ∀ i j, P i j = P j i) :
    nx_4_15 P x = rowF x 4 (fun k => rowF x 15 (fun l => P k l)) + imuCov x 4 15 := by
  simp only [nx_4_15, PS60, PS62, PS72, PS74, PS139, PS140, PS142, rowF_4 P, rowF_15, imuCov_off x 4 15 (by decide)]
  ring

theorem nx_5_15_eq (P : Mat K) (x : PredIn K) (hs : ∀ i j, P i j = P j i) :
    nx_5_15 P x = rowF x 5 (fun k => rowF x 15 (fun l => P k l)) + imuCov x 5 15 := by
  simp only [nx_5_15, PS60, PS62, PS72, PS74, PS160, PS162, PS173, rowF_5 P, rowF_15, imuCov_off x 5 15 (by decide)]
  ring

theorem nx_6_15_eq (P : Mat K) (x : PredIn K) (hs : ∀ i j, P i j = P j i) :
    nx_6_15 P x = rowF x 6 (fun k => rowF x 15 (fun l => P k l)) + imuCov x 6 15 := by
  simp only [nx_6_15, PS60, PS62, PS72, PS74, PS165, PS166, PS183, rowF_6 P, rowF_15, imuCov_off x 6 15 (by decide)]
  ring

theorem nx_7_15_eq (P : Mat K) (x : PredIn K) (hs : ∀ i j, P i j = P j i) :
    nx_7_15 P x = rowF x 7 (fun k => rowF x 15 (fun l => P k l)) + imuCov x 7 15 := by
  simp only [nx_7_15, rowF_7, rowF_15, imuCov_off x 7 15 (by decide)]
  ring

theorem nx_8_15_eq (P : Mat K) (x : PredIn K) (hs : ∀ i j, P i j = P j i) :
    nx_8_15 P x = rowF x 8 (fun k => rowF x 15 (fun l => P k l)) + imuCov x 8 15 := by
  simp only [nx_8_15, rowF_8, rowF_15, imuCov_off x 8 15 (by decide)]
  ring

theorem nx_9_15_eq (P : Mat K) (x : PredIn K) (hs : ∀ i j, P i j = P j i) :
    nx_9_15 P x = rowF x 9 (fun k => rowF x 15 (fun l => P k l)) + imuCov x 9 15 := by
  simp only [nx_9_15, rowF_9, rowF_15, imuCov_off x 9 15 (by decide)]
  ring

theorem nx_10_15_eq (P : Mat K) (x : PredIn K) (hs : ∀ i j, P i j = P j i) :
    nx_10_15 P x = rowF x 10 (fun k => rowF x 15 (fun l => P k l)) + imuCov x 10 15 := by
  simp only [nx_10_15, rowF_10, rowF_15, imuCov_off x 10 15 (by decide)]
  ring

theorem nx_11_15_eq (P : Mat K) (x : PredIn K) (hs : ∀ i j, P i j = P j i) :
    nx_11_15 P x = rowF x 11 (fun k => rowF x 15 (fun l => P k l)) + imuCov x 11 15 := by
  simp only [nx_11_15, rowF_11, rowF_15, imuCov_off x 11 15 (by decide)]
  ring

theorem nx_12_15_eq (P : Mat K) (x : PredIn K) (hs : ∀ i j, P i j = P j i) :
    nx_12_15 P x = rowF x 12 (fun k => rowF x 15 (fun l => P k l)) + imuCov x 12 15 := by
  simp only [nx_12_15, rowF_12, rowF_15, imuCov_off x 12 15 (by decide)]
  ring

theorem nx_13_15_eq (P : Mat K) (x : PredIn K) (hs : ∀ i j, P i j = P j i) :
    nx_13_15 P x = rowF x 13 (fun k => rowF x 15 (fun l => P k l)) + imuCov x 13 15 := by
  simp only [nx_13_15, rowF_13, rowF_15, imuCov_off x 13 15 (by decide)]
  ring

theorem nx_14_15_eq (P : Mat K) (x : PredIn K) (hs : ∀ i j, P i j = P j i) :
    nx_14_15 P x = rowF x 14 (fun k => rowF x 15 (fun l => P k l)) + imuCov x 14 15 := by
  simp only [nx_14_15, rowF_14, rowF_15, imuCov_off x 14 15 (by decide)]
  ring

theorem nx_15_15_eq (P : Mat K) (x : PredIn K) (hs : ∀ i j, P i j = P j i) :
    nx_15_15 P x = rowF x 15 (fun k => rowF x 15 (fun l => P k l)) + imuCov x 15 15 := by
  simp only [nx_15_15, rowF_15, rowF_15, imuCov_off x 15 15 (by decide)]
  ring

theorem nxCol15_eq (P : Mat K) (x : PredIn K) (hs : ∀ i j, P i j = P j i) (i : Fin N) (h : i ≤ 15) :
    nxCol15 P x i.val = rowF x i (fun k => rowF x 15 (fun l => P k l)) + imuCov x i 15 := by
  revert i h
  intro ⟨i, hi⟩ h
  have h' : i ≤ 15 := h
  match i, hi, h' with
  | 0, _, _ => exact nx_0_15_eq P x hs
  | 1, _, _ => exact nx_1_15_eq P x hs
  | 2, _, _ => exact nx_2_15_eq P x hs
  | 3, _, _ => exact nx_3_15_eq P x hs
  | 4, _, _ => exact nx_4_15_eq P x hs
  | 5, _, _ => exact nx_5_15_eq P x hs
  | 6, _, _ => exact nx_6_15_eq P x hs
  | 7, _, _ => exact nx_7_15_eq P x hs
  | 8, _, _ => exact nx_8_15_eq P x hs
  | 9, _, _ => exact nx_9_15_eq P x hs
  | 10, _, _ => exact nx_10_15_eq P x hs
  | 11, _, _ => exact nx_11_15_eq P x hs
  | 12, _, _ => exact nx_12_15_eq P x hs
  | 13, _, _ => exact nx_13_15_eq P x hs
  | 14, _, _ => exact nx_14_15_eq P x hs
  | 15, _, _ => exact nx_15_15_eq P x hs

end Ecl.Cov
