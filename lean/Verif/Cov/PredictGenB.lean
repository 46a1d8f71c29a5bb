import Verif.Cov.PredictSpec

/-!
# Entry by entry: the transcribed equations equal `F P Fᵀ + G Q Gᵀ` (generated by tools/gen_cov.py)
-/

set_option linter.unusedSimpArgs false
set_option linter.unusedSectionVars false
set_option linter.unusedVariables false

namespace Ecl.Cov

variable {K : Type*} [Field K] [CharZero K]

theorem nx_0_4_eq (P : Mat K) (x : PredIn K) (hs : ∀ i j, P i j = P j i) :
    nx_0_4 P x = rowF x 0 (fun k => rowF x 4 (fun l => P k l)) + imuCov x 0 4 := by
  simp only [nx_0_4, PS21, PS22, PS23, PS24, PS25, PS26, PS27, PS28, PS29, PS30, PS31, PS32, PS33, PS45, PS47, PS48, PS53, PS55, PS56, PS58, PS60, PS62, PS63, rowF_0 P, rowF_4 P, imuCov_off x 0 4 (by decide)]
  simp only [hs 1 0, hs 2 0, hs 2 1, hs 3 0, hs 3 1, hs 3 2, hs 10 0, hs 10 1, hs 10 2, hs 10 3, hs 10 4, hs 11 0, hs 11 1, hs 11 2, hs 11 3, hs 11 4, hs 12 0, hs 12 1, hs 12 2, hs 12 3, hs 12 4]
  ring

theorem nx_1_4_eq (P : Mat K) (x : PredIn K) (hs : ∀ i j, P i j = P j i) :
    nx_1_4 P x = rowF x 1 (fun k => rowF x 4 (fun l => P k l)) + imuCov x 1 4 := by
  simp only [nx_1_4, PS25, PS28, PS30, PS60, PS62, PS72, PS74, PS78, PS79, PS80, PS81, PS82, PS88, PS89, PS90, PS91, PS92, PS93, PS94, PS95, PS96, PS97, PS98, rowF_1 P, rowF_4 P, imuCov_off x 1 4 (by decide)]
  simp only [hs 1 0, hs 2 0, hs 2 1, hs 3 0, hs 3 1, hs 3 2, hs 10 0, hs 10 1, hs 10 2, hs 10 3, hs 10 4, hs 11 0, hs 11 1, hs 11 2, hs 11 3, hs 11 4, hs 12 0, hs 12 1, hs 12 2, hs 12 3, hs 12 4]
  ring

theorem nx_2_4_eq (P : Mat K) (x : PredIn K) (hs : ∀ i j, P i j = P j i) :
    nx_2_4 P x = rowF x 2 (fun k => rowF x 4 (fun l => P k l)) + imuCov x 2 4 := by
  simp only [nx_2_4, PS22, PS27, PS31, PS60, PS62, PS72, PS74, PS79, PS88, PS90, PS104, PS105, PS106, PS110, PS111, PS112, PS113, PS114, PS115, PS116, PS117, PS118, PS119, rowF_2 P, rowF_4 P, imuCov_off x 2 4 (by decide)]
  simp only [hs 1 0, hs 2 0, hs 2 1, hs 3 0, hs 3 1, hs 3 2, hs 10 0, hs 10 1, hs 10 2, hs 10 3, hs 10 4, hs 11 0, hs 11 1, hs 11 2, hs 11 3, hs 11 4, hs 12 0, hs 12 1, hs 12 2, hs 12 3, hs 12 4]
  ring

theorem nx_3_4_eq (P : Mat K) (x : PredIn K) (hs : ∀ i j, P i j = P j i) :
    nx_3_4 P x = rowF x 3 (fun k => rowF x 4 (fun l => P k l)) + imuCov x 3 4 := by
  simp only [nx_3_4, PS21, PS24, PS32, PS60, PS62, PS72, PS74, PS78, PS81, PS91, PS105, PS110, PS112, PS124, PS125, PS128, PS129, PS130, PS131, PS132, PS133, PS134, PS135, rowF_3 P, rowF_4 P, imuCov_off x 3 4 (by decide)]
  simp only [hs 1 0, hs 2 0, hs 2 1, hs 3 0, hs 3 1, hs 3 2, hs 10 0, hs 10 1, hs 10 2, hs 10 3, hs 10 4, hs 11 0, hs 11 1, hs 11 2, hs 11 3, hs 11 4, hs 12 0, hs 12 1, hs 12 2, hs 12 3, hs 12 4]
  ring

theorem nx_4_4_eq (P : Mat K) (x : PredIn K) (hs : ∀ i j, P i j = P j i) :
    nx_4_4 P x = rowF x 4 (fun k => rowF x 4 (fun l => P k l)) + imuCov x 4 4 := by
  simp only [nx_4_4, PS60, PS62, PS72, PS74, PS139, PS140, PS141, PS142, PS143, PS144, PS145, PS146, PS147, PS148, PS149, PS150, PS151, PS152, PS153, PS154, PS155, PS156, PS157, PS158, rowF_4 P, rowF_4 P, noise_4_4 P]
  simp only [hs 1 0, hs 2 0, hs 2 1, hs 3 0, hs 3 1, hs 3 2, hs 4 0, hs 4 1, hs 4 2, hs 4 3, hs 13 0, hs 13 1, hs 13 2, hs 13 3, hs 13 4, hs 14 0, hs 14 1, hs 14 2, hs 14 3, hs 14 4, hs 14 13, hs 15 0, hs 15 1, hs 15 2, hs 15 3, hs 15 4, hs 15 13, hs 15 14]
  ring

theorem nxCol4_eq (P : Mat K) (x : PredIn K) (hs : ∀ i j, P i j = P j i) (i : Fin N) (h : i ≤ 4) :
    nxCol4 P x i.val = rowF x i (fun k => rowF x 4 (fun l => P k l)) + imuCov x i 4 := by
  revert i h
  intro ⟨i, hi⟩ h
  have h' : i ≤ 4 := h
  match i, hi, h' with
  | 0, _, _ => exact nx_0_4_eq P x hs
  | 1, _, _ => exact nx_1_4_eq P x hs
  | 2, _, _ => exact nx_2_4_eq P x hs
  | 3, _, _ => exact nx_3_4_eq P x hs
  | 4, _, _ => exact nx_4_4_eq P x hs

theorem nx_0_5_eq (P : Mat K) (x : PredIn K) (hs : ∀ i j, P i j = P j i) :
    nx_0_5 P x = rowF x 0 (fun k => rowF x 5 (fun l => P k l)) + imuCov x 0 5 := by
  simp only [nx_0_5, PS21, PS22, PS23, PS24, PS25, PS26, PS27, PS28, PS29, PS30, PS31, PS32, PS33, PS45, PS47, PS48, PS53, PS55, PS58, PS60, PS62, PS67, PS69, rowF_0 P, rowF_5 P, imuCov_off x 0 5 (by decide)]
  simp only [hs 1 0, hs 2 0, hs 2 1, hs 3 0, hs 3 1, hs 3 2, hs 10 0, hs 10 1, hs 10 2, hs 10 3, hs 10 5, hs 11 0, hs 11 1, hs 11 2, hs 11 3, hs 11 5, hs 12 0, hs 12 1, hs 12 2, hs 12 3, hs 12 5]
  ring

theorem nx_1_5_eq (P : Mat K) (x : PredIn K) (hs : ∀ i j, P i j = P j i) :
    nx_1_5 P x = rowF x 1 (fun k => rowF x 5 (fun l => P k l)) + imuCov x 1 5 := by
  simp only [nx_1_5, PS25, PS28, PS30, PS60, PS62, PS72, PS74, PS78, PS79, PS80, PS81, PS82, PS88, PS89, PS90, PS91, PS92, PS93, PS94, PS95, PS96, PS99, PS100, rowF_1 P, rowF_5 P, imuCov_off x 1 5 (by decide)]
  simp only [hs 1 0, hs 2 0, hs 2 1, hs 3 0, hs 3 1, hs 3 2, hs 10 0, hs 10 1, hs 10 2, hs 10 3, hs 10 5, hs 11 0, hs 11 1, hs 11 2, hs 11 3, hs 11 5, hs 12 0, hs 12 1, hs 12 2, hs 12 3, hs 12 5]
  ring

theorem nx_2_5_eq (P : Mat K) (x : PredIn K) (hs : ∀ i j, P i j = P j i) :
    nx_2_5 P x = rowF x 2 (fun k => rowF x 5 (fun l => P k l)) + imuCov x 2 5 := by
  simp only [nx_2_5, PS22, PS27, PS31, PS60, PS62, PS72, PS74, PS79, PS88, PS90, PS104, PS105, PS106, PS110, PS111, PS112, PS113, PS114, PS115, PS116, PS117, PS120, PS121, rowF_2 P, rowF_5 P, imuCov_off x 2 5 (by decide)]
  simp only [hs 1 0, hs 2 0, hs 2 1, hs 3 0, hs 3 1, hs 3 2, hs 10 0, hs 10 1, hs 10 2, hs 10 3, hs 10 5, hs 11 0, hs 11 1, hs 11 2, hs 11 3, hs 11 5, hs 12 0, hs 12 1, hs 12 2, hs 12 3, hs 12 5]
  ring

theorem nx_3_5_eq (P : Mat K) (x : PredIn K) (hs : ∀ i j, P i j = P j i) :
    nx_3_5 P x = rowF x 3 (fun k => rowF x 5 (fun l => P k l)) + imuCov x 3 5 := by
  simp only [nx_3_5, PS21, PS24, PS32, PS60, PS62, PS72, PS74, PS78, PS81, PS91, PS105, PS110, PS112, PS124, PS125, PS128, PS129, PS130, PS131, PS132, PS133, PS136, PS137, rowF_3 P, rowF_5 P, imuCov_off x 3 5 (by decide)]
  simp only [hs 1 0, hs 2 0, hs 2 1, hs 3 0, hs 3 1, hs 3 2, hs 10 0, hs 10 1, hs 10 2, hs 10 3, hs 10 5, hs 11 0, hs 11 1, hs 11 2, hs 11 3, hs 11 5, hs 12 0, hs 12 1, hs 12 2, hs 12 3, hs 12 5]
  ring

theorem nx_4_5_eq (P : Mat K) (x : PredIn K) (hs : ∀ i j, P i j = P j i) :
    nx_4_5 P x = rowF x 4 (fun k => rowF x 5 (fun l => P k l)) + imuCov x 4 5 := by
  simp only [nx_4_5, PS60, PS62, PS72, PS74, PS139, PS140, PS141, PS142, PS143, PS144, PS145, PS146, PS147, PS148, PS149, PS150, PS151, PS152, PS153, PS154, PS155, PS157, PS159, PS160, PS161, PS162, PS163, PS164, rowF_4 P, rowF_5 P, noise_4_5 P]
  simp only [hs 1 0, hs 2 0, hs 2 1, hs 3 0, hs 3 1, hs 3 2, hs 4 0, hs 4 1, hs 4 2, hs 4 3, hs 13 0, hs 13 1, hs 13 2, hs 13 3, hs 13 5, hs 14 0, hs 14 1, hs 14 2, hs 14 3, hs 14 5, hs 14 13, hs 15 0, hs 15 1, hs 15 2, hs 15 3, hs 15 5, hs 15 13, hs 15 14]
  ring

theorem nx_5_5_eq (P : Mat K) (x : PredIn K) (hs : ∀ i j, P i j = P j i) :
    nx_5_5 P x = rowF x 5 (fun k => rowF x 5 (fun l => P k l)) + imuCov x 5 5 := by
  simp only [nx_5_5, PS60, PS62, PS72, PS74, PS144, PS148, PS150, PS153, PS157, PS160, PS162, PS169, PS170, PS171, PS172, PS173, PS174, PS175, PS176, PS177, PS178, PS179, PS180, PS181, rowF_5 P, rowF_5 P, noise_5_5 P]
  simp only [hs 1 0, hs 2 0, hs 2 1, hs 3 0, hs 3 1, hs 3 2, hs 5 0, hs 5 1, hs 5 2, hs 5 3, hs 13 0, hs 13 1, hs 13 2, hs 13 3, hs 13 5, hs 14 0, hs 14 1, hs 14 2, hs 14 3, hs 14 5, hs 14 13, hs 15 0, hs 15 1, hs 15 2, hs 15 3, hs 15 5, hs 15 13, hs 15 14]
  ring

theorem nxCol5_eq (P : Mat K) (x : PredIn K) (hs : ∀ i j, P i j = P j i) (i : Fin N) (h : i ≤ 5) :
    nxCol5 P x i.val = rowF x i (fun k => rowF x 5 (fun l => P k l)) + imuCov x i 5 := by
  revert i h
  intro ⟨i, hi⟩ h
  have h' : i ≤ 5 := h
  match i, hi, h' with
  | 0, _, _ => exact nx_0_5_eq P x hs
  | 1, _, _ => exact nx_1_5_eq P x hs
  | 2, _, _ => exact nx_2_5_eq P x hs
  | 3, _, _ => exact nx_3_5_eq P x hs
  | 4, _, _ => exact nx_4_5_eq P x hs
  | 5, _, _ => exact nx_5_5_eq P x hs

theorem nx_0_6_eq (P : Mat K) (x : PredIn K) (hs : ∀ i j, P i j = P j i) :
    nx_0_6 P x = rowF x 0 (fun k => rowF x 6 (fun l => P k l)) + imuCov x 0 6 := by
  simp only [nx_0_6, PS21, PS22, PS23, PS24, PS25, PS26, PS27, PS28, PS29, PS30, PS31, PS32, PS33, PS45, PS47, PS53, PS55, PS56, PS58, PS67, PS72, PS74, PS75, rowF_0 P, rowF_6 P, imuCov_off x 0 6 (by decide)]
  simp only [hs 1 0, hs 2 0, hs 2 1, hs 3 0, hs 3 1, hs 3 2, hs 10 0, hs 10 1, hs 10 2, hs 10 3, hs 10 6, hs 11 0, hs 11 1, hs 11 2, hs 11 3, hs 11 6, hs 12 0, hs 12 1, hs 12 2, hs 12 3, hs 12 6]
  ring

theorem nx_1_6_eq (P : Mat K) (x : PredIn K) (hs : ∀ i j, P i j = P j i) :
    nx_1_6 P x = rowF x 1 (fun k => rowF x 6 (fun l => P k l)) + imuCov x 1 6 := by
  simp only [nx_1_6, PS25, PS28, PS30, PS60, PS62, PS72, PS74, PS78, PS79, PS80, PS81, PS82, PS88, PS89, PS90, PS91, PS92, PS93, PS94, PS96, PS97, PS99, PS101, rowF_1 P, rowF_6 P, imuCov_off x 1 6 (by decide)]
  simp only [hs 1 0, hs 2 0, hs 2 1, hs 3 0, hs 3 1, hs 3 2, hs 10 0, hs 10 1, hs 10 2, hs 10 3, hs 10 6, hs 11 0, hs 11 1, hs 11 2, hs 11 3, hs 11 6, hs 12 0, hs 12 1, hs 12 2, hs 12 3, hs 12 6]
  ring

theorem nx_2_6_eq (P : Mat K) (x : PredIn K) (hs : ∀ i j, P i j = P j i) :
    nx_2_6 P x = rowF x 2 (fun k => rowF x 6 (fun l => P k l)) + imuCov x 2 6 := by
  simp only [nx_2_6, PS22, PS27, PS31, PS60, PS62, PS72, PS74, PS79, PS88, PS90, PS104, PS105, PS106, PS110, PS111, PS112, PS113, PS114, PS115, PS117, PS118, PS120, PS122, rowF_2 P, rowF_6 P, imuCov_off x 2 6 (by decide)]
  simp only [hs 1 0, hs 2 0, hs 2 1, hs 3 0, hs 3 1, hs 3 2, hs 10 0, hs 10 1, hs 10 2, hs 10 3, hs 10 6, hs 11 0, hs 11 1, hs 11 2, hs 11 3, hs 11 6, hs 12 0, hs 12 1, hs 12 2, hs 12 3, hs 12 6]
  ring

theorem nx_3_6_eq (P : Mat K) (x : PredIn K) (hs : ∀ i j, P i j = P j i) :
    nx_3_6 P x = rowF x 3 (fun k => rowF x 6 (fun l => P k l)) + imuCov x 3 6 := by
  simp only [nx_3_6, PS21, PS24, PS32, PS60, PS62, PS72, PS74, PS78, PS81, PS91, PS105, PS110, PS112, PS124, PS125, PS128, PS129, PS130, PS131, PS133, PS134, PS136, PS138, rowF_3 P, rowF_6 P, imuCov_off x 3 6 (by decide)]
  simp only [hs 1 0, hs 2 0, hs 2 1, hs 3 0, hs 3 1, hs 3 2, hs 10 0, hs 10 1, hs 10 2, hs 10 3, hs 10 6, hs 11 0, hs 11 1, hs 11 2, hs 11 3, hs 11 6, hs 12 0, hs 12 1, hs 12 2, hs 12 3, hs 12 6]
  ring

theorem nx_4_6_eq (P : Mat K) (x : PredIn K) (hs : ∀ i j, P i j = P j i) :
    nx_4_6 P x = rowF x 4 (fun k => rowF x 6 (fun l => P k l)) + imuCov x 4 6 := by
  simp only [nx_4_6, PS60, PS62, PS72, PS74, PS139, PS140, PS141, PS142, PS143, PS144, PS145, PS146, PS147, PS148, PS149, PS150, PS151, PS152, PS153, PS154, PS155, PS156, PS159, PS163, PS165, PS166, PS167, PS168, rowF_4 P, rowF_6 P, noise_4_6 P]
  simp only [hs 1 0, hs 2 0, hs 2 1, hs 3 0, hs 3 1, hs 3 2, hs 4 0, hs 4 1, hs 4 2, hs 4 3, hs 13 0, hs 13 1, hs 13 2, hs 13 3, hs 13 6, hs 14 0, hs 14 1, hs 14 2, hs 14 3, hs 14 6, hs 14 13, hs 15 0, hs 15 1, hs 15 2, hs 15 3, hs 15 6, hs 15 13, hs 15 14]
  ring

theorem nx_5_6_eq (P : Mat K) (x : PredIn K) (hs : ∀ i j, P i j = P j i) :
    nx_5_6 P x = rowF x 5 (fun k => rowF x 6 (fun l => P k l)) + imuCov x 5 6 := by
  simp only [nx_5_6, PS60, PS62, PS72, PS74, PS144, PS148, PS150, PS153, PS160, PS161, PS162, PS165, PS166, PS167, PS169, PS170, PS171, PS172, PS173, PS174, PS175, PS176, PS177, PS178, PS179, PS180, PS182, rowF_5 P, rowF_6 P, noise_5_6 P]
  simp only [hs 1 0, hs 2 0, hs 2 1, hs 3 0, hs 3 1, hs 3 2, hs 5 0, hs 5 1, hs 5 2, hs 5 3, hs 13 0, hs 13 1, hs 13 2, hs 13 3, hs 13 6, hs 14 0, hs 14 1, hs 14 2, hs 14 3, hs 14 6, hs 14 13, hs 15 0, hs 15 1, hs 15 2, hs 15 3, hs 15 6, hs 15 13, hs 15 14]
  ring

theorem nx_6_6_eq (P : Mat K) (x : PredIn K) (hs : ∀ i j, P i j = P j i) :
    nx_6_6 P x = rowF x 6 (fun k => rowF x 6 (fun l => P k l)) + imuCov x 6 6 := by
  simp only [nx_6_6, PS60, PS62, PS72, PS74, PS143, PS147, PS151, PS154, PS156, PS165, PS166, PS171, PS174, PS176, PS178, PS180, PS183, PS184, PS185, PS186, rowF_6 P, rowF_6 P, noise_6_6 P]
  simp only [hs 1 0, hs 2 0, hs 2 1, hs 3 0, hs 3 1, hs 3 2, hs 6 0, hs 6 1, hs 6 2, hs 6 3, hs 13 0, hs 13 1, hs 13 2, hs 13 3, hs 13 6, hs 14 0, hs 14 1, hs 14 2, hs 14 3, hs 14 6, hs 14 13, hs 15 0, hs 15 1, hs 15 2, hs 15 3, hs 15 6, hs 15 13, hs 15 14]
  ring

theorem nxCol6_eq (P : Mat K) (x : PredIn K) (hs : ∀ i j, P i j = P j i) (i : Fin N) (h : i ≤ 6) :
    nxCol6 P x i.val = rowF x i (fun k => rowF x 6 (fun l => P k l)) + imuCov x i 6 := by
  revert i h
  intro ⟨i, hi⟩ h
  have h' : i ≤ 6 := h
  match i, hi, h' with
  | 0, _, _ => exact nx_0_6_eq P x hs
  | 1, _, _ => exact nx_1_6_eq P x hs
  | 2, _, _ => exact nx_2_6_eq P x hs
  | 3, _, _ => exact nx_3_6_eq P x hs
  | 4, _, _ => exact nx_4_6_eq P x hs
  | 5, _, _ => exact nx_5_6_eq P x hs
  | 6, _, _ => exact nx_6_6_eq P x hs

end Ecl.Cov
