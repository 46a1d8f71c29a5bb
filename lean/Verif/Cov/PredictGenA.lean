import Verif.Cov.PredictSpec

/-!
# Entry by entry: the transcribed equations equal `F P Fᵀ + G Q Gᵀ` (generated by tools/gen_cov.py)
-/

set_option linter.unusedSimpArgs false
set_option linter.unusedSectionVars false
set_option linter.unusedVariables false

namespace Ecl.Cov

variable {K : Type*} [Field K] [CharZero K]

theorem nx_0_0_eq (P : Mat K) (x : PredIn K) (hs : ∀ i j, P i j = P j i) :
    nx_0_0 P x = rowF x 0 (fun k => rowF x 0 (fun l => P k l)) + imuCov x 0 0 := by
  simp only [nx_0_0, PS0, PS1, PS2, PS3, PS4, PS5, PS6, PS7, PS8, PS9, PS10, PS11, PS12, PS13, PS14, PS15, PS16, PS17, PS18, PS19, PS20, PS21, PS22, PS23, PS24, PS25, PS26, PS27, PS28, PS29, PS30, PS31, PS32, PS33, PS34, rowF_0 P, rowF_0 P, noise_0_0]
  simp only [hs 1 0, hs 2 0, hs 2 1, hs 3 0, hs 3 1, hs 3 2, hs 10 0, hs 10 1, hs 10 2, hs 10 3, hs 11 0, hs 11 1, hs 11 2, hs 11 3, hs 11 10, hs 12 0, hs 12 1, hs 12 2, hs 12 3, hs 12 10, hs 12 11]
  ring

theorem nxCol0_eq (P : Mat K) (x : PredIn K) (hs : ∀ i j, P i j = P j i) (i : Fin N) (h : i ≤ 0) :
    nxCol0 P x i.val = rowF x i (fun k => rowF x 0 (fun l => P k l)) + imuCov x i 0 := by
  revert i h
  intro ⟨i, hi⟩ h
  have h' : i ≤ 0 := h
  match i, hi, h' with
  | 0, _, _ => exact nx_0_0_eq P x hs

theorem nx_0_1_eq (P : Mat K) (x : PredIn K) (hs : ∀ i j, P i j = P j i) :
    nx_0_1 P x = rowF x 0 (fun k => rowF x 1 (fun l => P k l)) + imuCov x 0 1 := by
  simp only [nx_0_1, PS1, PS3, PS5, PS6, PS7, PS8, PS9, PS10, PS11, PS12, PS13, PS14, PS15, PS16, PS17, PS18, PS19, PS20, PS21, PS22, PS23, PS24, PS25, PS26, PS27, PS28, PS29, PS30, PS31, PS32, PS33, PS34, PS35, PS36, rowF_0 P, rowF_1 P, noise_0_1]
  simp only [hs 1 0, hs 2 0, hs 2 1, hs 3 0, hs 3 1, hs 3 2, hs 10 0, hs 10 1, hs 10 2, hs 10 3, hs 11 0, hs 11 1, hs 11 2, hs 11 3, hs 11 10, hs 12 0, hs 12 1, hs 12 2, hs 12 3, hs 12 10, hs 12 11]
  ring

theorem nx_1_1_eq (P : Mat K) (x : PredIn K) (hs : ∀ i j, P i j = P j i) :
    nx_1_1 P x = rowF x 1 (fun k => rowF x 1 (fun l => P k l)) + imuCov x 1 1 := by
  simp only [nx_1_1, PS1, PS2, PS3, PS4, PS5, PS6, PS7, PS9, PS11, PS12, PS13, PS16, PS19, PS25, PS28, PS30, PS34, PS42, PS76, PS77, PS78, PS79, PS80, PS81, PS82, PS83, PS84, PS85, PS86, PS87, PS88, PS89, PS90, PS91, PS92, rowF_1 P, rowF_1 P, noise_1_1]
  simp only [hs 1 0, hs 2 0, hs 2 1, hs 3 0, hs 3 1, hs 3 2, hs 10 0, hs 10 1, hs 10 2, hs 10 3, hs 11 0, hs 11 1, hs 11 2, hs 11 3, hs 11 10, hs 12 0, hs 12 1, hs 12 2, hs 12 3, hs 12 10, hs 12 11]
  ring

theorem nxCol1_eq (P : Mat K) (x : PredIn K) (hs : ∀ i j, P i j = P j i) (i : Fin N) (h : i ≤ 1) :
    nxCol1 P x i.val = rowF x i (fun k => rowF x 1 (fun l => P k l)) + imuCov x i 1 := by
  revert i h
  intro ⟨i, hi⟩ h
  have h' : i ≤ 1 := h
  match i, hi, h' with
  | 0, _, _ => exact nx_0_1_eq P x hs
  | 1, _, _ => exact nx_1_1_eq P x hs

theorem nx_0_2_eq (P : Mat K) (x : PredIn K) (hs : ∀ i j, P i j = P j i) :
    nx_0_2 P x = rowF x 0 (fun k => rowF x 2 (fun l => P k l)) + imuCov x 0 2 := by
  simp only [nx_0_2, PS1, PS3, PS5, PS6, PS7, PS8, PS9, PS10, PS11, PS12, PS13, PS14, PS15, PS16, PS17, PS18, PS19, PS20, PS21, PS22, PS23, PS24, PS25, PS26, PS27, PS28, PS29, PS30, PS31, PS32, PS33, PS34, PS37, PS38, rowF_0 P, rowF_2 P, noise_0_2]
  simp only [hs 1 0, hs 2 0, hs 2 1, hs 3 0, hs 3 1, hs 3 2, hs 10 0, hs 10 1, hs 10 2, hs 10 3, hs 11 0, hs 11 1, hs 11 2, hs 11 3, hs 11 10, hs 12 0, hs 12 1, hs 12 2, hs 12 3, hs 12 10, hs 12 11]
  ring

theorem nx_1_2_eq (P : Mat K) (x : PredIn K) (hs : ∀ i j, P i j = P j i) :
    nx_1_2 P x = rowF x 1 (fun k => rowF x 2 (fun l => P k l)) + imuCov x 1 2 := by
  simp only [nx_1_2, PS1, PS3, PS5, PS6, PS7, PS9, PS11, PS12, PS13, PS16, PS19, PS25, PS28, PS30, PS34, PS39, PS40, PS76, PS77, PS78, PS79, PS80, PS81, PS82, PS83, PS84, PS85, PS86, PS87, PS88, PS89, PS90, PS91, PS92, rowF_1 P, rowF_2 P, noise_1_2]
  simp only [hs 1 0, hs 2 0, hs 2 1, hs 3 0, hs 3 1, hs 3 2, hs 10 0, hs 10 1, hs 10 2, hs 10 3, hs 11 0, hs 11 1, hs 11 2, hs 11 3, hs 11 10, hs 12 0, hs 12 1, hs 12 2, hs 12 3, hs 12 10, hs 12 11]
  ring

theorem nx_2_2_eq (P : Mat K) (x : PredIn K) (hs : ∀ i j, P i j = P j i) :
    nx_2_2 P x = rowF x 2 (fun k => rowF x 2 (fun l => P k l)) + imuCov x 2 2 := by
  simp only [nx_2_2, PS0, PS1, PS3, PS4, PS5, PS6, PS7, PS9, PS10, PS11, PS12, PS13, PS18, PS22, PS27, PS31, PS34, PS42, PS76, PS79, PS83, PS88, PS90, PS102, PS103, PS104, PS105, PS106, PS107, PS108, PS109, PS110, PS111, PS112, PS113, rowF_2 P, rowF_2 P, noise_2_2]
  simp only [hs 1 0, hs 2 0, hs 2 1, hs 3 0, hs 3 1, hs 3 2, hs 10 0, hs 10 1, hs 10 2, hs 10 3, hs 11 0, hs 11 1, hs 11 2, hs 11 3, hs 11 10, hs 12 0, hs 12 1, hs 12 2, hs 12 3, hs 12 10, hs 12 11]
  ring

theorem nxCol2_eq (P : Mat K) (x : PredIn K) (hs : ∀ i j, P i j = P j i) (i : Fin N) (h : i ≤ 2) :
    nxCol2 P x i.val = rowF x i (fun k => rowF x 2 (fun l => P k l)) + imuCov x i 2 := by
  revert i h
  intro ⟨i, hi⟩ h
  have h' : i ≤ 2 := h
  match i, hi, h' with
  | 0, _, _ => exact nx_0_2_eq P x hs
  | 1, _, _ => exact nx_1_2_eq P x hs
  | 2, _, _ => exact nx_2_2_eq P x hs

theorem nx_0_3_eq (P : Mat K) (x : PredIn K) (hs : ∀ i j, P i j = P j i) :
    nx_0_3 P x = rowF x 0 (fun k => rowF x 3 (fun l => P k l)) + imuCov x 0 3 := by
  simp only [nx_0_3, PS1, PS3, PS5, PS6, PS7, PS8, PS9, PS10, PS11, PS12, PS13, PS14, PS15, PS16, PS17, PS18, PS19, PS20, PS21, PS22, PS23, PS24, PS25, PS26, PS27, PS28, PS29, PS30, PS31, PS32, PS33, PS34, PS39, PS40, rowF_0 P, rowF_3 P, noise_0_3]
  simp only [hs 1 0, hs 2 0, hs 2 1, hs 3 0, hs 3 1, hs 3 2, hs 10 0, hs 10 1, hs 10 2, hs 10 3, hs 11 0, hs 11 1, hs 11 2, hs 11 3, hs 11 10, hs 12 0, hs 12 1, hs 12 2, hs 12 3, hs 12 10, hs 12 11]
  ring

theorem nx_1_3_eq (P : Mat K) (x : PredIn K) (hs : ∀ i j, P i j = P j i) :
    nx_1_3 P x = rowF x 1 (fun k => rowF x 3 (fun l => P k l)) + imuCov x 1 3 := by
  simp only [nx_1_3, PS1, PS3, PS5, PS6, PS7, PS9, PS11, PS12, PS13, PS16, PS19, PS25, PS28, PS30, PS34, PS37, PS38, PS76, PS77, PS78, PS79, PS80, PS81, PS82, PS83, PS84, PS85, PS86, PS87, PS88, PS89, PS90, PS91, PS92, rowF_1 P, rowF_3 P, noise_1_3]
  simp only [hs 1 0, hs 2 0, hs 2 1, hs 3 0, hs 3 1, hs 3 2, hs 10 0, hs 10 1, hs 10 2, hs 10 3, hs 11 0, hs 11 1, hs 11 2, hs 11 3, hs 11 10, hs 12 0, hs 12 1, hs 12 2, hs 12 3, hs 12 10, hs 12 11]
  ring

theorem nx_2_3_eq (P : Mat K) (x : PredIn K) (hs : ∀ i j, P i j = P j i) :
    nx_2_3 P x = rowF x 2 (fun k => rowF x 3 (fun l => P k l)) + imuCov x 2 3 := by
  simp only [nx_2_3, PS1, PS3, PS5, PS6, PS7, PS9, PS10, PS11, PS12, PS13, PS18, PS22, PS27, PS31, PS34, PS35, PS36, PS76, PS79, PS83, PS88, PS90, PS102, PS103, PS104, PS105, PS106, PS107, PS108, PS109, PS110, PS111, PS112, PS113, rowF_2 P, rowF_3 P, noise_2_3]
  simp only [hs 1 0, hs 2 0, hs 2 1, hs 3 0, hs 3 1, hs 3 2, hs 10 0, hs 10 1, hs 10 2, hs 10 3, hs 11 0, hs 11 1, hs 11 2, hs 11 3, hs 11 10, hs 12 0, hs 12 1, hs 12 2, hs 12 3, hs 12 10, hs 12 11]
  ring

theorem nx_3_3_eq (P : Mat K) (x : PredIn K) (hs : ∀ i j, P i j = P j i) :
    nx_3_3 P x = rowF x 3 (fun k => rowF x 3 (fun l => P k l)) + imuCov x 3 3 := by
  simp only [nx_3_3, PS0, PS1, PS2, PS3, PS5, PS6, PS7, PS8, PS9, PS11, PS12, PS13, PS15, PS21, PS24, PS32, PS34, PS42, PS78, PS81, PS84, PS86, PS91, PS102, PS105, PS107, PS110, PS112, PS123, PS124, PS125, PS126, PS127, PS128, PS129, rowF_3 P, rowF_3 P, noise_3_3]
  simp only [hs 1 0, hs 2 0, hs 2 1, hs 3 0, hs 3 1, hs 3 2, hs 10 0, hs 10 1, hs 10 2, hs 10 3, hs 11 0, hs 11 1, hs 11 2, hs 11 3, hs 11 10, hs 12 0, hs 12 1, hs 12 2, hs 12 3, hs 12 10, hs 12 11]
  ring

theorem nxCol3_eq (P : Mat K) (x : PredIn K) (hs : ∀ i j, P i j = P j i) (i : Fin N) (h : i ≤ 3) :
    nxCol3 P x i.val = rowF x i (fun k => rowF x 3 (fun l => P k l)) + imuCov x i 3 := by
  revert i h
  intro ⟨i, hi⟩ h
  have h' : i ≤ 3 := h
  match i, hi, h' with
  | 0, _, _ => exact nx_0_3_eq P x hs
  | 1, _, _ => exact nx_1_3_eq P x hs
  | 2, _, _ => exact nx_2_3_eq P x hs
  | 3, _, _ => exact nx_3_3_eq P x hs

end Ecl.Cov
