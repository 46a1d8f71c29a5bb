import Verif.Fusion.GenMagY
import Verif.Fusion.GenMagZ

/-!
# Innovation variance pre-check of the magnetometer Y and Z axes (generated by tools/gen_magiv.py)
-/

set_option linter.unusedSectionVars false
set_option linter.unusedSimpArgs false
set_option linter.unusedVariables false

namespace Ecl.Fusion.MagIV

open Ecl.Cov

section
variable {K : Type*} [Field K] [CharZero K]

/-- EKF/mag_fusion.cpp:109 -/
def IV0 (P : Mat K) (s : Vec K) (R a b : K) : K := (s 0) * (s 1)

/-- EKF/mag_fusion.cpp:110 -/
def IV1 (P : Mat K) (s : Vec K) (R a b : K) : K := (s 2) * (s 3)

/-- EKF/mag_fusion.cpp:111 -/
def IV2 (P : Mat K) (s : Vec K) (R a b : K) : K := 2 * (IV0 P s R a b) + 2 * (IV1 P s R a b)

/-- EKF/mag_fusion.cpp:112 -/
def IV3 (P : Mat K) (s : Vec K) (R a b : K) : K := 2 * (s 0) * (s 3) - 2 * (s 1) * (s 2)

/-- EKF/mag_fusion.cpp:113 -/
def IV4 (P : Mat K) (s : Vec K) (R a b : K) : K := 2 * (s 18) * (s 3) + 2 * (s 17) * (s 2) + 2 * (s 16) * (s 1)

/-- EKF/mag_fusion.cpp:114 -/
def IV5 (P : Mat K) (s : Vec K) (R a b : K) : K := 2 * (s 18) * (s 1) + 2 * (s 17) * (s 0) - 2 * (s 16) * (s 3)

/-- EKF/mag_fusion.cpp:115 -/
def IV6 (P : Mat K) (s : Vec K) (R a b : K) : K := 2 * (s 18) * (s 0) - 2 * (s 17) * (s 1) + 2 * (s 16) * (s 2)

/-- EKF/mag_fusion.cpp:116 -/
def IV7 (P : Mat K) (s : Vec K) (R a b : K) : K := -2 * (s 18) * (s 2) + 2 * (s 17) * (s 3) + 2 * (s 16) * (s 0)

/-- EKF/mag_fusion.cpp:117 -/
def IV8 (P : Mat K) (s : Vec K) (R a b : K) : K := ((s 2)) ^ 2

/-- EKF/mag_fusion.cpp:118 -/
def IV9 (P : Mat K) (s : Vec K) (R a b : K) : K := ((s 3)) ^ 2

/-- EKF/mag_fusion.cpp:119 -/
def IV10 (P : Mat K) (s : Vec K) (R a b : K) : K := ((s 0)) ^ 2 - ((s 1)) ^ 2

/-- EKF/mag_fusion.cpp:120 -/
def IV11 (P : Mat K) (s : Vec K) (R a b : K) : K := (IV10 P s R a b) + (IV8 P s R a b) - (IV9 P s R a b)

/-- EKF/mag_fusion.cpp:121 -/
def IV12 (P : Mat K) (s : Vec K) (R a b : K) : K := (IV7 P s R a b) * (P 2 3)

/-- EKF/mag_fusion.cpp:122 -/
def IV13 (P : Mat K) (s : Vec K) (R a b : K) : K := (IV5 P s R a b) * (P 0 1)

/-- EKF/mag_fusion.cpp:123 -/
def IV14 (P : Mat K) (s : Vec K) (R a b : K) : K := (IV6 P s R a b) * (P 0 1)

/-- EKF/mag_fusion.cpp:124 -/
def IV15 (P : Mat K) (s : Vec K) (R a b : K) : K := (IV4 P s R a b) * (P 2 3)

/-- EKF/mag_fusion.cpp:125 -/
def IV16 (P : Mat K) (s : Vec K) (R a b : K) : K := 2 * (s 0) * (s 2) + 2 * (s 1) * (s 3)

/-- EKF/mag_fusion.cpp:126 -/
def IV17 (P : Mat K) (s : Vec K) (R a b : K) : K := 2 * (IV0 P s R a b) - 2 * (IV1 P s R a b)

/-- EKF/mag_fusion.cpp:127 -/
def IV18 (P : Mat K) (s : Vec K) (R a b : K) : K := (IV10 P s R a b) - (IV8 P s R a b) + (IV9 P s R a b)

/-- EKF/mag_fusion.cpp:129 -/
def S1 (P : Mat K) (s : Vec K) (R a b : K) : K := (IV11 P s R a b) * (P 17 20) + (IV11 P s R a b) * ((IV11 P s R a b) * (P 17 17) + (IV2 P s R a b) * (P 17 18) - (IV3 P s R a b) * (P 16 17) + (IV4 P s R a b) * (P 2 17) + (IV5 P s R a b) * (P 0 17) + (IV6 P s R a b) * (P 1 17) - (IV7 P s R a b) * (P 3 17) + (P 17 20)) + (IV2 P s R a b) * (P 18 20) + (IV2 P s R a b) * ((IV11 P s R a b) * (P 17 18) + (IV2 P s R a b) * (P 18 18) - (IV3 P s R a b) * (P 16 18) + (IV4 P s R a b) * (P 2 18) + (IV5 P s R a b) * (P 0 18) + (IV6 P s R a b) * (P 1 18) - (IV7 P s R a b) * (P 3 18) + (P 18 20)) - (IV3 P s R a b) * (P 16 20) - (IV3 P s R a b) * ((IV11 P s R a b) * (P 16 17) + (IV2 P s R a b) * (P 16 18) - (IV3 P s R a b) * (P 16 16) + (IV4 P s R a b) * (P 2 16) + (IV5 P s R a b) * (P 0 16) + (IV6 P s R a b) * (P 1 16) - (IV7 P s R a b) * (P 3 16) + (P 16 20)) + (IV4 P s R a b) * (P 2 20) + (IV4 P s R a b) * ((IV11 P s R a b) * (P 2 17) - (IV12 P s R a b) + (IV2 P s R a b) * (P 2 18) - (IV3 P s R a b) * (P 2 16) + (IV4 P s R a b) * (P 2 2) + (IV5 P s R a b) * (P 0 2) + (IV6 P s R a b) * (P 1 2) + (P 2 20)) + (IV5 P s R a b) * (P 0 20) + (IV5 P s R a b) * ((IV11 P s R a b) * (P 0 17) + (IV14 P s R a b) + (IV2 P s R a b) * (P 0 18) - (IV3 P s R a b) * (P 0 16) + (IV4 P s R a b) * (P 0 2) + (IV5 P s R a b) * (P 0 0) - (IV7 P s R a b) * (P 0 3) + (P 0 20)) + (IV6 P s R a b) * (P 1 20) + (IV6 P s R a b) * ((IV11 P s R a b) * (P 1 17) + (IV13 P s R a b) + (IV2 P s R a b) * (P 1 18) - (IV3 P s R a b) * (P 1 16) + (IV4 P s R a b) * (P 1 2) + (IV6 P s R a b) * (P 1 1) - (IV7 P s R a b) * (P 1 3) + (P 1 20)) - (IV7 P s R a b) * (P 3 20) - (IV7 P s R a b) * ((IV11 P s R a b) * (P 3 17) + (IV15 P s R a b) + (IV2 P s R a b) * (P 3 18) - (IV3 P s R a b) * (P 3 16) + (IV5 P s R a b) * (P 0 3) + (IV6 P s R a b) * (P 1 3) - (IV7 P s R a b) * (P 3 3) + (P 3 20)) + (P 20 20) + R

/-- EKF/mag_fusion.cpp:130 -/
def S2 (P : Mat K) (s : Vec K) (R a b : K) : K := (IV16 P s R a b) * (P 16 21) + (IV16 P s R a b) * ((IV16 P s R a b) * (P 16 16) - (IV17 P s R a b) * (P 16 17) + (IV18 P s R a b) * (P 16 18) + (IV4 P s R a b) * (P 3 16) - (IV5 P s R a b) * (P 1 16) + (IV6 P s R a b) * (P 0 16) + (IV7 P s R a b) * (P 2 16) + (P 16 21)) - (IV17 P s R a b) * (P 17 21) - (IV17 P s R a b) * ((IV16 P s R a b) * (P 16 17) - (IV17 P s R a b) * (P 17 17) + (IV18 P s R a b) * (P 17 18) + (IV4 P s R a b) * (P 3 17) - (IV5 P s R a b) * (P 1 17) + (IV6 P s R a b) * (P 0 17) + (IV7 P s R a b) * (P 2 17) + (P 17 21)) + (IV18 P s R a b) * (P 18 21) + (IV18 P s R a b) * ((IV16 P s R a b) * (P 16 18) - (IV17 P s R a b) * (P 17 18) + (IV18 P s R a b) * (P 18 18) + (IV4 P s R a b) * (P 3 18) - (IV5 P s R a b) * (P 1 18) + (IV6 P s R a b) * (P 0 18) + (IV7 P s R a b) * (P 2 18) + (P 18 21)) + (IV4 P s R a b) * (P 3 21) + (IV4 P s R a b) * ((IV12 P s R a b) + (IV16 P s R a b) * (P 3 16) - (IV17 P s R a b) * (P 3 17) + (IV18 P s R a b) * (P 3 18) + (IV4 P s R a b) * (P 3 3) - (IV5 P s R a b) * (P 1 3) + (IV6 P s R a b) * (P 0 3) + (P 3 21)) - (IV5 P s R a b) * (P 1 21) - (IV5 P s R a b) * ((IV14 P s R a b) + (IV16 P s R a b) * (P 1 16) - (IV17 P s R a b) * (P 1 17) + (IV18 P s R a b) * (P 1 18) + (IV4 P s R a b) * (P 1 3) - (IV5 P s R a b) * (P 1 1) + (IV7 P s R a b) * (P 1 2) + (P 1 21)) + (IV6 P s R a b) * (P 0 21) + (IV6 P s R a b) * (-(IV13 P s R a b) + (IV16 P s R a b) * (P 0 16) - (IV17 P s R a b) * (P 0 17) + (IV18 P s R a b) * (P 0 18) + (IV4 P s R a b) * (P 0 3) + (IV6 P s R a b) * (P 0 0) + (IV7 P s R a b) * (P 0 2) + (P 0 21)) + (IV7 P s R a b) * (P 2 21) + (IV7 P s R a b) * ((IV15 P s R a b) + (IV16 P s R a b) * (P 2 16) - (IV17 P s R a b) * (P 2 17) + (IV18 P s R a b) * (P 2 18) - (IV5 P s R a b) * (P 1 2) + (IV6 P s R a b) * (P 0 2) + (IV7 P s R a b) * (P 2 2) + (P 2 21)) + (P 21 21) + R

theorem S1_eq (P : Mat K) (s : Vec K) (R a b : K) (hs : ∀ i j, P i j = P j i) :
    S1 P s R a b = Spec.innovVar P (sparse (MagY.hList P s R a b)) R := by
  rw [innovVar_sparse]
  simp only [mulVec_sparse, MagY.hList, List.map_cons, List.map_nil, List.sum_cons, List.sum_nil]
  simp only [S1, IV0, IV1, IV2, IV3, IV4, IV5, IV6, IV7, IV8, IV9, IV10, IV11, IV12, IV13, IV14, IV15, IV16, IV17, IV18, MagY.HKY0, MagY.HKY1, MagY.HKY2, MagY.HKY3, MagY.HKY4, MagY.HKY5, MagY.HKY6, MagY.HKY7, MagY.HKY8, MagY.HKY9]
  simp only [hs 1 0, hs 2 0, hs 2 1, hs 3 0, hs 3 1, hs 3 2, hs 16 0, hs 16 1, hs 16 2, hs 16 3, hs 17 0, hs 17 1, hs 17 2, hs 17 3, hs 17 16, hs 18 0, hs 18 1, hs 18 2, hs 18 3, hs 18 16, hs 18 17, hs 20 0, hs 20 1, hs 20 2, hs 20 3, hs 20 16, hs 20 17, hs 20 18]
  ring

theorem S2_eq (P : Mat K) (s : Vec K) (R a b : K) (hs : ∀ i j, P i j = P j i) :
    S2 P s R a b = Spec.innovVar P (sparse (MagZ.hList P s R a b)) R := by
  rw [innovVar_sparse]
  simp only [mulVec_sparse, MagZ.hList, List.map_cons, List.map_nil, List.sum_cons, List.sum_nil]
  simp only [S2, IV0, IV1, IV2, IV3, IV4, IV5, IV6, IV7, IV8, IV9, IV10, IV11, IV12, IV13, IV14, IV15, IV16, IV17, IV18, MagZ.HKZ0, MagZ.HKZ1, MagZ.HKZ2, MagZ.HKZ3, MagZ.HKZ4, MagZ.HKZ5, MagZ.HKZ6, MagZ.HKZ7, MagZ.HKZ8, MagZ.HKZ9]
  simp only [hs 1 0, hs 2 0, hs 2 1, hs 3 0, hs 3 1, hs 3 2, hs 16 0, hs 16 1, hs 16 2, hs 16 3, hs 17 0, hs 17 1, hs 17 2, hs 17 3, hs 17 16, hs 18 0, hs 18 1, hs 18 2, hs 18 3, hs 18 16, hs 18 17, hs 21 0, hs 21 1, hs 21 2, hs 21 3, hs 21 16, hs 21 17, hs 21 18]
  ring

end

end Ecl.Fusion.MagIV
