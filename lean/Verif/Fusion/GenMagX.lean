import Verif.Fusion.Core

/-!
# Magnetometer X axis observation equations (generated by tools/gen_fusion.py)

One definition per assignment of the source; `s` is the state vector, `R` the observation variance.  Theorems: the innovation variance and
the gain are the Kalman expressions of the observation row.
-/

set_option linter.unusedSectionVars false
set_option linter.unusedSimpArgs false
set_option linter.unusedVariables false

namespace Ecl.Fusion.MagX

open Ecl.Cov

section
variable {K : Type*} [Field K] [CharZero K]

/-- EKF/mag_fusion.cpp:65 -/
def HKX0 (P : Mat K) (s : Vec K) (R a b : K) : K := -(s 18) * (s 2) + (s 17) * (s 3) + (s 16) * (s 0)

/-- EKF/mag_fusion.cpp:66 -/
def HKX1 (P : Mat K) (s : Vec K) (R a b : K) : K := (s 18) * (s 3) + (s 17) * (s 2) + (s 16) * (s 1)

/-- EKF/mag_fusion.cpp:67 -/
def HKX2 (P : Mat K) (s : Vec K) (R a b : K) : K := (s 17) * (s 1)

/-- EKF/mag_fusion.cpp:68 -/
def HKX3 (P : Mat K) (s : Vec K) (R a b : K) : K := (s 18) * (s 0)

/-- EKF/mag_fusion.cpp:69 -/
def HKX4 (P : Mat K) (s : Vec K) (R a b : K) : K := (s 16) * (s 2)

/-- EKF/mag_fusion.cpp:70 -/
def HKX5 (P : Mat K) (s : Vec K) (R a b : K) : K := (s 18) * (s 1) + (s 17) * (s 0) - (s 16) * (s 3)

/-- EKF/mag_fusion.cpp:71 -/
def HKX6 (P : Mat K) (s : Vec K) (R a b : K) : K := ((s 0)) ^ 2 + ((s 1)) ^ 2 - ((s 2)) ^ 2 - ((s 3)) ^ 2

/-- EKF/mag_fusion.cpp:72 -/
def HKX7 (P : Mat K) (s : Vec K) (R a b : K) : K := (s 0) * (s 3) + (s 1) * (s 2)

/-- EKF/mag_fusion.cpp:73 -/
def HKX8 (P : Mat K) (s : Vec K) (R a b : K) : K := (s 1) * (s 3)

/-- EKF/mag_fusion.cpp:74 -/
def HKX9 (P : Mat K) (s : Vec K) (R a b : K) : K := (s 0) * (s 2)

/-- EKF/mag_fusion.cpp:75 -/
def HKX10 (P : Mat K) (s : Vec K) (R a b : K) : K := 2 * (HKX7 P s R a b)

/-- EKF/mag_fusion.cpp:76 -/
def HKX11 (P : Mat K) (s : Vec K) (R a b : K) : K := -2 * (HKX8 P s R a b) + 2 * (HKX9 P s R a b)

/-- EKF/mag_fusion.cpp:77 -/
def HKX12 (P : Mat K) (s : Vec K) (R a b : K) : K := 2 * (HKX1 P s R a b)

/-- EKF/mag_fusion.cpp:78 -/
def HKX13 (P : Mat K) (s : Vec K) (R a b : K) : K := 2 * (HKX0 P s R a b)

/-- EKF/mag_fusion.cpp:79 -/
def HKX14 (P : Mat K) (s : Vec K) (R a b : K) : K := -2 * (HKX2 P s R a b) + 2 * (HKX3 P s R a b) + 2 * (HKX4 P s R a b)

/-- EKF/mag_fusion.cpp:80 -/
def HKX15 (P : Mat K) (s : Vec K) (R a b : K) : K := 2 * (HKX5 P s R a b)

/-- EKF/mag_fusion.cpp:81 -/
def HKX16 (P : Mat K) (s : Vec K) (R a b : K) : K := (HKX10 P s R a b) * (P 0 17) - (HKX11 P s R a b) * (P 0 18) + (HKX12 P s R a b) * (P 0 1) + (HKX13 P s R a b) * (P 0 0) - (HKX14 P s R a b) * (P 0 2) + (HKX15 P s R a b) * (P 0 3) + (HKX6 P s R a b) * (P 0 16) + (P 0 19)

/-- EKF/mag_fusion.cpp:82 -/
def HKX17 (P : Mat K) (s : Vec K) (R a b : K) : K := (HKX10 P s R a b) * (P 16 17) - (HKX11 P s R a b) * (P 16 18) + (HKX12 P s R a b) * (P 1 16) + (HKX13 P s R a b) * (P 0 16) - (HKX14 P s R a b) * (P 2 16) + (HKX15 P s R a b) * (P 3 16) + (HKX6 P s R a b) * (P 16 16) + (P 16 19)

/-- EKF/mag_fusion.cpp:83 -/
def HKX18 (P : Mat K) (s : Vec K) (R a b : K) : K := (HKX10 P s R a b) * (P 17 18) - (HKX11 P s R a b) * (P 18 18) + (HKX12 P s R a b) * (P 1 18) + (HKX13 P s R a b) * (P 0 18) - (HKX14 P s R a b) * (P 2 18) + (HKX15 P s R a b) * (P 3 18) + (HKX6 P s R a b) * (P 16 18) + (P 18 19)

/-- EKF/mag_fusion.cpp:84 -/
def HKX19 (P : Mat K) (s : Vec K) (R a b : K) : K := (HKX10 P s R a b) * (P 2 17) - (HKX11 P s R a b) * (P 2 18) + (HKX12 P s R a b) * (P 1 2) + (HKX13 P s R a b) * (P 0 2) - (HKX14 P s R a b) * (P 2 2) + (HKX15 P s R a b) * (P 2 3) + (HKX6 P s R a b) * (P 2 16) + (P 2 19)

/-- EKF/mag_fusion.cpp:85 -/
def HKX20 (P : Mat K) (s : Vec K) (R a b : K) : K := (HKX10 P s R a b) * (P 17 17) - (HKX11 P s R a b) * (P 17 18) + (HKX12 P s R a b) * (P 1 17) + (HKX13 P s R a b) * (P 0 17) - (HKX14 P s R a b) * (P 2 17) + (HKX15 P s R a b) * (P 3 17) + (HKX6 P s R a b) * (P 16 17) + (P 17 19)

/-- EKF/mag_fusion.cpp:86 -/
def HKX21 (P : Mat K) (s : Vec K) (R a b : K) : K := (HKX10 P s R a b) * (P 3 17) - (HKX11 P s R a b) * (P 3 18) + (HKX12 P s R a b) * (P 1 3) + (HKX13 P s R a b) * (P 0 3) - (HKX14 P s R a b) * (P 2 3) + (HKX15 P s R a b) * (P 3 3) + (HKX6 P s R a b) * (P 3 16) + (P 3 19)

/-- EKF/mag_fusion.cpp:87 -/
def HKX22 (P : Mat K) (s : Vec K) (R a b : K) : K := (HKX10 P s R a b) * (P 1 17) - (HKX11 P s R a b) * (P 1 18) + (HKX12 P s R a b) * (P 1 1) + (HKX13 P s R a b) * (P 0 1) - (HKX14 P s R a b) * (P 1 2) + (HKX15 P s R a b) * (P 1 3) + (HKX6 P s R a b) * (P 1 16) + (P 1 19)

/-- EKF/mag_fusion.cpp:88 -/
def HKX23 (P : Mat K) (s : Vec K) (R a b : K) : K := (HKX10 P s R a b) * (P 17 19) - (HKX11 P s R a b) * (P 18 19) + (HKX12 P s R a b) * (P 1 19) + (HKX13 P s R a b) * (P 0 19) - (HKX14 P s R a b) * (P 2 19) + (HKX15 P s R a b) * (P 3 19) + (HKX6 P s R a b) * (P 16 19) + (P 19 19)

/-- EKF/mag_fusion.cpp:90 -/
def S (P : Mat K) (s : Vec K) (R a b : K) : K := (HKX10 P s R a b) * (HKX20 P s R a b) - (HKX11 P s R a b) * (HKX18 P s R a b) + (HKX12 P s R a b) * (HKX22 P s R a b) + (HKX13 P s R a b) * (HKX16 P s R a b) - (HKX14 P s R a b) * (HKX19 P s R a b) + (HKX15 P s R a b) * (HKX21 P s R a b) + (HKX17 P s R a b) * (HKX6 P s R a b) + (HKX23 P s R a b) + R

/-- EKF/mag_fusion.cpp:104 -/
def HKX24 (P : Mat K) (s : Vec K) (R a b : K) : K := 1 / (S P s R a b)

/-- observation row, EKF/mag_fusion.cpp:208-215 -/
def hList (P : Mat K) (s : Vec K) (R a b : K) : List (Fin N × K) :=
  [(0, 2 * (HKX0 P s R a b)),
   (1, 2 * (HKX1 P s R a b)),
   (2, 2 * (HKX2 P s R a b) - 2 * (HKX3 P s R a b) - 2 * (HKX4 P s R a b)),
   (3, 2 * (HKX5 P s R a b)),
   (16, (HKX6 P s R a b)),
   (17, 2 * (HKX7 P s R a b)),
   (18, 2 * (HKX8 P s R a b) - 2 * (HKX9 P s R a b)),
   (19, 1)]

/-- Kalman gains, EKF/mag_fusion.cpp:219-239; `all` is the condition of the first block -/
def gain (all : Bool) (P : Mat K) (s : Vec K) (R a b : K) : Vec K := fun i =>
  if all = true ∧ i.val = 0 then (HKX16 P s R a b) * (HKX24 P s R a b) else
  if all = true ∧ i.val = 1 then (HKX22 P s R a b) * (HKX24 P s R a b) else
  if all = true ∧ i.val = 2 then (HKX19 P s R a b) * (HKX24 P s R a b) else
  if all = true ∧ i.val = 3 then (HKX21 P s R a b) * (HKX24 P s R a b) else
  if all = true ∧ 4 ≤ i.val ∧ i.val ≤ 15 then (HKX24 P s R a b) * ((HKX10 P s R a b) * (P i 17) - (HKX11 P s R a b) * (P i 18) + (HKX12 P s R a b) * (P 1 i) + (HKX13 P s R a b) * (P 0 i) - (HKX14 P s R a b) * (P 2 i) + (HKX15 P s R a b) * (P 3 i) + (HKX6 P s R a b) * (P i 16) + (P i 19)) else
  if all = true ∧ 22 ≤ i.val ∧ i.val ≤ 23 then (HKX24 P s R a b) * ((HKX10 P s R a b) * (P 17 i) - (HKX11 P s R a b) * (P 18 i) + (HKX12 P s R a b) * (P 1 i) + (HKX13 P s R a b) * (P 0 i) - (HKX14 P s R a b) * (P 2 i) + (HKX15 P s R a b) * (P 3 i) + (HKX6 P s R a b) * (P 16 i) + (P 19 i)) else
  if i.val = 16 then (HKX17 P s R a b) * (HKX24 P s R a b) else
  if i.val = 17 then (HKX20 P s R a b) * (HKX24 P s R a b) else
  if i.val = 18 then (HKX18 P s R a b) * (HKX24 P s R a b) else
  if i.val = 19 then (HKX23 P s R a b) * (HKX24 P s R a b) else
  if 20 ≤ i.val ∧ i.val ≤ 21 then (HKX24 P s R a b) * ((HKX10 P s R a b) * (P 17 i) - (HKX11 P s R a b) * (P 18 i) + (HKX12 P s R a b) * (P 1 i) + (HKX13 P s R a b) * (P 0 i) - (HKX14 P s R a b) * (P 2 i) + (HKX15 P s R a b) * (P 3 i) + (HKX6 P s R a b) * (P 16 i) + (P 19 i)) else
  0

theorem S_eq (P : Mat K) (s : Vec K) (R a b : K) (hs : ∀ i j, P i j = P j i) :
    S P s R a b = Spec.innovVar P (sparse (hList P s R a b)) R := by
  rw [innovVar_sparse]
  simp only [mulVec_sparse, hList, List.map_cons, List.map_nil, List.sum_cons, List.sum_nil]
  simp only [S, HKX10, HKX11, HKX12, HKX13, HKX14, HKX15, HKX16, HKX17, HKX18, HKX19, HKX20, HKX21, HKX22, HKX23]
  simp only [hs 1 0, hs 2 0, hs 2 1, hs 3 0, hs 3 1, hs 3 2, hs 16 0, hs 16 1, hs 16 2, hs 16 3, hs 17 0, hs 17 1, hs 17 2, hs 17 3, hs 17 16, hs 18 0, hs 18 1, hs 18 2, hs 18 3, hs 18 16, hs 18 17, hs 19 0, hs 19 1, hs 19 2, hs 19 3, hs 19 16, hs 19 17, hs 19 18]
  ring

theorem k_0 (P : Mat K) (s : Vec K) (R a b : K) (hs : ∀ i j, P i j = P j i) :
    (HKX16 P s R a b) * (HKX24 P s R a b) = Spec.mulVec P (sparse (hList P s R a b)) 0 / S P s R a b := by
  rw [mulVec_sparse]
  simp only [hList, List.map_cons, List.map_nil, List.sum_cons, List.sum_nil]
  simp only [HKX10, HKX11, HKX12, HKX13, HKX14, HKX15, HKX16, HKX24]
  try simp only [hs 1 0, hs 2 0, hs 3 0, hs 16 0, hs 17 0, hs 18 0, hs 19 0]
  ring

theorem k_1 (P : Mat K) (s : Vec K) (R a b : K) (hs : ∀ i j, P i j = P j i) :
    (HKX22 P s R a b) * (HKX24 P s R a b) = Spec.mulVec P (sparse (hList P s R a b)) 1 / S P s R a b := by
  rw [mulVec_sparse]
  simp only [hList, List.map_cons, List.map_nil, List.sum_cons, List.sum_nil]
  simp only [HKX10, HKX11, HKX12, HKX13, HKX14, HKX15, HKX22, HKX24]
  try simp only [hs 1 0, hs 2 1, hs 3 1, hs 16 1, hs 17 1, hs 18 1, hs 19 1]
  ring

theorem k_2 (P : Mat K) (s : Vec K) (R a b : K) (hs : ∀ i j, P i j = P j i) :
    (HKX19 P s R a b) * (HKX24 P s R a b) = Spec.mulVec P (sparse (hList P s R a b)) 2 / S P s R a b := by
  rw [mulVec_sparse]
  simp only [hList, List.map_cons, List.map_nil, List.sum_cons, List.sum_nil]
  simp only [HKX10, HKX11, HKX12, HKX13, HKX14, HKX15, HKX19, HKX24]
  try simp only [hs 2 0, hs 2 1, hs 3 2, hs 16 2, hs 17 2, hs 18 2, hs 19 2]
  ring

theorem k_3 (P : Mat K) (s : Vec K) (R a b : K) (hs : ∀ i j, P i j = P j i) :
    (HKX21 P s R a b) * (HKX24 P s R a b) = Spec.mulVec P (sparse (hList P s R a b)) 3 / S P s R a b := by
  rw [mulVec_sparse]
  simp only [hList, List.map_cons, List.map_nil, List.sum_cons, List.sum_nil]
  simp only [HKX10, HKX11, HKX12, HKX13, HKX14, HKX15, HKX21, HKX24]
  try simp only [hs 3 0, hs 3 1, hs 3 2, hs 16 3, hs 17 3, hs 18 3, hs 19 3]
  ring

theorem k_r4 (P : Mat K) (s : Vec K) (R a b : K) (hs : ∀ i j, P i j = P j i) (i : Fin N) :
    (HKX24 P s R a b) * ((HKX10 P s R a b) * (P i 17) - (HKX11 P s R a b) * (P i 18) + (HKX12 P s R a b) * (P 1 i) + (HKX13 P s R a b) * (P 0 i) - (HKX14 P s R a b) * (P 2 i) + (HKX15 P s R a b) * (P 3 i) + (HKX6 P s R a b) * (P i 16) + (P i 19)) = Spec.mulVec P (sparse (hList P s R a b)) i / S P s R a b := by
  rw [mulVec_sparse]
  simp only [hList, List.map_cons, List.map_nil, List.sum_cons, List.sum_nil]
  simp only [HKX10, HKX11, HKX12, HKX13, HKX14, HKX15, HKX24]
  rw [hs 0 i, hs 1 i, hs 2 i, hs 3 i]
  ring

theorem k_r22 (P : Mat K) (s : Vec K) (R a b : K) (hs : ∀ i j, P i j = P j i) (i : Fin N) :
    (HKX24 P s R a b) * ((HKX10 P s R a b) * (P 17 i) - (HKX11 P s R a b) * (P 18 i) + (HKX12 P s R a b) * (P 1 i) + (HKX13 P s R a b) * (P 0 i) - (HKX14 P s R a b) * (P 2 i) + (HKX15 P s R a b) * (P 3 i) + (HKX6 P s R a b) * (P 16 i) + (P 19 i)) = Spec.mulVec P (sparse (hList P s R a b)) i / S P s R a b := by
  rw [mulVec_sparse]
  simp only [hList, List.map_cons, List.map_nil, List.sum_cons, List.sum_nil]
  simp only [HKX10, HKX11, HKX12, HKX13, HKX14, HKX15, HKX24]
  rw [hs 0 i, hs 1 i, hs 2 i, hs 3 i, hs 16 i, hs 17 i, hs 18 i, hs 19 i]
  ring

theorem k_16 (P : Mat K) (s : Vec K) (R a b : K) (hs : ∀ i j, P i j = P j i) :
    (HKX17 P s R a b) * (HKX24 P s R a b) = Spec.mulVec P (sparse (hList P s R a b)) 16 / S P s R a b := by
  rw [mulVec_sparse]
  simp only [hList, List.map_cons, List.map_nil, List.sum_cons, List.sum_nil]
  simp only [HKX10, HKX11, HKX12, HKX13, HKX14, HKX15, HKX17, HKX24]
  try simp only [hs 16 0, hs 16 1, hs 16 2, hs 16 3, hs 17 16, hs 18 16, hs 19 16]
  ring

theorem k_17 (P : Mat K) (s : Vec K) (R a b : K) (hs : ∀ i j, P i j = P j i) :
    (HKX20 P s R a b) * (HKX24 P s R a b) = Spec.mulVec P (sparse (hList P s R a b)) 17 / S P s R a b := by
  rw [mulVec_sparse]
  simp only [hList, List.map_cons, List.map_nil, List.sum_cons, List.sum_nil]
  simp only [HKX10, HKX11, HKX12, HKX13, HKX14, HKX15, HKX20, HKX24]
  try simp only [hs 17 0, hs 17 1, hs 17 2, hs 17 3, hs 17 16, hs 18 17, hs 19 17]
  ring

theorem k_18 (P : Mat K) (s : Vec K) (R a b : K) (hs : ∀ i j, P i j = P j i) :
    (HKX18 P s R a b) * (HKX24 P s R a b) = Spec.mulVec P (sparse (hList P s R a b)) 18 / S P s R a b := by
  rw [mulVec_sparse]
  simp only [hList, List.map_cons, List.map_nil, List.sum_cons, List.sum_nil]
  simp only [HKX10, HKX11, HKX12, HKX13, HKX14, HKX15, HKX18, HKX24]
  try simp only [hs 18 0, hs 18 1, hs 18 2, hs 18 3, hs 18 16, hs 18 17, hs 19 18]
  ring

theorem k_19 (P : Mat K) (s : Vec K) (R a b : K) (hs : ∀ i j, P i j = P j i) :
    (HKX23 P s R a b) * (HKX24 P s R a b) = Spec.mulVec P (sparse (hList P s R a b)) 19 / S P s R a b := by
  rw [mulVec_sparse]
  simp only [hList, List.map_cons, List.map_nil, List.sum_cons, List.sum_nil]
  simp only [HKX10, HKX11, HKX12, HKX13, HKX14, HKX15, HKX23, HKX24]
  try simp only [hs 19 0, hs 19 1, hs 19 2, hs 19 3, hs 19 16, hs 19 17, hs 19 18]
  ring

theorem k_r20 (P : Mat K) (s : Vec K) (R a b : K) (hs : ∀ i j, P i j = P j i) (i : Fin N) :
    (HKX24 P s R a b) * ((HKX10 P s R a b) * (P 17 i) - (HKX11 P s R a b) * (P 18 i) + (HKX12 P s R a b) * (P 1 i) + (HKX13 P s R a b) * (P 0 i) - (HKX14 P s R a b) * (P 2 i) + (HKX15 P s R a b) * (P 3 i) + (HKX6 P s R a b) * (P 16 i) + (P 19 i)) = Spec.mulVec P (sparse (hList P s R a b)) i / S P s R a b := by
  rw [mulVec_sparse]
  simp only [hList, List.map_cons, List.map_nil, List.sum_cons, List.sum_nil]
  simp only [HKX10, HKX11, HKX12, HKX13, HKX14, HKX15, HKX24]
  rw [hs 0 i, hs 1 i, hs 2 i, hs 3 i, hs 16 i, hs 17 i, hs 18 i, hs 19 i]
  ring

theorem gain_eq (all : Bool) (P : Mat K) (s : Vec K) (R a b : K) (hs : ∀ i j, P i j = P j i) (i : Fin N) :
    gain all P s R a b i = if (all = true ∨ (16 ≤ i.val ∧ i.val ≤ 21)) then Spec.mulVec P (sparse (hList P s R a b)) i / Spec.innovVar P (sparse (hList P s R a b)) R else 0 := by
  rw [← S_eq P s R a b hs ]
  unfold gain

  by_cases c0 : all = true ∧ i.val = 0
  · rw [if_pos c0]
    have e : i = 0 := Fin.ext (c0.2)
    subst e
    rw [if_pos (by first | trivial | exact Or.inl c0.1 | decide)]; exact k_0 P s R a b hs 
  rw [if_neg c0]
  by_cases c1 : all = true ∧ i.val = 1
  · rw [if_pos c1]
    have e : i = 1 := Fin.ext (c1.2)
    subst e
    rw [if_pos (by first | trivial | exact Or.inl c1.1 | decide)]; exact k_1 P s R a b hs 
  rw [if_neg c1]
  by_cases c2 : all = true ∧ i.val = 2
  · rw [if_pos c2]
    have e : i = 2 := Fin.ext (c2.2)
    subst e
    rw [if_pos (by first | trivial | exact Or.inl c2.1 | decide)]; exact k_2 P s R a b hs 
  rw [if_neg c2]
  by_cases c3 : all = true ∧ i.val = 3
  · rw [if_pos c3]
    have e : i = 3 := Fin.ext (c3.2)
    subst e
    rw [if_pos (by first | trivial | exact Or.inl c3.1 | decide)]; exact k_3 P s R a b hs 
  rw [if_neg c3]
  by_cases c4 : all = true ∧ 4 ≤ i.val ∧ i.val ≤ 15
  · rw [if_pos c4]
    rw [if_pos (by first | trivial | exact Or.inl c4.1 | omega)]; exact k_r4 P s R a b hs i
  rw [if_neg c4]
  by_cases c5 : all = true ∧ 22 ≤ i.val ∧ i.val ≤ 23
  · rw [if_pos c5]
    rw [if_pos (by first | trivial | exact Or.inl c5.1 | omega)]; exact k_r22 P s R a b hs i
  rw [if_neg c5]
  by_cases c6 : i.val = 16
  · rw [if_pos c6]
    have e : i = 16 := Fin.ext (c6)
    subst e
    rw [if_pos (by first | trivial | exact Or.inr (by decide) | decide)]; exact k_16 P s R a b hs 
  rw [if_neg c6]
  by_cases c7 : i.val = 17
  · rw [if_pos c7]
    have e : i = 17 := Fin.ext (c7)
    subst e
    rw [if_pos (by first | trivial | exact Or.inr (by decide) | decide)]; exact k_17 P s R a b hs 
  rw [if_neg c7]
  by_cases c8 : i.val = 18
  · rw [if_pos c8]
    have e : i = 18 := Fin.ext (c8)
    subst e
    rw [if_pos (by first | trivial | exact Or.inr (by decide) | decide)]; exact k_18 P s R a b hs 
  rw [if_neg c8]
  by_cases c9 : i.val = 19
  · rw [if_pos c9]
    have e : i = 19 := Fin.ext (c9)
    subst e
    rw [if_pos (by first | trivial | exact Or.inr (by decide) | decide)]; exact k_19 P s R a b hs 
  rw [if_neg c9]
  by_cases c10 : 20 ≤ i.val ∧ i.val ≤ 21
  · rw [if_pos c10]
    rw [if_pos (by first | trivial | omega | (right; omega))]; exact k_r20 P s R a b hs i
  rw [if_neg c10]
  rw [if_neg]
  intro hsel
  have hi : i.val < 24 := i.isLt
  first | omega | (rcases hsel with h | h <;> first | omega | (simp only [h, true_and] at *; omega))

end

end Ecl.Fusion.MagX
