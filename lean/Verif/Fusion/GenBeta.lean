import Verif.Fusion.Core

/-!
# Sideslip observation equations (generated by tools/gen_fusion.py)

One definition per assignment of the source; `s` is the state vector, `R` the observation variance.  Theorems: the innovation variance and
the gain are the Kalman expressions of the observation row.
-/

set_option linter.unusedSectionVars false
set_option linter.unusedSimpArgs false
set_option linter.unusedVariables false

namespace Ecl.Fusion.Beta

open Ecl.Cov

section
variable {K : Type*} [Field K] [CharZero K]

/-- EKF/sideslip_fusion.cpp:78 -/
def HK0 (P : Mat K) (s : Vec K) (R a b : K) : K := (s 4) - (s 22)

/-- EKF/sideslip_fusion.cpp:79 -/
def HK1 (P : Mat K) (s : Vec K) (R a b : K) : K := (s 5) - (s 23)

/-- EKF/sideslip_fusion.cpp:80 -/
def HK2 (P : Mat K) (s : Vec K) (R a b : K) : K := (HK0 P s R a b) * (s 0) + (HK1 P s R a b) * (s 3) - (s 2) * (s 6)

/-- EKF/sideslip_fusion.cpp:81 -/
def HK3 (P : Mat K) (s : Vec K) (R a b : K) : K := (s 0) * (s 2) - (s 1) * (s 3)

/-- EKF/sideslip_fusion.cpp:82 -/
def HK4 (P : Mat K) (s : Vec K) (R a b : K) : K := 2 * (s 6)

/-- EKF/sideslip_fusion.cpp:83 -/
def HK5 (P : Mat K) (s : Vec K) (R a b : K) : K := (s 0) * (s 3)

/-- EKF/sideslip_fusion.cpp:84 -/
def HK6 (P : Mat K) (s : Vec K) (R a b : K) : K := (s 1) * (s 2)

/-- EKF/sideslip_fusion.cpp:85 -/
def HK7 (P : Mat K) (s : Vec K) (R a b : K) : K := 2 * (HK5 P s R a b) + 2 * (HK6 P s R a b)

/-- EKF/sideslip_fusion.cpp:86 -/
def HK8 (P : Mat K) (s : Vec K) (R a b : K) : K := ((s 0)) ^ 2

/-- EKF/sideslip_fusion.cpp:87 -/
def HK9 (P : Mat K) (s : Vec K) (R a b : K) : K := ((s 3)) ^ 2

/-- EKF/sideslip_fusion.cpp:88 -/
def HK10 (P : Mat K) (s : Vec K) (R a b : K) : K := (HK8 P s R a b) - (HK9 P s R a b)

/-- EKF/sideslip_fusion.cpp:89 -/
def HK11 (P : Mat K) (s : Vec K) (R a b : K) : K := ((s 1)) ^ 2

/-- EKF/sideslip_fusion.cpp:90 -/
def HK12 (P : Mat K) (s : Vec K) (R a b : K) : K := ((s 2)) ^ 2

/-- EKF/sideslip_fusion.cpp:91 -/
def HK13 (P : Mat K) (s : Vec K) (R a b : K) : K := (HK11 P s R a b) - (HK12 P s R a b)

/-- EKF/sideslip_fusion.cpp:92 -/
def HK14 (P : Mat K) (s : Vec K) (R a b : K) : K := (HK10 P s R a b) + (HK13 P s R a b)

/-- EKF/sideslip_fusion.cpp:93 -/
def HK15 (P : Mat K) (s : Vec K) (R a b : K) : K := (HK0 P s R a b) * (HK14 P s R a b) + (HK1 P s R a b) * (HK7 P s R a b) - (HK3 P s R a b) * (HK4 P s R a b)

/-- EKF/sideslip_fusion.cpp:94 -/
def HK16 (P : Mat K) (s : Vec K) (R a b : K) : K := 1 / (HK15 P s R a b)

/-- EKF/sideslip_fusion.cpp:95 -/
def HK17 (P : Mat K) (s : Vec K) (R a b : K) : K := (s 0) * (s 1) + (s 2) * (s 3)

/-- EKF/sideslip_fusion.cpp:96 -/
def HK18 (P : Mat K) (s : Vec K) (R a b : K) : K := (HK10 P s R a b) - (HK11 P s R a b) + (HK12 P s R a b)

/-- EKF/sideslip_fusion.cpp:97 -/
def HK19 (P : Mat K) (s : Vec K) (R a b : K) : K := (HK16 P s R a b) * (-2 * (HK0 P s R a b) * ((HK5 P s R a b) - (HK6 P s R a b)) + (HK1 P s R a b) * (HK18 P s R a b) + (HK17 P s R a b) * (HK4 P s R a b))

/-- EKF/sideslip_fusion.cpp:98 -/
def HK20 (P : Mat K) (s : Vec K) (R a b : K) : K := -(HK0 P s R a b) * (s 3) + (HK1 P s R a b) * (s 0) + (s 1) * (s 6)

/-- EKF/sideslip_fusion.cpp:99 -/
def HK21 (P : Mat K) (s : Vec K) (R a b : K) : K := -(HK19 P s R a b) * (HK2 P s R a b) + (HK20 P s R a b)

/-- EKF/sideslip_fusion.cpp:100 -/
def HK22 (P : Mat K) (s : Vec K) (R a b : K) : K := 2 * (HK16 P s R a b)

/-- EKF/sideslip_fusion.cpp:101 -/
def HK23 (P : Mat K) (s : Vec K) (R a b : K) : K := (HK0 P s R a b) * (s 1) + (HK1 P s R a b) * (s 2) + (s 3) * (s 6)

/-- EKF/sideslip_fusion.cpp:102 -/
def HK24 (P : Mat K) (s : Vec K) (R a b : K) : K := (HK0 P s R a b) * (s 2) - (HK1 P s R a b) * (s 1) + (s 0) * (s 6)

/-- EKF/sideslip_fusion.cpp:103 -/
def HK25 (P : Mat K) (s : Vec K) (R a b : K) : K := -(HK19 P s R a b) * (HK23 P s R a b) + (HK24 P s R a b)

/-- EKF/sideslip_fusion.cpp:104 -/
def HK26 (P : Mat K) (s : Vec K) (R a b : K) : K := (HK19 P s R a b) * (HK24 P s R a b) + (HK23 P s R a b)

/-- EKF/sideslip_fusion.cpp:105 -/
def HK27 (P : Mat K) (s : Vec K) (R a b : K) : K := (HK19 P s R a b) * (HK20 P s R a b) + (HK2 P s R a b)

/-- EKF/sideslip_fusion.cpp:106 -/
def HK28 (P : Mat K) (s : Vec K) (R a b : K) : K := (HK14 P s R a b) * (HK19 P s R a b) + 2 * (HK5 P s R a b) - 2 * (HK6 P s R a b)

/-- EKF/sideslip_fusion.cpp:107 -/
def HK29 (P : Mat K) (s : Vec K) (R a b : K) : K := (HK16 P s R a b) * (HK28 P s R a b)

/-- EKF/sideslip_fusion.cpp:108 -/
def HK30 (P : Mat K) (s : Vec K) (R a b : K) : K := (HK19 P s R a b) * (HK7 P s R a b)

/-- EKF/sideslip_fusion.cpp:109 -/
def HK31 (P : Mat K) (s : Vec K) (R a b : K) : K := (HK17 P s R a b) + (HK19 P s R a b) * (HK3 P s R a b)

/-- EKF/sideslip_fusion.cpp:110 -/
def HK32 (P : Mat K) (s : Vec K) (R a b : K) : K := (HK13 P s R a b) + (HK30 P s R a b) - (HK8 P s R a b) + (HK9 P s R a b)

/-- EKF/sideslip_fusion.cpp:111 -/
def HK33 (P : Mat K) (s : Vec K) (R a b : K) : K := 2 * (HK31 P s R a b)

/-- EKF/sideslip_fusion.cpp:112 -/
def HK34 (P : Mat K) (s : Vec K) (R a b : K) : K := 2 * (HK26 P s R a b)

/-- EKF/sideslip_fusion.cpp:113 -/
def HK35 (P : Mat K) (s : Vec K) (R a b : K) : K := 2 * (HK25 P s R a b)

/-- EKF/sideslip_fusion.cpp:114 -/
def HK36 (P : Mat K) (s : Vec K) (R a b : K) : K := 2 * (HK27 P s R a b)

/-- EKF/sideslip_fusion.cpp:115 -/
def HK37 (P : Mat K) (s : Vec K) (R a b : K) : K := 2 * (HK21 P s R a b)

/-- EKF/sideslip_fusion.cpp:116 -/
def HK38 (P : Mat K) (s : Vec K) (R a b : K) : K := (HK28 P s R a b) * (P 0 22) - (HK28 P s R a b) * (P 0 4) + (HK32 P s R a b) * (P 0 23) - (HK32 P s R a b) * (P 0 5) + (HK33 P s R a b) * (P 0 6) + (HK34 P s R a b) * (P 0 2) + (HK35 P s R a b) * (P 0 1) - (HK36 P s R a b) * (P 0 3) + (HK37 P s R a b) * (P 0 0)

/-- EKF/sideslip_fusion.cpp:117 -/
def HK39 (P : Mat K) (s : Vec K) (R a b : K) : K := (1 / ((HK15 P s R a b)) ^ 2)

/-- EKF/sideslip_fusion.cpp:118 -/
def HK40 (P : Mat K) (s : Vec K) (R a b : K) : K := -(HK28 P s R a b) * (P 4 6) + (HK28 P s R a b) * (P 6 22) - (HK32 P s R a b) * (P 5 6) + (HK32 P s R a b) * (P 6 23) + (HK33 P s R a b) * (P 6 6) + (HK34 P s R a b) * (P 2 6) + (HK35 P s R a b) * (P 1 6) - (HK36 P s R a b) * (P 3 6) + (HK37 P s R a b) * (P 0 6)

/-- EKF/sideslip_fusion.cpp:119 -/
def HK41 (P : Mat K) (s : Vec K) (R a b : K) : K := (HK32 P s R a b) * (P 5 23)

/-- EKF/sideslip_fusion.cpp:120 -/
def HK42 (P : Mat K) (s : Vec K) (R a b : K) : K := (HK28 P s R a b) * (P 22 23) - (HK28 P s R a b) * (P 4 23) + (HK32 P s R a b) * (P 23 23) + (HK33 P s R a b) * (P 6 23) + (HK34 P s R a b) * (P 2 23) + (HK35 P s R a b) * (P 1 23) - (HK36 P s R a b) * (P 3 23) + (HK37 P s R a b) * (P 0 23) - (HK41 P s R a b)

/-- EKF/sideslip_fusion.cpp:121 -/
def HK43 (P : Mat K) (s : Vec K) (R a b : K) : K := (HK32 P s R a b) * (HK39 P s R a b)

/-- EKF/sideslip_fusion.cpp:122 -/
def HK44 (P : Mat K) (s : Vec K) (R a b : K) : K := (HK28 P s R a b) * (P 4 22)

/-- EKF/sideslip_fusion.cpp:123 -/
def HK45 (P : Mat K) (s : Vec K) (R a b : K) : K := (HK28 P s R a b) * (P 22 22) + (HK32 P s R a b) * (P 22 23) - (HK32 P s R a b) * (P 5 22) + (HK33 P s R a b) * (P 6 22) + (HK34 P s R a b) * (P 2 22) + (HK35 P s R a b) * (P 1 22) - (HK36 P s R a b) * (P 3 22) + (HK37 P s R a b) * (P 0 22) - (HK44 P s R a b)

/-- EKF/sideslip_fusion.cpp:124 -/
def HK46 (P : Mat K) (s : Vec K) (R a b : K) : K := (HK28 P s R a b) * (HK39 P s R a b)

/-- EKF/sideslip_fusion.cpp:125 -/
def HK47 (P : Mat K) (s : Vec K) (R a b : K) : K := -(HK28 P s R a b) * (P 4 5) + (HK28 P s R a b) * (P 5 22) - (HK32 P s R a b) * (P 5 5) + (HK33 P s R a b) * (P 5 6) + (HK34 P s R a b) * (P 2 5) + (HK35 P s R a b) * (P 1 5) - (HK36 P s R a b) * (P 3 5) + (HK37 P s R a b) * (P 0 5) + (HK41 P s R a b)

/-- EKF/sideslip_fusion.cpp:126 -/
def HK48 (P : Mat K) (s : Vec K) (R a b : K) : K := -(HK28 P s R a b) * (P 4 4) + (HK32 P s R a b) * (P 4 23) - (HK32 P s R a b) * (P 4 5) + (HK33 P s R a b) * (P 4 6) + (HK34 P s R a b) * (P 2 4) + (HK35 P s R a b) * (P 1 4) - (HK36 P s R a b) * (P 3 4) + (HK37 P s R a b) * (P 0 4) + (HK44 P s R a b)

/-- EKF/sideslip_fusion.cpp:127 -/
def HK49 (P : Mat K) (s : Vec K) (R a b : K) : K := (HK28 P s R a b) * (P 2 22) - (HK28 P s R a b) * (P 2 4) + (HK32 P s R a b) * (P 2 23) - (HK32 P s R a b) * (P 2 5) + (HK33 P s R a b) * (P 2 6) + (HK34 P s R a b) * (P 2 2) + (HK35 P s R a b) * (P 1 2) - (HK36 P s R a b) * (P 2 3) + (HK37 P s R a b) * (P 0 2)

/-- EKF/sideslip_fusion.cpp:128 -/
def HK50 (P : Mat K) (s : Vec K) (R a b : K) : K := (HK28 P s R a b) * (P 1 22) - (HK28 P s R a b) * (P 1 4) + (HK32 P s R a b) * (P 1 23) - (HK32 P s R a b) * (P 1 5) + (HK33 P s R a b) * (P 1 6) + (HK34 P s R a b) * (P 1 2) + (HK35 P s R a b) * (P 1 1) - (HK36 P s R a b) * (P 1 3) + (HK37 P s R a b) * (P 0 1)

/-- EKF/sideslip_fusion.cpp:129 -/
def HK51 (P : Mat K) (s : Vec K) (R a b : K) : K := (HK28 P s R a b) * (P 3 22) - (HK28 P s R a b) * (P 3 4) + (HK32 P s R a b) * (P 3 23) - (HK32 P s R a b) * (P 3 5) + (HK33 P s R a b) * (P 3 6) + (HK34 P s R a b) * (P 2 3) + (HK35 P s R a b) * (P 1 3) - (HK36 P s R a b) * (P 3 3) + (HK37 P s R a b) * (P 0 3)

/-- EKF/sideslip_fusion.cpp:133 -/
def S (P : Mat K) (s : Vec K) (R a b : K) : K := ((HK33 P s R a b) * (HK39 P s R a b) * (HK40 P s R a b) + (HK34 P s R a b) * (HK39 P s R a b) * (HK49 P s R a b) + (HK35 P s R a b) * (HK39 P s R a b) * (HK50 P s R a b) - (HK36 P s R a b) * (HK39 P s R a b) * (HK51 P s R a b) + (HK37 P s R a b) * (HK38 P s R a b) * (HK39 P s R a b) + (HK42 P s R a b) * (HK43 P s R a b) - (HK43 P s R a b) * (HK47 P s R a b) + (HK45 P s R a b) * (HK46 P s R a b) - (HK46 P s R a b) * (HK48 P s R a b) + R)

/-- EKF/sideslip_fusion.cpp:156 -/
def HK52 (P : Mat K) (s : Vec K) (R a b : K) : K := (HK16 P s R a b) / (S P s R a b)

/-- observation row, EKF/sideslip_fusion.cpp:175-183 -/
def hList (P : Mat K) (s : Vec K) (R a b : K) : List (Fin N × K) :=
  [(0, (HK21 P s R a b) * (HK22 P s R a b)),
   (1, (HK22 P s R a b) * (HK25 P s R a b)),
   (2, (HK22 P s R a b) * (HK26 P s R a b)),
   (3, -(HK22 P s R a b) * (HK27 P s R a b)),
   (4, -(HK29 P s R a b)),
   (5, (HK16 P s R a b) * ((HK18 P s R a b) - (HK30 P s R a b))),
   (6, (HK22 P s R a b) * (HK31 P s R a b)),
   (22, (HK29 P s R a b)),
   (23, (HK16 P s R a b) * (HK32 P s R a b))]

/-- Kalman gains, EKF/sideslip_fusion.cpp:189-204; `all` is the condition of the first block -/
def gain (all : Bool) (P : Mat K) (s : Vec K) (R a b : K) : Vec K := fun i =>
  if all = true ∧ i.val = 0 then (HK38 P s R a b) * (HK52 P s R a b) else
  if all = true ∧ i.val = 1 then (HK50 P s R a b) * (HK52 P s R a b) else
  if all = true ∧ i.val = 2 then (HK49 P s R a b) * (HK52 P s R a b) else
  if all = true ∧ i.val = 3 then (HK51 P s R a b) * (HK52 P s R a b) else
  if all = true ∧ i.val = 4 then (HK48 P s R a b) * (HK52 P s R a b) else
  if all = true ∧ i.val = 5 then (HK47 P s R a b) * (HK52 P s R a b) else
  if all = true ∧ i.val = 6 then (HK40 P s R a b) * (HK52 P s R a b) else
  if all = true ∧ 7 ≤ i.val ∧ i.val ≤ 21 then (HK52 P s R a b) * ((HK28 P s R a b) * (P i 22) - (HK28 P s R a b) * (P 4 i) + (HK32 P s R a b) * (P i 23) - (HK32 P s R a b) * (P 5 i) + (HK33 P s R a b) * (P 6 i) + (HK34 P s R a b) * (P 2 i) + (HK35 P s R a b) * (P 1 i) - (HK36 P s R a b) * (P 3 i) + (HK37 P s R a b) * (P 0 i)) else
  if i.val = 22 then (HK45 P s R a b) * (HK52 P s R a b) else
  if i.val = 23 then (HK42 P s R a b) * (HK52 P s R a b) else
  0

theorem S_eq (P : Mat K) (s : Vec K) (R a b : K) (hs : ∀ i j, P i j = P j i) :
    S P s R a b = Spec.innovVar P (sparse (hList P s R a b)) R := by
  rw [innovVar_sparse]
  simp only [mulVec_sparse, hList, List.map_cons, List.map_nil, List.sum_cons, List.sum_nil]
  simp only [S, HK10, HK13, HK16, HK18, HK22, HK29, HK32, HK33, HK34, HK35, HK36, HK37, HK38, HK39, HK40, HK41, HK42, HK43, HK44, HK45, HK46, HK47, HK48, HK49, HK50, HK51]
  simp only [hs 1 0, hs 2 0, hs 2 1, hs 3 0, hs 3 1, hs 3 2, hs 4 0, hs 4 1, hs 4 2, hs 4 3, hs 5 0, hs 5 1, hs 5 2, hs 5 3, hs 5 4, hs 6 0, hs 6 1, hs 6 2, hs 6 3, hs 6 4, hs 6 5, hs 22 0, hs 22 1, hs 22 2, hs 22 3, hs 22 4, hs 22 5, hs 22 6, hs 23 0, hs 23 1, hs 23 2, hs 23 3, hs 23 4, hs 23 5, hs 23 6, hs 23 22]
  ring

theorem k_0 (P : Mat K) (s : Vec K) (R a b : K) (hs : ∀ i j, P i j = P j i) :
    (HK38 P s R a b) * (HK52 P s R a b) = Spec.mulVec P (sparse (hList P s R a b)) 0 / S P s R a b := by
  rw [mulVec_sparse]
  simp only [hList, List.map_cons, List.map_nil, List.sum_cons, List.sum_nil]
  simp only [HK10, HK13, HK16, HK18, HK22, HK29, HK32, HK33, HK34, HK35, HK36, HK37, HK38, HK52]
  try simp only [hs 1 0, hs 2 0, hs 3 0, hs 4 0, hs 5 0, hs 6 0, hs 22 0, hs 23 0]
  ring

theorem k_1 (P : Mat K) (s : Vec K) (R a b : K) (hs : ∀ i j, P i j = P j i) :
    (HK50 P s R a b) * (HK52 P s R a b) = Spec.mulVec P (sparse (hList P s R a b)) 1 / S P s R a b := by
  rw [mulVec_sparse]
  simp only [hList, List.map_cons, List.map_nil, List.sum_cons, List.sum_nil]
  simp only [HK10, HK13, HK16, HK18, HK22, HK29, HK32, HK33, HK34, HK35, HK36, HK37, HK50, HK52]
  try simp only [hs 1 0, hs 2 1, hs 3 1, hs 4 1, hs 5 1, hs 6 1, hs 22 1, hs 23 1]
  ring

theorem k_2 (P : Mat K) (s : Vec K) (R a b : K) (hs : ∀ i j, P i j = P j i) :
    (HK49 P s R a b) * (HK52 P s R a b) = Spec.mulVec P (sparse (hList P s R a b)) 2 / S P s R a b := by
  rw [mulVec_sparse]
  simp only [hList, List.map_cons, List.map_nil, List.sum_cons, List.sum_nil]
  simp only [HK10, HK13, HK16, HK18, HK22, HK29, HK32, HK33, HK34, HK35, HK36, HK37, HK49, HK52]
  try simp only [hs 2 0, hs 2 1, hs 3 2, hs 4 2, hs 5 2, hs 6 2, hs 22 2, hs 23 2]
  ring

theorem k_3 (P : Mat K) (s : Vec K) (R a b : K) (hs : ∀ i j, P i j = P j i) :
    (HK51 P s R a b) * (HK52 P s R a b) = Spec.mulVec P (sparse (hList P s R a b)) 3 / S P s R a b := by
  rw [mulVec_sparse]
  simp only [hList, List.map_cons, List.map_nil, List.sum_cons, List.sum_nil]
  simp only [HK10, HK13, HK16, HK18, HK22, HK29, HK32, HK33, HK34, HK35, HK36, HK37, HK51, HK52]
  try simp only [hs 3 0, hs 3 1, hs 3 2, hs 4 3, hs 5 3, hs 6 3, hs 22 3, hs 23 3]
  ring

theorem k_4 (P : Mat K) (s : Vec K) (R a b : K) (hs : ∀ i j, P i j = P j i) :
    (HK48 P s R a b) * (HK52 P s R a b) = Spec.mulVec P (sparse (hList P s R a b)) 4 / S P s R a b := by
  rw [mulVec_sparse]
  simp only [hList, List.map_cons, List.map_nil, List.sum_cons, List.sum_nil]
  simp only [HK10, HK13, HK16, HK18, HK22, HK29, HK32, HK33, HK34, HK35, HK36, HK37, HK44, HK48, HK52]
  try simp only [hs 4 0, hs 4 1, hs 4 2, hs 4 3, hs 5 4, hs 6 4, hs 22 4, hs 23 4]
  ring

theorem k_5 (P : Mat K) (s : Vec K) (R a b : K) (hs : ∀ i j, P i j = P j i) :
    (HK47 P s R a b) * (HK52 P s R a b) = Spec.mulVec P (sparse (hList P s R a b)) 5 / S P s R a b := by
  rw [mulVec_sparse]
  simp only [hList, List.map_cons, List.map_nil, List.sum_cons, List.sum_nil]
  simp only [HK10, HK13, HK16, HK18, HK22, HK29, HK32, HK33, HK34, HK35, HK36, HK37, HK41, HK47, HK52]
  try simp only [hs 5 0, hs 5 1, hs 5 2, hs 5 3, hs 5 4, hs 6 5, hs 22 5, hs 23 5]
  ring

theorem k_6 (P : Mat K) (s : Vec K) (R a b : K) (hs : ∀ i j, P i j = P j i) :
    (HK40 P s R a b) * (HK52 P s R a b) = Spec.mulVec P (sparse (hList P s R a b)) 6 / S P s R a b := by
  rw [mulVec_sparse]
  simp only [hList, List.map_cons, List.map_nil, List.sum_cons, List.sum_nil]
  simp only [HK10, HK13, HK16, HK18, HK22, HK29, HK32, HK33, HK34, HK35, HK36, HK37, HK40, HK52]
  try simp only [hs 6 0, hs 6 1, hs 6 2, hs 6 3, hs 6 4, hs 6 5, hs 22 6, hs 23 6]
  ring

theorem k_r7 (P : Mat K) (s : Vec K) (R a b : K) (hs : ∀ i j, P i j = P j i) (i : Fin N) :
    (HK52 P s R a b) * ((HK28 P s R a b) * (P i 22) - (HK28 P s R a b) * (P 4 i) + (HK32 P s R a b) * (P i 23) - (HK32 P s R a b) * (P 5 i) + (HK33 P s R a b) * (P 6 i) + (HK34 P s R a b) * (P 2 i) + (HK35 P s R a b) * (P 1 i) - (HK36 P s R a b) * (P 3 i) + (HK37 P s R a b) * (P 0 i)) = Spec.mulVec P (sparse (hList P s R a b)) i / S P s R a b := by
  rw [mulVec_sparse]
  simp only [hList, List.map_cons, List.map_nil, List.sum_cons, List.sum_nil]
  simp only [HK10, HK13, HK16, HK18, HK22, HK29, HK32, HK33, HK34, HK35, HK36, HK37, HK52]
  rw [hs 0 i, hs 1 i, hs 2 i, hs 3 i, hs 4 i, hs 5 i, hs 6 i]
  ring

theorem k_22 (P : Mat K) (s : Vec K) (R a b : K) (hs : ∀ i j, P i j = P j i) :
    (HK45 P s R a b) * (HK52 P s R a b) = Spec.mulVec P (sparse (hList P s R a b)) 22 / S P s R a b := by
  rw [mulVec_sparse]
  simp only [hList, List.map_cons, List.map_nil, List.sum_cons, List.sum_nil]
  simp only [HK10, HK13, HK16, HK18, HK22, HK29, HK32, HK33, HK34, HK35, HK36, HK37, HK44, HK45, HK52]
  try simp only [hs 22 0, hs 22 1, hs 22 2, hs 22 3, hs 22 4, hs 22 5, hs 22 6, hs 23 22]
  ring

theorem k_23 (P : Mat K) (s : Vec K) (R a b : K) (hs : ∀ i j, P i j = P j i) :
    (HK42 P s R a b) * (HK52 P s R a b) = Spec.mulVec P (sparse (hList P s R a b)) 23 / S P s R a b := by
  rw [mulVec_sparse]
  simp only [hList, List.map_cons, List.map_nil, List.sum_cons, List.sum_nil]
  simp only [HK10, HK13, HK16, HK18, HK22, HK29, HK32, HK33, HK34, HK35, HK36, HK37, HK41, HK42, HK52]
  try simp only [hs 23 0, hs 23 1, hs 23 2, hs 23 3, hs 23 4, hs 23 5, hs 23 6, hs 23 22]
  ring

theorem gain_eq (all : Bool) (P : Mat K) (s : Vec K) (R a b : K) (hs : ∀ i j, P i j = P j i) (i : Fin N) :
    gain all P s R a b i = if (all = true ∨ 22 ≤ i.val) then Spec.mulVec P (sparse (hList P s R a b)) i / Spec.innovVar P (sparse (hList P s R a b)) R else 0 := by
  rw [← S_eq P s R a b hs ]
  unfold gain

  by_cases c0 : all = true ∧ i.val = 0
  · rw [if_pos c0]
    have e : i = 0 := Fin.ext (c0.2)
    subst e
    rw [if_pos (by first | trivial | exact Or.inl c0.1 | decide)]; exact k_0 P s R a b hs 
  rw [if_neg c0]
  by_cases c1 : all = true ∧ i.val = 1
  · rw [if_pos c1]
    have e : i = 1 := Fin.ext (c1.2)
    subst e
    rw [if_pos (by first | trivial | exact Or.inl c1.1 | decide)]; exact k_1 P s R a b hs 
  rw [if_neg c1]
  by_cases c2 : all = true ∧ i.val = 2
  · rw [if_pos c2]
    have e : i = 2 := Fin.ext (c2.2)
    subst e
    rw [if_pos (by first | trivial | exact Or.inl c2.1 | decide)]; exact k_2 P s R a b hs 
  rw [if_neg c2]
  by_cases c3 : all = true ∧ i.val = 3
  · rw [if_pos c3]
    have e : i = 3 := Fin.ext (c3.2)
    subst e
    rw [if_pos (by first | trivial | exact Or.inl c3.1 | decide)]; exact k_3 P s R a b hs 
  rw [if_neg c3]
  by_cases c4 : all = true ∧ i.val = 4
  · rw [if_pos c4]
    have e : i = 4 := Fin.ext (c4.2)
    subst e
    rw [if_pos (by first | trivial | exact Or.inl c4.1 | decide)]; exact k_4 P s R a b hs 
  rw [if_neg c4]
  by_cases c5 : all = true ∧ i.val = 5
  · rw [if_pos c5]
    have e : i = 5 := Fin.ext (c5.2)
    subst e
    rw [if_pos (by first | trivial | exact Or.inl c5.1 | decide)]; exact k_5 P s R a b hs 
  rw [if_neg c5]
  by_cases c6 : all = true ∧ i.val = 6
  · rw [if_pos c6]
    have e : i = 6 := Fin.ext (c6.2)
    subst e
    rw [if_pos (by first | trivial | exact Or.inl c6.1 | decide)]; exact k_6 P s R a b hs 
  rw [if_neg c6]
  by_cases c7 : all = true ∧ 7 ≤ i.val ∧ i.val ≤ 21
  · rw [if_pos c7]
    rw [if_pos (by first | trivial | exact Or.inl c7.1 | omega)]; exact k_r7 P s R a b hs i
  rw [if_neg c7]
  by_cases c8 : i.val = 22
  · rw [if_pos c8]
    have e : i = 22 := Fin.ext (c8)
    subst e
    rw [if_pos (by first | trivial | exact Or.inr (by decide) | decide)]; exact k_22 P s R a b hs 
  rw [if_neg c8]
  by_cases c9 : i.val = 23
  · rw [if_pos c9]
    have e : i = 23 := Fin.ext (c9)
    subst e
    rw [if_pos (by first | trivial | exact Or.inr (by decide) | decide)]; exact k_23 P s R a b hs 
  rw [if_neg c9]
  rw [if_neg]
  intro hsel
  have hi : i.val < 24 := i.isLt
  first | omega | (rcases hsel with h | h <;> first | omega | (simp only [h, true_and] at *; omega))

end

end Ecl.Fusion.Beta
