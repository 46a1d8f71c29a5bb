import Verif.Fusion.Core

/-!
# Magnetometer Z axis observation equations (generated by tools/gen_fusion.py)

One definition per assignment of the source; `s` is the state vector, `R` the observation variance.  Theorems: the innovation variance and
the gain are the Kalman expressions of the observation row.
-/

set_option linter.unusedSectionVars false
set_option linter.unusedSimpArgs false
set_option linter.unusedVariables false

namespace Ecl.Fusion.MagZ

open Ecl.Cov

section
variable {K : Type*} [Field K] [CharZero K]

/-- EKF/mag_fusion.cpp:325 -/
def HKZ0 (P : Mat K) (s : Vec K) (R a b : K) : K := (s 18) * (s 0) - (s 17) * (s 1) + (s 16) * (s 2)

/-- EKF/mag_fusion.cpp:326 -/
def HKZ1 (P : Mat K) (s : Vec K) (R a b : K) : K := (s 16) * (s 3)

/-- EKF/mag_fusion.cpp:327 -/
def HKZ2 (P : Mat K) (s : Vec K) (R a b : K) : K := (s 18) * (s 1)

/-- EKF/mag_fusion.cpp:328 -/
def HKZ3 (P : Mat K) (s : Vec K) (R a b : K) : K := (s 17) * (s 0)

/-- EKF/mag_fusion.cpp:329 -/
def HKZ4 (P : Mat K) (s : Vec K) (R a b : K) : K := -(s 18) * (s 2) + (s 17) * (s 3) + (s 16) * (s 0)

/-- EKF/mag_fusion.cpp:330 -/
def HKZ5 (P : Mat K) (s : Vec K) (R a b : K) : K := (s 18) * (s 3) + (s 17) * (s 2) + (s 16) * (s 1)

/-- EKF/mag_fusion.cpp:331 -/
def HKZ6 (P : Mat K) (s : Vec K) (R a b : K) : K := (s 0) * (s 2) + (s 1) * (s 3)

/-- EKF/mag_fusion.cpp:332 -/
def HKZ7 (P : Mat K) (s : Vec K) (R a b : K) : K := (s 2) * (s 3)

/-- EKF/mag_fusion.cpp:333 -/
def HKZ8 (P : Mat K) (s : Vec K) (R a b : K) : K := (s 0) * (s 1)

/-- EKF/mag_fusion.cpp:334 -/
def HKZ9 (P : Mat K) (s : Vec K) (R a b : K) : K := ((s 0)) ^ 2 - ((s 1)) ^ 2 - ((s 2)) ^ 2 + ((s 3)) ^ 2

/-- EKF/mag_fusion.cpp:335 -/
def HKZ10 (P : Mat K) (s : Vec K) (R a b : K) : K := 2 * (HKZ6 P s R a b)

/-- EKF/mag_fusion.cpp:336 -/
def HKZ11 (P : Mat K) (s : Vec K) (R a b : K) : K := -2 * (HKZ7 P s R a b) + 2 * (HKZ8 P s R a b)

/-- EKF/mag_fusion.cpp:337 -/
def HKZ12 (P : Mat K) (s : Vec K) (R a b : K) : K := 2 * (HKZ5 P s R a b)

/-- EKF/mag_fusion.cpp:338 -/
def HKZ13 (P : Mat K) (s : Vec K) (R a b : K) : K := 2 * (HKZ0 P s R a b)

/-- EKF/mag_fusion.cpp:339 -/
def HKZ14 (P : Mat K) (s : Vec K) (R a b : K) : K := -2 * (HKZ1 P s R a b) + 2 * (HKZ2 P s R a b) + 2 * (HKZ3 P s R a b)

/-- EKF/mag_fusion.cpp:340 -/
def HKZ15 (P : Mat K) (s : Vec K) (R a b : K) : K := 2 * (HKZ4 P s R a b)

/-- EKF/mag_fusion.cpp:341 -/
def HKZ16 (P : Mat K) (s : Vec K) (R a b : K) : K := (HKZ10 P s R a b) * (P 0 16) - (HKZ11 P s R a b) * (P 0 17) + (HKZ12 P s R a b) * (P 0 3) + (HKZ13 P s R a b) * (P 0 0) - (HKZ14 P s R a b) * (P 0 1) + (HKZ15 P s R a b) * (P 0 2) + (HKZ9 P s R a b) * (P 0 18) + (P 0 21)

/-- EKF/mag_fusion.cpp:342 -/
def HKZ17 (P : Mat K) (s : Vec K) (R a b : K) : K := (HKZ10 P s R a b) * (P 16 18) - (HKZ11 P s R a b) * (P 17 18) + (HKZ12 P s R a b) * (P 3 18) + (HKZ13 P s R a b) * (P 0 18) - (HKZ14 P s R a b) * (P 1 18) + (HKZ15 P s R a b) * (P 2 18) + (HKZ9 P s R a b) * (P 18 18) + (P 18 21)

/-- EKF/mag_fusion.cpp:343 -/
def HKZ18 (P : Mat K) (s : Vec K) (R a b : K) : K := (HKZ10 P s R a b) * (P 16 17) - (HKZ11 P s R a b) * (P 17 17) + (HKZ12 P s R a b) * (P 3 17) + (HKZ13 P s R a b) * (P 0 17) - (HKZ14 P s R a b) * (P 1 17) + (HKZ15 P s R a b) * (P 2 17) + (HKZ9 P s R a b) * (P 17 18) + (P 17 21)

/-- EKF/mag_fusion.cpp:344 -/
def HKZ19 (P : Mat K) (s : Vec K) (R a b : K) : K := (HKZ10 P s R a b) * (P 1 16) - (HKZ11 P s R a b) * (P 1 17) + (HKZ12 P s R a b) * (P 1 3) + (HKZ13 P s R a b) * (P 0 1) - (HKZ14 P s R a b) * (P 1 1) + (HKZ15 P s R a b) * (P 1 2) + (HKZ9 P s R a b) * (P 1 18) + (P 1 21)

/-- EKF/mag_fusion.cpp:345 -/
def HKZ20 (P : Mat K) (s : Vec K) (R a b : K) : K := (HKZ10 P s R a b) * (P 16 16) - (HKZ11 P s R a b) * (P 16 17) + (HKZ12 P s R a b) * (P 3 16) + (HKZ13 P s R a b) * (P 0 16) - (HKZ14 P s R a b) * (P 1 16) + (HKZ15 P s R a b) * (P 2 16) + (HKZ9 P s R a b) * (P 16 18) + (P 16 21)

/-- EKF/mag_fusion.cpp:346 -/
def HKZ21 (P : Mat K) (s : Vec K) (R a b : K) : K := (HKZ10 P s R a b) * (P 3 16) - (HKZ11 P s R a b) * (P 3 17) + (HKZ12 P s R a b) * (P 3 3) + (HKZ13 P s R a b) * (P 0 3) - (HKZ14 P s R a b) * (P 1 3) + (HKZ15 P s R a b) * (P 2 3) + (HKZ9 P s R a b) * (P 3 18) + (P 3 21)

/-- EKF/mag_fusion.cpp:347 -/
def HKZ22 (P : Mat K) (s : Vec K) (R a b : K) : K := (HKZ10 P s R a b) * (P 2 16) - (HKZ11 P s R a b) * (P 2 17) + (HKZ12 P s R a b) * (P 2 3) + (HKZ13 P s R a b) * (P 0 2) - (HKZ14 P s R a b) * (P 1 2) + (HKZ15 P s R a b) * (P 2 2) + (HKZ9 P s R a b) * (P 2 18) + (P 2 21)

/-- EKF/mag_fusion.cpp:348 -/
def HKZ23 (P : Mat K) (s : Vec K) (R a b : K) : K := (HKZ10 P s R a b) * (P 16 21) - (HKZ11 P s R a b) * (P 17 21) + (HKZ12 P s R a b) * (P 3 21) + (HKZ13 P s R a b) * (P 0 21) - (HKZ14 P s R a b) * (P 1 21) + (HKZ15 P s R a b) * (P 2 21) + (HKZ9 P s R a b) * (P 18 21) + (P 21 21)

/-- EKF/mag_fusion.cpp:350 -/
def S (P : Mat K) (s : Vec K) (R a b : K) : K := ((HKZ10 P s R a b) * (HKZ20 P s R a b) - (HKZ11 P s R a b) * (HKZ18 P s R a b) + (HKZ12 P s R a b) * (HKZ21 P s R a b) + (HKZ13 P s R a b) * (HKZ16 P s R a b) - (HKZ14 P s R a b) * (HKZ19 P s R a b) + (HKZ15 P s R a b) * (HKZ22 P s R a b) + (HKZ17 P s R a b) * (HKZ9 P s R a b) + (HKZ23 P s R a b) + R)

/-- EKF/mag_fusion.cpp:362 -/
def HKZ24 (P : Mat K) (s : Vec K) (R a b : K) : K := 1 / (S P s R a b)

/-- observation row, EKF/mag_fusion.cpp:366-373 -/
def hList (P : Mat K) (s : Vec K) (R a b : K) : List (Fin N × K) :=
  [(0, 2 * (HKZ0 P s R a b)),
   (1, 2 * (HKZ1 P s R a b) - 2 * (HKZ2 P s R a b) - 2 * (HKZ3 P s R a b)),
   (2, 2 * (HKZ4 P s R a b)),
   (3, 2 * (HKZ5 P s R a b)),
   (16, 2 * (HKZ6 P s R a b)),
   (17, 2 * (HKZ7 P s R a b) - 2 * (HKZ8 P s R a b)),
   (18, (HKZ9 P s R a b)),
   (21, 1)]

/-- Kalman gains, EKF/mag_fusion.cpp:377-399; `all` is the condition of the first block -/
def gain (all : Bool) (P : Mat K) (s : Vec K) (R a b : K) : Vec K := fun i =>
  if all = true ∧ i.val = 0 then (HKZ16 P s R a b) * (HKZ24 P s R a b) else
  if all = true ∧ i.val = 1 then (HKZ19 P s R a b) * (HKZ24 P s R a b) else
  if all = true ∧ i.val = 2 then (HKZ22 P s R a b) * (HKZ24 P s R a b) else
  if all = true ∧ i.val = 3 then (HKZ21 P s R a b) * (HKZ24 P s R a b) else
  if all = true ∧ 4 ≤ i.val ∧ i.val ≤ 15 then (HKZ24 P s R a b) * ((HKZ10 P s R a b) * (P i 16) - (HKZ11 P s R a b) * (P i 17) + (HKZ12 P s R a b) * (P 3 i) + (HKZ13 P s R a b) * (P 0 i) - (HKZ14 P s R a b) * (P 1 i) + (HKZ15 P s R a b) * (P 2 i) + (HKZ9 P s R a b) * (P i 18) + (P i 21)) else
  if all = true ∧ 22 ≤ i.val ∧ i.val ≤ 23 then (HKZ24 P s R a b) * ((HKZ10 P s R a b) * (P 16 i) - (HKZ11 P s R a b) * (P 17 i) + (HKZ12 P s R a b) * (P 3 i) + (HKZ13 P s R a b) * (P 0 i) - (HKZ14 P s R a b) * (P 1 i) + (HKZ15 P s R a b) * (P 2 i) + (HKZ9 P s R a b) * (P 18 i) + (P 21 i)) else
  if i.val = 16 then (HKZ20 P s R a b) * (HKZ24 P s R a b) else
  if i.val = 17 then (HKZ18 P s R a b) * (HKZ24 P s R a b) else
  if i.val = 18 then (HKZ17 P s R a b) * (HKZ24 P s R a b) else
  if 19 ≤ i.val ∧ i.val ≤ 20 then (HKZ24 P s R a b) * ((HKZ10 P s R a b) * (P 16 i) - (HKZ11 P s R a b) * (P 17 i) + (HKZ12 P s R a b) * (P 3 i) + (HKZ13 P s R a b) * (P 0 i) - (HKZ14 P s R a b) * (P 1 i) + (HKZ15 P s R a b) * (P 2 i) + (HKZ9 P s R a b) * (P 18 i) + (P i 21)) else
  if i.val = 21 then (HKZ23 P s R a b) * (HKZ24 P s R a b) else
  0

theorem S_eq (P : Mat K) (s : Vec K) (R a b : K) (hs : ∀ i j, P i j = P j i) :
    S P s R a b = Spec.innovVar P (sparse (hList P s R a b)) R := by
  rw [innovVar_sparse]
  simp only [mulVec_sparse, hList, List.map_cons, List.map_nil, List.sum_cons, List.sum_nil]
  simp only [S, HKZ10, HKZ11, HKZ12, HKZ13, HKZ14, HKZ15, HKZ16, HKZ17, HKZ18, HKZ19, HKZ20, HKZ21, HKZ22, HKZ23]
  simp only [hs 1 0, hs 2 0, hs 2 1, hs 3 0, hs 3 1, hs 3 2, hs 16 0, hs 16 1, hs 16 2, hs 16 3, hs 17 0, hs 17 1, hs 17 2, hs 17 3, hs 17 16, hs 18 0, hs 18 1, hs 18 2, hs 18 3, hs 18 16, hs 18 17, hs 21 0, hs 21 1, hs 21 2, hs 21 3, hs 21 16, hs 21 17, hs 21 18]
  ring

theorem k_0 (P : Mat K) (s : Vec K) (R a b : K) (hs : ∀ i j, P i j = P j i) :
    (HKZ16 P s R a b) * (HKZ24 P s R a b) = Spec.mulVec P (sparse (hList P s R a b)) 0 / S P s R a b := by
  rw [mulVec_sparse]
  simp only [hList, List.map_cons, List.map_nil, List.sum_cons, List.sum_nil]
  simp only [HKZ10, HKZ11, HKZ12, HKZ13, HKZ14, HKZ15, HKZ16, HKZ24]
  try simp only [hs 1 0, hs 2 0, hs 3 0, hs 16 0, hs 17 0, hs 18 0, hs 21 0]
  ring

theorem k_1 (P : Mat K) (s : Vec K) (R a b : K) (hs : ∀ i j, P i j = P j i) :
    (HKZ19 P s R a b) * (HKZ24 P s R a b) = Spec.mulVec P (sparse (hList P s R a b)) 1 / S P s R a b := by
  rw [mulVec_sparse]
  simp only [hList, List.map_cons, List.map_nil, List.sum_cons, List.sum_nil]
  simp only [HKZ10, HKZ11, HKZ12, HKZ13, HKZ14, HKZ15, HKZ19, HKZ24]
  try simp only [hs 1 0, hs 2 1, hs 3 1, hs 16 1, hs 17 1, hs 18 1, hs 21 1]
  ring

theorem k_2 (P : Mat K) (s : Vec K) (R a b : K) (hs : ∀ i j, P i j = P j i) :
    (HKZ22 P s R a b) * (HKZ24 P s R a b) = Spec.mulVec P (sparse (hList P s R a b)) 2 / S P s R a b := by
  rw [mulVec_sparse]
  simp only [hList, List.map_cons, List.map_nil, List.sum_cons, List.sum_nil]
  simp only [HKZ10, HKZ11, HKZ12, HKZ13, HKZ14, HKZ15, HKZ22, HKZ24]
  try simp only [hs 2 0, hs 2 1, hs 3 2, hs 16 2, hs 17 2, hs 18 2, hs 21 2]
  ring

theorem k_3 (P : Mat K) (s : Vec K) (R a b : K) (hs : ∀ i j, P i j = P j i) :
    (HKZ21 P s R a b) * (HKZ24 P s R a b) = Spec.mulVec P (sparse (hList P s R a b)) 3 / S P s R a b := by
  rw [mulVec_sparse]
  simp only [hList, List.map_cons, List.map_nil, List.sum_cons, List.sum_nil]
  simp only [HKZ10, HKZ11, HKZ12, HKZ13, HKZ14, HKZ15, HKZ21, HKZ24]
  try simp only [hs 3 0, hs 3 1, hs 3 2, hs 16 3, hs 17 3, hs 18 3, hs 21 3]
  ring

theorem k_r4 (P : Mat K) (s : Vec K) (R a b : K) (hs : ∀ i j, P i j = P j i) (i : Fin N) :
    (HKZ24 P s R a b) * ((HKZ10 P s R a b) * (P i 16) - (HKZ11 P s R a b) * (P i 17) + (HKZ12 P s R a b) * (P 3 i) + (HKZ13 P s R a b) * (P 0 i) - (HKZ14 P s R a b) * (P 1 i) + (HKZ15 P s R a b) * (P 2 i) + (HKZ9 P s R a b) * (P i 18) + (P i 21)) = Spec.mulVec P (sparse (hList P s R a b)) i / S P s R a b := by
  rw [mulVec_sparse]
  simp only [hList, List.map_cons, List.map_nil, List.sum_cons, List.sum_nil]
  simp only [HKZ10, HKZ11, HKZ12, HKZ13, HKZ14, HKZ15, HKZ24]
  rw [hs 0 i, hs 1 i, hs 2 i, hs 3 i]
  ring

theorem k_r22 (P : Mat K) (s : Vec K) (R a b : K) (hs : ∀ i j, P i j = P j i) (i : Fin N) :
    (HKZ24 P s R a b) * ((HKZ10 P s R a b) * (P 16 i) - (HKZ11 P s R a b) * (P 17 i) + (HKZ12 P s R a b) * (P 3 i) + (HKZ13 P s R a b) * (P 0 i) - (HKZ14 P s R a b) * (P 1 i) + (HKZ15 P s R a b) * (P 2 i) + (HKZ9 P s R a b) * (P 18 i) + (P 21 i)) = Spec.mulVec P (sparse (hList P s R a b)) i / S P s R a b := by
  rw [mulVec_sparse]
  simp only [hList, List.map_cons, List.map_nil, List.sum_cons, List.sum_nil]
  simp only [HKZ10, HKZ11, HKZ12, HKZ13, HKZ14, HKZ15, HKZ24]
  rw [hs 0 i, hs 1 i, hs 2 i, hs 3 i, hs 16 i, hs 17 i, hs 18 i, hs 21 i]
  ring

theorem k_16 (P : Mat K) (s : Vec K) (R a b : K) (hs : ∀ i j, P i j = P j i) :
    (HKZ20 P s R a b) * (HKZ24 P s R a b) = Spec.mulVec P (sparse (hList P s R a b)) 16 / S P s R a b := by
  rw [mulVec_sparse]
  simp only [hList, List.map_cons, List.map_nil, List.sum_cons, List.sum_nil]
  simp only [HKZ10, HKZ11, HKZ12, HKZ13, HKZ14, HKZ15, HKZ20, HKZ24]
  try simp only [hs 16 0, hs 16 1, hs 16 2, hs 16 3, hs 17 16, hs 18 16, hs 21 16]
  ring

theorem k_17 (P : Mat K) (s : Vec K) (R a b : K) (hs : ∀ i j, P i j = P j i) :
    (HKZ18 P s R a b) * (HKZ24 P s R a b) = Spec.mulVec P (sparse (hList P s R a b)) 17 / S P s R a b := by
  rw [mulVec_sparse]
  simp only [hList, List.map_cons, List.map_nil, List.sum_cons, List.sum_nil]
  simp only [HKZ10, HKZ11, HKZ12, HKZ13, HKZ14, HKZ15, HKZ18, HKZ24]
  try simp only [hs 17 0, hs 17 1, hs 17 2, hs 17 3, hs 17 16, hs 18 17, hs 21 17]
  ring

theorem k_18 (P : Mat K) (s : Vec K) (R a b : K) (hs : ∀ i j, P i j = P j i) :
    (HKZ17 P s R a b) * (HKZ24 P s R a b) = Spec.mulVec P (sparse (hList P s R a b)) 18 / S P s R a b := by
  rw [mulVec_sparse]
  simp only [hList, List.map_cons, List.map_nil, List.sum_cons, List.sum_nil]
  simp only [HKZ10, HKZ11, HKZ12, HKZ13, HKZ14, HKZ15, HKZ17, HKZ24]
  try simp only [hs 18 0, hs 18 1, hs 18 2, hs 18 3, hs 18 16, hs 18 17, hs 21 18]
  ring

theorem k_r19 (P : Mat K) (s : Vec K) (R a b : K) (hs : ∀ i j, P i j = P j i) (i : Fin N) :
    (HKZ24 P s R a b) * ((HKZ10 P s R a b) * (P 16 i) - (HKZ11 P s R a b) * (P 17 i) + (HKZ12 P s R a b) * (P 3 i) + (HKZ13 P s R a b) * (P 0 i) - (HKZ14 P s R a b) * (P 1 i) + (HKZ15 P s R a b) * (P 2 i) + (HKZ9 P s R a b) * (P 18 i) + (P i 21)) = Spec.mulVec P (sparse (hList P s R a b)) i / S P s R a b := by
  rw [mulVec_sparse]
  simp only [hList, List.map_cons, List.map_nil, List.sum_cons, List.sum_nil]
  simp only [HKZ10, HKZ11, HKZ12, HKZ13, HKZ14, HKZ15, HKZ24]
  rw [hs 0 i, hs 1 i, hs 2 i, hs 3 i, hs 16 i, hs 17 i, hs 18 i]
  ring

theorem k_21 (P : Mat K) (s : Vec K) (R a b : K) (hs : ∀ i j, P i j = P j i) :
    (HKZ23 P s R a b) * (HKZ24 P s R a b) = Spec.mulVec P (sparse (hList P s R a b)) 21 / S P s R a b := by
  rw [mulVec_sparse]
  simp only [hList, List.map_cons, List.map_nil, List.sum_cons, List.sum_nil]
  simp only [HKZ10, HKZ11, HKZ12, HKZ13, HKZ14, HKZ15, HKZ23, HKZ24]
  try simp only [hs 21 0, hs 21 1, hs 21 2, hs 21 3, hs 21 16, hs 21 17, hs 21 18]
  ring

theorem gain_eq (all : Bool) (P : Mat K) (s : Vec K) (R a b : K) (hs : ∀ i j, P i j = P j i) (i : Fin N) :
    gain all P s R a b i = if (all = true ∨ (16 ≤ i.val ∧ i.val ≤ 21)) then Spec.mulVec P (sparse (hList P s R a b)) i / Spec.innovVar P (sparse (hList P s R a b)) R else 0 := by
  rw [← S_eq P s R a b hs ]
  unfold gain

  by_cases c0 : all = true ∧ i.val = 0
  · rw [if_pos c0]
    have e : i = 0 := Fin.ext (c0.2)
    subst e
    rw [if_pos (by first | trivial | exact Or.inl c0.1 | decide)]; exact k_0 P s R a b hs 
  rw [if_neg c0]
  by_cases c1 : all = true ∧ i.val = 1
  · rw [if_pos c1]
    have e : i = 1 := Fin.ext (c1.2)
    subst e
    rw [if_pos (by first | trivial | exact Or.inl c1.1 | decide)]; exact k_1 P s R a b hs 
  rw [if_neg c1]
  by_cases c2 : all = true ∧ i.val = 2
  · rw [if_pos c2]
    have e : i = 2 := Fin.ext (c2.2)
    subst e
    rw [if_pos (by first | trivial | exact Or.inl c2.1 | decide)]; exact k_2 P s R a b hs 
  rw [if_neg c2]
  by_cases c3 : all = true ∧ i.val = 3
  · rw [if_pos c3]
    have e : i = 3 := Fin.ext (c3.2)
    subst e
    rw [if_pos (by first | trivial | exact Or.inl c3.1 | decide)]; exact k_3 P s R a b hs 
  rw [if_neg c3]
  by_cases c4 : all = true ∧ 4 ≤ i.val ∧ i.val ≤ 15
  · rw [if_pos c4]
    rw [if_pos (by first | trivial | exact Or.inl c4.1 | omega)]; exact k_r4 P s R a b hs i
  rw [if_neg c4]
  by_cases c5 : all = true ∧ 22 ≤ i.val ∧ i.val ≤ 23
  · rw [if_pos c5]
    rw [if_pos (by first | trivial | exact Or.inl c5.1 | omega)]; exact k_r22 P s R a b hs i
  rw [if_neg c5]
  by_cases c6 : i.val = 16
  · rw [if_pos c6]
    have e : i = 16 := Fin.ext (c6)
    subst e
    rw [if_pos (by first | trivial | exact Or.inr (by decide) | decide)]; exact k_16 P s R a b hs 
  rw [if_neg c6]
  by_cases c7 : i.val = 17
  · rw [if_pos c7]
    have e : i = 17 := Fin.ext (c7)
    subst e
    rw [if_pos (by first | trivial | exact Or.inr (by decide) | decide)]; exact k_17 P s R a b hs 
  rw [if_neg c7]
  by_cases c8 : i.val = 18
  · rw [if_pos c8]
    have e : i = 18 := Fin.ext (c8)
    subst e
    rw [if_pos (by first | trivial | exact Or.inr (by decide) | decide)]; exact k_18 P s R a b hs 
  rw [if_neg c8]
  by_cases c9 : 19 ≤ i.val ∧ i.val ≤ 20
  · rw [if_pos c9]
    rw [if_pos (by first | trivial | omega | (right; omega))]; exact k_r19 P s R a b hs i
  rw [if_neg c9]
  by_cases c10 : i.val = 21
  · rw [if_pos c10]
    have e : i = 21 := Fin.ext (c10)
    subst e
    rw [if_pos (by first | trivial | exact Or.inr (by decide) | decide)]; exact k_21 P s R a b hs 
  rw [if_neg c10]
  rw [if_neg]
  intro hsel
  have hi : i.val < 24 := i.isLt
  first | omega | (rcases hsel with h | h <;> first | omega | (simp only [h, true_and] at *; omega))

end

end Ecl.Fusion.MagZ
