import Verif.Fusion.Core

/-!
# Magnetometer Y axis observation equations (generated by tools/gen_fusion.py)

One definition per assignment of the source; `s` is the state vector, `R` the observation variance.  Theorems: the innovation variance and
the gain are the Kalman expressions of the observation row.
-/

set_option linter.unusedSectionVars false
set_option linter.unusedSimpArgs false
set_option linter.unusedVariables false

namespace Ecl.Fusion.MagY

open Ecl.Cov

section
variable {K : Type*} [Field K] [CharZero K]

/-- EKF/mag_fusion.cpp:245 -/
def HKY0 (P : Mat K) (s : Vec K) (R a b : K) : K := (s 18) * (s 1) + (s 17) * (s 0) - (s 16) * (s 3)

/-- EKF/mag_fusion.cpp:246 -/
def HKY1 (P : Mat K) (s : Vec K) (R a b : K) : K := (s 18) * (s 0) - (s 17) * (s 1) + (s 16) * (s 2)

/-- EKF/mag_fusion.cpp:247 -/
def HKY2 (P : Mat K) (s : Vec K) (R a b : K) : K := (s 18) * (s 3) + (s 17) * (s 2) + (s 16) * (s 1)

/-- EKF/mag_fusion.cpp:248 -/
def HKY3 (P : Mat K) (s : Vec K) (R a b : K) : K := (s 18) * (s 2)

/-- EKF/mag_fusion.cpp:249 -/
def HKY4 (P : Mat K) (s : Vec K) (R a b : K) : K := (s 17) * (s 3)

/-- EKF/mag_fusion.cpp:250 -/
def HKY5 (P : Mat K) (s : Vec K) (R a b : K) : K := (s 16) * (s 0)

/-- EKF/mag_fusion.cpp:251 -/
def HKY6 (P : Mat K) (s : Vec K) (R a b : K) : K := (s 1) * (s 2)

/-- EKF/mag_fusion.cpp:252 -/
def HKY7 (P : Mat K) (s : Vec K) (R a b : K) : K := (s 0) * (s 3)

/-- EKF/mag_fusion.cpp:253 -/
def HKY8 (P : Mat K) (s : Vec K) (R a b : K) : K := ((s 0)) ^ 2 - ((s 1)) ^ 2 + ((s 2)) ^ 2 - ((s 3)) ^ 2

/-- EKF/mag_fusion.cpp:254 -/
def HKY9 (P : Mat K) (s : Vec K) (R a b : K) : K := (s 0) * (s 1) + (s 2) * (s 3)

/-- EKF/mag_fusion.cpp:255 -/
def HKY10 (P : Mat K) (s : Vec K) (R a b : K) : K := 2 * (HKY9 P s R a b)

/-- EKF/mag_fusion.cpp:256 -/
def HKY11 (P : Mat K) (s : Vec K) (R a b : K) : K := -2 * (HKY6 P s R a b) + 2 * (HKY7 P s R a b)

/-- EKF/mag_fusion.cpp:257 -/
def HKY12 (P : Mat K) (s : Vec K) (R a b : K) : K := 2 * (HKY2 P s R a b)

/-- EKF/mag_fusion.cpp:258 -/
def HKY13 (P : Mat K) (s : Vec K) (R a b : K) : K := 2 * (HKY0 P s R a b)

/-- EKF/mag_fusion.cpp:259 -/
def HKY14 (P : Mat K) (s : Vec K) (R a b : K) : K := 2 * (HKY1 P s R a b)

/-- EKF/mag_fusion.cpp:260 -/
def HKY15 (P : Mat K) (s : Vec K) (R a b : K) : K := -2 * (HKY3 P s R a b) + 2 * (HKY4 P s R a b) + 2 * (HKY5 P s R a b)

/-- EKF/mag_fusion.cpp:261 -/
def HKY16 (P : Mat K) (s : Vec K) (R a b : K) : K := (HKY10 P s R a b) * (P 0 18) - (HKY11 P s R a b) * (P 0 16) + (HKY12 P s R a b) * (P 0 2) + (HKY13 P s R a b) * (P 0 0) + (HKY14 P s R a b) * (P 0 1) - (HKY15 P s R a b) * (P 0 3) + (HKY8 P s R a b) * (P 0 17) + (P 0 20)

/-- EKF/mag_fusion.cpp:262 -/
def HKY17 (P : Mat K) (s : Vec K) (R a b : K) : K := (HKY10 P s R a b) * (P 17 18) - (HKY11 P s R a b) * (P 16 17) + (HKY12 P s R a b) * (P 2 17) + (HKY13 P s R a b) * (P 0 17) + (HKY14 P s R a b) * (P 1 17) - (HKY15 P s R a b) * (P 3 17) + (HKY8 P s R a b) * (P 17 17) + (P 17 20)

/-- EKF/mag_fusion.cpp:263 -/
def HKY18 (P : Mat K) (s : Vec K) (R a b : K) : K := (HKY10 P s R a b) * (P 16 18) - (HKY11 P s R a b) * (P 16 16) + (HKY12 P s R a b) * (P 2 16) + (HKY13 P s R a b) * (P 0 16) + (HKY14 P s R a b) * (P 1 16) - (HKY15 P s R a b) * (P 3 16) + (HKY8 P s R a b) * (P 16 17) + (P 16 20)

/-- EKF/mag_fusion.cpp:264 -/
def HKY19 (P : Mat K) (s : Vec K) (R a b : K) : K := (HKY10 P s R a b) * (P 3 18) - (HKY11 P s R a b) * (P 3 16) + (HKY12 P s R a b) * (P 2 3) + (HKY13 P s R a b) * (P 0 3) + (HKY14 P s R a b) * (P 1 3) - (HKY15 P s R a b) * (P 3 3) + (HKY8 P s R a b) * (P 3 17) + (P 3 20)

/-- EKF/mag_fusion.cpp:265 -/
def HKY20 (P : Mat K) (s : Vec K) (R a b : K) : K := (HKY10 P s R a b) * (P 18 18) - (HKY11 P s R a b) * (P 16 18) + (HKY12 P s R a b) * (P 2 18) + (HKY13 P s R a b) * (P 0 18) + (HKY14 P s R a b) * (P 1 18) - (HKY15 P s R a b) * (P 3 18) + (HKY8 P s R a b) * (P 17 18) + (P 18 20)

/-- EKF/mag_fusion.cpp:266 -/
def HKY21 (P : Mat K) (s : Vec K) (R a b : K) : K := (HKY10 P s R a b) * (P 1 18) - (HKY11 P s R a b) * (P 1 16) + (HKY12 P s R a b) * (P 1 2) + (HKY13 P s R a b) * (P 0 1) + (HKY14 P s R a b) * (P 1 1) - (HKY15 P s R a b) * (P 1 3) + (HKY8 P s R a b) * (P 1 17) + (P 1 20)

/-- EKF/mag_fusion.cpp:267 -/
def HKY22 (P : Mat K) (s : Vec K) (R a b : K) : K := (HKY10 P s R a b) * (P 2 18) - (HKY11 P s R a b) * (P 2 16) + (HKY12 P s R a b) * (P 2 2) + (HKY13 P s R a b) * (P 0 2) + (HKY14 P s R a b) * (P 1 2) - (HKY15 P s R a b) * (P 2 3) + (HKY8 P s R a b) * (P 2 17) + (P 2 20)

/-- EKF/mag_fusion.cpp:268 -/
def HKY23 (P : Mat K) (s : Vec K) (R a b : K) : K := (HKY10 P s R a b) * (P 18 20) - (HKY11 P s R a b) * (P 16 20) + (HKY12 P s R a b) * (P 2 20) + (HKY13 P s R a b) * (P 0 20) + (HKY14 P s R a b) * (P 1 20) - (HKY15 P s R a b) * (P 3 20) + (HKY8 P s R a b) * (P 17 20) + (P 20 20)

/-- EKF/mag_fusion.cpp:270 -/
def S (P : Mat K) (s : Vec K) (R a b : K) : K := ((HKY10 P s R a b) * (HKY20 P s R a b) - (HKY11 P s R a b) * (HKY18 P s R a b) + (HKY12 P s R a b) * (HKY22 P s R a b) + (HKY13 P s R a b) * (HKY16 P s R a b) + (HKY14 P s R a b) * (HKY21 P s R a b) - (HKY15 P s R a b) * (HKY19 P s R a b) + (HKY17 P s R a b) * (HKY8 P s R a b) + (HKY23 P s R a b) + R)

/-- EKF/mag_fusion.cpp:281 -/
def HKY24 (P : Mat K) (s : Vec K) (R a b : K) : K := 1 / (S P s R a b)

/-- observation row, EKF/mag_fusion.cpp:285-292 -/
def hList (P : Mat K) (s : Vec K) (R a b : K) : List (Fin N × K) :=
  [(0, 2 * (HKY0 P s R a b)),
   (1, 2 * (HKY1 P s R a b)),
   (2, 2 * (HKY2 P s R a b)),
   (3, 2 * (HKY3 P s R a b) - 2 * (HKY4 P s R a b) - 2 * (HKY5 P s R a b)),
   (16, 2 * (HKY6 P s R a b) - 2 * (HKY7 P s R a b)),
   (17, (HKY8 P s R a b)),
   (18, 2 * (HKY9 P s R a b)),
   (20, 1)]

/-- Kalman gains, EKF/mag_fusion.cpp:296-315; `all` is the condition of the first block -/
def gain (all : Bool) (P : Mat K) (s : Vec K) (R a b : K) : Vec K := fun i =>
  if all = true ∧ i.val = 0 then (HKY16 P s R a b) * (HKY24 P s R a b) else
  if all = true ∧ i.val = 1 then (HKY21 P s R a b) * (HKY24 P s R a b) else
  if all = true ∧ i.val = 2 then (HKY22 P s R a b) * (HKY24 P s R a b) else
  if all = true ∧ i.val = 3 then (HKY19 P s R a b) * (HKY24 P s R a b) else
  if all = true ∧ 4 ≤ i.val ∧ i.val ≤ 15 then (HKY24 P s R a b) * ((HKY10 P s R a b) * (P i 18) - (HKY11 P s R a b) * (P i 16) + (HKY12 P s R a b) * (P 2 i) + (HKY13 P s R a b) * (P 0 i) + (HKY14 P s R a b) * (P 1 i) - (HKY15 P s R a b) * (P 3 i) + (HKY8 P s R a b) * (P i 17) + (P i 20)) else
  if all = true ∧ 22 ≤ i.val ∧ i.val ≤ 23 then (HKY24 P s R a b) * ((HKY10 P s R a b) * (P 18 i) - (HKY11 P s R a b) * (P 16 i) + (HKY12 P s R a b) * (P 2 i) + (HKY13 P s R a b) * (P 0 i) + (HKY14 P s R a b) * (P 1 i) - (HKY15 P s R a b) * (P 3 i) + (HKY8 P s R a b) * (P 17 i) + (P 20 i)) else
  if i.val = 16 then (HKY18 P s R a b) * (HKY24 P s R a b) else
  if i.val = 17 then (HKY17 P s R a b) * (HKY24 P s R a b) else
  if i.val = 18 then (HKY20 P s R a b) * (HKY24 P s R a b) else
  if i.val = 19 then (HKY24 P s R a b) * ((HKY10 P s R a b) * (P 18 19) - (HKY11 P s R a b) * (P 16 19) + (HKY12 P s R a b) * (P 2 19) + (HKY13 P s R a b) * (P 0 19) + (HKY14 P s R a b) * (P 1 19) - (HKY15 P s R a b) * (P 3 19) + (HKY8 P s R a b) * (P 17 19) + (P 19 20)) else
  if i.val = 20 then (HKY23 P s R a b) * (HKY24 P s R a b) else
  if i.val = 21 then (HKY24 P s R a b) * ((HKY10 P s R a b) * (P 18 21) - (HKY11 P s R a b) * (P 16 21) + (HKY12 P s R a b) * (P 2 21) + (HKY13 P s R a b) * (P 0 21) + (HKY14 P s R a b) * (P 1 21) - (HKY15 P s R a b) * (P 3 21) + (HKY8 P s R a b) * (P 17 21) + (P 20 21)) else
  0

theorem S_eq (P : Mat K) (s : Vec K) (R a b : K) (hs : ∀ i j, P i j = P j i) :
    S P s R a b = Spec.innovVar P (sparse (hList P s R a b)) R := by
  rw [innovVar_sparse]
  simp only [mulVec_sparse, hList, List.map_cons, List.map_nil, List.sum_cons, List.sum_nil]
  simp only [S, HKY10, HKY11, HKY12, HKY13, HKY14, HKY15, HKY16, HKY17, HKY18, HKY19, HKY20, HKY21, HKY22, HKY23]
  simp only [hs 1 0, hs 2 0, hs 2 1, hs 3 0, hs 3 1, hs 3 2, hs 16 0, hs 16 1, hs 16 2, hs 16 3, hs 17 0, hs 17 1, hs 17 2, hs 17 3, hs 17 16, hs 18 0, hs 18 1, hs 18 2, hs 18 3, hs 18 16, hs 18 17, hs 20 0, hs 20 1, hs 20 2, hs 20 3, hs 20 16, hs 20 17, hs 20 18]
  ring

theorem k_0 (P : Mat K) (s : Vec K) (R a b : K) (hs : ∀ i j, P i j = P j i) :
    (HKY16 P s R a b) * (HKY24 P s R a b) = Spec.mulVec P (sparse (hList P s R a b)) 0 / S P s R a b := by
  rw [mulVec_sparse]
  simp only [hList, List.map_cons, List.map_nil, List.sum_cons, List.sum_nil]
  simp only [HKY10, HKY11, HKY12, HKY13, HKY14, HKY15, HKY16, HKY24]
  try simp only [hs 1 0, hs 2 0, hs 3 0, hs 16 0, hs 17 0, hs 18 0, hs 20 0]
  ring

theorem k_1 (P : Mat K) (s : Vec K) (R a b : K) (hs : ∀ i j, P i j = P j i) :
    (HKY21 P s R a b) * (HKY24 P s R a b) = Spec.mulVec P (sparse (hList P s R a b)) 1 / S P s R a b := by
  rw [mulVec_sparse]
  simp only [hList, List.map_cons, List.map_nil, List.sum_cons, List.sum_nil]
  simp only [HKY10, HKY11, HKY12, HKY13, HKY14, HKY15, HKY21, HKY24]
  try simp only [hs 1 0, hs 2 1, hs 3 1, hs 16 1, hs 17 1, hs 18 1, hs 20 1]
  ring

theorem k_2 (P : Mat K) (s : Vec K) (R a b : K) (hs : ∀ i j, P i j = P j i) :
    (HKY22 P s R a b) * (HKY24 P s R a b) = Spec.mulVec P (sparse (hList P s R a b)) 2 / S P s R a b := by
  rw [mulVec_sparse]
  simp only [hList, List.map_cons, List.map_nil, List.sum_cons, List.sum_nil]
  simp only [HKY10, HKY11, HKY12, HKY13, HKY14, HKY15, HKY22, HKY24]
  try simp only [hs 2 0, hs 2 1, hs 3 2, hs 16 2, hs 17 2, hs 18 2, hs 20 2]
  ring

theorem k_3 (P : Mat K) (s : Vec K) (R a b : K) (hs : ∀ i j, P i j = P j i) :
    (HKY19 P s R a b) * (HKY24 P s R a b) = Spec.mulVec P (sparse (hList P s R a b)) 3 / S P s R a b := by
  rw [mulVec_sparse]
  simp only [hList, List.map_cons, List.map_nil, List.sum_cons, List.sum_nil]
  simp only [HKY10, HKY11, HKY12, HKY13, HKY14, HKY15, HKY19, HKY24]
  try simp only [hs 3 0, hs 3 1, hs 3 2, hs 16 3, hs 17 3, hs 18 3, hs 20 3]
  ring

theorem k_r4 (P : Mat K) (s : Vec K) (R a b : K) (hs : ∀ i j, P i j = P j i) (i : Fin N) :
    (HKY24 P s R a b) * ((HKY10 P s R a b) * (P i 18) - (HKY11 P s R a b) * (P i 16) + (HKY12 P s R a b) * (P 2 i) + (HKY13 P s R a b) * (P 0 i) + (HKY14 P s R a b) * (P 1 i) - (HKY15 P s R a b) * (P 3 i) + (HKY8 P s R a b) * (P i 17) + (P i 20)) = Spec.mulVec P (sparse (hList P s R a b)) i / S P s R a b := by
  rw [mulVec_sparse]
  simp only [hList, List.map_cons, List.map_nil, List.sum_cons, List.sum_nil]
  simp only [HKY10, HKY11, HKY12, HKY13, HKY14, HKY15, HKY24]
  rw [hs 0 i, hs 1 i, hs 2 i, hs 3 i]
  ring

theorem k_r22 (P : Mat K) (s : Vec K) (R a b : K) (hs : ∀ i j, P i j = P j i) (i : Fin N) :
    (HKY24 P s R a b) * ((HKY10 P s R a b) * (P 18 i) - (HKY11 P s R a b) * (P 16 i) + (HKY12 P s R a b) * (P 2 i) + (HKY13 P s R a b) * (P 0 i) + (HKY14 P s R a b) * (P 1 i) - (HKY15 P s R a b) * (P 3 i) + (HKY8 P s R a b) * (P 17 i) + (P 20 i)) = Spec.mulVec P (sparse (hList P s R a b)) i / S P s R a b := by
  rw [mulVec_sparse]
  simp only [hList, List.map_cons, List.map_nil, List.sum_cons, List.sum_nil]
  simp only [HKY10, HKY11, HKY12, HKY13, HKY14, HKY15, HKY24]
  rw [hs 0 i, hs 1 i, hs 2 i, hs 3 i, hs 16 i, hs 17 i, hs 18 i, hs 20 i]
  ring

theorem k_16 (P : Mat K) (s : Vec K) (R a b : K) (hs : ∀ i j, P i j = P j i) :
    (HKY18 P s R a b) * (HKY24 P s R a b) = Spec.mulVec P (sparse (hList P s R a b)) 16 / S P s R a b := by
  rw [mulVec_sparse]
  simp only [hList, List.map_cons, List.map_nil, List.sum_cons, List.sum_nil]
  simp only [HKY10, HKY11, HKY12, HKY13, HKY14, HKY15, HKY18, HKY24]
  try simp only [hs 16 0, hs 16 1, hs 16 2, hs 16 3, hs 17 16, hs 18 16, hs 20 16]
  ring

theorem k_17 (P : Mat K) (s : Vec K) (R a b : K) (hs : ∀ i j, P i j = P j i) :
    (HKY17 P s R a b) * (HKY24 P s R a b) = Spec.mulVec P (sparse (hList P s R a b)) 17 / S P s R a b := by
  rw [mulVec_sparse]
  simp only [hList, List.map_cons, List.map_nil, List.sum_cons, List.sum_nil]
  simp only [HKY10, HKY11, HKY12, HKY13, HKY14, HKY15, HKY17, HKY24]
  try simp only [hs 17 0, hs 17 1, hs 17 2, hs 17 3, hs 17 16, hs 18 17, hs 20 17]
  ring

theorem k_18 (P : Mat K) (s : Vec K) (R a b : K) (hs : ∀ i j, P i j = P j i) :
    (HKY20 P s R a b) * (HKY24 P s R a b) = Spec.mulVec P (sparse (hList P s R a b)) 18 / S P s R a b := by
  rw [mulVec_sparse]
  simp only [hList, List.map_cons, List.map_nil, List.sum_cons, List.sum_nil]
  simp only [HKY10, HKY11, HKY12, HKY13, HKY14, HKY15, HKY20, HKY24]
  try simp only [hs 18 0, hs 18 1, hs 18 2, hs 18 3, hs 18 16, hs 18 17, hs 20 18]
  ring

theorem k_19 (P : Mat K) (s : Vec K) (R a b : K) (hs : ∀ i j, P i j = P j i) :
    (HKY24 P s R a b) * ((HKY10 P s R a b) * (P 18 19) - (HKY11 P s R a b) * (P 16 19) + (HKY12 P s R a b) * (P 2 19) + (HKY13 P s R a b) * (P 0 19) + (HKY14 P s R a b) * (P 1 19) - (HKY15 P s R a b) * (P 3 19) + (HKY8 P s R a b) * (P 17 19) + (P 19 20)) = Spec.mulVec P (sparse (hList P s R a b)) 19 / S P s R a b := by
  rw [mulVec_sparse]
  simp only [hList, List.map_cons, List.map_nil, List.sum_cons, List.sum_nil]
  simp only [HKY10, HKY11, HKY12, HKY13, HKY14, HKY15, HKY24]
  try simp only [hs 19 0, hs 19 1, hs 19 2, hs 19 3, hs 19 16, hs 19 17, hs 19 18, hs 20 19]
  ring

theorem k_20 (P : Mat K) (s : Vec K) (R a b : K) (hs : ∀ i j, P i j = P j i) :
    (HKY23 P s R a b) * (HKY24 P s R a b) = Spec.mulVec P (sparse (hList P s R a b)) 20 / S P s R a b := by
  rw [mulVec_sparse]
  simp only [hList, List.map_cons, List.map_nil, List.sum_cons, List.sum_nil]
  simp only [HKY10, HKY11, HKY12, HKY13, HKY14, HKY15, HKY23, HKY24]
  try simp only [hs 20 0, hs 20 1, hs 20 2, hs 20 3, hs 20 16, hs 20 17, hs 20 18]
  ring

theorem k_21 (P : Mat K) (s : Vec K) (R a b : K) (hs : ∀ i j, P i j = P j i) :
    (HKY24 P s R a b) * ((HKY10 P s R a b) * (P 18 21) - (HKY11 P s R a b) * (P 16 21) + (HKY12 P s R a b) * (P 2 21) + (HKY13 P s R a b) * (P 0 21) + (HKY14 P s R a b) * (P 1 21) - (HKY15 P s R a b) * (P 3 21) + (HKY8 P s R a b) * (P 17 21) + (P 20 21)) = Spec.mulVec P (sparse (hList P s R a b)) 21 / S P s R a b := by
  rw [mulVec_sparse]
  simp only [hList, List.map_cons, List.map_nil, List.sum_cons, List.sum_nil]
  simp only [HKY10, HKY11, HKY12, HKY13, HKY14, HKY15, HKY24]
  try simp only [hs 21 0, hs 21 1, hs 21 2, hs 21 3, hs 21 16, hs 21 17, hs 21 18, hs 21 20]
  ring

theorem gain_eq (all : Bool) (P : Mat K) (s : Vec K) (R a b : K) (hs : ∀ i j, P i j = P j i) (i : Fin N) :
    gain all P s R a b i = if (all = true ∨ (16 ≤ i.val ∧ i.val ≤ 21)) then Spec.mulVec P (sparse (hList P s R a b)) i / Spec.innovVar P (sparse (hList P s R a b)) R else 0 := by
  rw [← S_eq P s R a b hs ]
  unfold gain

  by_cases c0 : all = true ∧ i.val = 0
  · rw [if_pos c0]
    have e : i = 0 := Fin.ext (c0.2)
    subst e
    rw [if_pos (by first | trivial | exact Or.inl c0.1 | decide)]; exact k_0 P s R a b hs 
  rw [if_neg c0]
  by_cases c1 : all = true ∧ i.val = 1
  · rw [if_pos c1]
    have e : i = 1 := Fin.ext (c1.2)
    subst e
    rw [if_pos (by first | trivial | exact Or.inl c1.1 | decide)]; exact k_1 P s R a b hs 
  rw [if_neg c1]
  by_cases c2 : all = true ∧ i.val = 2
  · rw [if_pos c2]
    have e : i = 2 := Fin.ext (c2.2)
    subst e
    rw [if_pos (by first | trivial | exact Or.inl c2.1 | decide)]; exact k_2 P s R a b hs 
  rw [if_neg c2]
  by_cases c3 : all = true ∧ i.val = 3
  · rw [if_pos c3]
    have e : i = 3 := Fin.ext (c3.2)
    subst e
    rw [if_pos (by first | trivial | exact Or.inl c3.1 | decide)]; exact k_3 P s R a b hs 
  rw [if_neg c3]
  by_cases c4 : all = true ∧ 4 ≤ i.val ∧ i.val ≤ 15
  · rw [if_pos c4]
    rw [if_pos (by first | trivial | exact Or.inl c4.1 | omega)]; exact k_r4 P s R a b hs i
  rw [if_neg c4]
  by_cases c5 : all = true ∧ 22 ≤ i.val ∧ i.val ≤ 23
  · rw [if_pos c5]
    rw [if_pos (by first | trivial | exact Or.inl c5.1 | omega)]; exact k_r22 P s R a b hs i
  rw [if_neg c5]
  by_cases c6 : i.val = 16
  · rw [if_pos c6]
    have e : i = 16 := Fin.ext (c6)
    subst e
    rw [if_pos (by first | trivial | exact Or.inr (by decide) | decide)]; exact k_16 P s R a b hs 
  rw [if_neg c6]
  by_cases c7 : i.val = 17
  · rw [if_pos c7]
    have e : i = 17 := Fin.ext (c7)
    subst e
    rw [if_pos (by first | trivial | exact Or.inr (by decide) | decide)]; exact k_17 P s R a b hs 
  rw [if_neg c7]
  by_cases c8 : i.val = 18
  · rw [if_pos c8]
    have e : i = 18 := Fin.ext (c8)
    subst e
    rw [if_pos (by first | trivial | exact Or.inr (by decide) | decide)]; exact k_18 P s R a b hs 
  rw [if_neg c8]
  by_cases c9 : i.val = 19
  · rw [if_pos c9]
    have e : i = 19 := Fin.ext (c9)
    subst e
    rw [if_pos (by first | trivial | exact Or.inr (by decide) | decide)]; exact k_19 P s R a b hs 
  rw [if_neg c9]
  by_cases c10 : i.val = 20
  · rw [if_pos c10]
    have e : i = 20 := Fin.ext (c10)
    subst e
    rw [if_pos (by first | trivial | exact Or.inr (by decide) | decide)]; exact k_20 P s R a b hs 
  rw [if_neg c10]
  by_cases c11 : i.val = 21
  · rw [if_pos c11]
    have e : i = 21 := Fin.ext (c11)
    subst e
    rw [if_pos (by first | trivial | exact Or.inr (by decide) | decide)]; exact k_21 P s R a b hs 
  rw [if_neg c11]
  rw [if_neg]
  intro hsel
  have hi : i.val < 24 := i.isLt
  first | omega | (rcases hsel with h | h <;> first | omega | (simp only [h, true_and] at *; omega))

end

end Ecl.Fusion.MagY
