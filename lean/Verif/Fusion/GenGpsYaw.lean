import Verif.Fusion.Core

/-!
# GPS antenna heading observation equations (generated by tools/gen_fusion.py)

One definition per assignment of the source; `s` is the state vector, `R` the observation variance; `a`, `b` are sine and cosine of `_gps_yaw_offset`.  Theorems: the innovation variance and
the gain are the Kalman expressions of the observation row.
-/

set_option linter.unusedSectionVars false
set_option linter.unusedSimpArgs false
set_option linter.unusedVariables false

namespace Ecl.Fusion.GpsYaw

open Ecl.Cov

section
variable {K : Type*} [Field K] [CharZero K]

/-- EKF/gps_yaw_fusion.cpp:77 -/
def HK0 (P : Mat K) (s : Vec K) (R a b : K) : K := a

/-- EKF/gps_yaw_fusion.cpp:78 -/
def HK1 (P : Mat K) (s : Vec K) (R a b : K) : K := (s 0) * (s 3)

/-- EKF/gps_yaw_fusion.cpp:79 -/
def HK2 (P : Mat K) (s : Vec K) (R a b : K) : K := (s 1) * (s 2)

/-- EKF/gps_yaw_fusion.cpp:80 -/
def HK3 (P : Mat K) (s : Vec K) (R a b : K) : K := 2 * (HK0 P s R a b) * ((HK1 P s R a b) - (HK2 P s R a b))

/-- EKF/gps_yaw_fusion.cpp:81 -/
def HK4 (P : Mat K) (s : Vec K) (R a b : K) : K := b

/-- EKF/gps_yaw_fusion.cpp:82 -/
def HK5 (P : Mat K) (s : Vec K) (R a b : K) : K := ((s 1)) ^ 2

/-- EKF/gps_yaw_fusion.cpp:83 -/
def HK6 (P : Mat K) (s : Vec K) (R a b : K) : K := ((s 2)) ^ 2

/-- EKF/gps_yaw_fusion.cpp:84 -/
def HK7 (P : Mat K) (s : Vec K) (R a b : K) : K := ((s 0)) ^ 2 - ((s 3)) ^ 2

/-- EKF/gps_yaw_fusion.cpp:85 -/
def HK8 (P : Mat K) (s : Vec K) (R a b : K) : K := (HK4 P s R a b) * ((HK5 P s R a b) - (HK6 P s R a b) + (HK7 P s R a b))

/-- EKF/gps_yaw_fusion.cpp:86 -/
def HK9 (P : Mat K) (s : Vec K) (R a b : K) : K := (HK3 P s R a b) - (HK8 P s R a b)

/-- EKF/gps_yaw_fusion.cpp:90 -/
def HK10 (P : Mat K) (s : Vec K) (R a b : K) : K := 1 / (HK9 P s R a b)

/-- EKF/gps_yaw_fusion.cpp:91 -/
def HK11 (P : Mat K) (s : Vec K) (R a b : K) : K := (HK4 P s R a b) * (s 0)

/-- EKF/gps_yaw_fusion.cpp:92 -/
def HK12 (P : Mat K) (s : Vec K) (R a b : K) : K := (HK0 P s R a b) * (s 3)

/-- EKF/gps_yaw_fusion.cpp:93 -/
def HK13 (P : Mat K) (s : Vec K) (R a b : K) : K := (HK0 P s R a b) * (-(HK5 P s R a b) + (HK6 P s R a b) + (HK7 P s R a b)) + 2 * (HK4 P s R a b) * ((HK1 P s R a b) + (HK2 P s R a b))

/-- EKF/gps_yaw_fusion.cpp:94 -/
def HK14 (P : Mat K) (s : Vec K) (R a b : K) : K := (HK10 P s R a b) * (HK13 P s R a b)

/-- EKF/gps_yaw_fusion.cpp:95 -/
def HK15 (P : Mat K) (s : Vec K) (R a b : K) : K := (HK0 P s R a b) * (s 0) + (HK4 P s R a b) * (s 3)

/-- EKF/gps_yaw_fusion.cpp:96 -/
def HK16 (P : Mat K) (s : Vec K) (R a b : K) : K := (HK10 P s R a b) * ((HK14 P s R a b) * ((HK11 P s R a b) - (HK12 P s R a b)) + (HK15 P s R a b))

/-- EKF/gps_yaw_fusion.cpp:97 -/
def HK17 (P : Mat K) (s : Vec K) (R a b : K) : K := ((HK13 P s R a b)) ^ 2 / ((HK9 P s R a b)) ^ 2 + 1

/-- EKF/gps_yaw_fusion.cpp:101 -/
def HK18 (P : Mat K) (s : Vec K) (R a b : K) : K := 2 / (HK17 P s R a b)

/-- EKF/gps_yaw_fusion.cpp:103 -/
def HK19_inverse (P : Mat K) (s : Vec K) (R a b : K) : K := -(HK3 P s R a b) + (HK8 P s R a b)

/-- EKF/gps_yaw_fusion.cpp:107 -/
def HK19 (P : Mat K) (s : Vec K) (R a b : K) : K := 1 / (HK19_inverse P s R a b)

/-- EKF/gps_yaw_fusion.cpp:108 -/
def HK20 (P : Mat K) (s : Vec K) (R a b : K) : K := (HK4 P s R a b) * (s 1)

/-- EKF/gps_yaw_fusion.cpp:109 -/
def HK21 (P : Mat K) (s : Vec K) (R a b : K) : K := (HK0 P s R a b) * (s 2)

/-- EKF/gps_yaw_fusion.cpp:110 -/
def HK22 (P : Mat K) (s : Vec K) (R a b : K) : K := (HK13 P s R a b) * (HK19 P s R a b)

/-- EKF/gps_yaw_fusion.cpp:111 -/
def HK23 (P : Mat K) (s : Vec K) (R a b : K) : K := (HK0 P s R a b) * (s 1) - (HK4 P s R a b) * (s 2)

/-- EKF/gps_yaw_fusion.cpp:112 -/
def HK24 (P : Mat K) (s : Vec K) (R a b : K) : K := (HK19 P s R a b) * ((HK22 P s R a b) * ((HK20 P s R a b) + (HK21 P s R a b)) + (HK23 P s R a b))

/-- EKF/gps_yaw_fusion.cpp:113 -/
def HK25 (P : Mat K) (s : Vec K) (R a b : K) : K := (HK19 P s R a b) * (-(HK20 P s R a b) - (HK21 P s R a b) + (HK22 P s R a b) * (HK23 P s R a b))

/-- EKF/gps_yaw_fusion.cpp:114 -/
def HK26 (P : Mat K) (s : Vec K) (R a b : K) : K := (HK10 P s R a b) * (-(HK11 P s R a b) + (HK12 P s R a b) + (HK14 P s R a b) * (HK15 P s R a b))

/-- EKF/gps_yaw_fusion.cpp:115 -/
def HK27 (P : Mat K) (s : Vec K) (R a b : K) : K := -(HK16 P s R a b) * (P 0 0) - (HK24 P s R a b) * (P 0 1) - (HK25 P s R a b) * (P 0 2) + (HK26 P s R a b) * (P 0 3)

/-- EKF/gps_yaw_fusion.cpp:116 -/
def HK28 (P : Mat K) (s : Vec K) (R a b : K) : K := -(HK16 P s R a b) * (P 0 1) - (HK24 P s R a b) * (P 1 1) - (HK25 P s R a b) * (P 1 2) + (HK26 P s R a b) * (P 1 3)

/-- EKF/gps_yaw_fusion.cpp:117 -/
def HK29 (P : Mat K) (s : Vec K) (R a b : K) : K := 4 / ((HK17 P s R a b)) ^ 2

/-- EKF/gps_yaw_fusion.cpp:118 -/
def HK30 (P : Mat K) (s : Vec K) (R a b : K) : K := -(HK16 P s R a b) * (P 0 2) - (HK24 P s R a b) * (P 1 2) - (HK25 P s R a b) * (P 2 2) + (HK26 P s R a b) * (P 2 3)

/-- EKF/gps_yaw_fusion.cpp:119 -/
def HK31 (P : Mat K) (s : Vec K) (R a b : K) : K := -(HK16 P s R a b) * (P 0 3) - (HK24 P s R a b) * (P 1 3) - (HK25 P s R a b) * (P 2 3) + (HK26 P s R a b) * (P 3 3)

/-- EKF/gps_yaw_fusion.cpp:123 -/
def S (P : Mat K) (s : Vec K) (R a b : K) : K := (-(HK16 P s R a b) * (HK27 P s R a b) * (HK29 P s R a b) - (HK24 P s R a b) * (HK28 P s R a b) * (HK29 P s R a b) - (HK25 P s R a b) * (HK29 P s R a b) * (HK30 P s R a b) + (HK26 P s R a b) * (HK29 P s R a b) * (HK31 P s R a b) + R)

/-- EKF/gps_yaw_fusion.cpp:136 -/
def HK32 (P : Mat K) (s : Vec K) (R a b : K) : K := (HK18 P s R a b) / (S P s R a b)

/-- observation row, EKF/gps_yaw_fusion.cpp:173-176 -/
def hList (P : Mat K) (s : Vec K) (R a b : K) : List (Fin N × K) :=
  [(0, -(HK16 P s R a b) * (HK18 P s R a b)),
   (1, -(HK18 P s R a b) * (HK24 P s R a b)),
   (2, -(HK18 P s R a b) * (HK25 P s R a b)),
   (3, (HK18 P s R a b) * (HK26 P s R a b))]

/-- Kalman gains, EKF/gps_yaw_fusion.cpp:181-186 -/
def gain (P : Mat K) (s : Vec K) (R a b : K) : Vec K := fun i =>
  if i.val = 0 then (HK27 P s R a b) * (HK32 P s R a b) else
  if i.val = 1 then (HK28 P s R a b) * (HK32 P s R a b) else
  if i.val = 2 then (HK30 P s R a b) * (HK32 P s R a b) else
  if i.val = 3 then (HK31 P s R a b) * (HK32 P s R a b) else
  if 4 ≤ i.val ∧ i.val ≤ 23 then (HK32 P s R a b) * (-(HK16 P s R a b) * (P 0 i) - (HK24 P s R a b) * (P 1 i) - (HK25 P s R a b) * (P 2 i) + (HK26 P s R a b) * (P 3 i)) else
  0

theorem S_eq (P : Mat K) (s : Vec K) (R a b : K) (hs : ∀ i j, P i j = P j i) :
    S P s R a b = Spec.innovVar P (sparse (hList P s R a b)) R := by
  rw [innovVar_sparse]
  simp only [mulVec_sparse, hList, List.map_cons, List.map_nil, List.sum_cons, List.sum_nil]
  simp only [S, HK18, HK27, HK28, HK29, HK30, HK31]
  simp only [hs 1 0, hs 2 0, hs 2 1, hs 3 0, hs 3 1, hs 3 2]
  ring

theorem k_0 (P : Mat K) (s : Vec K) (R a b : K) (hs : ∀ i j, P i j = P j i) :
    (HK27 P s R a b) * (HK32 P s R a b) = Spec.mulVec P (sparse (hList P s R a b)) 0 / S P s R a b := by
  rw [mulVec_sparse]
  simp only [hList, List.map_cons, List.map_nil, List.sum_cons, List.sum_nil]
  simp only [HK18, HK27, HK32]
  try simp only [hs 1 0, hs 2 0, hs 3 0]
  ring

theorem k_1 (P : Mat K) (s : Vec K) (R a b : K) (hs : ∀ i j, P i j = P j i) :
    (HK28 P s R a b) * (HK32 P s R a b) = Spec.mulVec P (sparse (hList P s R a b)) 1 / S P s R a b := by
  rw [mulVec_sparse]
  simp only [hList, List.map_cons, List.map_nil, List.sum_cons, List.sum_nil]
  simp only [HK18, HK28, HK32]
  try simp only [hs 1 0, hs 2 1, hs 3 1]
  ring

theorem k_2 (P : Mat K) (s : Vec K) (R a b : K) (hs : ∀ i j, P i j = P j i) :
    (HK30 P s R a b) * (HK32 P s R a b) = Spec.mulVec P (sparse (hList P s R a b)) 2 / S P s R a b := by
  rw [mulVec_sparse]
  simp only [hList, List.map_cons, List.map_nil, List.sum_cons, List.sum_nil]
  simp only [HK18, HK30, HK32]
  try simp only [hs 2 0, hs 2 1, hs 3 2]
  ring

theorem k_3 (P : Mat K) (s : Vec K) (R a b : K) (hs : ∀ i j, P i j = P j i) :
    (HK31 P s R a b) * (HK32 P s R a b) = Spec.mulVec P (sparse (hList P s R a b)) 3 / S P s R a b := by
  rw [mulVec_sparse]
  simp only [hList, List.map_cons, List.map_nil, List.sum_cons, List.sum_nil]
  simp only [HK18, HK31, HK32]
  try simp only [hs 3 0, hs 3 1, hs 3 2]
  ring

theorem k_r4 (P : Mat K) (s : Vec K) (R a b : K) (hs : ∀ i j, P i j = P j i) (i : Fin N) :
    (HK32 P s R a b) * (-(HK16 P s R a b) * (P 0 i) - (HK24 P s R a b) * (P 1 i) - (HK25 P s R a b) * (P 2 i) + (HK26 P s R a b) * (P 3 i)) = Spec.mulVec P (sparse (hList P s R a b)) i / S P s R a b := by
  rw [mulVec_sparse]
  simp only [hList, List.map_cons, List.map_nil, List.sum_cons, List.sum_nil]
  simp only [HK18, HK32]
  rw [hs 0 i, hs 1 i, hs 2 i, hs 3 i]
  ring

theorem gain_eq (P : Mat K) (s : Vec K) (R a b : K) (hs : ∀ i j, P i j = P j i) (i : Fin N) :
    gain P s R a b i = if True then Spec.mulVec P (sparse (hList P s R a b)) i / Spec.innovVar P (sparse (hList P s R a b)) R else 0 := by
  rw [← S_eq P s R a b hs ]
  unfold gain

  by_cases c0 : i.val = 0
  · rw [if_pos c0]
    have e : i = 0 := Fin.ext (c0)
    subst e
    rw [if_pos (by first | trivial | exact Or.inr (by decide) | decide)]; exact k_0 P s R a b hs 
  rw [if_neg c0]
  by_cases c1 : i.val = 1
  · rw [if_pos c1]
    have e : i = 1 := Fin.ext (c1)
    subst e
    rw [if_pos (by first | trivial | exact Or.inr (by decide) | decide)]; exact k_1 P s R a b hs 
  rw [if_neg c1]
  by_cases c2 : i.val = 2
  · rw [if_pos c2]
    have e : i = 2 := Fin.ext (c2)
    subst e
    rw [if_pos (by first | trivial | exact Or.inr (by decide) | decide)]; exact k_2 P s R a b hs 
  rw [if_neg c2]
  by_cases c3 : i.val = 3
  · rw [if_pos c3]
    have e : i = 3 := Fin.ext (c3)
    subst e
    rw [if_pos (by first | trivial | exact Or.inr (by decide) | decide)]; exact k_3 P s R a b hs 
  rw [if_neg c3]
  by_cases c4 : 4 ≤ i.val ∧ i.val ≤ 23
  · rw [if_pos c4]
    rw [if_pos (by first | trivial | omega | (right; omega))]; exact k_r4 P s R a b hs i
  rw [if_neg c4]
  exact absurd i.isLt (by show ¬ i.val < 24; omega)

end

end Ecl.Fusion.GpsYaw
