import Verif.Fusion.Core

/-!
# Drag X axis observation equations (generated by tools/gen_fusion.py)

One definition per assignment of the source; `s` is the state vector, `R` the observation variance; `a` is `Kacc`.  Theorems: the innovation variance and
the gain are the Kalman expressions of the observation row.
-/

set_option linter.unusedSectionVars false
set_option linter.unusedSimpArgs false
set_option linter.unusedVariables false

namespace Ecl.Fusion.DragX

open Ecl.Cov

section
variable {K : Type*} [Field K] [CharZero K]

/-- EKF/drag_fusion.cpp:95 -/
def HK0 (P : Mat K) (s : Vec K) (R a b : K) : K := (s 4) - (s 22)

/-- EKF/drag_fusion.cpp:96 -/
def HK1 (P : Mat K) (s : Vec K) (R a b : K) : K := (s 5) - (s 23)

/-- EKF/drag_fusion.cpp:97 -/
def HK2 (P : Mat K) (s : Vec K) (R a b : K) : K := (HK0 P s R a b) * (s 0) + (HK1 P s R a b) * (s 3) - (s 2) * (s 6)

/-- EKF/drag_fusion.cpp:98 -/
def HK3 (P : Mat K) (s : Vec K) (R a b : K) : K := 2 * a

/-- EKF/drag_fusion.cpp:99 -/
def HK4 (P : Mat K) (s : Vec K) (R a b : K) : K := (HK0 P s R a b) * (s 1) + (HK1 P s R a b) * (s 2) + (s 3) * (s 6)

/-- EKF/drag_fusion.cpp:100 -/
def HK5 (P : Mat K) (s : Vec K) (R a b : K) : K := (HK0 P s R a b) * (s 2) - (HK1 P s R a b) * (s 1) + (s 0) * (s 6)

/-- EKF/drag_fusion.cpp:101 -/
def HK6 (P : Mat K) (s : Vec K) (R a b : K) : K := -(HK0 P s R a b) * (s 3) + (HK1 P s R a b) * (s 0) + (s 1) * (s 6)

/-- EKF/drag_fusion.cpp:102 -/
def HK7 (P : Mat K) (s : Vec K) (R a b : K) : K := ((s 0)) ^ 2 + ((s 1)) ^ 2 - ((s 2)) ^ 2 - ((s 3)) ^ 2

/-- EKF/drag_fusion.cpp:103 -/
def HK8 (P : Mat K) (s : Vec K) (R a b : K) : K := (HK7 P s R a b) * a

/-- EKF/drag_fusion.cpp:104 -/
def HK9 (P : Mat K) (s : Vec K) (R a b : K) : K := (s 0) * (s 3) + (s 1) * (s 2)

/-- EKF/drag_fusion.cpp:105 -/
def HK10 (P : Mat K) (s : Vec K) (R a b : K) : K := (HK3 P s R a b) * (HK9 P s R a b)

/-- EKF/drag_fusion.cpp:106 -/
def HK11 (P : Mat K) (s : Vec K) (R a b : K) : K := (s 0) * (s 2) - (s 1) * (s 3)

/-- EKF/drag_fusion.cpp:107 -/
def HK12 (P : Mat K) (s : Vec K) (R a b : K) : K := 2 * (HK9 P s R a b)

/-- EKF/drag_fusion.cpp:108 -/
def HK13 (P : Mat K) (s : Vec K) (R a b : K) : K := 2 * (HK11 P s R a b)

/-- EKF/drag_fusion.cpp:109 -/
def HK14 (P : Mat K) (s : Vec K) (R a b : K) : K := 2 * (HK4 P s R a b)

/-- EKF/drag_fusion.cpp:110 -/
def HK15 (P : Mat K) (s : Vec K) (R a b : K) : K := 2 * (HK2 P s R a b)

/-- EKF/drag_fusion.cpp:111 -/
def HK16 (P : Mat K) (s : Vec K) (R a b : K) : K := 2 * (HK5 P s R a b)

/-- EKF/drag_fusion.cpp:112 -/
def HK17 (P : Mat K) (s : Vec K) (R a b : K) : K := 2 * (HK6 P s R a b)

/-- EKF/drag_fusion.cpp:113 -/
def HK18 (P : Mat K) (s : Vec K) (R a b : K) : K := -(HK12 P s R a b) * (P 0 23) + (HK12 P s R a b) * (P 0 5) - (HK13 P s R a b) * (P 0 6) + (HK14 P s R a b) * (P 0 1) + (HK15 P s R a b) * (P 0 0) - (HK16 P s R a b) * (P 0 2) + (HK17 P s R a b) * (P 0 3) - (HK7 P s R a b) * (P 0 22) + (HK7 P s R a b) * (P 0 4)

/-- EKF/drag_fusion.cpp:114 -/
def HK19 (P : Mat K) (s : Vec K) (R a b : K) : K := (HK12 P s R a b) * (P 5 23)

/-- EKF/drag_fusion.cpp:115 -/
def HK20 (P : Mat K) (s : Vec K) (R a b : K) : K := -(HK12 P s R a b) * (P 23 23) - (HK13 P s R a b) * (P 6 23) + (HK14 P s R a b) * (P 1 23) + (HK15 P s R a b) * (P 0 23) - (HK16 P s R a b) * (P 2 23) + (HK17 P s R a b) * (P 3 23) + (HK19 P s R a b) - (HK7 P s R a b) * (P 22 23) + (HK7 P s R a b) * (P 4 23)

/-- EKF/drag_fusion.cpp:116 -/
def HK21 (P : Mat K) (s : Vec K) (R a b : K) : K := a ^ 2

/-- EKF/drag_fusion.cpp:117 -/
def HK22 (P : Mat K) (s : Vec K) (R a b : K) : K := (HK12 P s R a b) * (HK21 P s R a b)

/-- EKF/drag_fusion.cpp:118 -/
def HK23 (P : Mat K) (s : Vec K) (R a b : K) : K := (HK12 P s R a b) * (P 5 5) - (HK13 P s R a b) * (P 5 6) + (HK14 P s R a b) * (P 1 5) + (HK15 P s R a b) * (P 0 5) - (HK16 P s R a b) * (P 2 5) + (HK17 P s R a b) * (P 3 5) - (HK19 P s R a b) + (HK7 P s R a b) * (P 4 5) - (HK7 P s R a b) * (P 5 22)

/-- EKF/drag_fusion.cpp:119 -/
def HK24 (P : Mat K) (s : Vec K) (R a b : K) : K := (HK12 P s R a b) * (P 5 6) - (HK12 P s R a b) * (P 6 23) - (HK13 P s R a b) * (P 6 6) + (HK14 P s R a b) * (P 1 6) + (HK15 P s R a b) * (P 0 6) - (HK16 P s R a b) * (P 2 6) + (HK17 P s R a b) * (P 3 6) + (HK7 P s R a b) * (P 4 6) - (HK7 P s R a b) * (P 6 22)

/-- EKF/drag_fusion.cpp:120 -/
def HK25 (P : Mat K) (s : Vec K) (R a b : K) : K := (HK7 P s R a b) * (P 4 22)

/-- EKF/drag_fusion.cpp:121 -/
def HK26 (P : Mat K) (s : Vec K) (R a b : K) : K := -(HK12 P s R a b) * (P 4 23) + (HK12 P s R a b) * (P 4 5) - (HK13 P s R a b) * (P 4 6) + (HK14 P s R a b) * (P 1 4) + (HK15 P s R a b) * (P 0 4) - (HK16 P s R a b) * (P 2 4) + (HK17 P s R a b) * (P 3 4) - (HK25 P s R a b) + (HK7 P s R a b) * (P 4 4)

/-- EKF/drag_fusion.cpp:122 -/
def HK27 (P : Mat K) (s : Vec K) (R a b : K) : K := (HK21 P s R a b) * (HK7 P s R a b)

/-- EKF/drag_fusion.cpp:123 -/
def HK28 (P : Mat K) (s : Vec K) (R a b : K) : K := -(HK12 P s R a b) * (P 22 23) + (HK12 P s R a b) * (P 5 22) - (HK13 P s R a b) * (P 6 22) + (HK14 P s R a b) * (P 1 22) + (HK15 P s R a b) * (P 0 22) - (HK16 P s R a b) * (P 2 22) + (HK17 P s R a b) * (P 3 22) + (HK25 P s R a b) - (HK7 P s R a b) * (P 22 22)

/-- EKF/drag_fusion.cpp:124 -/
def HK29 (P : Mat K) (s : Vec K) (R a b : K) : K := -(HK12 P s R a b) * (P 1 23) + (HK12 P s R a b) * (P 1 5) - (HK13 P s R a b) * (P 1 6) + (HK14 P s R a b) * (P 1 1) + (HK15 P s R a b) * (P 0 1) - (HK16 P s R a b) * (P 1 2) + (HK17 P s R a b) * (P 1 3) - (HK7 P s R a b) * (P 1 22) + (HK7 P s R a b) * (P 1 4)

/-- EKF/drag_fusion.cpp:125 -/
def HK30 (P : Mat K) (s : Vec K) (R a b : K) : K := -(HK12 P s R a b) * (P 2 23) + (HK12 P s R a b) * (P 2 5) - (HK13 P s R a b) * (P 2 6) + (HK14 P s R a b) * (P 1 2) + (HK15 P s R a b) * (P 0 2) - (HK16 P s R a b) * (P 2 2) + (HK17 P s R a b) * (P 2 3) - (HK7 P s R a b) * (P 2 22) + (HK7 P s R a b) * (P 2 4)

/-- EKF/drag_fusion.cpp:126 -/
def HK31 (P : Mat K) (s : Vec K) (R a b : K) : K := -(HK12 P s R a b) * (P 3 23) + (HK12 P s R a b) * (P 3 5) - (HK13 P s R a b) * (P 3 6) + (HK14 P s R a b) * (P 1 3) + (HK15 P s R a b) * (P 0 3) - (HK16 P s R a b) * (P 2 3) + (HK17 P s R a b) * (P 3 3) - (HK7 P s R a b) * (P 3 22) + (HK7 P s R a b) * (P 3 4)

/-- EKF/drag_fusion.cpp:130 -/
def S (P : Mat K) (s : Vec K) (R a b : K) : K := (-(HK13 P s R a b) * (HK21 P s R a b) * (HK24 P s R a b) + (HK14 P s R a b) * (HK21 P s R a b) * (HK29 P s R a b) + (HK15 P s R a b) * (HK18 P s R a b) * (HK21 P s R a b) - (HK16 P s R a b) * (HK21 P s R a b) * (HK30 P s R a b) + (HK17 P s R a b) * (HK21 P s R a b) * (HK31 P s R a b) - (HK20 P s R a b) * (HK22 P s R a b) + (HK22 P s R a b) * (HK23 P s R a b) + (HK26 P s R a b) * (HK27 P s R a b) - (HK27 P s R a b) * (HK28 P s R a b) + R)

/-- EKF/drag_fusion.cpp:134 -/
def HK32 (P : Mat K) (s : Vec K) (R a b : K) : K := a / (S P s R a b)

/-- observation row, EKF/drag_fusion.cpp:137-145 -/
def hList (P : Mat K) (s : Vec K) (R a b : K) : List (Fin N × K) :=
  [(0, -(HK2 P s R a b) * (HK3 P s R a b)),
   (1, -(HK3 P s R a b) * (HK4 P s R a b)),
   (2, (HK3 P s R a b) * (HK5 P s R a b)),
   (3, -(HK3 P s R a b) * (HK6 P s R a b)),
   (4, -(HK8 P s R a b)),
   (5, -(HK10 P s R a b)),
   (6, (HK11 P s R a b) * (HK3 P s R a b)),
   (22, (HK8 P s R a b)),
   (23, (HK10 P s R a b))]

/-- Kalman gains, EKF/drag_fusion.cpp:171-172 -/
def gain (P : Mat K) (s : Vec K) (R a b : K) : Vec K := fun i =>
  if i.val = 22 then -(HK28 P s R a b) * (HK32 P s R a b) else
  if i.val = 23 then -(HK20 P s R a b) * (HK32 P s R a b) else
  0

theorem S_eq (P : Mat K) (s : Vec K) (R a b : K) (hs : ∀ i j, P i j = P j i) :
    S P s R a b = Spec.innovVar P (sparse (hList P s R a b)) R := by
  rw [innovVar_sparse]
  simp only [mulVec_sparse, hList, List.map_cons, List.map_nil, List.sum_cons, List.sum_nil]
  simp only [S, HK10, HK12, HK13, HK14, HK15, HK16, HK17, HK18, HK19, HK20, HK21, HK22, HK23, HK24, HK25, HK26, HK27, HK28, HK29, HK3, HK30, HK31, HK8]
  simp only [hs 1 0, hs 2 0, hs 2 1, hs 3 0, hs 3 1, hs 3 2, hs 4 0, hs 4 1, hs 4 2, hs 4 3, hs 5 0, hs 5 1, hs 5 2, hs 5 3, hs 5 4, hs 6 0, hs 6 1, hs 6 2, hs 6 3, hs 6 4, hs 6 5, hs 22 0, hs 22 1, hs 22 2, hs 22 3, hs 22 4, hs 22 5, hs 22 6, hs 23 0, hs 23 1, hs 23 2, hs 23 3, hs 23 4, hs 23 5, hs 23 6, hs 23 22]
  ring

theorem k_22 (P : Mat K) (s : Vec K) (R a b : K) (hs : ∀ i j, P i j = P j i) :
    -(HK28 P s R a b) * (HK32 P s R a b) = Spec.mulVec P (sparse (hList P s R a b)) 22 / S P s R a b := by
  rw [mulVec_sparse]
  simp only [hList, List.map_cons, List.map_nil, List.sum_cons, List.sum_nil]
  simp only [HK10, HK12, HK13, HK14, HK15, HK16, HK17, HK25, HK28, HK3, HK32, HK8]
  try simp only [hs 22 0, hs 22 1, hs 22 2, hs 22 3, hs 22 4, hs 22 5, hs 22 6, hs 23 22]
  ring

theorem k_23 (P : Mat K) (s : Vec K) (R a b : K) (hs : ∀ i j, P i j = P j i) :
    -(HK20 P s R a b) * (HK32 P s R a b) = Spec.mulVec P (sparse (hList P s R a b)) 23 / S P s R a b := by
  rw [mulVec_sparse]
  simp only [hList, List.map_cons, List.map_nil, List.sum_cons, List.sum_nil]
  simp only [HK10, HK12, HK13, HK14, HK15, HK16, HK17, HK19, HK20, HK3, HK32, HK8]
  try simp only [hs 23 0, hs 23 1, hs 23 2, hs 23 3, hs 23 4, hs 23 5, hs 23 6, hs 23 22]
  ring

theorem gain_eq (P : Mat K) (s : Vec K) (R a b : K) (hs : ∀ i j, P i j = P j i) (i : Fin N) :
    gain P s R a b i = if 22 ≤ i.val then Spec.mulVec P (sparse (hList P s R a b)) i / Spec.innovVar P (sparse (hList P s R a b)) R else 0 := by
  rw [← S_eq P s R a b hs ]
  unfold gain

  by_cases c0 : i.val = 22
  · rw [if_pos c0]
    have e : i = 22 := Fin.ext (c0)
    subst e
    rw [if_pos (by first | trivial | exact Or.inr (by decide) | decide)]; exact k_22 P s R a b hs 
  rw [if_neg c0]
  by_cases c1 : i.val = 23
  · rw [if_pos c1]
    have e : i = 23 := Fin.ext (c1)
    subst e
    rw [if_pos (by first | trivial | exact Or.inr (by decide) | decide)]; exact k_23 P s R a b hs 
  rw [if_neg c1]
  rw [if_neg]
  intro hsel
  have hi : i.val < 24 := i.isLt
  first | omega | (rcases hsel with h | h <;> first | omega | (simp only [h, true_and] at *; omega))

end

end Ecl.Fusion.DragX
