import Verif.Fusion.Core

/-!
# Optical flow X axis observation equations (generated by tools/gen_fusion.py)

One definition per assignment of the source; `s` is the state vector, `R` the observation variance; `a` is `range`; `Tbs` is the identity.  Theorems: the innovation variance and
the gain are the Kalman expressions of the observation row.
-/

set_option linter.unusedSectionVars false
set_option linter.unusedSimpArgs false
set_option linter.unusedVariables false

namespace Ecl.Fusion.FlowX

open Ecl.Cov

section
variable {K : Type*} [Field K] [CharZero K]

/-- EKF/optflow_fusion.cpp:120 -/
def HK0 (P : Mat K) (s : Vec K) (R a b : K) : K := -0 * (s 2) + 1 * (s 1) + 0 * (s 0)

/-- EKF/optflow_fusion.cpp:121 -/
def HK1 (P : Mat K) (s : Vec K) (R a b : K) : K := 0 * (s 3) + 1 * (s 0) - 0 * (s 1)

/-- EKF/optflow_fusion.cpp:122 -/
def HK2 (P : Mat K) (s : Vec K) (R a b : K) : K := 0 * (s 0) - 1 * (s 3) + 0 * (s 2)

/-- EKF/optflow_fusion.cpp:123 -/
def HK3 (P : Mat K) (s : Vec K) (R a b : K) : K := (HK0 P s R a b) * (s 6) + (HK1 P s R a b) * (s 5) + (HK2 P s R a b) * (s 4)

/-- EKF/optflow_fusion.cpp:124 -/
def HK4 (P : Mat K) (s : Vec K) (R a b : K) : K := 1 / a

/-- EKF/optflow_fusion.cpp:125 -/
def HK5 (P : Mat K) (s : Vec K) (R a b : K) : K := 2 * (HK4 P s R a b)

/-- EKF/optflow_fusion.cpp:126 -/
def HK6 (P : Mat K) (s : Vec K) (R a b : K) : K := 0 * (s 1) + 1 * (s 2) + 0 * (s 3)

/-- EKF/optflow_fusion.cpp:127 -/
def HK7 (P : Mat K) (s : Vec K) (R a b : K) : K := -(HK0 P s R a b) * (s 5) + (HK1 P s R a b) * (s 6) + (HK6 P s R a b) * (s 4)

/-- EKF/optflow_fusion.cpp:128 -/
def HK8 (P : Mat K) (s : Vec K) (R a b : K) : K := (HK0 P s R a b) * (s 4) - (HK2 P s R a b) * (s 6) + (HK6 P s R a b) * (s 5)

/-- EKF/optflow_fusion.cpp:129 -/
def HK9 (P : Mat K) (s : Vec K) (R a b : K) : K := -(HK1 P s R a b) * (s 4) + (HK2 P s R a b) * (s 5) + (HK6 P s R a b) * (s 6)

/-- EKF/optflow_fusion.cpp:130 -/
def HK10 (P : Mat K) (s : Vec K) (R a b : K) : K := (s 0) * (s 2)

/-- EKF/optflow_fusion.cpp:131 -/
def HK11 (P : Mat K) (s : Vec K) (R a b : K) : K := (s 1) * (s 3)

/-- EKF/optflow_fusion.cpp:132 -/
def HK12 (P : Mat K) (s : Vec K) (R a b : K) : K := (HK10 P s R a b) + (HK11 P s R a b)

/-- EKF/optflow_fusion.cpp:133 -/
def HK13 (P : Mat K) (s : Vec K) (R a b : K) : K := 2 * 0

/-- EKF/optflow_fusion.cpp:134 -/
def HK14 (P : Mat K) (s : Vec K) (R a b : K) : K := (s 0) * (s 3)

/-- EKF/optflow_fusion.cpp:135 -/
def HK15 (P : Mat K) (s : Vec K) (R a b : K) : K := (s 1) * (s 2)

/-- EKF/optflow_fusion.cpp:136 -/
def HK16 (P : Mat K) (s : Vec K) (R a b : K) : K := (HK14 P s R a b) - (HK15 P s R a b)

/-- EKF/optflow_fusion.cpp:137 -/
def HK17 (P : Mat K) (s : Vec K) (R a b : K) : K := 2 * 1

/-- EKF/optflow_fusion.cpp:138 -/
def HK18 (P : Mat K) (s : Vec K) (R a b : K) : K := ((s 1)) ^ 2

/-- EKF/optflow_fusion.cpp:139 -/
def HK19 (P : Mat K) (s : Vec K) (R a b : K) : K := ((s 2)) ^ 2

/-- EKF/optflow_fusion.cpp:140 -/
def HK20 (P : Mat K) (s : Vec K) (R a b : K) : K := -(HK19 P s R a b)

/-- EKF/optflow_fusion.cpp:141 -/
def HK21 (P : Mat K) (s : Vec K) (R a b : K) : K := ((s 0)) ^ 2

/-- EKF/optflow_fusion.cpp:142 -/
def HK22 (P : Mat K) (s : Vec K) (R a b : K) : K := ((s 3)) ^ 2

/-- EKF/optflow_fusion.cpp:143 -/
def HK23 (P : Mat K) (s : Vec K) (R a b : K) : K := (HK21 P s R a b) - (HK22 P s R a b)

/-- EKF/optflow_fusion.cpp:144 -/
def HK24 (P : Mat K) (s : Vec K) (R a b : K) : K := (HK18 P s R a b) + (HK20 P s R a b) + (HK23 P s R a b)

/-- EKF/optflow_fusion.cpp:145 -/
def HK25 (P : Mat K) (s : Vec K) (R a b : K) : K := (HK12 P s R a b) * (HK13 P s R a b) - (HK16 P s R a b) * (HK17 P s R a b) + (HK24 P s R a b) * 0

/-- EKF/optflow_fusion.cpp:146 -/
def HK26 (P : Mat K) (s : Vec K) (R a b : K) : K := (HK14 P s R a b) + (HK15 P s R a b)

/-- EKF/optflow_fusion.cpp:147 -/
def HK27 (P : Mat K) (s : Vec K) (R a b : K) : K := 2 * 0

/-- EKF/optflow_fusion.cpp:148 -/
def HK28 (P : Mat K) (s : Vec K) (R a b : K) : K := (s 0) * (s 1)

/-- EKF/optflow_fusion.cpp:149 -/
def HK29 (P : Mat K) (s : Vec K) (R a b : K) : K := (s 2) * (s 3)

/-- EKF/optflow_fusion.cpp:150 -/
def HK30 (P : Mat K) (s : Vec K) (R a b : K) : K := (HK28 P s R a b) - (HK29 P s R a b)

/-- EKF/optflow_fusion.cpp:151 -/
def HK31 (P : Mat K) (s : Vec K) (R a b : K) : K := -(HK18 P s R a b)

/-- EKF/optflow_fusion.cpp:152 -/
def HK32 (P : Mat K) (s : Vec K) (R a b : K) : K := (HK19 P s R a b) + (HK23 P s R a b) + (HK31 P s R a b)

/-- EKF/optflow_fusion.cpp:153 -/
def HK33 (P : Mat K) (s : Vec K) (R a b : K) : K := -(HK13 P s R a b) * (HK30 P s R a b) + (HK26 P s R a b) * (HK27 P s R a b) + (HK32 P s R a b) * 1

/-- EKF/optflow_fusion.cpp:154 -/
def HK34 (P : Mat K) (s : Vec K) (R a b : K) : K := (HK28 P s R a b) + (HK29 P s R a b)

/-- EKF/optflow_fusion.cpp:155 -/
def HK35 (P : Mat K) (s : Vec K) (R a b : K) : K := (HK10 P s R a b) - (HK11 P s R a b)

/-- EKF/optflow_fusion.cpp:156 -/
def HK36 (P : Mat K) (s : Vec K) (R a b : K) : K := (HK20 P s R a b) + (HK21 P s R a b) + (HK22 P s R a b) + (HK31 P s R a b)

/-- EKF/optflow_fusion.cpp:157 -/
def HK37 (P : Mat K) (s : Vec K) (R a b : K) : K := (HK17 P s R a b) * (HK34 P s R a b) - (HK27 P s R a b) * (HK35 P s R a b) + (HK36 P s R a b) * 0

/-- EKF/optflow_fusion.cpp:158 -/
def HK38 (P : Mat K) (s : Vec K) (R a b : K) : K := 2 * (HK3 P s R a b)

/-- EKF/optflow_fusion.cpp:159 -/
def HK39 (P : Mat K) (s : Vec K) (R a b : K) : K := 2 * (HK7 P s R a b)

/-- EKF/optflow_fusion.cpp:160 -/
def HK40 (P : Mat K) (s : Vec K) (R a b : K) : K := 2 * (HK8 P s R a b)

/-- EKF/optflow_fusion.cpp:161 -/
def HK41 (P : Mat K) (s : Vec K) (R a b : K) : K := 2 * (HK9 P s R a b)

/-- EKF/optflow_fusion.cpp:162 -/
def HK42 (P : Mat K) (s : Vec K) (R a b : K) : K := (HK25 P s R a b) * (P 0 4) + (HK33 P s R a b) * (P 0 5) + (HK37 P s R a b) * (P 0 6) + (HK38 P s R a b) * (P 0 0) + (HK39 P s R a b) * (P 0 1) + (HK40 P s R a b) * (P 0 2) + (HK41 P s R a b) * (P 0 3)

/-- EKF/optflow_fusion.cpp:163 -/
def HK43 (P : Mat K) (s : Vec K) (R a b : K) : K := (1 / a ^ 2)

/-- EKF/optflow_fusion.cpp:164 -/
def HK44 (P : Mat K) (s : Vec K) (R a b : K) : K := (HK25 P s R a b) * (P 4 6) + (HK33 P s R a b) * (P 5 6) + (HK37 P s R a b) * (P 6 6) + (HK38 P s R a b) * (P 0 6) + (HK39 P s R a b) * (P 1 6) + (HK40 P s R a b) * (P 2 6) + (HK41 P s R a b) * (P 3 6)

/-- EKF/optflow_fusion.cpp:165 -/
def HK45 (P : Mat K) (s : Vec K) (R a b : K) : K := (HK25 P s R a b) * (P 4 5) + (HK33 P s R a b) * (P 5 5) + (HK37 P s R a b) * (P 5 6) + (HK38 P s R a b) * (P 0 5) + (HK39 P s R a b) * (P 1 5) + (HK40 P s R a b) * (P 2 5) + (HK41 P s R a b) * (P 3 5)

/-- EKF/optflow_fusion.cpp:166 -/
def HK46 (P : Mat K) (s : Vec K) (R a b : K) : K := (HK25 P s R a b) * (P 4 4) + (HK33 P s R a b) * (P 4 5) + (HK37 P s R a b) * (P 4 6) + (HK38 P s R a b) * (P 0 4) + (HK39 P s R a b) * (P 1 4) + (HK40 P s R a b) * (P 2 4) + (HK41 P s R a b) * (P 3 4)

/-- EKF/optflow_fusion.cpp:167 -/
def HK47 (P : Mat K) (s : Vec K) (R a b : K) : K := (HK25 P s R a b) * (P 2 4) + (HK33 P s R a b) * (P 2 5) + (HK37 P s R a b) * (P 2 6) + (HK38 P s R a b) * (P 0 2) + (HK39 P s R a b) * (P 1 2) + (HK40 P s R a b) * (P 2 2) + (HK41 P s R a b) * (P 2 3)

/-- EKF/optflow_fusion.cpp:168 -/
def HK48 (P : Mat K) (s : Vec K) (R a b : K) : K := (HK25 P s R a b) * (P 3 4) + (HK33 P s R a b) * (P 3 5) + (HK37 P s R a b) * (P 3 6) + (HK38 P s R a b) * (P 0 3) + (HK39 P s R a b) * (P 1 3) + (HK40 P s R a b) * (P 2 3) + (HK41 P s R a b) * (P 3 3)

/-- EKF/optflow_fusion.cpp:169 -/
def HK49 (P : Mat K) (s : Vec K) (R a b : K) : K := (HK25 P s R a b) * (P 1 4) + (HK33 P s R a b) * (P 1 5) + (HK37 P s R a b) * (P 1 6) + (HK38 P s R a b) * (P 0 1) + (HK39 P s R a b) * (P 1 1) + (HK40 P s R a b) * (P 1 2) + (HK41 P s R a b) * (P 1 3)

/-- EKF/optflow_fusion.cpp:173 -/
def S (P : Mat K) (s : Vec K) (R a b : K) : K := ((HK25 P s R a b) * (HK43 P s R a b) * (HK46 P s R a b) + (HK33 P s R a b) * (HK43 P s R a b) * (HK45 P s R a b) + (HK37 P s R a b) * (HK43 P s R a b) * (HK44 P s R a b) + (HK38 P s R a b) * (HK42 P s R a b) * (HK43 P s R a b) + (HK39 P s R a b) * (HK43 P s R a b) * (HK49 P s R a b) + (HK40 P s R a b) * (HK43 P s R a b) * (HK47 P s R a b) + (HK41 P s R a b) * (HK43 P s R a b) * (HK48 P s R a b) + R)

/-- EKF/optflow_fusion.cpp:180 -/
def HK50 (P : Mat K) (s : Vec K) (R a b : K) : K := (HK4 P s R a b) / (S P s R a b)

/-- observation row, EKF/optflow_fusion.cpp:270-276 -/
def hList (P : Mat K) (s : Vec K) (R a b : K) : List (Fin N × K) :=
  [(0, (HK3 P s R a b) * (HK5 P s R a b)),
   (1, (HK5 P s R a b) * (HK7 P s R a b)),
   (2, (HK5 P s R a b) * (HK8 P s R a b)),
   (3, (HK5 P s R a b) * (HK9 P s R a b)),
   (4, (HK25 P s R a b) * (HK4 P s R a b)),
   (5, (HK33 P s R a b) * (HK4 P s R a b)),
   (6, (HK37 P s R a b) * (HK4 P s R a b))]

/-- Kalman gains, EKF/optflow_fusion.cpp:279-288 -/
def gain (P : Mat K) (s : Vec K) (R a b : K) : Vec K := fun i =>
  if i.val = 0 then (HK42 P s R a b) * (HK50 P s R a b) else
  if i.val = 1 then (HK49 P s R a b) * (HK50 P s R a b) else
  if i.val = 2 then (HK47 P s R a b) * (HK50 P s R a b) else
  if i.val = 3 then (HK48 P s R a b) * (HK50 P s R a b) else
  if i.val = 4 then (HK46 P s R a b) * (HK50 P s R a b) else
  if i.val = 5 then (HK45 P s R a b) * (HK50 P s R a b) else
  if i.val = 6 then (HK44 P s R a b) * (HK50 P s R a b) else
  if 7 ≤ i.val ∧ i.val ≤ 23 then (HK50 P s R a b) * ((HK25 P s R a b) * (P 4 i) + (HK33 P s R a b) * (P 5 i) + (HK37 P s R a b) * (P 6 i) + (HK38 P s R a b) * (P 0 i) + (HK39 P s R a b) * (P 1 i) + (HK40 P s R a b) * (P 2 i) + (HK41 P s R a b) * (P 3 i)) else
  0

theorem S_eq (P : Mat K) (s : Vec K) (R a b : K) (hs : ∀ i j, P i j = P j i) :
    S P s R a b = Spec.innovVar P (sparse (hList P s R a b)) R := by
  rw [innovVar_sparse]
  simp only [mulVec_sparse, hList, List.map_cons, List.map_nil, List.sum_cons, List.sum_nil]
  simp only [S, HK38, HK39, HK4, HK40, HK41, HK42, HK43, HK44, HK45, HK46, HK47, HK48, HK49, HK5]
  simp only [hs 1 0, hs 2 0, hs 2 1, hs 3 0, hs 3 1, hs 3 2, hs 4 0, hs 4 1, hs 4 2, hs 4 3, hs 5 0, hs 5 1, hs 5 2, hs 5 3, hs 5 4, hs 6 0, hs 6 1, hs 6 2, hs 6 3, hs 6 4, hs 6 5]
  ring

theorem k_0 (P : Mat K) (s : Vec K) (R a b : K) (hs : ∀ i j, P i j = P j i) :
    (HK42 P s R a b) * (HK50 P s R a b) = Spec.mulVec P (sparse (hList P s R a b)) 0 / S P s R a b := by
  rw [mulVec_sparse]
  simp only [hList, List.map_cons, List.map_nil, List.sum_cons, List.sum_nil]
  simp only [HK38, HK39, HK4, HK40, HK41, HK42, HK5, HK50]
  try simp only [hs 1 0, hs 2 0, hs 3 0, hs 4 0, hs 5 0, hs 6 0]
  ring

theorem k_1 (P : Mat K) (s : Vec K) (R a b : K) (hs : ∀ i j, P i j = P j i) :
    (HK49 P s R a b) * (HK50 P s R a b) = Spec.mulVec P (sparse (hList P s R a b)) 1 / S P s R a b := by
  rw [mulVec_sparse]
  simp only [hList, List.map_cons, List.map_nil, List.sum_cons, List.sum_nil]
  simp only [HK38, HK39, HK4, HK40, HK41, HK49, HK5, HK50]
  try simp only [hs 1 0, hs 2 1, hs 3 1, hs 4 1, hs 5 1, hs 6 1]
  ring

theorem k_2 (P : Mat K) (s : Vec K) (R a b : K) (hs : ∀ i j, P i j = P j i) :
    (HK47 P s R a b) * (HK50 P s R a b) = Spec.mulVec P (sparse (hList P s R a b)) 2 / S P s R a b := by
  rw [mulVec_sparse]
  simp only [hList, List.map_cons, List.map_nil, List.sum_cons, List.sum_nil]
  simp only [HK38, HK39, HK4, HK40, HK41, HK47, HK5, HK50]
  try simp only [hs 2 0, hs 2 1, hs 3 2, hs 4 2, hs 5 2, hs 6 2]
  ring

theorem k_3 (P : Mat K) (s : Vec K) (R a b : K) (hs : ∀ i j, P i j = P j i) :
    (HK48 P s R a b) * (HK50 P s R a b) = Spec.mulVec P (sparse (hList P s R a b)) 3 / S P s R a b := by
  rw [mulVec_sparse]
  simp only [hList, List.map_cons, List.map_nil, List.sum_cons, List.sum_nil]
  simp only [HK38, HK39, HK4, HK40, HK41, HK48, HK5, HK50]
  try simp only [hs 3 0, hs 3 1, hs 3 2, hs 4 3, hs 5 3, hs 6 3]
  ring

theorem k_4 (P : Mat K) (s : Vec K) (R a b : K) (hs : ∀ i j, P i j = P j i) :
    (HK46 P s R a b) * (HK50 P s R a b) = Spec.mulVec P (sparse (hList P s R a b)) 4 / S P s R a b := by
  rw [mulVec_sparse]
  simp only [hList, List.map_cons, List.map_nil, List.sum_cons, List.sum_nil]
  simp only [HK38, HK39, HK4, HK40, HK41, HK46, HK5, HK50]
  try simp only [hs 4 0, hs 4 1, hs 4 2, hs 4 3, hs 5 4, hs 6 4]
  ring

theorem k_5 (P : Mat K) (s : Vec K) (R a b : K) (hs : ∀ i j, P i j = P j i) :
    (HK45 P s R a b) * (HK50 P s R a b) = Spec.mulVec P (sparse (hList P s R a b)) 5 / S P s R a b := by
  rw [mulVec_sparse]
  simp only [hList, List.map_cons, List.map_nil, List.sum_cons, List.sum_nil]
  simp only [HK38, HK39, HK4, HK40, HK41, HK45, HK5, HK50]
  try simp only [hs 5 0, hs 5 1, hs 5 2, hs 5 3, hs 5 4, hs 6 5]
  ring

theorem k_6 (P : Mat K) (s : Vec K) (R a b : K) (hs : ∀ i j, P i j = P j i) :
    (HK44 P s R a b) * (HK50 P s R a b) = Spec.mulVec P (sparse (hList P s R a b)) 6 / S P s R a b := by
  rw [mulVec_sparse]
  simp only [hList, List.map_cons, List.map_nil, List.sum_cons, List.sum_nil]
  simp only [HK38, HK39, HK4, HK40, HK41, HK44, HK5, HK50]
  try simp only [hs 6 0, hs 6 1, hs 6 2, hs 6 3, hs 6 4, hs 6 5]
  ring

theorem k_r7 (P : Mat K) (s : Vec K) (R a b : K) (hs : ∀ i j, P i j = P j i) (i : Fin N) :
    (HK50 P s R a b) * ((HK25 P s R a b) * (P 4 i) + (HK33 P s R a b) * (P 5 i) + (HK37 P s R a b) * (P 6 i) + (HK38 P s R a b) * (P 0 i) + (HK39 P s R a b) * (P 1 i) + (HK40 P s R a b) * (P 2 i) + (HK41 P s R a b) * (P 3 i)) = Spec.mulVec P (sparse (hList P s R a b)) i / S P s R a b := by
  rw [mulVec_sparse]
  simp only [hList, List.map_cons, List.map_nil, List.sum_cons, List.sum_nil]
  simp only [HK38, HK39, HK4, HK40, HK41, HK5, HK50]
  rw [hs 0 i, hs 1 i, hs 2 i, hs 3 i, hs 4 i, hs 5 i, hs 6 i]
  ring

theorem gain_eq (P : Mat K) (s : Vec K) (R a b : K) (hs : ∀ i j, P i j = P j i) (i : Fin N) :
    gain P s R a b i = if True then Spec.mulVec P (sparse (hList P s R a b)) i / Spec.innovVar P (sparse (hList P s R a b)) R else 0 := by
  rw [← S_eq P s R a b hs ]
  unfold gain

  by_cases c0 : i.val = 0
  · rw [if_pos c0]
    have e : i = 0 := Fin.ext (c0)
    subst e
    rw [if_pos (by first | trivial | exact Or.inr (by decide) | decide)]; exact k_0 P s R a b hs 
  rw [if_neg c0]
  by_cases c1 : i.val = 1
  · rw [if_pos c1]
    have e : i = 1 := Fin.ext (c1)
    subst e
    rw [if_pos (by first | trivial | exact Or.inr (by decide) | decide)]; exact k_1 P s R a b hs 
  rw [if_neg c1]
  by_cases c2 : i.val = 2
  · rw [if_pos c2]
    have e : i = 2 := Fin.ext (c2)
    subst e
    rw [if_pos (by first | trivial | exact Or.inr (by decide) | decide)]; exact k_2 P s R a b hs 
  rw [if_neg c2]
  by_cases c3 : i.val = 3
  · rw [if_pos c3]
    have e : i = 3 := Fin.ext (c3)
    subst e
    rw [if_pos (by first | trivial | exact Or.inr (by decide) | decide)]; exact k_3 P s R a b hs 
  rw [if_neg c3]
  by_cases c4 : i.val = 4
  · rw [if_pos c4]
    have e : i = 4 := Fin.ext (c4)
    subst e
    rw [if_pos (by first | trivial | exact Or.inr (by decide) | decide)]; exact k_4 P s R a b hs 
  rw [if_neg c4]
  by_cases c5 : i.val = 5
  · rw [if_pos c5]
    have e : i = 5 := Fin.ext (c5)
    subst e
    rw [if_pos (by first | trivial | exact Or.inr (by decide) | decide)]; exact k_5 P s R a b hs 
  rw [if_neg c5]
  by_cases c6 : i.val = 6
  · rw [if_pos c6]
    have e : i = 6 := Fin.ext (c6)
    subst e
    rw [if_pos (by first | trivial | exact Or.inr (by decide) | decide)]; exact k_6 P s R a b hs 
  rw [if_neg c6]
  by_cases c7 : 7 ≤ i.val ∧ i.val ≤ 23
  · rw [if_pos c7]
    rw [if_pos (by first | trivial | omega | (right; omega))]; exact k_r7 P s R a b hs i
  rw [if_neg c7]
  exact absurd i.isLt (by show ¬ i.val < 24; omega)

end

end Ecl.Fusion.FlowX
