import Verif.Fusion.Core

/-!
# Declination observation equations (generated by tools/gen_fusion.py)

One definition per assignment of the source; `s` is the state vector, `R` the observation variance.  Theorems: the innovation variance and
the gain are the Kalman expressions of the observation row.
-/

set_option linter.unusedSectionVars false
set_option linter.unusedSimpArgs false
set_option linter.unusedVariables false

namespace Ecl.Fusion.Decl

open Ecl.Cov

section
variable {K : Type*} [Field K] [CharZero K]

/-- EKF/mag_fusion.cpp:847 -/
def HK0 (P : Mat K) (s : Vec K) (R a b : K) : K := (1 / ((s 16)) ^ 2)

/-- EKF/mag_fusion.cpp:848 -/
def HK1 (P : Mat K) (s : Vec K) (R a b : K) : K := (HK0 P s R a b) * ((s 17)) ^ 2 + 1

/-- EKF/mag_fusion.cpp:849 -/
def HK2 (P : Mat K) (s : Vec K) (R a b : K) : K := 1 / (HK1 P s R a b)

/-- EKF/mag_fusion.cpp:850 -/
def HK3 (P : Mat K) (s : Vec K) (R a b : K) : K := 1 / (s 16)

/-- EKF/mag_fusion.cpp:851 -/
def HK4 (P : Mat K) (s : Vec K) (R a b : K) : K := (HK2 P s R a b) * (HK3 P s R a b)

/-- EKF/mag_fusion.cpp:852 -/
def HK5 (P : Mat K) (s : Vec K) (R a b : K) : K := (HK3 P s R a b) * (s 17)

/-- EKF/mag_fusion.cpp:853 -/
def HK6 (P : Mat K) (s : Vec K) (R a b : K) : K := (HK5 P s R a b) * (P 16 17) - (P 17 17)

/-- EKF/mag_fusion.cpp:854 -/
def HK7 (P : Mat K) (s : Vec K) (R a b : K) : K := (1 / ((HK1 P s R a b)) ^ 2)

/-- EKF/mag_fusion.cpp:855 -/
def HK8 (P : Mat K) (s : Vec K) (R a b : K) : K := (HK5 P s R a b) * (P 16 16) - (P 16 17)

/-- EKF/mag_fusion.cpp:856 -/
def S (P : Mat K) (s : Vec K) (R a b : K) : K := -(HK0 P s R a b) * (HK6 P s R a b) * (HK7 P s R a b) + (HK7 P s R a b) * (HK8 P s R a b) * (s 17) / ((s 16)) ^ 3 + R

/-- EKF/mag_fusion.cpp:859 -/
def HK9 (P : Mat K) (s : Vec K) (R a b : K) : K := (HK4 P s R a b) / (S P s R a b)

/-- observation row, EKF/mag_fusion.cpp:869-870 -/
def hList (P : Mat K) (s : Vec K) (R a b : K) : List (Fin N × K) :=
  [(16, -(HK0 P s R a b) * (HK2 P s R a b) * (s 17)),
   (17, (HK4 P s R a b))]

/-- Kalman gains, EKF/mag_fusion.cpp:875-882 -/
def gain (P : Mat K) (s : Vec K) (R a b : K) : Vec K := fun i =>
  if 0 ≤ i.val ∧ i.val ≤ 15 then -(HK9 P s R a b) * ((HK5 P s R a b) * (P i 16) - (P i 17)) else
  if i.val = 16 then -(HK8 P s R a b) * (HK9 P s R a b) else
  if i.val = 17 then -(HK6 P s R a b) * (HK9 P s R a b) else
  if 18 ≤ i.val ∧ i.val ≤ 23 then -(HK9 P s R a b) * ((HK5 P s R a b) * (P 16 i) - (P 17 i)) else
  0

theorem S_eq (P : Mat K) (s : Vec K) (R a b : K) (hs : ∀ i j, P i j = P j i) :
    S P s R a b = Spec.innovVar P (sparse (hList P s R a b)) R := by
  rw [innovVar_sparse]
  simp only [mulVec_sparse, hList, List.map_cons, List.map_nil, List.sum_cons, List.sum_nil]
  simp only [S, HK0, HK2, HK3, HK4, HK5, HK6, HK7, HK8]
  simp only [hs 17 16]
  ring

theorem k_r0 (P : Mat K) (s : Vec K) (R a b : K) (hs : ∀ i j, P i j = P j i) (i : Fin N) :
    -(HK9 P s R a b) * ((HK5 P s R a b) * (P i 16) - (P i 17)) = Spec.mulVec P (sparse (hList P s R a b)) i / S P s R a b := by
  rw [mulVec_sparse]
  simp only [hList, List.map_cons, List.map_nil, List.sum_cons, List.sum_nil]
  simp only [HK0, HK2, HK3, HK4, HK5, HK9]
  rw []
  ring

theorem k_16 (P : Mat K) (s : Vec K) (R a b : K) (hs : ∀ i j, P i j = P j i) :
    -(HK8 P s R a b) * (HK9 P s R a b) = Spec.mulVec P (sparse (hList P s R a b)) 16 / S P s R a b := by
  rw [mulVec_sparse]
  simp only [hList, List.map_cons, List.map_nil, List.sum_cons, List.sum_nil]
  simp only [HK0, HK2, HK3, HK4, HK5, HK8, HK9]
  try simp only [hs 17 16]
  ring

theorem k_17 (P : Mat K) (s : Vec K) (R a b : K) (hs : ∀ i j, P i j = P j i) :
    -(HK6 P s R a b) * (HK9 P s R a b) = Spec.mulVec P (sparse (hList P s R a b)) 17 / S P s R a b := by
  rw [mulVec_sparse]
  simp only [hList, List.map_cons, List.map_nil, List.sum_cons, List.sum_nil]
  simp only [HK0, HK2, HK3, HK4, HK5, HK6, HK9]
  try simp only [hs 17 16]
  ring

theorem k_r18 (P : Mat K) (s : Vec K) (R a b : K) (hs : ∀ i j, P i j = P j i) (i : Fin N) :
    -(HK9 P s R a b) * ((HK5 P s R a b) * (P 16 i) - (P 17 i)) = Spec.mulVec P (sparse (hList P s R a b)) i / S P s R a b := by
  rw [mulVec_sparse]
  simp only [hList, List.map_cons, List.map_nil, List.sum_cons, List.sum_nil]
  simp only [HK0, HK2, HK3, HK4, HK5, HK9]
  rw [hs 16 i, hs 17 i]
  ring

theorem gain_eq (P : Mat K) (s : Vec K) (R a b : K) (hs : ∀ i j, P i j = P j i) (i : Fin N) :
    gain P s R a b i = if True then Spec.mulVec P (sparse (hList P s R a b)) i / Spec.innovVar P (sparse (hList P s R a b)) R else 0 := by
  rw [← S_eq P s R a b hs ]
  unfold gain

  by_cases c0 : 0 ≤ i.val ∧ i.val ≤ 15
  · rw [if_pos c0]
    rw [if_pos (by first | trivial | omega | (right; omega))]; exact k_r0 P s R a b hs i
  rw [if_neg c0]
  by_cases c1 : i.val = 16
  · rw [if_pos c1]
    have e : i = 16 := Fin.ext (c1)
    subst e
    rw [if_pos (by first | trivial | exact Or.inr (by decide) | decide)]; exact k_16 P s R a b hs 
  rw [if_neg c1]
  by_cases c2 : i.val = 17
  · rw [if_pos c2]
    have e : i = 17 := Fin.ext (c2)
    subst e
    rw [if_pos (by first | trivial | exact Or.inr (by decide) | decide)]; exact k_17 P s R a b hs 
  rw [if_neg c2]
  by_cases c3 : 18 ≤ i.val ∧ i.val ≤ 23
  · rw [if_pos c3]
    rw [if_pos (by first | trivial | omega | (right; omega))]; exact k_r18 P s R a b hs i
  rw [if_neg c3]
  exact absurd i.isLt (by show ¬ i.val < 24; omega)

end

end Ecl.Fusion.Decl
