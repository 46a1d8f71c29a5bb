import Verif.Fusion.Core

/-!
# Airspeed observation equations (generated by tools/gen_fusion.py)

One definition per assignment of the source; `s` is the state vector, `R` the observation variance; `a` is `v_tas_pred`.  Theorems: the innovation variance and
the gain are the Kalman expressions of the observation row.
-/

set_option linter.unusedSectionVars false
set_option linter.unusedSimpArgs false
set_option linter.unusedVariables false

namespace Ecl.Fusion.Asp

open Ecl.Cov

section
variable {K : Type*} [Field K] [CharZero K]

/-- EKF/airspeed_fusion.cpp:64 -/
def HK0 (P : Mat K) (s : Vec K) (R a b : K) : K := (s 4) - (s 22)

/-- EKF/airspeed_fusion.cpp:65 -/
def HK1 (P : Mat K) (s : Vec K) (R a b : K) : K := (s 5) - (s 23)

/-- EKF/airspeed_fusion.cpp:66 -/
def HK2 (P : Mat K) (s : Vec K) (R a b : K) : K := ((HK0 P s R a b)) ^ 2 + ((HK1 P s R a b)) ^ 2 + ((s 6)) ^ 2

/-- EKF/airspeed_fusion.cpp:73 -/
def HK3 (P : Mat K) (s : Vec K) (R a b : K) : K := 1 / a

/-- EKF/airspeed_fusion.cpp:74 -/
def HK4 (P : Mat K) (s : Vec K) (R a b : K) : K := (HK0 P s R a b) * (HK3 P s R a b)

/-- EKF/airspeed_fusion.cpp:75 -/
def HK5 (P : Mat K) (s : Vec K) (R a b : K) : K := (HK1 P s R a b) * (HK3 P s R a b)

/-- EKF/airspeed_fusion.cpp:76 -/
def HK6 (P : Mat K) (s : Vec K) (R a b : K) : K := 1 / (HK2 P s R a b)

/-- EKF/airspeed_fusion.cpp:77 -/
def HK7 (P : Mat K) (s : Vec K) (R a b : K) : K := (HK0 P s R a b) * (P 4 6) - (HK0 P s R a b) * (P 6 22) + (HK1 P s R a b) * (P 5 6) - (HK1 P s R a b) * (P 6 23) + (P 6 6) * (s 6)

/-- EKF/airspeed_fusion.cpp:78 -/
def HK8 (P : Mat K) (s : Vec K) (R a b : K) : K := (HK1 P s R a b) * (P 5 23)

/-- EKF/airspeed_fusion.cpp:79 -/
def HK9 (P : Mat K) (s : Vec K) (R a b : K) : K := (HK0 P s R a b) * (P 4 5) - (HK0 P s R a b) * (P 5 22) + (HK1 P s R a b) * (P 5 5) - (HK8 P s R a b) + (P 5 6) * (s 6)

/-- EKF/airspeed_fusion.cpp:80 -/
def HK10 (P : Mat K) (s : Vec K) (R a b : K) : K := (HK1 P s R a b) * (HK6 P s R a b)

/-- EKF/airspeed_fusion.cpp:81 -/
def HK11 (P : Mat K) (s : Vec K) (R a b : K) : K := (HK0 P s R a b) * (P 4 22)

/-- EKF/airspeed_fusion.cpp:82 -/
def HK12 (P : Mat K) (s : Vec K) (R a b : K) : K := (HK0 P s R a b) * (P 4 4) - (HK1 P s R a b) * (P 4 23) + (HK1 P s R a b) * (P 4 5) - (HK11 P s R a b) + (P 4 6) * (s 6)

/-- EKF/airspeed_fusion.cpp:83 -/
def HK13 (P : Mat K) (s : Vec K) (R a b : K) : K := (HK0 P s R a b) * (HK6 P s R a b)

/-- EKF/airspeed_fusion.cpp:84 -/
def HK14 (P : Mat K) (s : Vec K) (R a b : K) : K := -(HK0 P s R a b) * (P 22 23) + (HK0 P s R a b) * (P 4 23) - (HK1 P s R a b) * (P 23 23) + (HK8 P s R a b) + (P 6 23) * (s 6)

/-- EKF/airspeed_fusion.cpp:85 -/
def HK15 (P : Mat K) (s : Vec K) (R a b : K) : K := -(HK0 P s R a b) * (P 22 22) - (HK1 P s R a b) * (P 22 23) + (HK1 P s R a b) * (P 5 22) + (HK11 P s R a b) + (P 6 22) * (s 6)

/-- EKF/airspeed_fusion.cpp:89 -/
def S (P : Mat K) (s : Vec K) (R a b : K) : K := (-(HK10 P s R a b) * (HK14 P s R a b) + (HK10 P s R a b) * (HK9 P s R a b) + (HK12 P s R a b) * (HK13 P s R a b) - (HK13 P s R a b) * (HK15 P s R a b) + (HK6 P s R a b) * (HK7 P s R a b) * (s 6) + R)

/-- EKF/airspeed_fusion.cpp:110 -/
def HK16 (P : Mat K) (s : Vec K) (R a b : K) : K := (HK3 P s R a b) / (S P s R a b)

/-- observation row, EKF/airspeed_fusion.cpp:115-119 -/
def hList (P : Mat K) (s : Vec K) (R a b : K) : List (Fin N × K) :=
  [(4, (HK4 P s R a b)),
   (5, (HK5 P s R a b)),
   (6, (HK3 P s R a b) * (s 6)),
   (22, -(HK4 P s R a b)),
   (23, -(HK5 P s R a b))]

/-- Kalman gains, EKF/airspeed_fusion.cpp:125-138; `all` is the condition of the first block -/
def gain (all : Bool) (P : Mat K) (s : Vec K) (R a b : K) : Vec K := fun i =>
  if all = true ∧ 0 ≤ i.val ∧ i.val ≤ 3 then (HK16 P s R a b) * ((HK0 P s R a b) * (P 4 i) - (HK0 P s R a b) * (P i 22) + (HK1 P s R a b) * (P 5 i) - (HK1 P s R a b) * (P i 23) + (P 6 i) * (s 6)) else
  if all = true ∧ i.val = 4 then (HK12 P s R a b) * (HK16 P s R a b) else
  if all = true ∧ i.val = 5 then (HK16 P s R a b) * (HK9 P s R a b) else
  if all = true ∧ i.val = 6 then (HK16 P s R a b) * (HK7 P s R a b) else
  if all = true ∧ 7 ≤ i.val ∧ i.val ≤ 21 then (HK16 P s R a b) * ((HK0 P s R a b) * (P 4 i) - (HK0 P s R a b) * (P i 22) + (HK1 P s R a b) * (P 5 i) - (HK1 P s R a b) * (P i 23) + (P 6 i) * (s 6)) else
  if i.val = 22 then (HK15 P s R a b) * (HK16 P s R a b) else
  if i.val = 23 then (HK14 P s R a b) * (HK16 P s R a b) else
  0

theorem S_eq (P : Mat K) (s : Vec K) (R a b : K) (hs : ∀ i j, P i j = P j i) (ha : a ^ 2 = HK2 P s R a b) :
    S P s R a b = Spec.innovVar P (sparse (hList P s R a b)) R := by
  rw [innovVar_sparse]
  simp only [mulVec_sparse, hList, List.map_cons, List.map_nil, List.sum_cons, List.sum_nil]
  simp only [S, HK10, HK11, HK12, HK13, HK14, HK15, HK3, HK4, HK5, HK6, HK7, HK8, HK9]
  simp only [hs 5 4, hs 6 4, hs 6 5, hs 22 4, hs 22 5, hs 22 6, hs 23 4, hs 23 5, hs 23 6, hs 23 22]
  simp only [← ha]
  ring

theorem k_r0 (P : Mat K) (s : Vec K) (R a b : K) (hs : ∀ i j, P i j = P j i) (ha : a ^ 2 = HK2 P s R a b) (i : Fin N) :
    (HK16 P s R a b) * ((HK0 P s R a b) * (P 4 i) - (HK0 P s R a b) * (P i 22) + (HK1 P s R a b) * (P 5 i) - (HK1 P s R a b) * (P i 23) + (P 6 i) * (s 6)) = Spec.mulVec P (sparse (hList P s R a b)) i / S P s R a b := by
  rw [mulVec_sparse]
  simp only [hList, List.map_cons, List.map_nil, List.sum_cons, List.sum_nil]
  simp only [HK16, HK3, HK4, HK5]
  rw [hs 4 i, hs 5 i, hs 6 i]
  ring

theorem k_4 (P : Mat K) (s : Vec K) (R a b : K) (hs : ∀ i j, P i j = P j i) (ha : a ^ 2 = HK2 P s R a b) :
    (HK12 P s R a b) * (HK16 P s R a b) = Spec.mulVec P (sparse (hList P s R a b)) 4 / S P s R a b := by
  rw [mulVec_sparse]
  simp only [hList, List.map_cons, List.map_nil, List.sum_cons, List.sum_nil]
  simp only [HK11, HK12, HK16, HK3, HK4, HK5]
  try simp only [hs 5 4, hs 6 4, hs 22 4, hs 23 4]
  ring

theorem k_5 (P : Mat K) (s : Vec K) (R a b : K) (hs : ∀ i j, P i j = P j i) (ha : a ^ 2 = HK2 P s R a b) :
    (HK16 P s R a b) * (HK9 P s R a b) = Spec.mulVec P (sparse (hList P s R a b)) 5 / S P s R a b := by
  rw [mulVec_sparse]
  simp only [hList, List.map_cons, List.map_nil, List.sum_cons, List.sum_nil]
  simp only [HK16, HK3, HK4, HK5, HK8, HK9]
  try simp only [hs 5 4, hs 6 5, hs 22 5, hs 23 5]
  ring

theorem k_6 (P : Mat K) (s : Vec K) (R a b : K) (hs : ∀ i j, P i j = P j i) (ha : a ^ 2 = HK2 P s R a b) :
    (HK16 P s R a b) * (HK7 P s R a b) = Spec.mulVec P (sparse (hList P s R a b)) 6 / S P s R a b := by
  rw [mulVec_sparse]
  simp only [hList, List.map_cons, List.map_nil, List.sum_cons, List.sum_nil]
  simp only [HK16, HK3, HK4, HK5, HK7]
  try simp only [hs 6 4, hs 6 5, hs 22 6, hs 23 6]
  ring

theorem k_r7 (P : Mat K) (s : Vec K) (R a b : K) (hs : ∀ i j, P i j = P j i) (ha : a ^ 2 = HK2 P s R a b) (i : Fin N) :
    (HK16 P s R a b) * ((HK0 P s R a b) * (P 4 i) - (HK0 P s R a b) * (P i 22) + (HK1 P s R a b) * (P 5 i) - (HK1 P s R a b) * (P i 23) + (P 6 i) * (s 6)) = Spec.mulVec P (sparse (hList P s R a b)) i / S P s R a b := by
  rw [mulVec_sparse]
  simp only [hList, List.map_cons, List.map_nil, List.sum_cons, List.sum_nil]
  simp only [HK16, HK3, HK4, HK5]
  rw [hs 4 i, hs 5 i, hs 6 i]
  ring

theorem k_22 (P : Mat K) (s : Vec K) (R a b : K) (hs : ∀ i j, P i j = P j i) (ha : a ^ 2 = HK2 P s R a b) :
    (HK15 P s R a b) * (HK16 P s R a b) = Spec.mulVec P (sparse (hList P s R a b)) 22 / S P s R a b := by
  rw [mulVec_sparse]
  simp only [hList, List.map_cons, List.map_nil, List.sum_cons, List.sum_nil]
  simp only [HK11, HK15, HK16, HK3, HK4, HK5]
  try simp only [hs 22 4, hs 22 5, hs 22 6, hs 23 22]
  ring

theorem k_23 (P : Mat K) (s : Vec K) (R a b : K) (hs : ∀ i j, P i j = P j i) (ha : a ^ 2 = HK2 P s R a b) :
    (HK14 P s R a b) * (HK16 P s R a b) = Spec.mulVec P (sparse (hList P s R a b)) 23 / S P s R a b := by
  rw [mulVec_sparse]
  simp only [hList, List.map_cons, List.map_nil, List.sum_cons, List.sum_nil]
  simp only [HK14, HK16, HK3, HK4, HK5, HK8]
  try simp only [hs 23 4, hs 23 5, hs 23 6, hs 23 22]
  ring

theorem gain_eq (all : Bool) (P : Mat K) (s : Vec K) (R a b : K) (hs : ∀ i j, P i j = P j i) (ha : a ^ 2 = HK2 P s R a b) (i : Fin N) :
    gain all P s R a b i = if (all = true ∨ 22 ≤ i.val) then Spec.mulVec P (sparse (hList P s R a b)) i / Spec.innovVar P (sparse (hList P s R a b)) R else 0 := by
  rw [← S_eq P s R a b hs ha ]
  unfold gain

  by_cases c0 : all = true ∧ 0 ≤ i.val ∧ i.val ≤ 3
  · rw [if_pos c0]
    rw [if_pos (by first | trivial | exact Or.inl c0.1 | omega)]; exact k_r0 P s R a b hs ha i
  rw [if_neg c0]
  by_cases c1 : all = true ∧ i.val = 4
  · rw [if_pos c1]
    have e : i = 4 := Fin.ext (c1.2)
    subst e
    rw [if_pos (by first | trivial | exact Or.inl c1.1 | decide)]; exact k_4 P s R a b hs ha 
  rw [if_neg c1]
  by_cases c2 : all = true ∧ i.val = 5
  · rw [if_pos c2]
    have e : i = 5 := Fin.ext (c2.2)
    subst e
    rw [if_pos (by first | trivial | exact Or.inl c2.1 | decide)]; exact k_5 P s R a b hs ha 
  rw [if_neg c2]
  by_cases c3 : all = true ∧ i.val = 6
  · rw [if_pos c3]
    have e : i = 6 := Fin.ext (c3.2)
    subst e
    rw [if_pos (by first | trivial | exact Or.inl c3.1 | decide)]; exact k_6 P s R a b hs ha 
  rw [if_neg c3]
  by_cases c4 : all = true ∧ 7 ≤ i.val ∧ i.val ≤ 21
  · rw [if_pos c4]
    rw [if_pos (by first | trivial | exact Or.inl c4.1 | omega)]; exact k_r7 P s R a b hs ha i
  rw [if_neg c4]
  by_cases c5 : i.val = 22
  · rw [if_pos c5]
    have e : i = 22 := Fin.ext (c5)
    subst e
    rw [if_pos (by first | trivial | exact Or.inr (by decide) | decide)]; exact k_22 P s R a b hs ha 
  rw [if_neg c5]
  by_cases c6 : i.val = 23
  · rw [if_pos c6]
    have e : i = 23 := Fin.ext (c6)
    subst e
    rw [if_pos (by first | trivial | exact Or.inr (by decide) | decide)]; exact k_23 P s R a b hs ha 
  rw [if_neg c6]
  rw [if_neg]
  intro hsel
  have hi : i.val < 24 := i.isLt
  first | omega | (rcases hsel with h | h <;> first | omega | (simp only [h, true_and] at *; omega))

end

end Ecl.Fusion.Asp
